import Verif.Model.PrintSummary
import Verif.Model.PrintTw
/-!
# Model of the summary that people read, for two-way sessions (`OWPStatsPrintSummary`, `owamp/stats.c`)

As in `PrintSummary`, floating point numbers are given from outside with their text. Not modelled: failing conversions and writes ("XXX").
-/
namespace Owamp.PrintTw
open Owamp.Policy Owamp.TwStats
open Owamp.Print (Style Info digits timeLine orNan)

/-- The warning (stats.c:2128-2130): its text begins with a newline. -/
def warnLines (s : St) : List Bytes :=
  if s.offset then [[], text ['D','i','r','e','c','t','i','o','n','a','l',' ','d','e','l','a','y','s',' ','m','a','y',' ','b','e',' ','i','n','a','c','c','u','r','a','t','e',' ',
    'd','u','e',' ','t','o',' ','o','u','t',' ','o','f',' ','s','y','n','c',' ','c','l','o','c','k','s','!']]
  else []

/-- The line with the counts (stats.c:2187-2205). -/
def countLine (Z : Style) (s : St) : Bytes :=
  digits s.sent ++ text [' ','s','e','n','t',',',' '] ++ digits s.lost ++ text [' ','l','o','s','t',' ','('] ++
    (if s.sent > 0 then Z.percent s.lost s.sent else Z.percent 0 1) ++ text ['%',')',',',' '] ++ digits s.dupsF ++
    text [' ','s','e','n','d',' ','d','u','p','l','i','c','a','t','e','s',',',' '] ++ digits s.dupsB ++
    text [' ','r','e','f','l','e','c','t',' ','d','u','p','l','i','c','a','t','e','s']

/-- The least of the `j`-th delay, in `PrintDelayStats` (stats.c:1911-1920). -/
def minText (Z : Style) (c : Cfg) (s : St) (j : Nat) : Bytes := orNan (if s.min.getD j 0 ≥ c.inf then none else some (Z.delay (s.min.getD j 0)))

/-- The greatest (stats.c:1921-1929). -/
def maxText (Z : Style) (c : Cfg) (s : St) (j : Nat) : Bytes := orNan (if s.max.getD j 0 ≤ -c.inf then none else some (Z.delay (s.max.getD j 0)))

/-- `PrintDelayStats` (stats.c:1889-1981) for the `j`-th delay, with the histogram `h`: round trip, out and back. -/
def delayLine (Z : Style) (c : Cfg) (s : St) (name : Bytes) (j : Nat) (h : List (Int × Nat)) : Bytes :=
  name ++ text [' ','m','i','n','/','m','e','d','i','a','n','/','m','a','x',' ','=',' '] ++
    minText Z c s j ++ text ['/'] ++ orNan ((percentile Z.mul s h (1 / 2)).map Z.bucket) ++ text ['/'] ++ maxText Z c s j ++ text [' '] ++ Z.unit ++ text [',',' '] ++
    (if s.sync then text ['(','e','r','r','='] ++ Z.err (s.maxerr.getD j 0) ++ text [' '] ++ Z.unit ++ text [')'] else text ['(','u','n','s','y','n','c',')'])

/-- `PrintDelayStats` (stats.c:1975-1979) for the time at the reflector. -/
def processingLine (Z : Style) (c : Cfg) (s : St) : Bytes :=
  text ['r','e','f','l','e','c','t','o','r',' ','p','r','o','c','e','s','s','i','n','g',' ','t','i','m','e',' ','m','i','n','/','m','a','x',' ','=',' '] ++
    minText Z c s 3 ++ text ['/'] ++ maxText Z c s 3 ++ text [' '] ++ Z.unit

/-- `PrintJitterStats` (stats.c:2001-2037), with `CalculateJitter` (stats.c:1982-1999). -/
def jitterLine (Z : Style) (s : St) (name : Bytes) (h : List (Int × Nat)) : Bytes :=
  name ++ text [' ','j','i','t','t','e','r',' ','=',' '] ++
    orNan (match percentile Z.mul s h (95 / 100), percentile Z.mul s h (1 / 2) with
      | some a, some b => some (Z.spread a b)
      | _, _ => none) ++ text [' '] ++ Z.unit ++ text [' ','(','P','9','5','-','P','5','0',')']

/-- The percentiles asked for (stats.c:2222-2240), of the round trip. -/
def percentileLines (Z : Style) (s : St) (ps : List (Rat × Bytes)) : List Bytes :=
  if ps = [] then []
  else text ['P','e','r','c','e','n','t','i','l','e','s',':'] :: ps.map fun p =>
    9#8 :: p.2 ++ text [':',' '] ++ orNan ((percentile Z.mul s s.hist (p.1 / 100)).map Z.bucket) ++ text [' '] ++ Z.unit

/-- `PrintTtlStats` (stats.c:2066-2099) for one way with the TTL counts `h`. -/
def ttlLine (name : Bytes) (h : List Nat) : Bytes :=
  let (num, lo, hi) := ttlStats h
  if num < 1 then name ++ text ['T','T','L',' ','n','o','t',' ','r','e','p','o','r','t','e','d']
  else if num = 1 then name ++ text ['h','o','p','s',' ','=',' '] ++ digits (255 - lo) ++ text [' ','(','c','o','n','s','i','s','t','e','n','t','l','y',')']
  else name ++ text ['h','o','p','s',' ','t','a','k','e','s',' '] ++ digits num ++ text [' ','v','a','l','u','e','s',';',' ','m','i','n',' ','h','o','p','s',' ','=',' '] ++
    digits (255 - hi) ++ text [',',' ','m','a','x',' ','h','o','p','s',' ','=',' '] ++ digits (255 - lo)

/-- The lines after the warning (`OWPStatsPrintSummary`, stats.c:2132-2275) with `PrintStatsHeader` (stats.c:1556-1574). -/
def summaryBody (Z : Style) (c : Cfg) (i : Info) (s : St) (ps : List (Rat × Bytes)) : List Bytes :=
  [[], text ['-','-','-',' ','t','w','p','i','n','g',' ','s','t','a','t','i','s','t','i','c','s',' ','f','r','o','m',' ','['] ++ i.fromHost ++ text [']',':'] ++ i.fromPort ++
      text [' ','t','o',' ','['] ++ i.toHost ++ text [']',':'] ++ i.toPort ++ text [' ','-','-','-'],
    text ['S','I','D',':'] ++ 9#8 :: i.sid,
    timeLine Z (text ['f','i','r','s','t',':']) s.startTime, timeLine Z (text ['l','a','s','t',':']) s.endTime, countLine Z s,
    delayLine Z c s (text ['r','o','u','n','d','-','t','r','i','p',' ','t','i','m','e']) 0 s.hist,
    delayLine Z c s (text ['s','e','n','d',' ','t','i','m','e']) 1 s.histF,
    delayLine Z c s (text ['r','e','f','l','e','c','t',' ','t','i','m','e']) 2 s.histB,
    processingLine Z c s,
    jitterLine Z s (text ['t','w','o','-','w','a','y']) s.hist, jitterLine Z s (text ['s','e','n','d']) s.histF,
    jitterLine Z s (text ['r','e','f','l','e','c','t']) s.histB] ++
  percentileLines Z s ps ++ [ttlLine (text ['s','e','n','d',' ']) s.ttlF, ttlLine (text ['r','e','f','l','e','c','t',' ']) s.ttlB, []]

/-- What `OWPStatsPrintSummary` (stats.c:2104-2275) writes. -/
def summary (Z : Style) (c : Cfg) (i : Info) (s : St) (ps : List (Rat × Bytes)) : Bytes := (warnLines s ++ summaryBody Z c i s ps).flatMap (· ++ [10#8])

end Owamp.PrintTw
