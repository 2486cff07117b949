import Verif.Model.Print
import Verif.Model.Time
import Verif.Model.Classes
/-!
# Model of the summary that people read (`OWPStatsPrintSummary`, `owamp/stats.c`)

The summary of a one-way session as text. Not modelled: failing conversions and writes ("XXX"), two-way sessions, the warning about clocks (which
only two-way sessions can give).
-/
namespace Owamp.Print
open Owamp.Policy Owamp.Stats

/-- What comes from outside: `strftime`'s text of a time in seconds; the milliseconds that `%03.0f` makes of a number of nanoseconds divided by a million
as `float`s; the texts that `%.3g` makes of delays, buckets, differences of buckets and errors, scaled; the text that `%.3f` makes of 100 times a
quotient, and the one that `%f` makes; the text of the unit; the product of floating point numbers that percentiles take. -/
structure Style where
  date : Int → Bytes
  ms : Int → Nat
  delay : Int → Bytes
  bucket : Int → Bytes
  spread : Int → Int → Bytes
  err : Nat → Bytes
  percent : Nat → Nat → Bytes
  share : Nat → Nat → Bytes
  unit : Bytes
  mul : Rat → Nat → Rat

/-- A "first" or "last" line (stats.c:2140-2185). -/
def timeLine (Z : Style) (name : Bytes) (t : Nat) : Bytes :=
  let tv := Time.timestampToTimespec ⟨BitVec.ofNat 64 t, false, 0, 0⟩
  name ++ 9#8 :: Z.date tv.sec ++ 46#8 :: padded 3 (Z.ms tv.sub)

/-- The line with the counts (stats.c:2187-2205). -/
def countLine (Z : Style) (s : St) : Bytes :=
  digits s.sent ++ text [' ','s','e','n','t',',',' '] ++ digits s.lost ++ text [' ','l','o','s','t',' ','('] ++
    (if s.sent > 0 then Z.percent s.lost s.sent else Z.percent 0 1) ++ text ['%',')',',',' '] ++ digits s.dups ++ text [' ','d','u','p','l','i','c','a','t','e','s']

/-- "nan" for no value. -/
def orNan (v : Option Bytes) : Bytes := v.getD (text ['n','a','n'])

/-- `PrintDelayStats` (stats.c:1889-1981) for `OWP_DELAY`. -/
def delayLine (Z : Style) (c : Cfg) (s : St) : Bytes :=
  text ['o','n','e','-','w','a','y',' ','d','e','l','a','y',' ','m','i','n','/','m','e','d','i','a','n','/','m','a','x',' ','=',' '] ++
    orNan (if s.min ≥ c.inf then none else some (Z.delay s.min)) ++ text ['/'] ++ orNan ((percentile Z.mul s (1 / 2)).map Z.bucket) ++ text ['/'] ++
    orNan (if s.max ≤ -c.inf then none else some (Z.delay s.max)) ++ text [' '] ++ Z.unit ++ text [',',' '] ++
    (if s.sync then text ['(','e','r','r','='] ++ Z.err s.maxerr ++ text [' '] ++ Z.unit ++ text [')'] else text ['(','u','n','s','y','n','c',')'])

/-- `PrintJitterStats` (stats.c:2001-2037) for `OWP_DELAY`, with `CalculateJitter` (stats.c:1982-1999). -/
def jitterLine (Z : Style) (s : St) : Bytes :=
  text ['o','n','e','-','w','a','y',' ','j','i','t','t','e','r',' ','=',' '] ++
    orNan (match percentile Z.mul s (95 / 100), percentile Z.mul s (1 / 2) with
      | some a, some b => some (Z.spread a b)
      | _, _ => none) ++ text [' '] ++ Z.unit ++ text [' ','(','P','9','5','-','P','5','0',')']

/-- The percentiles asked for (stats.c:2222-2240), each with its text. -/
def percentileLines (Z : Style) (s : St) (ps : List (Rat × Bytes)) : List Bytes :=
  if ps = [] then []
  else text ['P','e','r','c','e','n','t','i','l','e','s',':'] :: ps.map fun p =>
    9#8 :: p.2 ++ text [':',' '] ++ orNan ((percentile Z.mul s (p.1 / 100)).map Z.bucket) ++ text [' '] ++ Z.unit

/-- `PrintTtlStats` (stats.c:2066-2099) for a one-way session. -/
def ttlLine (s : St) : Bytes :=
  let (num, lo, hi) := ttlStats s
  if num < 1 then text ['T','T','L',' ','n','o','t',' ','r','e','p','o','r','t','e','d']
  else if num = 1 then text ['h','o','p','s',' ','=',' '] ++ digits (255 - lo) ++ text [' ','(','c','o','n','s','i','s','t','e','n','t','l','y',')']
  else text ['h','o','p','s',' ','t','a','k','e','s',' '] ++ digits num ++ text [' ','v','a','l','u','e','s',';',' ','m','i','n',' ','h','o','p','s',' ','=',' '] ++
    digits (255 - hi) ++ text [',',' ','m','a','x',' ','h','o','p','s',' ','=',' '] ++ digits (255 - lo)

/-- The loop over the reordering counts (stats.c:2256-2259) from the `j`-th on, and where it ends. -/
def shareLines (Z : Style) (num : Nat) : List Nat → Nat → List Bytes × Nat
  | [], j => ([], j)
  | n :: h, j =>
    if n = 0 then ([], j)
    else ((digits (j + 1) ++ text ['-','r','e','o','r','d','e','r','i','n','g',' ','=',' '] ++ Z.share n num ++ text ['%']) :: (shareLines Z num h (j + 1)).1,
      (shareLines Z num h (j + 1)).2)

/-- The lines about reordering (stats.c:2249-2270). -/
def orderLines (Z : Style) (s : St) : List Bytes :=
  let (l, j) := shareLines Z s.rnum s.rn 0
  l ++ [if j = 0 then text ['n','o',' ','r','e','o','r','d','e','r','i','n','g']
    else if j < s.rn.length then text ['n','o',' '] ++ digits (j + 1) ++ text ['-','r','e','o','r','d','e','r','i','n','g']
    else digits (s.rn.length + 1) ++ text ['-','r','e','o','r','d','e','r','i','n','g',' ','n','o','t',' ','h','a','n','d','l','e','d']]

/-- The lines of the summary (`OWPStatsPrintSummary`, stats.c:2104-2275) with `PrintStatsHeader` (stats.c:1556-1574). -/
def summaryLines (Z : Style) (c : Cfg) (i : Info) (s : St) (ps : List (Rat × Bytes)) : List Bytes :=
  [[], text ['-','-','-',' ','o','w','p','i','n','g',' ','s','t','a','t','i','s','t','i','c','s',' ','f','r','o','m',' ','['] ++ i.fromHost ++ text [']',':'] ++ i.fromPort ++
      text [' ','t','o',' ','['] ++ i.toHost ++ text [']',':'] ++ i.toPort ++ text [' ','-','-','-'],
    text ['S','I','D',':'] ++ 9#8 :: i.sid,
    timeLine Z (text ['f','i','r','s','t',':']) s.startTime, timeLine Z (text ['l','a','s','t',':']) s.endTime, countLine Z s, delayLine Z c s, jitterLine Z s] ++
  percentileLines Z s ps ++ [ttlLine s] ++ orderLines Z s ++ [[]]

/-- What `OWPStatsPrintSummary` (stats.c:2104-2275) writes. -/
def summary (Z : Style) (c : Cfg) (i : Info) (s : St) (ps : List (Rat × Bytes)) : Bytes := (summaryLines Z c i s ps).flatMap (· ++ [10#8])

/-- `OWPStatsScaleFactor` (stats.c:1849-1887) as `OWPStatsCreate` calls it (stats.c:741-746): how many of the unit make a second, and the unit's name; the room for the name starts
zeroed, and the case for seconds writes nothing to it. -/
def scaleFactor (scale : Byte) : Option (Nat × Bytes) :=
  if lower scale = 110#8 then some (1000000000, text ['n','s'])
  else if lower scale = 117#8 then some (1000000, text ['u','s'])
  else if lower scale = 109#8 then some (1000, text ['m','s'])
  else if lower scale = 115#8 then some (1, [])
  else none

end Owamp.Print
