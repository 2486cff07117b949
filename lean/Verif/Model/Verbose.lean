import Verif.Model.Print
import Verif.Model.TwStats
/-!
# Model of the lines about single packets (`-v`, `owamp/stats.c`)

`IterateSummarizeSession` and `IterateSummarizeTWSession` once more, with what they print to `stats->output`. The texts of floating point
numbers are given from outside. Not modelled: failing writes.
-/
namespace Owamp.Verbose
open Owamp.Codec Owamp.Policy Owamp.Print

/-- `%-10u` of `fprintf`. -/
def left10 (n : Nat) : Bytes := digits n ++ List.replicate (10 - (digits n).length) 32#8

/-- `%d` of `fprintf` for a `uint32_t`. -/
def asInt (n : U32) : Bytes := signed n.toInt

/-- The texts that `fprintf` makes: of a delay with `%.3g` and with `%e`, of an error with `%.3g`, of the UNIX time of a time stamp with `%f`, and
`stats->scale_abrv`. -/
structure Fmt where
  delay : Int → Bytes
  exact : Int → Bytes
  err : Nat → Bytes
  unix : Nat → Bytes
  unit : Bytes

/-- Text. -/
abbrev t := text

/-- The line of a lost packet (stats.c:1122, 1367). -/
def lostLine (seq : U32) : Bytes := t ['s','e','q','_','n','o','='] ++ left10 seq.toNat ++ t [' ','*','L','O','S','T','*'] ++ [10#8]

/-- The line of an arrival (stats.c:1179-1206), with its delay. -/
def gotLine (F : Fmt) (unix : Bool) (r : DataRec) (d : Int) : Bytes :=
  if r.send.sync && r.recv.sync then
    if unix then
      t ['s','e','q','_','n','o','='] ++ asInt r.seq ++ t [' ','d','e','l','a','y','='] ++ F.exact d ++ t [' '] ++ F.unit ++
        t [' ','(','s','y','n','c',',',' ','e','r','r','='] ++ F.err (Stats.stampError r.send + Stats.stampError r.recv) ++ t [' '] ++ F.unit ++
        t [')',' ','s','e','n','t','='] ++ F.unix r.send.owptime.toNat ++ t [' ','r','e','c','v','='] ++ F.unix r.recv.owptime.toNat ++ [10#8]
    else
      t ['s','e','q','_','n','o','='] ++ left10 r.seq.toNat ++ t [' ','d','e','l','a','y','='] ++ F.delay d ++ t [' '] ++ F.unit ++
        [9#8] ++ t ['(','s','y','n','c',',',' ','e','r','r','='] ++ F.err (Stats.stampError r.send + Stats.stampError r.recv) ++ t [' '] ++ F.unit ++
        t [')'] ++ [10#8]
  else
    t ['s','e','q','_','n','o','='] ++ left10 r.seq.toNat ++ t [' ','d','e','l','a','y','='] ++ F.delay d ++ t [' '] ++ F.unit ++
      [9#8] ++ t ['(','u','n','s','y','n','c',')'] ++ [10#8]

/-- `IterateSummarizeSession` (stats.c:1005-1235) with its output. -/
def process (F : Fmt) (unix : Bool) (c : Stats.Cfg) (s : Stats.St) (r : DataRec) : Except Stats.Bad Stats.St × Bytes :=
  let seq := r.seq.toNat
  let s := { s with nextOset := if s.nextOset = 0 ∧ seq ≥ s.last then s.beginOset + s.i * c.recSize else s.nextOset
                    i := s.i + 1 }
  if seq < s.first ∨ seq ≥ s.last then (.ok s, [])
  else
    match Stats.flushWhile c (if Stats.isLost r then fun n => decide (n.seq < seq) else Stats.expired c r) (s.last + 2) s with
    | .error x => (.error x, [])
    | .ok s =>
      match Stats.packetGet c seq s with
      | .error x => (.error x, [])
      | .ok (n, s) =>
        if Stats.skipped c.skips s.iskip seq then (.ok s, [])
        else if Stats.isLost r then (Stats.addLost r n s, if n.seen ≠ 0 then [] else lostLine r.seq)
        else (Stats.addGot c r n s, if n.lost then [] else gotLine F unix r (c.delay r.send r.recv))

/-- The callback as `OWPParseRecords` sees it, with all that was printed. -/
def callback (F : Fmt) (unix : Bool) (c : Stats.Cfg) (s : Except Stats.Bad Stats.St × Bytes) (r : DataRec) : Int × Except Stats.Bad Stats.St × Bytes :=
  match s.1 with
  | .error x => (-1, .error x, s.2)
  | .ok s' =>
    match (process F unix c s' r).1 with
    | .ok s'' => (0, .ok s'', s.2 ++ (process F unix c s' r).2)
    | .error x => (-1, .error x, s.2 ++ (process F unix c s' r).2)

/-- `OWPStatsParse` (stats.c:1618-1840) with its output; `iter` calls the callback on the records of the file. -/
def parse (F : Fmt) (unix : Bool) (c : Stats.Cfg)
    (iter : (Except Stats.Bad Stats.St × Bytes → DataRec → Int × Except Stats.Bad Stats.St × Bytes) → Except Stats.Bad Stats.St × Bytes →
      File.Parsed × Except Stats.Bad Stats.St × Bytes)
    (s : Stats.St) (oset first last : Nat) : Except Stats.Bad Stats.St × Bytes :=
  match Stats.begin c s oset first last with
  | .error x => (.error x, [])
  | .ok s =>
    match iter (callback F unix c) (.ok s, []) with
    | (.ok, .ok s, out) => ((Stats.flushAll c (s.last + 2) s).map Stats.flushBack, out)
    | (_, .error x, out) => (.error x, out)
    | (_, .ok _, out) => (.error .refused, out)

/-- A delay with its name and unit. -/
def part (name : List Char) (v unit : Bytes) : Bytes := t name ++ v ++ t [' '] ++ unit

/-- The line of a reply (stats.c:1493-1525). -/
def replyLine (F : Fmt) (unix : Bool) (r : TWDataRec) (d : List Int) (e : Nat) : Bytes :=
  if unix then
    t ['s','e','q','_','n','o','='] ++ asInt r.sent.seq ++
      part [' ','f','w','d','_','d','e','l','a','y','='] (F.exact (d.getD 1 0)) F.unit ++
      part [' ','b','c','k','_','d','e','l','a','y','='] (F.exact (d.getD 2 0)) F.unit ++
      part [' ','d','e','l','a','y','='] (F.exact (d.getD 0 0)) F.unit ++
      part [' ','p','r','o','c','_','d','e','l','a','y','='] (F.exact (d.getD 3 0)) F.unit ++
      part [' ','(','e','r','r','='] (F.err e) F.unit ++
      t [')',' ','s','e','n','t','='] ++ F.unix r.sent.send.owptime.toNat ++ t [' ','r','e','c','v','='] ++ F.unix r.sent.recv.owptime.toNat ++
      t [' ','r','e','f','l','e','c','t','e','d','='] ++ F.unix r.reflected.send.owptime.toNat ++
      t [' ','r','e','c','v','='] ++ F.unix r.reflected.recv.owptime.toNat ++ [10#8]
  else
    t ['s','e','q','_','n','o','='] ++ left10 r.sent.seq.toNat ++
      part [' ','f','w','d','_','d','e','l','a','y','='] (F.delay (d.getD 1 0)) F.unit ++
      part [' ','b','c','k','_','d','e','l','a','y','='] (F.delay (d.getD 2 0)) F.unit ++
      part [' ','d','e','l','a','y','='] (F.delay (d.getD 0 0)) F.unit ++
      part [' ','p','r','o','c','_','d','e','l','a','y','='] (F.delay (d.getD 3 0)) F.unit ++
      [9#8] ++ part ['(','e','r','r','='] (F.err e) F.unit ++ t [')'] ++ [10#8]

/-- What `IterateSummarizeTWSession` prints for a record in the range when it does not fail: it prints as the last thing that matters
before the figures (stats.c:1366-1368, 1493-1525). -/
def twLine (F : Fmt) (unix : Bool) (c : TwStats.Cfg) (r : TWDataRec) : Bytes :=
  if TwStats.isLost r then lostLine r.sent.seq
  else replyLine F unix r (TwStats.delays c r) ((TwStats.errors r).getD 0 0)

/-- `IterateSummarizeTWSession` (stats.c:1238-1554) with its output. -/
def processTW (F : Fmt) (unix : Bool) (c : TwStats.Cfg) (s : TwStats.St) (r : TWDataRec) : Except Stats.Bad TwStats.St × Bytes :=
  match TwStats.process c s r with
  | .error x => (.error x, [])
  | .ok s' => (.ok s', if r.sent.seq.toNat < s.first ∨ r.sent.seq.toNat ≥ s.last then [] else twLine F unix c r)

/-- The callback over the records of the file, in order, up to the first error, with all that was printed. -/
def processAllTW (F : Fmt) (unix : Bool) (c : TwStats.Cfg) : TwStats.St → List TWDataRec → Except Stats.Bad TwStats.St × Bytes
  | s, [] => (.ok s, [])
  | s, r :: rs =>
    match (processTW F unix c s r).1 with
    | .error x => (.error x, (processTW F unix c s r).2)
    | .ok s' => ((processAllTW F unix c s' rs).1, (processTW F unix c s r).2 ++ (processAllTW F unix c s' rs).2)

/-- `OWPStatsParse` for a two-way session with its output. -/
def parseTW (F : Fmt) (unix : Bool) (c : TwStats.Cfg) (rs : List TWDataRec) (oset first last : Nat) : Except Stats.Bad TwStats.St × Bytes :=
  match TwStats.start c oset first last with
  | .error x => (.error x, [])
  | .ok s =>
    match (processAllTW F unix c s rs).1 with
    | .error x => (.error x, (processAllTW F unix c s rs).2)
    | .ok s' =>
      match TwStats.flushAll (TwStats.flushF c) (s'.last + 2) s' with
      | .error x => (.error x, (processAllTW F unix c s rs).2)
      | .ok s'' => (TwStats.flushAll (TwStats.flushB c) (s''.bck.nodes.length + s''.last + 2) s'', (processAllTW F unix c s rs).2)

end Owamp.Verbose
