import Verif.Model.Print
import Verif.Model.TwStats
/-!
# Model of the report that programs read, for two-way sessions (`OWPStatsPrintMachine`, `owamp/stats.c`)

As in `Print`, floating point numbers are given from outside with their text. The order of the rows for buckets is that of `I2HashIterate`, which is not
modelled: here it is that of `buckets`. Not modelled: failing writes.
-/
namespace Owamp.PrintTw
open Owamp.Policy Owamp.TwStats
open Owamp.Print (Fmt Info Key digits padded signed hexByte line)

/-- The names of the single values (stats.c:2423-2520, 2294-2346): those that one-way sessions have too, and with the endings `_FWD`, `_BCK` and `_PROC` of
`MachineDelayTypeDesc` (stats.c:2276-2293) and `PrintMinMaxTtlMachine` (stats.c:2320-2347). -/
inductive Name where
  | plain (k : Key)
  | maxerrF | maxerrB | dupsF | dupsB | minF | minB | minP | medianF | medianB | maxF | maxB | maxP | pdvF | pdvB
  | minTtlF | maxTtlF | minTtlB | maxTtlB
deriving DecidableEq

/-- Their text. -/
def Name.text : Name → Bytes
  | .plain k => k.name
  | .maxerrF => Policy.text ['M','A','X','E','R','R','_','F','W','D']
  | .maxerrB => Policy.text ['M','A','X','E','R','R','_','B','C','K']
  | .dupsF => Policy.text ['D','U','P','S','_','F','W','D']
  | .dupsB => Policy.text ['D','U','P','S','_','B','C','K']
  | .minF => Policy.text ['M','I','N','_','F','W','D']
  | .minB => Policy.text ['M','I','N','_','B','C','K']
  | .minP => Policy.text ['M','I','N','_','P','R','O','C']
  | .medianF => Policy.text ['M','E','D','I','A','N','_','F','W','D']
  | .medianB => Policy.text ['M','E','D','I','A','N','_','B','C','K']
  | .maxF => Policy.text ['M','A','X','_','F','W','D']
  | .maxB => Policy.text ['M','A','X','_','B','C','K']
  | .maxP => Policy.text ['M','A','X','_','P','R','O','C']
  | .pdvF => Policy.text ['P','D','V','_','F','W','D']
  | .pdvB => Policy.text ['P','D','V','_','B','C','K']
  | .minTtlF => Policy.text ['M','I','N','T','T','L','_','F','W','D']
  | .maxTtlF => Policy.text ['M','A','X','T','T','L','_','F','W','D']
  | .minTtlB => Policy.text ['M','I','N','T','T','L','_','B','C','K']
  | .maxTtlB => Policy.text ['M','A','X','T','T','L','_','B','C','K']

/-- A line that is printed only if there is a value. -/
def opt (k : Name) : Option Bytes → List (Name × Bytes)
  | none => []
  | some v => [(k, v)]

/-- `PrintMinDelayMachine` (stats.c:2294-2305): the value of the `j`-th of the delays (round trip, out, back, processing). -/
def minValue (F : Fmt) (c : Cfg) (s : St) (j : Nat) : Option Bytes :=
  if s.min.getD j 0 < c.inf then some (F.delay (s.min.getD j 0)) else none

/-- `PrintMaxDelayMachine` (stats.c:2307-2318). -/
def maxValue (F : Fmt) (c : Cfg) (s : St) (j : Nat) : Option Bytes :=
  if s.max.getD j 0 > -c.inf then some (F.delay (s.max.getD j 0)) else none

/-- `CalculateJitter` (stats.c:1982-1999) for the delays with histogram `h`: the buckets of the two percentiles. -/
def jitter (F : Fmt) (s : St) (h : List (Int × Nat)) : Option (Int × Int) :=
  match percentile F.mul s h (95 / 100), percentile F.mul s h (1 / 2) with
  | some a, some b => some (a, b)
  | _, _ => none

/-- The lines of single values up to the histogram of delays (stats.c:2423-2520). `stats->last - stats->first` is of type `uint32_t`. -/
def values (F : Fmt) (c : Cfg) (i : Info) (s : St) : List (Name × Bytes) :=
  [(.plain .summary, text ['3','.','0','0']), (.plain .sid, i.sid),
   (.plain .fromHost, i.fromHost), (.plain .fromAddr, i.fromAddr), (.plain .fromPort, i.fromPort),
   (.plain .toHost, i.toHost), (.plain .toAddr, i.toAddr), (.plain .toPort, i.toPort),
   (.plain .startTime, padded 20 s.startTime), (.plain .endTime, padded 20 s.endTime)] ++
  (if i.unix then [(.plain .unixStart, F.unix s.startTime), (.plain .unixEnd, F.unix s.endTime)] else []) ++
  opt (.plain .dscp) (if i.typeP.toNat % 2 ^ 24 = 0 ∧ i.typeP.toNat / 2 ^ 30 = 0 then some (hexByte (i.typeP.toNat / 2 ^ 24)) else none) ++
  [(.plain .lossTimeout, digits c.timeout.toNat), (.plain .padding, digits i.padding.toNat), (.plain .sessionCount, digits c.npackets.toNat),
   (.plain .sampleCount, digits ((s.last + 2 ^ 32 - s.first) % 2 ^ 32)), (.plain .width, F.width),
   (.plain .finished, digits (if i.finished then 1 else 0)),
   (.plain .sent, digits s.sent), (.plain .sync, digits (if s.sync then 1 else 0)),
   (.plain .maxerr, F.err (s.maxerr.getD 0 0)), (.maxerrF, F.err (s.maxerr.getD 1 0)), (.maxerrB, F.err (s.maxerr.getD 2 0)),
   (.dupsF, digits s.dupsF), (.dupsB, digits s.dupsB), (.plain .lost, digits s.lost)] ++
  opt (.plain .min) (minValue F c s 0) ++ opt .minF (minValue F c s 1) ++ opt .minB (minValue F c s 2) ++ opt .minP (minValue F c s 3) ++
  opt (.plain .median) ((percentile F.mul s s.hist (1 / 2)).map F.bucket) ++
  opt .medianF ((percentile F.mul s s.histF (1 / 2)).map F.bucket) ++
  opt .medianB ((percentile F.mul s s.histB (1 / 2)).map F.bucket) ++
  opt (.plain .max) (maxValue F c s 0) ++ opt .maxF (maxValue F c s 1) ++ opt .maxB (maxValue F c s 2) ++ opt .maxP (maxValue F c s 3) ++
  opt (.plain .pdv) ((jitter F s s.hist).map fun p => F.spread p.1 p.2) ++
  opt .pdvF ((jitter F s s.histF).map fun p => F.spread p.1 p.2) ++
  opt .pdvB ((jitter F s s.histB).map fun p => F.spread p.1 p.2)

/-- The line of a single value: fields that a tab separates. -/
def valueLine (p : Name × Bytes) : List Bytes := [p.1.text, p.2]

/-- The lines of a table: its name in brackets, a line for each row, each field with a tab before it, and the closing line. -/
def table (name : Bytes) (rows : List (List Bytes)) : List (List Bytes) :=
  [[text ['<'] ++ name ++ text ['>']]] ++ rows.map (fun r => [] :: r) ++ [[text ['<','/'] ++ name ++ text ['>']]]

/-- The buckets of the table of the code (`BucketIncrementDelay`, stats.c:467-545): those of any of the three delays, each once. -/
def buckets (s : St) : List Int := ((s.hist ++ s.histF ++ s.histB).map (·.1)).foldl (fun l b => if b ∈ l then l else l ++ [b]) []

/-- A counter of a bucket (`delay_samples`, owamp.h:1586). -/
def samples (h : List (Int × Nat)) (b : Int) : Nat := (h.lookup b).getD 0

/-- The histogram of delays (stats.c:2522-2532) with `BucketBufferPrintTW` (stats.c:404-420). -/
def bucketLines (s : St) : List (List Bytes) :=
  if s.sent > s.lost then
    table (text ['B','U','C','K','E','T','S'])
      ((buckets s).map fun b => [signed b, digits (samples s.hist b), digits (samples s.histF b), digits (samples s.histB b)])
  else []

/-- `CalculateTtlStats` (stats.c:2039-2064) for the TTL counts `h`. -/
def ttlStats (h : List Nat) : Nat × Nat × Nat := Stats.ttlLoop h 0 (0, 255, 0)

/-- `PrintMinMaxTtlMachine` (stats.c:2320-2347) for both ways. -/
def ttlValues (s : St) : List (Name × Bytes) :=
  [(.minTtlF, digits (ttlStats s.ttlF).2.1), (.maxTtlF, digits (ttlStats s.ttlF).2.2),
   (.minTtlB, digits (ttlStats s.ttlB).2.1), (.maxTtlB, digits (ttlStats s.ttlB).2.2)]

/-- `PrintTtlBucketTW` (stats.c:2361-2374) for the value `i`. -/
def ttlRow (f b : List Nat) (i : Nat) : List (List Bytes) :=
  if f.getD i 0 ≠ 0 ∨ b.getD i 0 ≠ 0 then [[digits i, digits (f.getD i 0), digits (b.getD i 0)]] else []

/-- The table of `PrintTtlStatsMachine` (stats.c:2376-2400). `ttl_num` is a `uint16_t`, and the sum of two `uint8_t`. -/
def ttlLines (s : St) : List (List Bytes) :=
  if (ttlStats s.ttlF).1 + (ttlStats s.ttlB).1 > 0 then
    table (text ['T','T','L','B','U','C','K','E','T','S']) ((List.range 256).flatMap (ttlRow s.ttlF s.ttlB))
  else []

/-- The lines of the report (`OWPStatsPrintMachine`, stats.c:2405-2560). -/
def report (F : Fmt) (c : Cfg) (i : Info) (s : St) : List (List Bytes) :=
  (values F c i s).map valueLine ++ bucketLines s ++ (ttlValues s).map valueLine ++ ttlLines s ++ [[[]]]

/-- What `OWPStatsPrintMachine` (stats.c:2405-2560) writes. -/
def machine (F : Fmt) (c : Cfg) (i : Info) (s : St) : Bytes := (report F c i s).flatMap line

end Owamp.PrintTw
