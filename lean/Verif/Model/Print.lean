import Verif.Model.Stats
import Verif.Model.Limits
/-!
# Model of the report that programs read (`OWPStatsPrintMachine`, `owamp/stats.c`)

The report of a one-way session as text. Floating point numbers are given from outside with their text, as are the texts for addresses
and the session identifier. Not modelled: failing writes, two-way sessions.
-/
namespace Owamp.Print
open Owamp.Policy Owamp.Stats

/-- `%u` (and `%lu`, `PRIu64`, `PRIuPTR`) of `fprintf`. -/
def digits (n : Nat) : Bytes :=
  if n < 10 then [BitVec.ofNat 8 (48 + n)] else digits (n / 10) ++ [BitVec.ofNat 8 (48 + n % 10)]
termination_by n
decreasing_by omega

/-- `%0wu` of `fprintf`. -/
def padded (w n : Nat) : Bytes := List.replicate (w - (digits n).length) 48#8 ++ digits n

/-- `%d` of `fprintf`. -/
def signed (i : Int) : Bytes := if i < 0 then 45#8 :: digits i.natAbs else digits i.natAbs

/-- A digit of `%x` of `fprintf`. -/
def hexDigit (n : Nat) : Byte := if n < 10 then BitVec.ofNat 8 (48 + n) else BitVec.ofNat 8 (87 + n)

/-- `0x%2.2x` of `fprintf` for a byte. -/
def hexByte (n : Nat) : Bytes := [48#8, 120#8, hexDigit (n / 16), hexDigit (n % 16)]

/-- The texts that `fprintf` makes with `%g` and `%f`: of delays, of a number of buckets times the bucket width, of the difference of two of those,
of errors, of the UNIX time of a time stamp, and of the bucket width; and the product of floating point numbers that percentiles take. -/
structure Fmt where
  delay : Int → Bytes
  bucket : Int → Bytes
  spread : Int → Int → Bytes
  err : Nat → Bytes
  unix : Nat → Bytes
  width : Bytes
  mul : Rat → Nat → Rat

/-- What else is printed: the texts that `OWPStatsCreate` (stats.c:700-735) made of the addresses, `I2HexEncode`'s of the session identifier,
`display_unix_ts`, and fields of the file header. -/
structure Info where
  sid : Bytes
  fromHost : Bytes
  fromAddr : Bytes
  fromPort : Bytes
  toHost : Bytes
  toAddr : Bytes
  toPort : Bytes
  unix : Bool
  typeP : U32
  padding : U32
  finished : Bool

/-- The names of the single values (stats.c:2423-2520, 2294-2346). -/
inductive Key where
  | summary | sid | fromHost | fromAddr | fromPort | toHost | toAddr | toPort | startTime | endTime | unixStart | unixEnd
  | dscp | lossTimeout | padding | sessionCount | sampleCount | width | finished | sent | sync | maxerr | dups | lost
  | min | median | max | pdv | minTtl | maxTtl
deriving DecidableEq, Repr

/-- Their text. -/
def Key.name : Key → Bytes
  | .summary => text ['S','U','M','M','A','R','Y']
  | .sid => text ['S','I','D']
  | .fromHost => text ['F','R','O','M','_','H','O','S','T']
  | .fromAddr => text ['F','R','O','M','_','A','D','D','R']
  | .fromPort => text ['F','R','O','M','_','P','O','R','T']
  | .toHost => text ['T','O','_','H','O','S','T']
  | .toAddr => text ['T','O','_','A','D','D','R']
  | .toPort => text ['T','O','_','P','O','R','T']
  | .startTime => text ['S','T','A','R','T','_','T','I','M','E']
  | .endTime => text ['E','N','D','_','T','I','M','E']
  | .unixStart => text ['U','N','I','X','_','S','T','A','R','T','_','T','I','M','E']
  | .unixEnd => text ['U','N','I','X','_','E','N','D','_','T','I','M','E']
  | .dscp => text ['D','S','C','P']
  | .lossTimeout => text ['L','O','S','S','_','T','I','M','E','O','U','T']
  | .padding => text ['P','A','C','K','E','T','_','P','A','D','D','I','N','G']
  | .sessionCount => text ['S','E','S','S','I','O','N','_','P','A','C','K','E','T','_','C','O','U','N','T']
  | .sampleCount => text ['S','A','M','P','L','E','_','P','A','C','K','E','T','_','C','O','U','N','T']
  | .width => text ['B','U','C','K','E','T','_','W','I','D','T','H']
  | .finished => text ['S','E','S','S','I','O','N','_','F','I','N','I','S','H','E','D']
  | .sent => text ['S','E','N','T']
  | .sync => text ['S','Y','N','C']
  | .maxerr => text ['M','A','X','E','R','R']
  | .dups => text ['D','U','P','S']
  | .lost => text ['L','O','S','T']
  | .min => text ['M','I','N']
  | .median => text ['M','E','D','I','A','N']
  | .max => text ['M','A','X']
  | .pdv => text ['P','D','V']
  | .minTtl => text ['M','I','N','T','T','L']
  | .maxTtl => text ['M','A','X','T','T','L']

/-- A line that is printed only if there is a value. -/
def opt (k : Key) : Option Bytes → List (Key × Bytes)
  | none => []
  | some v => [(k, v)]

/-- `CalculateJitter` (stats.c:1982-1999): the buckets of the two percentiles. -/
def jitter (F : Fmt) (s : St) : Option (Int × Int) :=
  match percentile F.mul s (95 / 100), percentile F.mul s (1 / 2) with
  | some a, some b => some (a, b)
  | _, _ => none

/-- The lines of single values up to the histogram of delays (stats.c:2423-2520), with `PrintMinDelayMachine` and `PrintMaxDelayMachine`
(stats.c:2294-2318). `stats->last - stats->first` is of type `uint32_t`. -/
def values (F : Fmt) (c : Cfg) (i : Info) (s : St) : List (Key × Bytes) :=
  [(.summary, text ['3','.','0','0']), (.sid, i.sid),
   (.fromHost, i.fromHost), (.fromAddr, i.fromAddr), (.fromPort, i.fromPort),
   (.toHost, i.toHost), (.toAddr, i.toAddr), (.toPort, i.toPort),
   (.startTime, padded 20 s.startTime), (.endTime, padded 20 s.endTime)] ++
  (if i.unix then [(.unixStart, F.unix s.startTime), (.unixEnd, F.unix s.endTime)] else []) ++
  opt .dscp (if i.typeP.toNat % 2 ^ 24 = 0 ∧ i.typeP.toNat / 2 ^ 30 = 0 then some (hexByte (i.typeP.toNat / 2 ^ 24)) else none) ++
  [(.lossTimeout, digits c.timeout.toNat), (.padding, digits i.padding.toNat), (.sessionCount, digits c.npackets.toNat),
   (.sampleCount, digits ((s.last + 2 ^ 32 - s.first) % 2 ^ 32)), (.width, F.width), (.finished, digits (if i.finished then 1 else 0)),
   (.sent, digits s.sent), (.sync, digits (if s.sync then 1 else 0)), (.maxerr, F.err s.maxerr), (.dups, digits s.dups), (.lost, digits s.lost)] ++
  opt .min (if s.min < c.inf then some (F.delay s.min) else none) ++
  opt .median ((percentile F.mul s (1 / 2)).map F.bucket) ++
  opt .max (if s.max > -c.inf then some (F.delay s.max) else none) ++
  opt .pdv ((jitter F s).map fun p => F.spread p.1 p.2)

/-- `PrintMinMaxTtlMachine` (stats.c:2320-2347). -/
def ttlValues (s : St) : List (Key × Bytes) :=
  [(.minTtl, digits (ttlStats s).2.1), (.maxTtl, digits (ttlStats s).2.2)]

/-- The line of a single value: fields that a tab separates. -/
def valueLine (p : Key × Bytes) : List Bytes := [p.1.name, p.2]

/-- The lines of a table: its name in brackets, a line for each row, each field with a tab before it, and the closing line. -/
def table (name : Bytes) (rows : List (Bytes × Bytes)) : List (List Bytes) :=
  [[text ['<'] ++ name ++ text ['>']]] ++ rows.map (fun r => [[], r.1, r.2]) ++ [[text ['<','/'] ++ name ++ text ['>']]]

/-- The histogram of delays (stats.c:2522-2532) with `BucketBufferPrint` (stats.c:374-387). -/
def bucketLines (s : St) : List (List Bytes) :=
  if s.sent > s.lost then table (text ['B','U','C','K','E','T','S']) (s.hist.map fun p => (signed p.1, digits p.2)) else []

/-- `PrintTtlBucket` (stats.c:2349-2359) for the values from `i` on. -/
def ttlRows : List Nat → Nat → List (Bytes × Bytes)
  | [], _ => []
  | n :: h, i => (if n ≠ 0 then [(digits i, digits n)] else []) ++ ttlRows h (i + 1)

/-- The table of `PrintTtlStatsMachine` (stats.c:2376-2400). -/
def ttlLines (s : St) : List (List Bytes) :=
  if (ttlStats s).1 > 0 then table (text ['T','T','L','B','U','C','K','E','T','S']) (ttlRows s.ttl 0) else []

/-- The loop over the reordering counts (stats.c:2549-2552) from the `j`-th on, and where it ends. -/
def reorderRows : List Nat → Nat → List (Bytes × Bytes) × Nat
  | [], j => ([], j)
  | n :: h, j => if n = 0 then ([], j) else ((digits (j + 1), digits n) :: (reorderRows h (j + 1)).1, (reorderRows h (j + 1)).2)

/-- The reordering histogram (stats.c:2541-2557): a last row with the count 0 if there was none, or if the counts ended. -/
def reorderLines (s : St) : List (List Bytes) :=
  let (rows, j) := reorderRows s.rn 0
  table (text ['N','R','E','O','R','D','E','R','I','N','G'])
    (rows ++ if j = 0 ∨ j ≥ s.rn.length then [(digits (j + 1), digits 0)] else [])

/-- The lines of the report (`OWPStatsPrintMachine`, stats.c:2405-2560). -/
def report (F : Fmt) (c : Cfg) (i : Info) (s : St) : List (List Bytes) :=
  (values F c i s).map valueLine ++ bucketLines s ++ (ttlValues s).map valueLine ++ ttlLines s ++ [[[]]] ++ reorderLines s

/-- A line as it is written: the fields with tabs between them, and a newline. -/
def line : List Bytes → Bytes
  | [] => [10#8]
  | [f] => f ++ [10#8]
  | f :: fs => f ++ 9#8 :: line fs

/-- What `OWPStatsPrintMachine` (stats.c:2405-2560) writes. -/
def machine (F : Fmt) (c : Cfg) (i : Info) (s : St) : Bytes := (report F c i s).flatMap line

end Owamp.Print
