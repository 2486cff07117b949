import Verif.Model.Schedule
import Verif.Model.DataFile
/-!
# Model of the summaries of one-way sessions (`owamp/stats.c`)

`OWPStats` objects: `OWPStatsParse` with its buffer of packet records, the record callback `IterateSummarizeSession` and the
figures that are printed. The list `pbegin` … `pend` of packet records of type `OWP_PKTS` together with the hash that indexes it
is a list of nodes. Not modelled: failing allocations, floating point (see `Cfg`), host names, the printing itself, two-way
sessions (`IterateSummarizeTWSession`).
-/
namespace Owamp.Stats
open Owamp.Num64 Owamp.Codec

/-- What an `OWPStats` object is created with (`OWPStatsCreate`, stats.c:656-937): schedule cipher, parts of the test
specification and the skip records of the file header, the size of the reordering buffers `rlistlen` (at least 10), the size
and offsets of the file's records. Floating point is given from outside: `delay` is `OWPDelay` (capi.c:1390-1397) in some unit,
`bucket` the bucket number of a delay (`BucketIncrementDelay`, stats.c:481-482), `inf` is `inf_delay` (stats.c:1758). -/
structure Cfg where
  E : Bytes → Bytes → Bytes
  start : U64
  timeout : U64
  npackets : U32
  skips : List Skip
  rlist : Nat
  recSize : Nat
  osetData : Nat
  delay : Time.TimeStamp → Time.TimeStamp → Int
  bucket : Int → Int
  inf : Int

/-- `OWPPacketRec` (owamp.h:1545-1556) without links and type. -/
structure Node where
  seq : Nat
  sched : Nat
  seen : Nat
  lost : Bool
deriving DecidableEq, Repr

/-- `OWPStatsRec` (owamp.h:1589-1699) without what never changes. `used` is whether `pend` is not NULL. `hist` is the
table of buckets in any order. -/
structure St where
  ctx : Sched.Ctx
  isctx : Nat
  endnum : Nat
  nodes : List Node
  used : Bool
  first : Nat
  last : Nat
  iskip : Nat
  i : Nat
  beginOset : Nat
  nextOset : Nat
  startTime : Nat
  endTime : Nat
  sent : Nat
  lost : Nat
  dups : Nat
  rseq : List Nat
  rn : List Nat
  rindex : Nat
  rnum : Nat
  hist : List (Int × Nat)
  ttl : List Nat
  min : Int
  max : Int
  sync : Bool
  maxerr : Nat
deriving DecidableEq, Repr

/-- What can go wrong: an error that the code reports, or undefined behaviour (a NULL pointer, a failed assertion, a fault of the
schedule). -/
inductive Bad where
  | refused
  | stuck
deriving DecidableEq, Repr

/-- The loop of `PacketGet` that extends the buffer by `n` records (stats.c:266-285) with the checks of `PacketAlloc`
(stats.c:150-155), whose NULL would be dereferenced. -/
def grow (c : Cfg) : Nat → St → Except Bad St
  | 0, s => .ok s
  | n + 1, s =>
    match s.nodes.getLast? with
    | none => .error .stuck
    | some e =>
      if e.seq + 1 ≠ s.isctx then .error .stuck
      else
        match (Sched.nextDelta c.E s.ctx).1 with
        | .error _ => .error .stuck
        | .ok d =>
          if e.seq + 1 > s.last then .error .stuck
          else
            let t := add s.endnum d
            grow c n { s with ctx := (Sched.nextDelta c.E s.ctx).2, isctx := s.isctx + 1, endnum := t
                              nodes := s.nodes ++ [⟨e.seq + 1, t, 0, false⟩] }

/-- `PacketGet` (stats.c:228-309): the buffer after it, and the record. -/
def packetGet (c : Cfg) (seq : Nat) (s : St) : Except Bad (Node × St) :=
  match s.nodes.head?, s.nodes.getLast? with
  | some b, some e =>
    if seq = e.seq then .ok (e, s)
    else if seq < s.first ∨ seq > s.last then .error .refused
    else if seq > e.seq then
      match grow c (seq - e.seq) s with
      | .error x => .error x
      | .ok s' =>
        match s'.nodes.getLast? with
        | some n => .ok (n, s')
        | none => .error .stuck
    else if seq < b.seq then .error .refused
    else
      match s.nodes.find? (·.seq = seq) with
      | some n => .ok (n, s)
      | none => .error .refused
  | _, _ => .error .stuck

/-- The loop that moves to the next skip range (stats.c:957-960); the first argument is the number of turns left. -/
def skipPast (skips : List Skip) (seq : Nat) : Nat → Nat → Nat
  | 0, i => i
  | n + 1, i =>
    match skips[i]? with
    | some k => if seq > k.last.toNat then skipPast skips seq n (i + 1) else i
    | none => i

/-- The losses and duplicates of a packet that leaves the buffer (stats.c:962-981). -/
def tally (c : Cfg) (n : Node) (s : St) : St :=
  let i := skipPast c.skips n.seq c.skips.length s.iskip
  let s := { s with iskip := i }
  if (c.skips[i]?).any (fun k => decide (n.seq ≥ k.first.toNat)) then s
  else if n.lost then { s with lost := (s.lost + 1) % 2 ^ 32 }
  else if n.seen ≠ 0 then { s with dups := (s.dups + (n.seen - 1)) % 2 ^ 32 }
  else s

/-- `PacketBeginFlush` (stats.c:939-1003): whether to go on, and the state. -/
def flushOne (c : Cfg) (s : St) : Except Bad (Bool × St) :=
  match s.nodes with
  | [] => .ok (false, s)
  | n :: rest =>
    let s := { tally c n s with endTime := n.sched }
    match rest with
    | _ :: _ => .ok (true, { s with nodes := rest })
    | [] =>
      if n.seq + 1 < s.last then
        match packetGet c (n.seq + 1) s with
        | .error x => .error x
        | .ok (_, s') => .ok (true, { s' with nodes := s'.nodes.tail })
      else .ok (false, { s with nodes := [] })

/-- The loops of `IterateSummarizeSession` that flush packets (stats.c:1044-1072): while the first packet satisfies `p`; a flush
that says no ends the callback with an error. The first argument bounds the turns and is never the reason for ending. -/
def flushWhile (c : Cfg) (p : Node → Bool) : Nat → St → Except Bad St
  | 0, _ => .error .stuck
  | n + 1, s =>
    match s.nodes with
    | [] => .error .stuck
    | b :: _ =>
      if p b then
        match flushOne c s with
        | .error x => .error x
        | .ok (false, _) => .error .refused
        | .ok (true, s') => flushWhile c p n s'
      else .ok s

/-- `OWPIsLostRecord` (api.c:3742-3748): a record without receive time. -/
def isLost (r : DataRec) : Bool := r.recv.owptime = 0

/-- Whether a record from `iskip` on covers the packet (stats.c:1088-1095). -/
def skipped (skips : List Skip) (i seq : Nat) : Bool :=
  (skips.drop i).any fun k => decide (seq ≥ k.first.toNat) && decide (seq ≤ k.last.toNat)

/-- `OWPGetTimeStampError` (time.c:778-810) in units of 2⁻³² s. -/
def stampError (t : Time.TimeStamp) : Nat := (t.multiplier.toNat * 2 ^ (t.scale.toNat % 64)) % 2 ^ 64

/-- The loop over the reordering buffer (stats.c:1145-1148) from its turn `i` on; the first argument is the number of turns
left, `min(rnumseqno,rlistlen) - i`. -/
def reorder (rlist : Nat) (rseq : List Nat) (rindex seq : Nat) : Nat → Nat → List Nat → List Nat
  | 0, _, rn => rn
  | n + 1, i, rn =>
    let x : Int := (rindex : Int) - i - 1
    let at' := (if x ≥ 0 then x else x + rlist).toNat
    if seq < rseq.getD at' 0 then reorder rlist rseq rindex seq n (i + 1) (rn.set i ((rn.getD i 0 + 1) % 2 ^ 32))
    else rn

/-- The reordering statistics of one arrival (stats.c:1140-1153). -/
def arrive (c : Cfg) (seq : Nat) (s : St) : St :=
  { s with rn := reorder c.rlist s.rseq s.rindex seq (Nat.min s.rnum c.rlist) 0 s.rn
           rseq := s.rseq.set s.rindex seq
           rnum := s.rnum + 1
           rindex := (s.rindex + 1) % c.rlist }

/-- `BucketIncrementDelay` (stats.c:466-545) on the table of buckets. -/
def bump (b : Int) : List (Int × Nat) → List (Int × Nat)
  | [] => [(b, 1)]
  | (k, n) :: h => if k = b then (k, (n + 1) % 2 ^ 32) :: h else (k, n) :: bump b h

/-- Replacing the record of a packet in the buffer. -/
def setNode (n : Node) (ns : List Node) : List Node := ns.map fun m => if m.seq = n.seq then n else m

/-- `IterateSummarizeSession` for a lost packet (stats.c:1097-1124). -/
def addLost (r : DataRec) (n : Node) (s : St) : Except Bad St :=
  if n.seen ≠ 0 then .error .refused
  else
    .ok { s with nodes := setNode { n with lost := true } s.nodes
                 sent := (s.sent + 1) % 2 ^ 32
                 sync := s.sync && r.recv.sync
                 maxerr := Nat.max s.maxerr (stampError r.recv) }

/-- `IterateSummarizeSession` for a received packet (stats.c:1125-1234). `maxerr` is the exact sum. -/
def addGot (c : Cfg) (r : DataRec) (n : Node) (s : St) : Except Bad St :=
  if n.lost then .error .refused
  else
    let seen := (n.seen + 1) % 2 ^ 32
    let s := { s with sent := if n.seen = 0 then (s.sent + 1) % 2 ^ 32 else s.sent
                      nodes := setNode { n with seen := seen } s.nodes }
    let s := arrive c r.seq.toNat s
    let d := c.delay r.send r.recv
    let s := { s with sync := s.sync && r.send.sync && r.recv.sync
                      maxerr := Nat.max s.maxerr (stampError r.send + stampError r.recv)
                      min := if d < s.min then d else s.min
                      max := if d > s.max then d else s.max }
    if seen > 1 then .ok s
    else
      .ok { s with hist := bump (c.bucket d) s.hist
                   ttl := s.ttl.set r.ttl.toNat (s.ttl.getD r.ttl.toNat 0 + 1) }

/-- What a received packet lets be flushed (stats.c:1056-1065): all packets scheduled more than the timeout before it came. -/
def expired (c : Cfg) (r : DataRec) (n : Node) : Bool :=
  decide (n.sched < sub r.recv.owptime.toNat c.timeout.toNat)

/-- `IterateSummarizeSession` (stats.c:1005-1235). -/
def process (c : Cfg) (s : St) (r : DataRec) : Except Bad St :=
  let seq := r.seq.toNat
  let s := { s with nextOset := if s.nextOset = 0 ∧ seq ≥ s.last then s.beginOset + s.i * c.recSize else s.nextOset
                    i := s.i + 1 }
  if seq < s.first ∨ seq ≥ s.last then .ok s
  else
    match flushWhile c (if isLost r then fun n => decide (n.seq < seq) else expired c r) (s.last + 2) s with
    | .error x => .error x
    | .ok s =>
      match packetGet c seq s with
      | .error x => .error x
      | .ok (n, s) =>
        if skipped c.skips s.iskip seq then .ok s
        else if isLost r then addLost r n s
        else addGot c r n s

/-- The callback as `OWPParseRecords` sees it. What an object is good for after a parse that failed is not modelled. -/
def callback (c : Cfg) (s : Except Bad St) (r : DataRec) : Int × Except Bad St :=
  match s with
  | .error x => (-1, .error x)
  | .ok s =>
    match process c s r with
    | .ok s' => (0, .ok s')
    | .error x => (-1, .error x)

/-- The loop that advances the schedule (stats.c:1700-1704); the first argument is the number of turns left. -/
def advance (c : Cfg) : Nat → St → Except Bad St
  | 0, s => .ok s
  | n + 1, s =>
    match (Sched.nextDelta c.E s.ctx).1 with
    | .error _ => .error .stuck
    | .ok d => advance c n { s with ctx := (Sched.nextDelta c.E s.ctx).2, isctx := s.isctx + 1, endnum := add s.endnum d }

/-- The start of `OWPStatsParse` (stats.c:1632-1771). The records of the packet buffer go back to the free list with their number
set to 0 (`PacketFree`), but `pend` still points to one of them, so that `PacketAlloc` (stats.c:150-155) refuses number 0 the second time, and its
NULL is dereferenced (stats.c:1731). -/
def begin (c : Cfg) (s : St) (oset first last : Nat) : Except Bad St :=
  let last := if last = 2 ^ 32 - 1 then c.npackets.toNat else last
  if first > last ∨ last > c.npackets.toNat then .error .refused
  else
    let s := if first = 0 ∨ first < s.isctx then
        { s with ctx := (Sched.reset s.ctx none).2, isctx := 0, endnum := c.start.toNat } else s
    match advance c (first + 1 - s.isctx) s with
    | .error x => .error x
    | .ok s =>
      if s.used ∧ first ≤ 0 then .error .stuck
      else
        .ok { ctx := s.ctx, isctx := s.isctx, endnum := s.endnum
              nodes := [⟨first, s.endnum, 0, false⟩], used := true
              first := first, last := last, iskip := 0, i := 0
              beginOset := Nat.max oset c.osetData, nextOset := 0
              startTime := s.endnum, endTime := s.endTime
              sent := 0, lost := 0, dups := 0
              rseq := List.replicate c.rlist 0, rn := List.replicate c.rlist 0
              rindex := s.rindex, rnum := s.rnum
              hist := [], ttl := List.replicate 256 0
              min := c.inf, max := -c.inf, sync := true, maxerr := 0 }

/-- `while(pbegin && PacketBeginFlush(stats,type))` (stats.c:1806-1808) for the packets of the session; the first argument bounds the
turns. -/
def flushAll (c : Cfg) : Nat → St → Except Bad St
  | 0, _ => .error .stuck
  | n + 1, s =>
    match flushOne c s with
    | .error x => .error x
    | .ok (true, s') => flushAll c n s'
    | .ok (false, s') => .ok s'

/-- The same loop for the buffer of the other direction, which in a one-way session holds only packet `first` at its beginning: packets
`first` to `last - 1` pass one by one, not lost and not seen, and leave their time in `end_time`; all but `first` have the time reached by
the schedule (stats.c:279, 985). -/
def flushBack (s : St) : St :=
  { s with endTime := if s.first + 1 < s.last then s.endnum else s.startTime }

/-- `OWPStatsParse` (stats.c:1618-1840), with `iter` calling the callback on the records of the file. The table of buckets is sorted at
the end; see `sorted`. -/
def parse (c : Cfg) (iter : (Except Bad St → DataRec → Int × Except Bad St) → Except Bad St → File.Parsed × Except Bad St)
    (s : St) (oset first last : Nat) : Except Bad St :=
  match begin c s oset first last with
  | .error x => .error x
  | .ok s =>
    match iter (callback c) (.ok s) with
    | (.ok, .ok s) => (flushAll c (s.last + 2) s).map flushBack
    | (_, .error x) => .error x
    | (_, .ok _) => .error .refused

/-- How many records `OWPStatsParse` looks at (stats.c:1656-1690); without a limit on the records to print. -/
def nrecs (f : Bytes) (osetSkip osetData : Int) (recSize oset : Nat) : Nat :=
  let fileend : Int := if osetSkip > osetData then osetSkip else f.length
  (BitVec.ofInt 32 ((fileend - oset).tdiv recSize)).toNat

/-- `OWPStatsParse` on a file. -/
def parseFile (c : Cfg) (f : Bytes) (h : File.Header) (s : St) (oset first last : Nat) : Except Bad St :=
  let oset := Nat.max oset c.osetData
  parse c (fun proc s => File.parseRecords proc f oset (nrecs f h.osetSkip h.osetData c.recSize oset) h.version s) s oset first last

/-- A fresh object (stats.c:656-937). -/
def create (c : Cfg) (ctx : Sched.Ctx) : St :=
  { ctx := ctx, isctx := 0, endnum := c.start.toNat, nodes := [], used := false
    first := 0, last := 0, iskip := 0, i := 0, beginOset := 0, nextOset := 0, startTime := 0, endTime := 0
    sent := 0, lost := 0, dups := 0, rseq := List.replicate c.rlist 0, rn := List.replicate c.rlist 0, rindex := 0, rnum := 0
    hist := [], ttl := List.replicate 256 0, min := 0, max := 0, sync := false, maxerr := 0 }

/-! ## What is reported -/

/-- `qsort` with `BucketBufferSortCmp` (stats.c:1576-1585, 1830). Overflow of the difference of bucket numbers is not modelled. -/
def sorted (h : List (Int × Nat)) : List (Int × Nat) := h.mergeSort fun a b => decide (a.1 ≤ b.1)

/-- The loop of `BucketBufferSortPercentile` (stats.c:1604-1614): `t` is `alpha * sent`, `sum` the samples so far. -/
def percentileLoop (t : Rat) : Nat → List (Int × Nat) → Option Int
  | _, [] => none
  | sum, (b, n) :: h => if ((n + sum : Nat) : Rat) < t then percentileLoop t (sum + n) h else some b

/-- `BucketBufferSortPercentile` (stats.c:1587-1616): the number of the bucket. `mul` is the floating point product. -/
def percentile (mul : Rat → Nat → Rat) (s : St) (alpha : Rat) : Option Int :=
  percentileLoop (mul alpha s.sent) 0 (sorted s.hist)

/-- The loop of `CalculateTtlStats` (stats.c:2051-2061) from `i`: number (a `uint8_t`), least and greatest. -/
def ttlLoop : List Nat → Nat → Nat × Nat × Nat → Nat × Nat × Nat
  | [], _, x => x
  | n :: h, i, (num, lo, hi) =>
    if n = 0 then ttlLoop h (i + 1) (num, lo, hi)
    else ttlLoop h (i + 1) ((num + 1) % 2 ^ 8, if i < lo then i else lo, if i > hi then i else hi)

/-- `CalculateTtlStats` (stats.c:2039-2064). -/
def ttlStats (s : St) : Nat × Nat × Nat := ttlLoop s.ttl 0 (0, 255, 0)

/-- The shares of reordered packets in a summary (stats.c:2247-2250): while they are not zero, the count and the number it
is divided by. -/
def reorderShares (s : St) : List (Nat × Nat) := (s.rn.takeWhile (· ≠ 0)).map fun n => (n, s.rnum)

end Owamp.Stats
