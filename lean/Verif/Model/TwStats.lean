import Verif.Model.Stats
/-!
# Model of the summaries of two-way sessions (`owamp/stats.c`)

`OWPStatsParse` on a fresh object for a two-way session file, with the callback `IterateSummarizeTWSession`. A direction's list `pbegin` … `pend` of packet
records, with the hash that indexes it, is a list of nodes. The schedule is given as the time of each packet (`Stats.grow` has its
generation). Not modelled: a second parse with the same object, failing allocations, floating point (see `Cfg`), host names, the printing itself.
-/
namespace Owamp.TwStats
open Owamp.Codec Owamp.Num64
open Owamp.Stats (Bad skipPast bump stampError)

/-- What the object is created with. `times k` is the scheduled time of packet `k`. `delay`, `bucket` and `inf` as in `Stats.Cfg`. -/
structure Cfg where
  times : Nat → Nat
  timeout : U64
  npackets : U32
  skips : List Skip
  recSize : Nat
  osetData : Nat
  delay : Time.TimeStamp → Time.TimeStamp → Int
  bucket : Int → Int
  inf : Int

/-- `OWPPacketRec` (owamp.h:1545-1556) without links and type. -/
structure Node where
  seq : Nat
  sched : Nat
  seen : Nat
  lost : Bool
  assoc : Nat
deriving DecidableEq, Repr

/-- The packet records of a direction: those in use, `isctx` (the next number), and the field `associated_seq` of those on the free
list, which `PacketAlloc` does not reset (stats.c:184-191); a record that was never used has 0 there. -/
structure Buf where
  nodes : List Node
  next : Nat
  free : List Nat
deriving DecidableEq, Repr

/-- `OWPStatsRec` (owamp.h:1589-1699) as far as two-way sessions use it. Tables of buckets: one for each of the three delays (round trip, out, back); in
the code one table has three counters for a bucket. `min` and `max` have the processing delay as fourth. -/
structure St where
  fwd : Buf
  bck : Buf
  first : Nat
  last : Nat
  iskip : Nat
  i : Nat
  beginOset : Nat
  nextOset : Nat
  startTime : Nat
  endTime : Nat
  sent : Nat
  lost : Nat
  dupsF : Nat
  dupsB : Nat
  hist : List (Int × Nat)
  histF : List (Int × Nat)
  histB : List (Int × Nat)
  ttlF : List Nat
  ttlB : List Nat
  min : List Int
  max : List Int
  offset : Bool
  sync : Bool
  maxerr : List Nat
deriving DecidableEq, Repr

/-- The loop of `PacketGet` that extends the buffer by `n` records (stats.c:266-285) with `PacketAlloc` (stats.c:139-202). -/
def grow (sched : Nat → Nat) (lim : Option Nat) : Nat → Buf → Except Bad Buf
  | 0, b => .ok b
  | n + 1, b =>
    match b.nodes.getLast? with
    | none => .error .stuck
    | some e =>
      if e.seq + 1 ≠ b.next then .error .stuck
      else if lim.any (fun l => decide (e.seq + 1 > l)) then .error .stuck
      else grow sched lim n ⟨b.nodes ++ [⟨e.seq + 1, sched (e.seq + 1), 0, false, b.free.headD 0⟩], b.next + 1, b.free.tail⟩

/-- `PacketGet` (stats.c:228-309): `first` is the first packet of the summary, `lim` its end for the packets out, nothing for those back. -/
def get (sched : Nat → Nat) (first : Nat) (lim : Option Nat) (seq : Nat) (b : Buf) : Except Bad (Node × Buf) :=
  match b.nodes.head?, b.nodes.getLast? with
  | some h, some e =>
    if seq = e.seq then .ok (e, b)
    else if seq < first ∨ lim.any (fun l => decide (seq > l)) = true then .error .refused
    else if seq > e.seq then
      match grow sched lim (seq - e.seq) b with
      | .error x => .error x
      | .ok b' =>
        match b'.nodes.getLast? with
        | some n => .ok (n, b')
        | none => .error .stuck
    else if seq < h.seq then .error .refused
    else
      match b.nodes.find? (·.seq = seq) with
      | some n => .ok (n, b)
      | none => .error .refused
  | _, _ => .error .stuck

/-- `PacketGet` for a packet out. -/
def getF (c : Cfg) (seq : Nat) (s : St) : Except Bad (Node × Buf) := get c.times s.first (some s.last) seq s.fwd

/-- `PacketGet` for a packet back: new records get the time the schedule has reached (`endnum`). -/
def getB (c : Cfg) (seq : Nat) (s : St) : Except Bad (Node × Buf) := get (fun _ => c.times (s.fwd.next - 1)) s.first none seq s.bck

/-- Whether the packet that leaves a buffer is in a skip range (stats.c:957-970): the new `iskip`, and the answer. -/
def atSkip (c : Cfg) (n : Node) (i : Nat) : Nat × Bool :=
  let i := skipPast c.skips n.seq c.skips.length i
  (i, (c.skips[i]?).any (fun k => decide (n.seq ≥ k.first.toNat)))

/-- What follows the statistics in `PacketBeginFlush` (stats.c:987-1000), the first node `n` and the others given: whether to go on, and the buffer.
`PacketFree` comes last. -/
def shift (fetch : Nat → Except Bad (Node × Buf)) (last : Nat) (n : Node) (rest : List Node) (b : Buf) : Except Bad (Bool × Buf) :=
  match rest with
  | _ :: _ => .ok (true, { b with nodes := rest, free := n.assoc :: b.free })
  | [] =>
    if n.seq + 1 < last then
      match fetch (n.seq + 1) with
      | .error x => .error x
      | .ok (_, b') => .ok (true, { b' with nodes := b'.nodes.tail, free := n.assoc :: b'.free })
    else .ok (false, { b with nodes := [], free := n.assoc :: b.free })

/-- `PacketBeginFlush` (stats.c:939-1003) for the packets out. -/
def flushF (c : Cfg) (s : St) : Except Bad (Bool × St) :=
  match s.fwd.nodes with
  | [] => .ok (false, s)
  | n :: rest =>
    let k := atSkip c n s.iskip
    let s := { s with iskip := k.1, endTime := n.sched
                      lost := if !k.2 && n.lost then (s.lost + 1) % 2 ^ 32 else s.lost
                      dupsF := if !k.2 && !n.lost && n.seen ≠ 0 then (s.dupsF + (n.seen - 1)) % 2 ^ 32 else s.dupsF }
    match shift (fun q => getF c q s) s.last n rest s.fwd with
    | .error x => .error x
    | .ok (g, b) => .ok (g, { s with fwd := b })

/-- `PacketBeginFlush` (stats.c:939-1003) for the packets back; one that is marked as lost would fail the assertion of line 976. -/
def flushB (c : Cfg) (s : St) : Except Bad (Bool × St) :=
  match s.bck.nodes with
  | [] => .ok (false, s)
  | n :: rest =>
    let k := atSkip c n s.iskip
    if !k.2 && n.lost then .error .stuck
    else
      let s := { s with iskip := k.1, endTime := n.sched
                        dupsB := if !k.2 && n.seen ≠ 0 then (s.dupsB + (n.seen - 1)) % 2 ^ 32 else s.dupsB }
      match shift (fun q => getB c q s) s.last n rest s.bck with
      | .error x => .error x
      | .ok (g, b) => .ok (g, { s with bck := b })

/-- The loops of `IterateSummarizeTWSession` that flush (stats.c:1292-1332): while `p` holds; a flush that says no ends the callback with an error. The first
argument bounds the turns and is never the reason for ending. -/
def flushWhile (flush : St → Except Bad (Bool × St)) (p : St → Bool) : Nat → St → Except Bad St
  | 0, _ => .error .stuck
  | n + 1, s =>
    if p s then
      match flush s with
      | .error x => .error x
      | .ok (false, _) => .error .refused
      | .ok (true, s') => flushWhile flush p n s'
    else .ok s

/-- `OWPIsLostRecord` on the way out (api.c:3742-3748). -/
def isLost (r : TWDataRec) : Bool := r.sent.recv.owptime = 0

/-- Whether the first packet out is to be flushed before record `r` (stats.c:1293-1322). An empty buffer is a NULL pointer only after an
error. -/
def early (c : Cfg) (r : TWDataRec) (s : St) : Bool :=
  match s.fwd.nodes with
  | [] => false
  | n :: _ =>
    if isLost r then decide (n.seq < r.sent.seq.toNat)
    else decide (n.sched < sub r.sent.send.owptime.toNat c.timeout.toNat)

/-- Whether the first packet back is to be flushed (stats.c:1329). -/
def behind (s : St) : Bool :=
  match s.fwd.nodes, s.bck.nodes with
  | f :: _, b :: _ => decide (f.assoc > b.seq)
  | _, _ => false

/-- Replacing the record of a packet in the buffer. -/
def setNode (n : Node) (b : Buf) : Buf := { b with nodes := b.nodes.map fun m => if m.seq = n.seq then n else m }

/-- The record of a lost packet (stats.c:1352-1392). -/
def addLost (r : TWDataRec) (n : Node) (s : St) : Except Bad St :=
  if n.seen ≠ 0 then .error .refused
  else
    .ok { s with fwd := setNode { n with lost := true } s.fwd
                 sent := (s.sent + 1) % 2 ^ 32
                 sync := s.sync && r.sent.recv.sync
                 maxerr := s.maxerr.map fun e => Nat.max e (stampError r.sent.recv) }

/-- The four delays of a reply (stats.c:1451-1467): round trip without the reflector's time, out, back, processing. -/
def delays (c : Cfg) (r : TWDataRec) : List Int :=
  [c.delay r.sent.send r.reflected.recv - c.delay r.sent.recv r.reflected.send, c.delay r.sent.send r.sent.recv,
    c.delay r.reflected.send r.reflected.recv, c.delay r.sent.recv r.reflected.send]

/-- The errors of the three delays (stats.c:1472-1487), as exact sums. -/
def errors (r : TWDataRec) : List Nat :=
  [stampError r.sent.send + stampError r.reflected.recv + stampError r.reflected.send + stampError r.sent.recv,
    stampError r.sent.send + stampError r.sent.recv, stampError r.reflected.send + stampError r.reflected.recv]

/-- The figures taken from every reply, and for the first reply to a packet also the histograms and TTLs (stats.c:1447-1552). -/
def figures (c : Cfg) (r : TWDataRec) (dup : Bool) (s : St) : St :=
  let d := delays c r
  let s := { s with offset := s.offset || decide (d.getD 1 0 < 0) || decide (d.getD 2 0 < 0)
                    min := List.zipWith (fun m x => if m < x then m else x) s.min d
                    max := List.zipWith (fun m x => if m > x then m else x) s.max d
                    maxerr := List.zipWith Nat.max s.maxerr (errors r) }
  if dup then s
  else
    { s with hist := bump (c.bucket (d.getD 0 0)) s.hist
             histF := bump (c.bucket (d.getD 1 0)) s.histF
             histB := bump (c.bucket (d.getD 2 0)) s.histB
             ttlF := s.ttlF.set r.sent.ttl.toNat (s.ttlF.getD r.sent.ttl.toNat 0 + 1)
             ttlB := s.ttlB.set r.reflected.ttl.toNat (s.ttlB.getD r.reflected.ttl.toNat 0 + 1) }

/-- The record of a reply (stats.c:1393-1445 and on). `n` is the packet's node. -/
def addGot (c : Cfg) (r : TWDataRec) (n : Node) (s : St) : Except Bad St :=
  if n.lost then .error .refused
  else
    match getB c r.reflected.seq.toNat s with
    | .error x => .error x
    | .ok (m, b) =>
      if m.seen ≠ 0 ∧ m.assoc ≠ r.sent.seq.toNat then .error .refused
      else
        let m := { m with assoc := r.sent.seq.toNat, seen := (m.seen + 1) % 2 ^ 32 }
        let n' := if n.seen = 0 then { n with seen := 1, assoc := r.reflected.seq.toNat }
          else if n.assoc ≠ r.reflected.seq.toNat ∧ m.seen = 1 then { n with seen := (n.seen + 1) % 2 ^ 32 }
          else n
        .ok (figures c r (decide (n'.seen > 1) || decide (m.seen > 1))
          { s with sent := if n.seen = 0 then (s.sent + 1) % 2 ^ 32 else s.sent, fwd := setNode n' s.fwd, bck := setNode m b })

/-- `IterateSummarizeTWSession` (stats.c:1238-1554). The number of turns of the last flush loop is at most that of the nodes. -/
def process (c : Cfg) (s : St) (r : TWDataRec) : Except Bad St :=
  let seq := r.sent.seq.toNat
  let s := { s with nextOset := if s.nextOset = 0 ∧ seq ≥ s.last then s.beginOset + s.i * c.recSize else s.nextOset
                    i := s.i + 1 }
  if seq < s.first ∨ seq ≥ s.last then .ok s
  else
    match flushWhile (flushF c) (early c r) (s.last + 2) s with
    | .error x => .error x
    | .ok s =>
      match flushWhile (flushB c) behind (s.bck.nodes.length + s.last + 2) s with
      | .error x => .error x
      | .ok s =>
        match getF c seq s with
        | .error x => .error x
        | .ok (n, b) =>
          let s := { s with fwd := b }
          if isLost r then addLost r n s else addGot c r n s

/-- The callback over the records of the file, in order, up to the first error (`OWPParseTWRecords`; its reading of the file is `File.parseTWRecords`). -/
def processAll (c : Cfg) : St → List TWDataRec → Except Bad St
  | s, [] => .ok s
  | s, r :: rs =>
    match process c s r with
    | .error x => .error x
    | .ok s' => processAll c s' rs

/-- The start of `OWPStatsParse` (stats.c:1632-1771) with a fresh object. -/
def start (c : Cfg) (oset first last : Nat) : Except Bad St :=
  let last := if last = 2 ^ 32 - 1 then c.npackets.toNat else last
  if first > last ∨ last > c.npackets.toNat then .error .refused
  else
    .ok { fwd := ⟨[⟨first, c.times first, 0, false, 0⟩], first + 1, []⟩
          bck := ⟨[⟨first, c.times first, 0, false, 0⟩], first + 1, []⟩
          first := first, last := last, iskip := 0, i := 0
          beginOset := Nat.max oset c.osetData, nextOset := 0
          startTime := c.times first, endTime := 0
          sent := 0, lost := 0, dupsF := 0, dupsB := 0
          hist := [], histF := [], histB := [], ttlF := List.replicate 256 0, ttlB := List.replicate 256 0
          min := List.replicate 4 c.inf, max := List.replicate 4 (-c.inf), offset := false, sync := true, maxerr := List.replicate 3 0 }

/-- `while(pbegin && PacketBeginFlush(stats,type))` (stats.c:1806-1808); the first argument bounds the turns. -/
def flushAll (flush : St → Except Bad (Bool × St)) : Nat → St → Except Bad St
  | 0, _ => .error .stuck
  | n + 1, s =>
    match flush s with
    | .error x => .error x
    | .ok (true, s') => flushAll flush n s'
    | .ok (false, s') => .ok s'

/-- `OWPStatsParse` (stats.c:1618-1840) with the records `rs` from `oset` on. -/
def parse (c : Cfg) (rs : List TWDataRec) (oset first last : Nat) : Except Bad St :=
  match start c oset first last with
  | .error x => .error x
  | .ok s =>
    match processAll c s rs with
    | .error x => .error x
    | .ok s =>
      match flushAll (flushF c) (s.last + 2) s with
      | .error x => .error x
      | .ok s => flushAll (flushB c) (s.bck.nodes.length + s.last + 2) s

/-- `BucketBufferSortPercentile` (stats.c:1587-1616) for one of the three delays. -/
def percentile (mul : Rat → Nat → Rat) (s : St) (h : List (Int × Nat)) (alpha : Rat) : Option Int :=
  Stats.percentileLoop (mul alpha s.sent) 0 (Stats.sorted h)

end Owamp.TwStats
