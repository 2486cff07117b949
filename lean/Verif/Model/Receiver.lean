import Verif.Model.Sender
/-!
# Model of `run_receiver`, `flush_lost`, `get_node` and `alloc_node` (`owamp/endpoint.c`), one-way sessions

The receiver process is driven by `Arrival`s: what each system call of one turn of the loop returns and which signal
flag is found set at each place the loop tests them. The list `begin` … `end` of `OWPLostPacket` nodes together with the
hash table that indexes it by sequence number is a list of nodes; looking a number up in the hash is finding it in the list. Not
modelled: allocation failure, the address look-ups at the start, the wake-up timer's value (when a wake-up comes is arbitrary), logging.
-/
namespace Owamp.Recv
open Owamp.Num64 Owamp.Time Owamp.Pkt Owamp.Ctl Owamp.Codec
open Owamp.Sender (Reading)

/-- Fixed data of a receiver. `write recs r` is whether the file system accepts record `r` after `recs`. -/
structure Cfg where
  H : Mac
  E : Bytes → Bytes → Bytes
  fmt : Fmt
  ep : Ep
  remote : Bytes
  len : Nat
  start : U64
  timeout : U64
  npackets : U32
  write : List DataRec → DataRec → Bool

/-- `OWPLostPacketRec` (owampP.h:231-244) without its links. -/
structure Node where
  seq : Nat
  hit : Bool
  relative : Nat
  absolute : TimeParts
deriving DecidableEq, Repr

/-- A record in the data file. `now` (history, not in the file) is the process's current time when it was written. -/
structure Entry where
  data : DataRec
  now : TimeParts
deriving DecidableEq, Repr

/-- Running, ended at `test_over`, ended at `error`. -/
inductive Status where
  | running | over | failed
deriving DecidableEq, Repr

/-- The variables of `run_receiver`; `q` is the list from `ep->begin` to `ep->end`, empty when they are NULL; `stamp` is
`datarec.recv`; `last` is `lasterror`. -/
structure St where
  status : Status
  ctx : Sched.Ctx
  q : List Node
  entries : List Entry
  stamp : TimeStamp
  last : Nat
deriving DecidableEq, Repr

/-- The scheduled time of a node as a `timespec` (endpoint.c:1772-1776, 2250-2253). -/
def absOf (c : Cfg) (rel : Nat) : TimeParts :=
  timestampToTimespec ⟨BitVec.ofNat 64 (add rel c.start.toNat), false, 0, 0⟩

/-- The loop of `get_node` that appends `n` nodes (endpoint.c:1764-1779), with `alloc_node`'s check of the number
(1673-1678); `none` is a NULL dereference or a schedule fault. -/
def grow (c : Cfg) : Nat → List Node → Sched.Ctx → Option (List Node × Sched.Ctx)
  | 0, q, ctx => some (q, ctx)
  | n + 1, q, ctx =>
    match q.getLast? with
    | none => none
    | some e =>
      if e.seq + 1 ≥ c.npackets.toNat then none
      else
        let d := Sched.nextDelta c.E ctx
        match d.1 with
        | .error _ => none
        | .ok delta =>
          let r := add e.relative delta
          grow c n (q ++ [⟨e.seq + 1, false, r, absOf c r⟩]) d.2

/-- `get_node` (endpoint.c:1742-1807) as far as it changes the list: extends it up to `seq` if it ends before. -/
def reach (c : Cfg) (seq : Nat) (q : List Node) (ctx : Sched.Ctx) : Option (List Node × Sched.Ctx) :=
  match q.getLast? with
  | none => none
  | some e => if seq > e.seq then grow c (seq - e.seq) q ctx else some (q, ctx)

/-- The record written for a lost packet (endpoint.c:2013-2032). -/
def lostRec (c : Cfg) (b : Node) (errest : TimeStamp) : DataRec :=
  { seq := BitVec.ofNat 32 b.seq
    send := ⟨BitVec.ofNat 64 (add c.start.toNat b.relative), false, 1, 64⟩
    recv := { errest with owptime := BitVec.ofNat 64 (ulongToNum64 0) }
    ttl := 255 }

/-- `OWPWriteDataRecord` (api.c:3078-3103): encoding, then `fwrite`. -/
def writeRec (c : Cfg) (r : DataRec) (now : TimeParts) (s : St) : Option St :=
  if (encodeDataRec r).isSome && c.write (s.entries.map (·.data)) r then some { s with entries := s.entries ++ [⟨r, now⟩] }
  else none

/-- Results of `flush_lost`: 0, 1, -1. `stuck` stands for undefined behaviour. -/
inductive Flushed where
  | more | over | error | stuck
deriving DecidableEq, Repr

/-- Removing the front of the queue (endpoint.c:2072-2086): `none` is undefined behaviour, an empty queue the end of the
test. -/
def pop (c : Cfg) (b : Node) (rest : List Node) (s : St) : Option St :=
  match rest with
  | _ :: _ => some { s with q := rest }
  | [] =>
    if (b.seq + 1) % 2 ^ 32 < c.npackets.toNat then
      (reach c (b.seq + 1) s.q s.ctx).map fun r => { s with q := r.1.tail, ctx := r.2 }
    else some { s with q := [] }

/-- The loop of `flush_lost` (endpoint.c:1941-2099). `usr2 j` is `owp_usr2` at the `j`-th place it is tested; `clock` is the
`ctime` argument, kept for the history. The first argument bounds the number of turns; it is never the reason for ending (the
number of packets suffices). -/
def flush (c : Cfg) (usr2 : Nat → Bool) (clock : TimeParts) : Nat → Nat → TimeParts → St → Flushed × St
  | 0, _, _, s => (.stuck, s)
  | n + 1, j, cur, s =>
    match s.q with
    | [] => (.stuck, s)
    | b :: rest =>
      let lost := toTimespec c.timeout.toNat
      let expect := tsAdd (tsAdd ⟨0, 0⟩ b.absolute) lost
      let cur := if usr2 j then tsAdd (tsAdd ⟨0, 0⟩ expect) lost else cur
      if tsLt expect cur then
        match (if b.hit then some s else writeRec c (lostRec c b s.stamp) clock s) with
        | none => (.error, s)
        | some s1 =>
          match pop c b rest s1 with
          | none => (.stuck, s1)
          | some s2 => if s2.q = [] then (.over, s2) else flush c usr2 clock n (j + 1) cur s2
      else (.more, s)

/-- A signal flag where the loop tests them (`owp_int` first, then `owp_usr2`). -/
inductive Sig where
  | none | int | usr2
deriving DecidableEq, Repr

/-- What `recvfromttl` gives. `dgram`: a datagram and its TTL, with whether the (stale) `errno` is `EINTR`; `fail`: an error,
with whether `errno` is `EINTR`. -/
inductive Got where
  | dgram (peer bytes : Bytes) (ttl : Byte) (eintr : Bool)
  | fail (eintr : Bool)
deriving DecidableEq, Repr

/-- One turn of the loop: `timer` is success of `setitimer`; `sig1` … `sig4` the flags at the four tests; `usr2` the flag inside
`flush_lost`. -/
structure Arrival where
  timer : Bool
  sig1 : Sig
  got : Got
  sig2 : Sig
  clock : Option Reading
  sig3 : Sig
  usr2 : Nat → Bool
  sig4 : Sig

def Sig.then (g : Sig) (s : St) (k : St → St) : St :=
  match g with
  | .int => { s with status := .failed }
  | .usr2 => { s with status := .over }
  | .none => k s

/-- The judgement of a datagram that passed the address check and the digest (endpoint.c:2456-2536): `P` is the payload with
its header in clear, `now` the current time. -/
def judge (c : Cfg) (P : Bytes) (ttl : Byte) (now : TimeParts) (s : St) : St :=
  let seq := seqOf P
  if seq.toNat ≥ c.npackets.toNat then { s with status := .failed }
  else
    match s.q with
    | [] => { s with status := .failed }
    | b :: _ =>
      if seq.toNat < b.seq then s
      else
        match reach c seq.toNat s.q s.ctx with
        | none => { s with status := .failed }
        | some r =>
          let s := { s with q := r.1, ctx := r.2 }
          match s.q.find? (fun n => n.seq = seq.toNat) with
          | none => { s with status := .failed }
          | some node =>
            let expect := (timespecToTimestamp ⟨0, false, 0, 0⟩ node.absolute none none).owptime
            let t := timeOf c.fmt P
            let e := errOf c.fmt P
            if !e.valid then { s with status := .failed }
            else if diff t.toNat s.stamp.owptime.toNat > c.timeout.toNat then s
            else if diff t.toNat expect.toNat > c.timeout.toNat then s
            else
              let s := { s with q := s.q.map fun n => if n.seq = seq.toNat then { n with hit := true } else n }
              let rec' : DataRec := { seq := seq, send := ⟨t, e.sync, e.multiplier, e.scale⟩, recv := s.stamp, ttl := ttl }
              match writeRec c rec' now s with
              | none => { s with status := .failed }
              | some s => s

/-- The peer check and the decryption (endpoint.c:2394-2454). -/
def examine (c : Cfg) (peer bytes : Bytes) (ttl : Byte) (now : TimeParts) (s : St) : St :=
  if peer ≠ c.remote then s
  else
    match openPacket c.H c.fmt c.ep bytes with
    | .wrongKey => { s with status := .failed }
    | .badDigest => s
    | .plain P => judge c P ttl now s

/-- Taking the time as `datarec.recv` and flushing (endpoint.c:2263-2281, 2361-2379). -/
def stampFlush (c : Cfg) (usr2 : Nat → Bool) (r : Reading) (s : St) : Flushed × St :=
  let s := { s with stamp := { timespecToTimestamp s.stamp r.time (some r.err) (some s.last) with sync := r.sync }
                    last := r.err }
  flush c usr2 r.time (c.npackets.toNat + 1) 0 r.time s

def afterFlush (x : Flushed × St) (k : St → St) : St :=
  match x.1 with
  | .error => { x.2 with status := .failed }
  | .stuck => { x.2 with status := .failed }
  | .over => { x.2 with status := .over }
  | .more => k x.2

/-- The datagram `recvfromttl` hands over when it fills the buffer of `len` bytes (endpoint.c:2325-2329). -/
def Got.taken (len : Nat) : Got → Option (Bytes × Bytes × Byte)
  | .dgram peer bytes ttl _ => if bytes.length ≥ len then some (peer, bytes.take len, ttl) else none
  | .fail _ => none

/-- Whether `errno` is `EINTR` when the size is tested (endpoint.c:2330). -/
def Got.eintr : Got → Bool
  | .dgram _ _ _ e => e
  | .fail e => e

/-- One turn of the receive loop (endpoint.c:2283-2537). A datagram longer than the payload is cut to it by `recvmsg`; a shorter
one is an error unless `errno` happens to be `EINTR`. -/
def turn (c : Cfg) (a : Arrival) (s : St) : St :=
  if !a.timer then { s with status := .failed }
  else
    a.sig1.then s fun s =>
      let good := a.got.taken c.len
      if good.isNone && !a.got.eintr then { s with status := .failed }
      else
        a.sig2.then s fun s =>
          match a.clock with
          | none => { s with status := .failed }
          | some r =>
            a.sig3.then s fun s =>
              afterFlush (stampFlush c a.usr2 r s) fun s =>
                a.sig4.then s fun s =>
                  match good with
                  | none => s
                  | some (peer, bytes, ttl) => examine c peer bytes ttl r.time s

def step (c : Cfg) (s : St) (a : Arrival) : St := if s.status = .running then turn c a s else s

def run (c : Cfg) (s : St) (as : List Arrival) : St := as.foldl (step c) s

/-- The first clock reading and the flush at it (endpoint.c:2256-2275). -/
def firstFlush (c : Cfg) (clock : Option Reading) (usr2 : Nat → Bool) (s : St) : St :=
  match clock with
  | none => { s with status := .failed }
  | some r => afterFlush (stampFlush c usr2 r s) id

/-- `run_receiver` up to its loop (endpoint.c:2228-2281). `stamp` is the uninitialised `datarec.recv`. -/
def init (c : Cfg) (ctx : Sched.Ctx) (clock : Option Reading) (usr2 : Nat → Bool) (stamp : TimeStamp) : St :=
  let r := Sched.reset ctx none
  let s : St := { status := .running, ctx := r.2, q := [], entries := [], stamp := stamp, last := 0 }
  if !r.1 || c.npackets.toNat = 0 then { s with status := .failed }
  else
    let d := Sched.nextDelta c.E s.ctx
    match d.1 with
    | .error _ => { s with status := .failed }
    | .ok rel =>
      let s := { s with ctx := d.2, q := [⟨0, false, rel, absOf c rel⟩] }
      firstFlush c clock usr2 s

/-- What the exits of `run_receiver` leave (endpoint.c:2539-2574): the finished word of the file header (2 = incomplete, 0 = error),
whether the results survive (an error removes the file when it was opened by the application's hook under a name), and whether the process reports success. -/
def ended (s : St) (named : Bool) : Option (U32 × Bool × Bool) :=
  match s.status with
  | .running => none
  | .over => some (2, true, true)
  | .failed => some (0, !named, false)

end Owamp.Recv
