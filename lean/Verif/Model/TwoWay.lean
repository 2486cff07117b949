import Verif.Model.Receiver
/-!
# Model of `run_tw_test` (`owamp/endpoint.c`), the sending side of a two-way session

The process sends the packets of its schedule and, in the gaps, receives the replies of the reflector and records them. It is driven by
`Tick`s: what each system call of one pass from `AGAIN` or from `RECEIVE` returns and which signal flags are found set.
The list `begin` … `end` of nodes with its hash table is a list, as in `Model/Receiver.lean`. `flush_rc` is not
initialised: it is an `Option`, and reading it without a value is undefined behaviour. Not modelled: allocation failure, the address look-ups and the
writing of the file header at the start, the value given to the wake-up timer (when a wake-up comes is arbitrary), logging.
-/
namespace Owamp.TwoWay
open Owamp.Num64 Owamp.Time Owamp.Pkt Owamp.Ctl Owamp.Codec
open Owamp.Sender (Reading)
open Owamp.Recv (Got Flushed)

/-- Fixed data: `start` is `test_spec.start_time`, `begin` is `ep->start`; `pad i` the random padding of packet `i`; `write` as in
`Recv.Cfg`. -/
structure Cfg where
  H : Mac
  E : Bytes → Bytes → Bytes
  fmt : Fmt
  ep : Ep
  len : Nat
  start : U64
  begin : TimeParts
  timeout : U64
  npackets : U32
  pad : Nat → Bytes
  write : List TWDataRec → TWDataRec → Bool

/-- `OWPLostPacketRec` (owampP.h:231-244) without its links. -/
structure Node where
  seq : Nat
  hit : Bool
  sent : Bool
  relative : Nat
  absolute : TimeParts
deriving DecidableEq, Repr

/-- A record in the data file, with the current time when it was written (history). -/
structure Entry where
  data : TWDataRec
  now : TimeParts
deriving DecidableEq, Repr

/-- Outcome of `sendto` (endpoint.c:3424-3455): sent, `ENOBUFS`, a fatal error, `EINTR`, any other error. -/
inductive SendRes where
  | ok | nobufs | fatal | intr | other
deriving DecidableEq, Repr

/-- A call of `sendto` (history): sequence number, the clock reading that allowed it, the bytes, the outcome. -/
structure Call where
  seq : Nat
  time : TimeParts
  bytes : Bytes
  res : SendRes
deriving DecidableEq, Repr

/-- Where the process is: at `AGAIN`, at `RECEIVE`, at `finish_sender`; ended with the results marked as normal, ended with them marked as an
error, exited without touching them; undefined behaviour. -/
inductive Phase where
  | sending | receiving | finish | normal | error | dead | undef
deriving DecidableEq, Repr

/-- The variables of `run_tw_test`. `cur` is `currtime`, `next` is `nexttime`, `stamp` is `owptstamp`, `rtime` is
`twdatarec.reflected.recv`, `rc` is `flush_rc`, `buf` the first `len_payload` bytes of the payload. `calls` is the history of `sendto`,
`missed` that of the packets that were not sent because they were late. -/
structure St where
  phase : Phase
  i : Nat
  ctx : Sched.Ctx
  q : List Node
  cur : TimeParts
  next : TimeParts
  stamp : TimeStamp
  last : Nat
  rtime : TimeStamp
  rc : Option Nat
  buf : Bytes
  entries : List Entry
  calls : List Call
  missed : List Nat
deriving DecidableEq, Repr

/-- What one pass meets. From `AGAIN`: `stop1` is `owp_int || owp_usr2` there (3335), `clock`, `stop2` the flags before `sendto` (3420),
`send`, `slept` and `intr` the result of `nanosleep`. From `RECEIVE`: `stop1` (3460), `timer1` success of the first
`setitimer` (3494), `got` the result of `recvfromttl`, `left` what the payload holds afterwards, `stop2` (3522), `clock`, `timer2` success of the
second `setitimer` (3546), `usr2` the flag inside `flush_lost`. -/
structure Tick where
  stop1 : Bool
  clock : Option Reading
  stop2 : Bool
  send : SendRes
  slept : Bool
  intr : Bool
  timer1 : Bool
  got : Got
  left : Bytes
  timer2 : Bool
  usr2 : Nat → Bool

/-- The time `ep->start` plus a node's offset (endpoint.c:3303-3304, 3472-3473). -/
def dueAt (c : Cfg) (rel : Nat) : TimeParts := tsAdd (toTimespec rel) c.begin

/-- The scheduled time of a node as `alloc`ed (endpoint.c:1772-1776, 3279-3282). -/
def absOf (c : Cfg) (rel : Nat) : TimeParts :=
  timestampToTimespec ⟨BitVec.ofNat 64 (add rel c.start.toNat), false, 0, 0⟩

/-- The loop of `get_node` that appends `n` nodes (endpoint.c:1764-1779) with `alloc_node` (1673-1715); `none` is a NULL
dereference or a schedule fault. -/
def grow (c : Cfg) : Nat → List Node → Sched.Ctx → Option (List Node × Sched.Ctx)
  | 0, q, ctx => some (q, ctx)
  | n + 1, q, ctx =>
    match q.getLast? with
    | none => none
    | some e =>
      if e.seq + 1 ≥ c.npackets.toNat then none
      else
        let d := Sched.nextDelta c.E ctx
        match d.1 with
        | .error _ => none
        | .ok delta =>
          let r := add e.relative delta
          grow c n (q ++ [⟨e.seq + 1, false, false, r, absOf c r⟩]) d.2

/-- `get_node` (endpoint.c:1742-1807) as far as it changes the list. -/
def reach (c : Cfg) (seq : Nat) (q : List Node) (ctx : Sched.Ctx) : Option (List Node × Sched.Ctx) :=
  match q.getLast? with
  | none => none
  | some e => if seq > e.seq then grow c (seq - e.seq) q ctx else some (q, ctx)

/-- The record written for a lost packet (endpoint.c:2000-2037). -/
def lostRec (c : Cfg) (b : Node) (errest : TimeStamp) : TWDataRec :=
  let none' := { errest with owptime := BitVec.ofNat 64 (ulongToNum64 0) }
  { sent := { seq := BitVec.ofNat 32 b.seq
              send := ⟨BitVec.ofNat 64 (add c.start.toNat b.relative), false, 1, 64⟩
              recv := none'
              ttl := 255 }
    reflected := { seq := 0, send := none', recv := none', ttl := 255 } }

/-- `OWPWriteTWDataRecord` (api.c:3122-3147): encoding, then `fwrite`. -/
def writeRec (c : Cfg) (r : TWDataRec) (now : TimeParts) (s : St) : Option St :=
  if (encodeTWDataRec r).isSome && c.write (s.entries.map (·.data)) r then some { s with entries := s.entries ++ [⟨r, now⟩] }
  else none

/-- Removing the front of the queue (endpoint.c:2072-2086). -/
def pop (c : Cfg) (b : Node) (rest : List Node) (s : St) : Option St :=
  match rest with
  | _ :: _ => some { s with q := rest }
  | [] =>
    if (b.seq + 1) % 2 ^ 32 < c.npackets.toNat then
      (reach c (b.seq + 1) s.q s.ctx).map fun r => { s with q := r.1.tail, ctx := r.2 }
    else some { s with q := [] }

/-- `flush_lost` (endpoint.c:1941-2099) for two-way sessions: as `Recv.flush`, but it stops at a packet that has not been sent
(1987-1993). -/
def flush (c : Cfg) (usr2 : Nat → Bool) (clock : TimeParts) : Nat → Nat → TimeParts → St → Flushed × St
  | 0, _, _, s => (.stuck, s)
  | n + 1, j, cur, s =>
    match s.q with
    | [] => (.stuck, s)
    | b :: rest =>
      let lost := toTimespec c.timeout.toNat
      let expect := tsAdd (tsAdd ⟨0, 0⟩ b.absolute) lost
      let cur := if usr2 j then tsAdd (tsAdd ⟨0, 0⟩ expect) lost else cur
      if tsLt expect cur && b.sent then
        match (if b.hit then some s else writeRec c (lostRec c b s.rtime) clock s) with
        | none => (.error, s)
        | some s1 =>
          match pop c b rest s1 with
          | none => (.stuck, s1)
          | some s2 => if s2.q = [] then (.over, s2) else flush c usr2 clock n (j + 1) cur s2
      else (.more, s)

/-- The top of the loop (endpoint.c:3300-3305): the node and the time of packet `i`. -/
def prep (c : Cfg) (s : St) : St :=
  match s.q with
  | [] => { s with phase := .undef }
  | b :: _ =>
    if s.i < b.seq then { s with phase := .finish }
    else
      match reach c s.i s.q s.ctx with
      | none => { s with phase := .undef }
      | some r =>
        let s := { s with q := r.1, ctx := r.2 }
        match s.q.find? (fun n => n.seq = s.i) with
        | none => { s with phase := .finish }
        | some n => { s with next := dueAt c n.relative, phase := .sending }

/-- `SKIP_SEND` and the loop condition (endpoint.c:3714-3734). -/
def advance (c : Cfg) (s : St) : St :=
  let s := { s with i := (s.i + 1) % 2 ^ 32 }
  if s.i < c.npackets.toNat then prep c s else { s with phase := .finish }

/-- Changing the node of packet `k`. -/
def mark (k : Nat) (f : Node → Node) (q : List Node) : List Node := q.map fun n => if n.seq = k then f n else n

/-- Stamping and sending a packet (endpoint.c:3369-3457). -/
def transmit (c : Cfg) (t : Tick) (r : Reading) (s : St) : St :=
  let st := { timespecToTimestamp s.stamp r.time (some r.err) (some s.last) with sync := r.sync }
  match sendPacket c.H c.fmt c.ep s.buf (c.pad s.i) (BitVec.ofNat 32 s.i) st with
  | none => { s with phase := .dead }
  | some pkt =>
    let s := { s with stamp := st, last := r.err, buf := pkt, cur := r.time }
    if t.stop2 then { s with phase := .finish }
    else
      let s := { s with calls := s.calls ++ [⟨s.i, r.time, pkt, t.send⟩] }
      match t.send with
      | .nobufs => s
      | .fatal => { s with phase := .dead }
      | .intr => advance c s
      | _ => { s with q := mark s.i (fun n => { n with sent := true, absolute := r.time }) s.q, phase := .receiving }

/-- One pass from `AGAIN` (endpoint.c:3334-3457, 3716-3731). A packet that is later than the timeout is marked as sent and answered. -/
def sendTurn (c : Cfg) (t : Tick) (s : St) : St :=
  if t.stop1 then { s with phase := .finish }
  else
    match t.clock with
    | none => { s with phase := .dead }
    | some r =>
      if tsGt r.time s.next then
        if tsGt r.time (tsAdd (toTimespec c.timeout.toNat) s.next) then
          advance c { s with q := mark s.i (fun n => { n with sent := true, hit := true }) s.q, cur := r.time,
                             missed := s.missed ++ [s.i] }
        else transmit c t r s
      else if t.slept || t.intr then { s with cur := r.time }
      else { s with phase := .dead }

/-- `resp_len_payload` (endpoint.c:3506-3508). -/
def respLen (c : Cfg) : Nat := c.len + (twPayloadSize c.fmt 0 - payloadSize c.fmt 0)

/-- What `recvfromttl` puts in the buffer of `respLen` bytes: the bytes and the TTL. -/
def taken (c : Cfg) : Got → Option (Bytes × Byte)
  | .dgram _ bytes ttl _ => some (bytes.take (respLen c), ttl)
  | .fail _ => none

/-- The record of a reply (endpoint.c:3629-3669). The error estimate of the reply serves for both times of the reflector. -/
def replyRec (r : Reply) (rtime : TimeStamp) (ttl : Byte) : TWDataRec :=
  { sent := { seq := r.sndSeq
              send := ⟨r.sndTime, r.sndErr.sync, r.sndErr.multiplier, r.sndErr.scale⟩
              recv := ⟨r.rcvTime, r.err.sync, r.err.multiplier, r.err.scale⟩
              ttl := r.ttl }
    reflected := { seq := r.seq
                   send := ⟨r.time, r.err.sync, r.err.multiplier, r.err.scale⟩
                   recv := rtime
                   ttl := ttl } }

/-- The judgement of an opened reply (endpoint.c:3626-3712). -/
def judge (c : Cfg) (P : Bytes) (ttl : Byte) (now : TimeParts) (s : St) : St :=
  let r := readReply c.fmt P
  if r.sndSeq.toNat > s.i then { s with phase := .finish }
  else
    match s.q with
    | [] => { s with phase := .undef }
    | b :: _ =>
      if r.sndSeq.toNat < b.seq then s
      else if !r.sndErr.valid then { s with phase := .finish }
      else if !r.err.valid then { s with phase := .finish }
      else
        match writeRec c (replyRec r s.rtime ttl) now s with
        | none => { s with phase := .finish }
        | some s =>
          match reach c r.sndSeq.toNat s.q s.ctx with
          | none => { s with phase := .undef }
          | some g => { s with q := mark r.sndSeq.toNat (fun n => { n with hit := true }) g.1, ctx := g.2 }

/-- The size check and the decryption of what was received (endpoint.c:3562-3621). There is no check of the sender's address. -/
def examine (c : Cfg) (got : Option (Bytes × Byte)) (now : TimeParts) (s : St) : St :=
  match got with
  | none => advance c s
  | some (bytes, ttl) =>
    if bytes.length < twPayloadSize c.fmt 0 then advance c s
    else
      match openReply c.H c.fmt c.ep bytes with
      | .plain P => judge c P ttl now s
      | _ => advance c s

/-- Taking the time as that of the reply and flushing (endpoint.c:3535-3554, 3745-3752). -/
def stampFlush (c : Cfg) (usr2 : Nat → Bool) (r : Reading) (s : St) : Flushed × St :=
  let s := { s with rtime := { timespecToTimestamp s.rtime r.time (some r.err) none with sync := r.sync }, cur := r.time }
  flush c usr2 r.time (c.npackets.toNat + 1) 0 r.time s

/-- From `RECEIVE` when the wait is set up (endpoint.c:3494-3712). -/
def receive (c : Cfg) (t : Tick) (s : St) : St :=
  if !t.timer1 then { s with phase := .finish }
  else
    let got := taken c t.got
    if got.all (fun g => g.1.length ≠ respLen c) && !t.got.eintr then { s with phase := .finish }
    else
      let s := { s with buf := (t.left ++ s.buf).take s.buf.length }
      if t.stop2 then { s with phase := .finish }
      else
        match t.clock with
        | none => { s with phase := .finish }
        | some r =>
          if !t.timer2 then
            { s with phase := .finish, cur := r.time
                     rtime := { timespecToTimestamp s.rtime r.time (some r.err) none with sync := r.sync } }
          else
            let x := stampFlush c t.usr2 r s
            match x.1 with
            | .error => { x.2 with phase := .error }
            | .stuck => { x.2 with phase := .undef }
            | .over => { x.2 with phase := .finish, rc := some 1 }
            | .more => examine c got r.time { x.2 with rc := some 0 }

/-- One pass from `RECEIVE` (endpoint.c:3459-3712): nothing is received when the next packet is due within a millisecond. -/
def recvTurn (c : Cfg) (t : Tick) (s : St) : St :=
  if t.stop1 then { s with phase := .finish }
  else if s.i < c.npackets.toNat - 1 then
    match reach c (s.i + 1) s.q s.ctx with
    | none => { s with phase := .undef }
    | some g =>
      match g.1.find? (fun n => n.seq = s.i + 1) with
      | none => { s with phase := .undef }
      | some n =>
        let s := { s with q := g.1, ctx := g.2, next := dueAt c n.relative }
        let d := tsSub s.next s.cur
        if tsLt s.next s.cur then advance c s
        else if d.sec = 0 && d.sub < 1000000 then advance c s
        else receive c t s
  else receive c t s

def step (c : Cfg) (s : St) (t : Tick) : St :=
  match s.phase with
  | .sending => sendTurn c t s
  | .receiving => recvTurn c t s
  | _ => s

def run (c : Cfg) (s : St) (ts : List Tick) : St := ts.foldl (step c) s

/-- `run_tw_test` up to the first pass of its loop (endpoint.c:3256-3305). `stamp` and `rtime` are uninitialised. -/
def init (c : Cfg) (ctx : Sched.Ctx) (buf : Bytes) (stamp rtime : TimeStamp) : St :=
  let r := Sched.reset ctx none
  let s : St := { phase := .dead, i := 0, ctx := r.2, q := [], cur := ⟨0, 0⟩, next := ⟨0, 0⟩, stamp := stamp, last := 0, rtime := rtime,
                  rc := none, buf := buf, entries := [], calls := [], missed := [] }
  if !r.1 || c.npackets.toNat = 0 then s
  else
    let d := Sched.nextDelta c.E s.ctx
    match d.1 with
    | .error _ => s
    | .ok rel => prep c { s with phase := .sending, ctx := d.2, q := [⟨0, false, false, rel, absOf c rel⟩] }

/-- What `finish_sender` meets: the clock, the stop flag inside `flush_lost`, `owp_int`. -/
structure End where
  clock : Option Reading
  usr2 : Nat → Bool
  int : Bool

/-- The end of `run_tw_test` (endpoint.c:3755-3773). -/
def close (int : Bool) (s : St) : St := { s with phase := if int then .error else .normal }

/-- `finish_sender` (endpoint.c:3736-3773). -/
def conclude (c : Cfg) (e : End) (s : St) : St :=
  match s.phase with
  | .finish =>
    match s.rc with
    | none => { s with phase := .undef }
    | some 0 =>
      match e.clock with
      | none => close e.int s
      | some r =>
        let x := stampFlush c e.usr2 r s
        match x.1 with
        | .error => { x.2 with phase := .error }
        | .stuck => { x.2 with phase := .undef }
        | _ => close e.int x.2
    | some _ => close e.int s
  | _ => s

/-- The finished word of the results (1 normal, 0 error, 2 left as written at the start) and whether the process reports success. -/
def ended (s : St) : Option (U32 × Bool) :=
  match s.phase with
  | .normal => some (1, true)
  | .error => some (0, false)
  | .dead => some (2, false)
  | _ => none

end Owamp.TwoWay
