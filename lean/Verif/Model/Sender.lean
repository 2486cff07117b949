import Verif.Model.Packet
import Verif.Model.Schedule
import Verif.Model.Codec
/-!
# Model of `run_sender` and `skip` (`owamp/endpoint.c`)

The sender process is a state machine driven by what the system calls return: each `Tick` gives the signal
flags at the two places the loop tests them, the clock reading, the outcome of `sendto` and of `nanosleep`. A run is a fold
over a list of ticks, so theorems quantify over every clock, signal and error behaviour. Not modelled: allocation
failure in `skip`, `getnameinfo`, logging.
-/
namespace Owamp.Sender
open Owamp.Num64 Owamp.Time Owamp.Pkt Owamp.Ctl Owamp.Codec

/-- One successful `_OWPGetTimespec`: the time, the error estimate in microseconds, the sync flag. -/
structure Reading where
  time : TimeParts
  err : Nat
  sync : Bool
deriving DecidableEq, Repr

/-- Outcome of `sendto` (endpoint.c:1501-1528): sent, `ENOBUFS`, one of the fatal errors, any other error. -/
inductive SendRes where
  | ok | nobufs | fatal | other
deriving DecidableEq, Repr

/-- What one turn of the loop meets. `stop1`: `owp_int || owp_usr2` where the turn starts (1421, 1562); `clock`: the clock,
`none` if it cannot be read; `stop2`: the flags again just before `sendto` (1497); `slept`: `nanosleep` returned 0;
`intr`: otherwise `errno` is `EINTR`. -/
structure Tick where
  stop1 : Bool
  clock : Option Reading
  stop2 : Bool
  send : SendRes
  slept : Bool
  intr : Bool
deriving DecidableEq, Repr

/-- Fixed data of a sender: endpoint and test specification fields. `pad i` is the random padding of packet `i`. -/
structure Cfg where
  H : Mac
  E : Bytes → Bytes → Bytes
  fmt : Fmt
  ep : Ep
  start : TimeParts
  timeout : U64
  enddelay : TimeParts
  npackets : U32
  pad : Nat → Bytes

/-- Where the process is: in the send loop, waiting after the last packet, at `finish_sender`, or exited with
failure. -/
inductive Phase where
  | sending | linger | finish | dead
deriving DecidableEq, Repr

/-- A call of `sendto`: sequence number, the clock reading that allowed it, the bytes, the outcome. -/
structure Call where
  seq : Nat
  time : TimeParts
  bytes : Bytes
  res : SendRes
deriving DecidableEq, Repr

/-- The variables of `run_sender`. `calls` is the history of `sendto`. -/
structure St where
  phase : Phase
  i : Nat
  ctx : Sched.Ctx
  off : Nat
  next : TimeParts
  skips : List Skip
  stamp : TimeStamp
  last : Nat
  buf : Bytes
  calls : List Call
deriving DecidableEq, Repr

/-- `skip` (endpoint.c:1142-1199): extends the last range or appends one. `sr.end + 1` is a `uint32_t`. -/
def skip (l : List Skip) (seq : U32) : List Skip :=
  match l.getLast? with
  | some t => if t.last + 1 = seq then l.dropLast ++ [{ t with last := seq }] else l ++ [⟨seq, seq⟩]
  | none => l ++ [⟨seq, seq⟩]

/-- The top of the send loop (endpoint.c:1382-1390): the time of packet `i`. A schedule fault ends the model's run. -/
def prep (c : Cfg) (s : St) : St :=
  let d := Sched.nextDelta c.E s.ctx
  match d.1 with
  | .error _ => { s with ctx := d.2, phase := .dead }
  | .ok delta =>
    let off := add s.off delta
    { s with ctx := d.2, off := off, next := tsAdd (toTimespec off) c.start, phase := .sending }

/-- `i++` and the loop condition (endpoint.c:1530-1548). `i` is a `uint32_t`. -/
def advance (c : Cfg) (s : St) : St :=
  let s := { s with i := (s.i + 1) % 2 ^ 32 }
  if s.i < c.npackets.toNat then prep c s else { s with phase := .linger }

/-- `run_sender` up to the first turn of its loop (endpoint.c:1357-1390). `buf` is the calloc'ed payload, `stamp` the uninitialised
`owptstamp`. -/
def init (c : Cfg) (ctx : Sched.Ctx) (buf : Bytes) (stamp : TimeStamp) : St :=
  let r := Sched.reset ctx none
  let s : St := { phase := .dead, i := 0, ctx := r.2, off := ulongToNum64 0, next := ⟨0, 0⟩, skips := [], stamp := stamp,
                  last := 0, buf := buf, calls := [] }
  if r.1 then prep c s else s

/-- Stamping and sending a packet (endpoint.c:1447-1530). -/
def transmit (c : Cfg) (t : Tick) (r : Reading) (s : St) : St :=
  let st := { timespecToTimestamp s.stamp r.time (some r.err) (some s.last) with sync := r.sync }
  match sendPacket c.H c.fmt c.ep s.buf (c.pad s.i) (BitVec.ofNat 32 s.i) st with
  | none => { s with phase := .dead }
  | some pkt =>
    let s := { s with stamp := st, last := r.err, buf := pkt }
    if t.stop2 then { s with phase := .finish }
    else
      let s := { s with calls := s.calls ++ [⟨s.i, r.time, pkt, t.send⟩] }
      match t.send with
      | .nobufs => s
      | .fatal => { s with phase := .dead }
      | _ => advance c s

/-- One turn from `AGAIN` in the send loop (endpoint.c:1420-1546). -/
def turn (c : Cfg) (t : Tick) (s : St) : St :=
  if t.stop1 then { s with phase := .finish }
  else
    match t.clock with
    | none => { s with phase := .dead }
    | some r =>
      if tsGt r.time s.next then
        if tsGt r.time (tsAdd (toTimespec c.timeout.toNat) s.next) then
          advance c { s with skips := skip s.skips (BitVec.ofNat 32 s.i) }
        else transmit c t r s
      else if t.slept || t.intr then s
      else { s with phase := .dead }

/-- One turn of the wait after the last packet (endpoint.c:1558-1588). -/
def lingerTurn (c : Cfg) (t : Tick) (s : St) : St :=
  let late := tsAdd (tsAdd (toTimespec c.timeout.toNat) s.next) c.enddelay
  if t.stop1 then { s with phase := .finish }
  else
    match t.clock with
    | none => { s with phase := .dead }
    | some r =>
      if tsLt late r.time then { s with phase := .finish }
      else if t.slept then { s with phase := .finish }
      else if t.intr then s
      else { s with phase := .dead }

def step (c : Cfg) (s : St) (t : Tick) : St :=
  match s.phase with
  | .sending => turn c t s
  | .linger => lingerTurn c t s
  | _ => s

def run (c : Cfg) (s : St) (ts : List Tick) : St := ts.foldl (step c) s

/-- `finish_sender` (endpoint.c:1590-1659): with `owp_int` set the process fails; otherwise it writes the next sequence number, the
number of ranges and the ranges. `ok` is whether every `I2Writeni` succeeds. Returns the exit status and, on success, the contents of
the skip file. -/
def finish (s : St) (int ok : Bool) : Option Bytes :=
  if int then none
  else if ok then
    some (enc32 (BitVec.ofNat 32 s.i) ++ enc32 (BitVec.ofNat 32 s.skips.length) ++ (s.skips.map encodeSkip).flatten)
  else none

end Owamp.Sender
