import Verif.Model.TwoWay
/-!
# Model of `run_reflector` (`owamp/endpoint.c`), the server's side of a two-way session

The process is driven by `Pass`es: what each system call of one turn of the loop returns and which signal flags are found set. Not modelled: the address
look-ups at the start, the first clock reading (which is not used), the value of the REFWAIT timer (when the alarm comes is arbitrary), logging.
-/
namespace Owamp.Refl
open Owamp.Num64 Owamp.Time Owamp.Pkt Owamp.Ctl
open Owamp.Sender (Reading)
open Owamp.Recv (Got Sig)
open Owamp.TwoWay (SendRes)

/-- Fixed data: `remote` is the address replies go to and packets must come from, `len` is `ep->len_payload`. -/
structure Cfg where
  H : Mac
  fmt : Fmt
  ep : Ep
  remote : Bytes
  len : Nat

/-- A call of `sendto` (history): the number put in the reply, the bytes received, the `len_payload` bytes of the buffer
that were opened, the TTL and the clock reading at the arrival, the address, the clock reading for the reply, the bytes, the outcome. -/
structure Call where
  num : Nat
  recvd : Bytes
  packet : Bytes
  ttl : Byte
  came : TimeParts
  dest : Bytes
  time : TimeParts
  bytes : Bytes
  res : SendRes
deriving DecidableEq, Repr

/-- In the loop; ended at `test_over`; ended at `error` or by `exit` with failure; still in the loop at `RETRY`; undefined behaviour. -/
inductive Phase where
  | running | over | failed | retrying | undef
deriving DecidableEq, Repr

/-- The variables of `run_reflector`. `i` is the `int` counter, `buf` the whole payload allocation, `rstamp`/`rlast` are
`recv_tstamp`/`recv_lasterror`, `stamp`/`last` are `owptstamp`/`lasterror`. -/
structure St where
  phase : Phase
  i : Nat
  buf : Bytes
  rstamp : TimeStamp
  rlast : Nat
  stamp : TimeStamp
  last : Nat
  calls : List Call
deriving DecidableEq, Repr

/-- One attempt from `RETRY` (endpoint.c:2934-3046): the clock, `owp_int || owp_usr2` (3018), the outcome of `sendto`. -/
structure Try where
  clock : Option Reading
  stop : Bool
  send : SendRes

/-- One turn of the loop: success of the two `setitimer`s, the flags at the four tests (`sig2` is `int` also for `owp_alrm`), the result of `recvfromttl`,
the clock, the attempts to reply, and what a packet with a bad digest leaves in the buffer. -/
structure Pass where
  timer1 : Bool
  sig1 : Sig
  got : Got
  sig2 : Sig
  clock : Option Reading
  timer2 : Bool
  sig3 : Sig
  sig4 : Sig
  tries : List Try
  left : Bytes

def Sig.then (g : Sig) (s : St) (k : St → St) : St :=
  match g with
  | .int => { s with phase := .failed }
  | .usr2 => { s with phase := .over }
  | .none => k s

/-- The time stamp of a reply (endpoint.c:2943-2958). -/
def replyStamp (r : Reading) (s : St) : TimeStamp :=
  let t := { timespecToTimestamp s.stamp r.time (some r.err) (some s.last) with sync := r.sync }
  if (encodeErrEstimate t).isNone then { t with multiplier := 0xFF#8, scale := 0x3F#8, sync := false } else t

/-- `i++` (endpoint.c:3048): overflow of an `int` is undefined. -/
def count (s : St) : St := if s.i + 1 < 2 ^ 31 then { s with i := s.i + 1 } else { s with phase := .undef }

/-- The attempts to send a reply (endpoint.c:2934-3048). `buf` is the payload with the opened packet, from which the reply is made; every attempt puts in
a new time. When all of `tries` were refused for lack of buffers the process is still at it. -/
def reply (c : Cfg) (buf recvd packet : Bytes) (ttl : Byte) (came : TimeParts) (dest : Bytes) : List Try → St → St
  | [], s => { s with phase := .retrying }
  | t :: ts, s =>
    match t.clock with
    | none => { s with phase := .failed }
    | some r =>
      let now := replyStamp r s
      match reflect c.H c.fmt c.ep buf c.len (BitVec.ofNat 32 s.i) s.rstamp now ttl with
      | none => { s with phase := .failed }
      | some bytes =>
        let s := { s with stamp := now, last := r.err, buf := bytes ++ buf.drop bytes.length }
        if t.stop then { s with phase := .failed }
        else
          let s := { s with calls := s.calls ++ [⟨s.i, recvd, packet, ttl, came, dest, r.time, bytes, t.send⟩] }
          match t.send with
          | .nobufs => reply c buf recvd packet ttl came dest ts s
          | .fatal => { s with phase := .failed }
          | _ => count s

/-- The peer check and the opening of the packet (endpoint.c:2829-2908). The bytes opened are the first `len_payload` of the
buffer, whatever was received. -/
def examine (c : Cfg) (peer recvd : Bytes) (ttl : Byte) (came : TimeParts) (p : Pass) (s : St) : St :=
  if peer ≠ c.remote then s
  else
    match openPacket c.H c.fmt c.ep (s.buf.take c.len) with
    | .wrongKey => { s with phase := .failed }
    | .badDigest => { s with buf := (p.left ++ s.buf).take s.buf.length }
    | .plain P => reply c (P ++ s.buf.drop c.len) recvd (s.buf.take c.len) ttl came peer p.tries s

/-- What `recvfromttl` leaves: the address (`none` when it fails: `peer_addr` is all zero, which is no address), the bytes, the TTL; the buffer. -/
def fill (c : Cfg) (got : Got) (buf : Bytes) : Option (Bytes × Bytes × Byte) × Bytes :=
  match got with
  | .dgram peer bytes ttl _ => (some (peer, bytes.take c.len, ttl), bytes.take c.len ++ buf.drop (bytes.take c.len).length)
  | .fail _ => (none, buf)

/-- Whether `recvfromttl` returned the session's packet size (endpoint.c:2761-2765). -/
def whole (c : Cfg) : Got → Bool
  | .dgram _ bytes _ _ => (bytes.take c.len).length = c.len
  | .fail _ => false

/-- One turn of the loop (endpoint.c:2733-3050). -/
def step (c : Cfg) (s : St) (p : Pass) : St :=
  match s.phase with
  | .running =>
    if !p.timer1 then { s with phase := .failed }
    else
      Sig.then p.sig1 s fun s =>
        if !whole c p.got && !p.got.eintr then { s with phase := .failed }
        else
          let x := fill c p.got s.buf
          Sig.then p.sig2 { s with buf := x.2 } fun s =>
            match p.clock with
            | none => { s with phase := .failed }
            | some r =>
              if !p.timer2 then { s with phase := .failed }
              else
                Sig.then p.sig3 s fun s =>
                  let s := { s with rstamp := timespecToTimestamp s.rstamp r.time (some r.err) (some s.rlast), rlast := r.err }
                  Sig.then p.sig4 s fun s =>
                    match x.1 with
                    | none => s
                    | some (peer, recvd, ttl) => examine c peer recvd ttl r.time p s
  | _ => s

def run (c : Cfg) (s : St) (ps : List Pass) : St := ps.foldl (step c) s

/-- The state at the start (endpoint.c:2711-2731): `buf` is the payload (`calloc`, endpoint.c:447-459), the stamps are uninitialised. -/
def init (buf : Bytes) (rstamp stamp : TimeStamp) : St :=
  { phase := .running, i := 0, buf := buf, rstamp := rstamp, rlast := 0, stamp := stamp, last := 0, calls := [] }

/-- Whether the process reports success (`OWP_CNTRL_ACCEPT`), once it has ended (endpoint.c:3052-3070). -/
def ended (s : St) : Option Bool :=
  match s.phase with
  | .over => some true
  | .failed => some false
  | _ => none

end Owamp.Refl
