import Verif.Spec.Sender
import Verif.Model.Receiver
/-!
# What a receiver's results should be
-/
namespace Owamp.Spec.Receiver
open Owamp.Num64 Owamp.Recv Owamp.Pkt Owamp.Spec.Sender

/-- Seconds from 1900 to 1970, in 32.32 fixed point. -/
def epoch : Nat := 2208988800 * 2 ^ 32

/-- The scheduled time of packet `k` as a 64 bit time stamp: start time plus the first `k+1` delays. -/
def schedTime (start : Nat) (ds : List Nat) (k : Nat) : Nat := (start + (ds.take (k + 1)).sum) % 2 ^ 64

/-- A time stamp in nanoseconds after 1970. -/
def unixNanos (x : Nat) : Int := nanos ((x + 2 ^ 64 - epoch) % 2 ^ 64)

/-- The time stamp of a clock reading. -/
def stampOf (t : TimeParts) : U64 := BitVec.ofNat 64 (ofTimespec t + epoch)

/-- A lost record is one without receive time (owamp.h:1406). -/
def isLost (e : Entry) : Bool := e.data.recv.owptime = 0

def lostFor (k : Nat) (es : List Entry) : List Entry := es.filter fun e => e.data.seq.toNat = k && isLost e
def gotFor (k : Nat) (es : List Entry) : List Entry := es.filter fun e => e.data.seq.toNat = k && !isLost e

/-- Exactly one lost record and no received one, or at least one received record and no lost one. -/
def OneVerdict (es : List Entry) (k : Nat) : Prop :=
  ((lostFor k es).length = 1 ∧ gotFor k es = []) ∨ (lostFor k es = [] ∧ gotFor k es ≠ [])

/-- The first packet the receiver has not yet passed. -/
def passed (c : Cfg) (s : St) : Nat :=
  match s.q with
  | [] => c.npackets.toNat
  | n :: _ => n.seq

/-- How far apart two numbers are. -/
def apart (x y : Nat) : Nat := (x - y) + (y - x)

/-- `e` is the true record of the datagram of arrival `a`: from the expected address, with a payload that opens (for ciphered modes:
with a valid digest), with number, send time and TTL of the packet and the receive time of the arrival; the number is in the session; send
and receive time differ by no more than the timeout; so do the send time and a time `x` that is the scheduled one up to 5 units of
2⁻³² s (the scheduled time goes through a `timespec`, which cuts it to nanoseconds). -/
def Genuine (c : Cfg) (ds : List Nat) (a : Arrival) (e : Entry) : Prop :=
  ∃ bytes ttl i r P x d, a.got = .dgram c.remote bytes ttl i ∧ a.clock = some r ∧ c.len ≤ bytes.length ∧
    openPacket c.H c.fmt c.ep (bytes.take c.len) = .plain P ∧
    e.now = r.time ∧ e.data.seq = seqOf P ∧ e.data.send.owptime = timeOf c.fmt P ∧ e.data.recv.owptime = stampOf r.time ∧
    e.data.ttl = ttl ∧ e.data.seq.toNat < c.npackets.toNat ∧
    apart e.data.send.owptime.toNat e.data.recv.owptime.toNat ≤ c.timeout.toNat ∧
    apart e.data.send.owptime.toNat x ≤ c.timeout.toNat ∧ d ≤ 5 ∧ x < 2 ^ 64 ∧
    (x + d) % 2 ^ 64 = schedTime c.start.toNat ds e.data.seq.toNat

/-- `e` is the lost record of a packet: it carries the scheduled time. -/
def LostRecord (c : Cfg) (ds : List Nat) (e : Entry) : Prop :=
  e.data.send.owptime.toNat = schedTime c.start.toNat ds e.data.seq.toNat ∧ e.data.recv.owptime = 0 ∧ e.data.ttl = 255 ∧
    e.data.seq.toNat < c.npackets.toNat

/-- It is more than the timeout after the scheduled time of packet `k`. -/
def Expired (c : Cfg) (ds : List Nat) (k : Nat) (t : TimeParts) : Prop :=
  unixNanos (schedTime c.start.toNat ds k) + nanos c.timeout.toNat < total 1000000000 t

/-- Clock readings that are normalised and not the instant the 64 bit time stamp wraps to zero. -/
def GoodClock (r : Owamp.Sender.Reading) : Prop :=
  0 ≤ r.time.sub ∧ r.time.sub < 1000000000 ∧ stampOf r.time ≠ 0

end Owamp.Spec.Receiver
