import Verif.Spec.Reflector
import Verif.Spec.TwStats
import Mathlib.Data.List.Dedup
/-!
# What happened in a two-way session, as one who sees both ends and the network would tell it
-/
namespace Owamp.Spec.RoundTrip
open Owamp.Num64 Owamp.Codec Owamp.Spec.Receiver Owamp.Spec.Reflector
open Owamp.Spec.Sender (nanos)

/-- The trip of a packet to the reflector and of its reply back: the packet's number and when it was sent; when and with which TTL it came to the reflector; the number of
the reply and when it left; when and with which TTL it came back. -/
structure Trip where
  packet : Nat
  sent : TimeParts
  came : TimeParts
  ttlOut : Byte
  reply : Nat
  left : TimeParts
  back : TimeParts
  ttlBack : Byte

/-- The trip that ends with what the client receives in the pass `t`, when `sends` are the packets handed over by the client and `replies` those handed over by the
reflector: the reply is the one with these bytes, the packet is the one with the bytes that the reflector answered. -/
def trip (sends : List TwoWay.Call) (replies : List Refl.Call) (t : TwoWay.Tick) : Option Trip :=
  match t.got, t.clock with
  | .dgram _ bytes ttl _, some r =>
    (replies.find? fun y => decide (y.bytes = bytes)).bind fun y =>
      (sends.find? fun q => decide (q.res ≠ .nobufs ∧ q.bytes = y.recvd)).map fun q => ⟨q.seq, q.time, y.came, y.ttl, y.num, y.time, r.time, ttl⟩
  | _, _ => none

/-- The reply is back no more than the timeout after the packet was sent. -/
def inTime (timeout : U64) (p : Trip) : Bool := decide (total 1000000000 p.back ≤ total 1000000000 p.sent + nanos timeout.toNat)

/-- What a record tells about a trip; times are 64 bit time stamps. -/
structure Told where
  packet : Nat
  sent : U64
  came : U64
  ttlOut : Byte
  reply : Nat
  left : U64
  back : U64
  ttlBack : Byte

/-- What the record of a reply tells. -/
def told (r : TWDataRec) : Told :=
  ⟨r.sent.seq.toNat, r.sent.send.owptime, r.sent.recv.owptime, r.sent.ttl, r.reflected.seq.toNat, r.reflected.send.owptime, r.reflected.recv.owptime, r.reflected.ttl⟩

/-- What should be told of a trip. -/
def truth (p : Trip) : Told := ⟨p.packet, stampOf p.sent, stampOf p.came, p.ttlOut, p.reply, stampOf p.left, stampOf p.back, p.ttlBack⟩

/-- How many different values `f` has on a list. -/
def different (f : Trip → Nat) (l : List Trip) : Nat := (l.map f).dedup.length

/-- The first trip of each packet that has one. -/
def firstTrips (l : List Trip) : List Trip := l.foldl (fun kept p => if kept.any (fun k => k.packet = p.packet) then kept else kept ++ [p]) []

/-- `b` is the smallest of the values `l` such that at least `t` of them are `b` or smaller. -/
def PercentileOf (l : List Int) (t : Rat) (b : Int) : Prop :=
  b ∈ l ∧ ¬ ((l.countP fun x => decide (x ≤ b) : Nat) : Rat) < t ∧ ∀ a ∈ l, a < b → ((l.countP fun x => decide (x ≤ a) : Nat) : Rat) < t

end Owamp.Spec.RoundTrip
