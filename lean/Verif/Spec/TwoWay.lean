import Verif.Spec.Receiver
import Verif.Model.TwoWay
/-!
# What the results of a two-way test should be
-/
namespace Owamp.Spec.TwoWay
open Owamp.Num64 Owamp.TwoWay Owamp.Pkt Owamp.Spec.Sender Owamp.Spec.Receiver

/-- A lost record is one without a time at which a reply came back. -/
def noReply (e : Entry) : Bool := e.data.reflected.recv.owptime = 0

def lostFor (k : Nat) (es : List Entry) : List Entry := es.filter fun e => e.data.sent.seq.toNat = k && noReply e
def gotFor (k : Nat) (es : List Entry) : List Entry := es.filter fun e => e.data.sent.seq.toNat = k && !noReply e

/-- Exactly one lost record and no reply, or at least one reply and no lost record. -/
def OneVerdict (es : List Entry) (k : Nat) : Prop :=
  ((lostFor k es).length = 1 ∧ gotFor k es = []) ∨ (lostFor k es = [] ∧ gotFor k es ≠ [])

/-- The calls that handed packet `k` to the network (a call the kernel refused for lack of buffers did not). -/
def handed (k : Nat) (calls : List Call) : List Call := calls.filter fun c => c.seq = k && c.res ≠ .nobufs

/-- The kernel took the packet, or reported an error that does not end the test (a destination that is unreachable, say). -/
def counted (x : Call) : Prop := x.res = .ok ∨ x.res = .other

/-- How packet `k` was dealt with: handed over exactly once, after its time and no more than the timeout after it; or skipped, and never handed over. -/
def Accounted (due : Nat → Int) (timeout : Int) (calls : List Call) (missed : List Nat) (k : Nat) : Prop :=
  (∃ x, handed k calls = [x] ∧ due k < total 1000000000 x.time ∧ total 1000000000 x.time ≤ due k + timeout ∧ k ∉ missed) ∨
  (handed k calls = [] ∧ k ∈ missed)

/-- `e` is the record of the reply that the process met in pass `t`: the datagram is long enough and opens under the session's keys (for ciphered modes:
with a valid digest); packet number, times, error estimates and TTLs are those of the datagram; the time of return is that of the pass. -/
def Genuine (c : Cfg) (t : Tick) (e : Entry) : Prop :=
  ∃ peer bytes ttl i r P, t.got = .dgram peer bytes ttl i ∧ t.clock = some r ∧ twPayloadSize c.fmt 0 ≤ bytes.length ∧
    openReply c.H c.fmt c.ep (bytes.take (respLen c)) = .plain P ∧ e.now = r.time ∧
    e.data.sent = ⟨(readReply c.fmt P).sndSeq,
      ⟨(readReply c.fmt P).sndTime, (readReply c.fmt P).sndErr.sync, (readReply c.fmt P).sndErr.multiplier, (readReply c.fmt P).sndErr.scale⟩,
      ⟨(readReply c.fmt P).rcvTime, (readReply c.fmt P).err.sync, (readReply c.fmt P).err.multiplier, (readReply c.fmt P).err.scale⟩,
      (readReply c.fmt P).ttl⟩ ∧
    e.data.reflected.seq = (readReply c.fmt P).seq ∧
    e.data.reflected.send =
      ⟨(readReply c.fmt P).time, (readReply c.fmt P).err.sync, (readReply c.fmt P).err.multiplier, (readReply c.fmt P).err.scale⟩ ∧
    e.data.reflected.recv.owptime = stampOf r.time ∧ e.data.reflected.recv.sync = r.sync ∧ e.data.reflected.ttl = ttl ∧
    (readReply c.fmt P).sndErr.valid = true ∧ (readReply c.fmt P).err.valid = true

/-- `e` is the lost record of a packet: it carries the scheduled time and no other. -/
def LostRecord (c : Cfg) (ds : List Nat) (e : Entry) : Prop :=
  e.data.sent.send.owptime.toNat = schedTime c.start.toNat ds e.data.sent.seq.toNat ∧ e.data.sent.recv.owptime = 0 ∧
    e.data.reflected.send.owptime = 0 ∧ e.data.reflected.recv.owptime = 0 ∧ e.data.sent.ttl = 255 ∧ e.data.reflected.ttl = 255 ∧
    e.data.reflected.seq = 0

/-- More than the timeout has passed at `t` since the packet of call `x` was sent. -/
def Expired (c : Cfg) (x : Call) (t : TimeParts) : Prop :=
  total 1000000000 x.time + nanos c.timeout.toNat < total 1000000000 t

/-- Nothing disturbs the pass `t` from state `s` (in which `s.i` is the packet last sent): no stop signal, timers and clock work; what is received
in the gaps is a wake-up, a datagram of the right size, or comes with `errno` `EINTR`; a reply that opens is for a packet that has been sent and carries valid
error estimates. -/
def Undisturbed (c : Cfg) (s : St) (t : Tick) : Prop :=
  t.stop1 = false ∧ t.stop2 = false ∧ (s.phase = .receiving →
    t.timer1 = true ∧ t.timer2 = true ∧ t.clock.isSome = true ∧ (∀ i, t.got = .fail i → i = true) ∧
    ∀ peer bytes ttl i, t.got = .dgram peer bytes ttl i → (respLen c ≤ bytes.length ∨ i = true) ∧
      ∀ P, openReply c.H c.fmt c.ep (bytes.take (respLen c)) = .plain P →
        (readReply c.fmt P).sndSeq.toNat ≤ s.i ∧ (readReply c.fmt P).sndErr.valid = true ∧ (readReply c.fmt P).err.valid = true)

/-- The first packet the process has not yet passed (the packets before it have their verdict). -/
def passed (c : Cfg) (s : St) : Nat :=
  match s.q with
  | [] => c.npackets.toNat
  | n :: _ => n.seq

/-- In state `s` the process waits for replies before it sends on: all packets are sent, or the next one is due a millisecond or more after the time last read. -/
def Waits (c : Cfg) (ds : List Nat) (s : St) : Prop :=
  s.i + 1 = c.npackets.toNat ∨
    ((0 ≤ s.cur.sub ∧ s.cur.sub < 1000000000) ∧ total 1000000000 s.cur + 1000000 ≤ due c.begin ds (s.i + 1))

end Owamp.Spec.TwoWay
