import Verif.Spec.TwoWay
import Verif.Model.Reflector
/-!
# What a reflector should do
-/
namespace Owamp.Spec.Reflector
open Owamp.Num64 Owamp.Refl Owamp.Pkt

/-- The replies that left the process: the calls the kernel did not refuse for lack of buffers. -/
def answers (calls : List Call) : List Call := calls.filter fun y => y.res ≠ .nobufs

/-- A datagram that arrived: who sent it, its bytes (no more than a packet), its TTL, the time read from the clock. -/
structure Arrived where
  peer : Bytes
  bytes : Bytes
  ttl : Byte
  at' : TimeParts

/-- What arrived in a pass (with the clock working). -/
def arrival (c : Cfg) (p : Pass) : Option Arrived :=
  match p.got, p.clock with
  | .dgram peer bytes ttl _, some r => some ⟨peer, bytes.take c.len, ttl, r.time⟩
  | _, _ => none

/-- What a reply answers. -/
def answered (y : Call) : Arrived := ⟨y.dest, y.recvd, y.ttl, y.came⟩

/-- Nothing disturbs the pass up to the reply: timers and clock work and no signal flag is set. -/
def Calm (p : Pass) (r : Sender.Reading) : Prop :=
  p.timer1 = true ∧ p.sig1 = .none ∧ p.sig2 = .none ∧ p.clock = some r ∧ p.timer2 = true ∧ p.sig3 = .none ∧ p.sig4 = .none

/-- The pass brings a datagram shorter than the session's packets while `errno` is `EINTR`. -/
def Short (c : Cfg) (p : Pass) : Prop := ∃ peer bytes ttl, p.got = .dgram peer bytes ttl true ∧ bytes.length < c.len

/-- The attempts to reply go through: some attempts refused for lack of buffers, then one that is not; the clock works and no stop signal comes. -/
def GoesThrough (tries : List Try) : Prop :=
  ∃ pre t post, tries = pre ++ t :: post ∧ (∀ x ∈ pre, x.send = .nobufs ∧ x.stop = false ∧ x.clock.isSome) ∧
    (t.send = .ok ∨ t.send = .other ∨ t.send = .intr) ∧ t.stop = false ∧ t.clock.isSome

end Owamp.Spec.Reflector
