import Verif.Spec.DataFile
import Verif.Spec.Receiver
import Verif.Model.Clean
/-!
# What cleaning a session's file should do
-/
namespace Owamp.Spec.Clean
open Owamp.Codec Owamp.Spec.Receiver

/-- A record without receive time is the record of a lost packet. -/
def Lost (r : DataRec) : Prop := r.recv.owptime = 0#64
instance (r : DataRec) : Decidable (Lost r) := inferInstanceAs (Decidable (_ = _))

/-- The instant a record was made: on arrival, or the timeout after a lost packet was sent. -/
def made (timeout : Nat) (r : DataRec) : Nat := if Lost r then r.send.owptime.toNat + timeout else r.recv.owptime.toNat

/-- The records to keep: the packet is below the sender's next number and was sent by `stop` less the timeout. -/
def kept (next stop timeout : Nat) (r : DataRec) : Bool :=
  decide (r.seq.toNat < next ∧ r.send.owptime.toNat + timeout ≤ stop)

/-- A received packet that the sender says it did not send. -/
def contradicts (next : Nat) (r : DataRec) : Prop := ¬ Lost r ∧ next ≤ r.seq.toNat
instance (n : Nat) (r : DataRec) : Decidable (contradicts n r) := inferInstanceAs (Decidable (_ ∧ _))

/-- A record as a receiver makes it (C25, C26): a received packet was sent at most the timeout before or after its scheduled time and arrived at
most the timeout before or after that; a lost packet has its scheduled send time. `ds` are the delays of the schedule; no time exceeds 64 bits. -/
structure Plausible (start timeout : Nat) (ds : List Nat) (r : DataRec) : Prop where
  number : r.seq.toNat < ds.length
  received : ¬ Lost r → start + (ds.take (r.seq.toNat + 1)).sum ≤ r.send.owptime.toNat + timeout ∧
    r.send.owptime.toNat ≤ r.recv.owptime.toNat + timeout
  gone : Lost r → r.send.owptime.toNat = start + (ds.take (r.seq.toNat + 1)).sum ∧ r.send.owptime.toNat + timeout < 2 ^ 64

/-- The scheduled time of the last packet below `next`, or the start time. -/
def lastTime (start : Nat) (ds : List Nat) (next : Nat) : Nat := start + (ds.take next).sum

/-- Interpolation that stays inside its interval: what exact arithmetic does. -/
def Inside (interp : Nat → Nat → Nat → Nat → Nat) : Prop :=
  ∀ low portion n range, portion < range → 0 < n → low ≤ interp low portion n range ∧ interp low portion n range < low + n

/-- Interpolation that gives the end of its interval for its end. -/
def EndToEnd (interp : Nat → Nat → Nat → Nat → Nat) : Prop := ∀ low n range, 0 < range → interp low range n range = low + n

end Owamp.Spec.Clean
