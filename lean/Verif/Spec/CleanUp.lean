import Verif.Spec.Clean
/-!
# What the clean-up after a lost control connection should do
-/
namespace Owamp.Spec.Clean
open Owamp.Codec

/-- A record that is not behind the last packet received: some packet with its number or a higher one was received. -/
def Reached (ks : List DataRec) (r : DataRec) : Prop := ∃ q ∈ ks, ¬ Lost q ∧ r.seq ≤ q.seq
instance (ks : List DataRec) (r : DataRec) : Decidable (Reached ks r) := inferInstanceAs (Decidable (∃ q ∈ ks, _))

/-- The records that should stay: those of packets sent in time, without the lost ones behind the last packet received. -/
def staying (next stop timeout : Nat) (rs : List DataRec) : List DataRec :=
  let ks := rs.filter (kept next stop timeout)
  ks.filter fun r => decide (Reached ks r)

end Owamp.Spec.Clean
