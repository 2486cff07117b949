import Verif.Model.Num64
/-!
# What a pair (seconds, sub-seconds) means

Independent vocabulary for statements about time conversions.
-/
namespace Owamp.Spec
open Owamp.Num64

/-- A time pair is normalised when the sub-second part is a proper fraction of a second counted in
`unit`s, and the seconds fit the 32 bits the protocol has for them. -/
def Normalised (unit : Nat) (t : TimeParts) : Prop :=
  0 ≤ t.sec ∧ t.sec < 2 ^ 32 ∧ 0 ≤ t.sub ∧ t.sub < unit

instance (unit : Nat) (t : TimeParts) : Decidable (Normalised unit t) := by
  unfold Normalised; infer_instance

/-- The number of `unit`-ths of a second a pair denotes. -/
def total (unit : Nat) (t : TimeParts) : Int := t.sec * unit + t.sub

end Owamp.Spec
