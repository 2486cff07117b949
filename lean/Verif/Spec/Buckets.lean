import Verif.Base.Bytes
import Verif.Model.Time
/-!
# Exact delays and quantiles
-/
namespace Owamp.Spec.Buckets

/-- The difference of two time stamps, in units of 2⁻³² s. -/
def exactDelay (a b : Time.TimeStamp) : Int := (b.owptime.toNat : Int) - a.owptime.toNat

/-- How many of the numbers are at most `x`. -/
def upTo (l : List Int) (x : Int) : Nat := l.countP fun y => decide (y ≤ x)

/-- `q` is the smallest of the numbers such that at least `t` of them are at most `q`. -/
structure Quantile (l : List Int) (t : Rat) (q : Int) : Prop where
  isOne : q ∈ l
  enough : t ≤ (upTo l q : Rat)
  least : ∀ y ∈ l, y < q → (upTo l y : Rat) < t

/-- What rounding of quotients to floating point numbers does: it keeps the order, and whole numbers that have few digits. -/
structure Rounds (rnd : Rat → Rat) : Prop where
  mono : ∀ x y, x ≤ y → rnd x ≤ rnd y
  whole : ∀ n : Int, n.natAbs ≤ 2 ^ 53 → rnd n = n

/-- The time stamp is one from 1968 to 2036. -/
def Modern (a : Time.TimeStamp) : Prop := 2 ^ 63 ≤ a.owptime.toNat

instance (a : Time.TimeStamp) : Decidable (Modern a) := inferInstanceAs (Decidable (_ ≤ _))

/-- `x` and `y` differ by at most `e`. -/
def Within (x y e : Rat) : Prop := x ≤ y + e ∧ y ≤ x + e

end Owamp.Spec.Buckets
