import Verif.Spec.Print
import Verif.Model.PrintSummary
/-!
# How people read a summary
-/
namespace Owamp.Spec.Print
open Owamp.Policy Owamp.Spec.Ports

/-- The lines of a text. -/
def textLines (t : Bytes) : List Bytes := (split 10#8 t).dropLast

/-- Texts without newlines. -/
structure PlainStyle (Z : Owamp.Print.Style) : Prop where
  date : ∀ t, 10#8 ∉ Z.date t
  delay : ∀ d, 10#8 ∉ Z.delay d
  bucket : ∀ b, 10#8 ∉ Z.bucket b
  spread : ∀ a b, 10#8 ∉ Z.spread a b
  err : ∀ e, 10#8 ∉ Z.err e
  percent : ∀ a b, 10#8 ∉ Z.percent a b
  share : ∀ a b, 10#8 ∉ Z.share a b
  unit : 10#8 ∉ Z.unit

/-- `%.0f` of a number of nanoseconds divided by a million rounds it: as a `float` the number is off by at most 32 ns, the quotient by at most 2⁻¹⁵ ms, and
rounding adds at most half a millisecond. -/
def Rounds (ms : Int → Nat) : Prop := ∀ n : Int, 0 ≤ n → n < 1000000000 → (ms n : Int) * 1000000 ≤ n + 500064 ∧ n ≤ (ms n : Int) * 1000000 + 500064

/-- The line gives, after its name, a time in milliseconds since 1970: the date and clock time of a second, a point and three digits. -/
def ShowsTime (date : Int → Bytes) (name : List Char) (l : Bytes) (v : Int) : Prop :=
  ∃ (sec : Int) (ds : Bytes), l = text name ++ [9#8] ++ date sec ++ text ['.'] ++ ds ∧ ds.length = 3 ∧ (∀ d ∈ ds, Digit d) ∧ v = sec * 1000 + value ds

/-- The units of time, with how many of them make a second. -/
inductive UnitOf : Bytes → Nat → Prop
  | second : UnitOf (text ['s']) 1
  | milli : UnitOf (text ['m','s']) 1000
  | micro : UnitOf (text ['u','s']) 1000000
  | nano : UnitOf (text ['n','s']) 1000000000

end Owamp.Spec.Print
