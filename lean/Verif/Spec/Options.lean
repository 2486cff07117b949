import Verif.Model.Options
/-!
# Vocabulary for the options of owping and twping
-/
namespace Owamp.Spec.Options
open Owamp.Options Owamp.Sched

/-- The texts `fs` with commas between them. -/
def joined : List Bytes → Bytes
  | [] => []
  | [f] => f
  | f :: g :: fs => f ++ 44#8 :: joined (g :: fs)

/-- `s` is the texts `fs`, at least one, none of which has a comma, with commas between them. -/
def Listed (s : Bytes) (fs : List Bytes) : Prop := s = joined fs ∧ fs ≠ [] ∧ ∀ f ∈ fs, 44#8 ∉ f

/-- `l` says of each of `fs` what it means, in order. -/
def Each {α : Type} (P : Bytes → α → Prop) (fs : List Bytes) (l : List α) : Prop :=
  l.length = fs.length ∧ ∀ (i : Nat) f a, fs[i]? = some f → l[i]? = some a → P f a

/-- The text `f` is the number `v` and then `rest`. -/
def Reads (F : Floats) (f : Bytes) (v : F.D) (rest : Bytes) : Prop := F.strtod f = (v, rest) ∧ rest.length < f.length

/-- One interval of a schedule: a number, alone or with the letter `e` for exponentially distributed intervals, or with `f` for fixed ones. -/
def IsSlot (F : Floats) (f : Bytes) : Slot → Prop
  | .randExp m => ∃ v rest, Reads F f v rest ∧ rest ∈ [[], [101#8], [69#8]] ∧ m = F.toNum64 v
  | .literal m => ∃ v rest, Reads F f v rest ∧ rest ∈ [[102#8], [70#8]] ∧ m = F.toNum64 v
  | .other _ => False

/-- A percentile: a number from 0 to 100. -/
def IsAlpha (F : Floats) (f : Bytes) (v : F.D) : Prop := Reads F f v [] ∧ F.below v = false ∧ F.above v = false

/-- The letters of the modes, with their bits in the protocol: open, authenticated, encrypted, and mixed (RFC 4656, 5357, 5618). -/
def modeLetters (twoway : Bool) : List (List Char × Nat) :=
  [(['o', 'O'], 0), (['a', 'A'], 1), (['e', 'E'], 2)] ++ if twoway then [(['m', 'M'], 3)] else []

/-- The letter `b` stands for the bit `k`. -/
def Letter (twoway : Bool) (b : Byte) (k : Nat) : Prop := ∃ x ∈ modeLetters twoway, x.2 = k ∧ ∃ c ∈ x.1, b = BitVec.ofNat 8 c.toNat

end Owamp.Spec.Options
