import Verif.Model.Ports
/-!
# Vocabulary for port ranges
-/
namespace Owamp.Spec.Ports
open Owamp.Ports Owamp.Policy

/-- A blank. -/
def Blank (b : Byte) : Prop := b.toNat = 32 ∨ (9 ≤ b.toNat ∧ b.toNat ≤ 13)

/-- A decimal digit. -/
def Digit (b : Byte) : Prop := 48 ≤ b.toNat ∧ b.toNat ≤ 57

/-- The number that digits write. -/
def value : Bytes → Nat
  | [] => 0
  | d :: ds => (d.toNat - 48) * 10 ^ ds.length + value ds

/-- A number as one writes it: blanks, perhaps a sign, digits. -/
structure Numeral (s : Bytes) (v : Int) : Prop where
  parts : ∃ blanks sg ds, s = blanks ++ sg ++ ds ∧ (∀ b ∈ blanks, Blank b) ∧ (∀ d ∈ ds, Digit d) ∧ ds ≠ [] ∧
    ((sg = [] ∨ sg = text ['+']) ∧ v = value ds ∨ sg = text ['-'] ∧ v = - (value ds : Int))

/-- A text that does not begin with a digit. -/
def NoDigit (s : Bytes) : Prop := ∀ b r, s = b :: r → ¬ Digit b

/-- One port: a number and blanks. -/
def Single (s : Bytes) (v : Int) : Prop :=
  ∃ n blanks, s = n ++ blanks ∧ Numeral n v ∧ ∀ b ∈ blanks, Blank b

/-- Two ports with a minus sign between them, and what follows them. -/
def Pair (s : Bytes) (v w : Int) (tail : Bytes) : Prop :=
  ∃ n blanks m, s = n ++ blanks ++ text ['-'] ++ m ++ tail ∧ Numeral n v ∧ (∀ b ∈ blanks, Blank b) ∧ Numeral m w ∧
    NoDigit tail

/-- What is documented (capi.c:1692-1697): "0", a port, or two ports of which the first is not greater. -/
def Documented (s : Bytes) (v w : Int) : Prop :=
  (Single s v ∧ w = v ∨ Pair s v w []) ∧ 0 ≤ v ∧ v ≤ w ∧ w ≤ 65535

/-- The port is in the range. -/
def Inside (g : Range) (p : Nat) : Prop := g.low.toNat ≤ p ∧ p ≤ g.high.toNat

/-- What is used of rounding to doubles, for results that are neither negative nor beyond 2^64: it keeps the order, keeps
whole numbers up to 2^53, and adds at most half a unit in the last place (2^-53 of the value, or 2^-1075, far below
2^-100, for tiny values). -/
structure Rounding (rnd : Rat → Rat) : Prop where
  mono : ∀ x y, 0 ≤ x → x ≤ y → y ≤ 18446744073709551616 → rnd x ≤ rnd y
  whole : ∀ n : Nat, n ≤ 9007199254740992 → rnd (n : Rat) = n
  close : ∀ x, 0 ≤ x → x ≤ 18446744073709551616 →
    rnd x ≤ x + x / 9007199254740992 + 1 / 1267650600228229401496703205376

/-- What the answers of `bind`, from turn `k` on, have to do with the ports tried and the end: the ports before the last
were in use, and the end is what the answer for the last says. -/
structure Told (bind : Nat → Nat → Bind) (k : Nat) (tried : List Nat) (e : Found) : Prop where
  some_tried : tried ≠ []
  before : ∀ i p, tried[i]? = some p → i + 1 < tried.length → bind (k + i) p = .inUse
  last : ∀ p, tried.getLast? = some p →
    match e with
    | .bound q => q = p ∧ bind (k + (tried.length - 1)) p = .ok
    | .failed => bind (k + (tried.length - 1)) p = .other
    | .exhausted => bind (k + (tried.length - 1)) p = .inUse
    | _ => False

/-- The decimal text of a number. -/
def decimal (n : Nat) : Bytes :=
  if n < 10 then [BitVec.ofNat 8 (48 + n)] else decimal (n / 10) ++ [BitVec.ofNat 8 (48 + n % 10)]
termination_by n
decreasing_by omega

end Owamp.Spec.Ports
