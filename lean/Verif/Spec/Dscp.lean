import Verif.Spec.Classes
/-!
# Vocabulary for the traffic class of a test
-/
namespace Owamp.Spec.Dscp
open Owamp.Policy Owamp.Spec.Classes

/-- `b` is the digit `d` of numbers with base `base`. -/
def Digit (base : Nat) (b : Byte) (d : Nat) : Prop :=
  d < base ∧ (['0', '1', '2', '3', '4', '5', '6', '7', '8', '9', 'a', 'b', 'c', 'd', 'e', 'f'].map Char.toNat)[d]? = some (caseless b)

/-- The digits `ds` write the number `n`. -/
inductive Writes (base : Nat) : Bytes → Nat → Prop
  | one (b d) : Digit base b d → Writes base [b] d
  | more (ds n b d) : Writes base ds n → Digit base b d → Writes base (ds ++ [b]) (base * n + d)

/-- A number in the notation of the language C: decimal, octal or hexadecimal. -/
inductive Number : Bytes → Nat → Prop
  | dec (ds n) : Writes 10 ds n → ds.head? ≠ some 48#8 → Number ds n
  | oct (ds n) : Writes 8 ds n → ds.head? = some 48#8 → Number ds n
  | hex (x ds n) : Writes 16 ds n → x ∈ [120#8, 88#8] → Number (48#8 :: x :: ds) n

/-- The names of RFC 4594 and their code points. -/
def names : List (List Char × Nat) :=
  [(['n', 'o', 'n', 'e'], 0b000000), (['d', 'e', 'f', 'a', 'u', 'l', 't'], 0b000000), (['d', 'f'], 0b000000),
   (['c', 's', '0'], 0b000000), (['c', 's', '1'], 0b001000), (['c', 's', '2'], 0b010000), (['c', 's', '3'], 0b011000),
   (['c', 's', '4'], 0b100000), (['c', 's', '5'], 0b101000), (['c', 's', '6'], 0b110000), (['c', 's', '7'], 0b111000),
   (['a', 'f', '1', '1'], 0b001010), (['a', 'f', '1', '2'], 0b001100), (['a', 'f', '1', '3'], 0b001110),
   (['a', 'f', '2', '1'], 0b010010), (['a', 'f', '2', '2'], 0b010100), (['a', 'f', '2', '3'], 0b010110),
   (['a', 'f', '3', '1'], 0b011010), (['a', 'f', '3', '2'], 0b011100), (['a', 'f', '3', '3'], 0b011110),
   (['a', 'f', '4', '1'], 0b100010), (['a', 'f', '4', '2'], 0b100100), (['a', 'f', '4', '3'], 0b100110),
   (['e', 'f'], 0b101110)]

/-- The word `w` names the code point `d`, in whatever case. -/
def Names (w : Bytes) (d : Nat) : Prop := ∃ x ∈ names, x.2 = d ∧ SameWord w (text x.1)

/-- The value of `typeP` for the code point `d` (RFC 4656: the two high-order bits are zero, the next six are the code point). -/
def typePOf (d : Nat) : U32 := BitVec.ofNat 32 (d * 2 ^ 24)

/-- The second byte of an IPv4 header, or the traffic class of an IPv6 header, with code point `d` (RFC 2474: the six high-order bits). -/
def octetOf (d : Nat) : Nat := d * 4

end Owamp.Spec.Dscp
