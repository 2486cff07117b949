import Verif.Spec.Print
/-!
# How programs read a report: tables with more than two columns
-/
namespace Owamp.Spec.Print
open Owamp.Policy Owamp.Spec.Ports

/-- Fields that read as numbers. -/
inductive Fields : List Bytes → List Nat → Prop where
  | nil : Fields [] []
  | cons (w : Bytes) (n : Nat) (ws : List Bytes) (ns : List Nat) : Numeral w n → Fields ws ns → Fields (w :: ws) (n :: ns)

/-- Rows that read as a number and counts for it. -/
inductive Grid : List (List Bytes) → List (Int × List Nat) → Prop where
  | nil : Grid [] []
  | cons (v : Bytes) (ws : List Bytes) (b : Int) (ns : List Nat) (ls : List (List Bytes)) (ps : List (Int × List Nat)) :
      Numeral v b → Fields ws ns → Grid ls ps → Grid (([] :: v :: ws) :: ls) ((b, ns) :: ps)

/-- There is one table of the name, and its rows read as the numbers with their counts. -/
def WideTable (L : List (List Bytes)) (name : List Char) (ps : List (Int × List Nat)) : Prop :=
  ∃ before rows after, L = before ++ [[text ('<' :: name ++ ['>'])]] ++ rows ++ [[text ('<' :: '/' :: name ++ ['>'])]] ++ after ∧ Grid rows ps ∧
    Silent before ('<' :: name ++ ['>']) ∧ Silent after ('<' :: name ++ ['>'])

end Owamp.Spec.Print
