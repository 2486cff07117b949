import Verif.Spec.Classes
import Verif.Model.Admit
/-!
# Vocabulary for the class of a connection
-/
namespace Owamp.Spec.Admit
open Owamp.Policy Owamp.Ctl Owamp.Spec.Classes

/-- A class is that of an address: of the longest assigned network that contains it; if there is none, of the line `assign
default`; without such a line, the first class. -/
def AddressClass (P : Policy) (sa : SockAddr) (c : Nat) : Prop :=
  ∃ w x, addressOf sa = some (w, x) ∧
    ((∃ n, Assigned P n c ∧ n.Contains w x ∧ ∀ n' c', Assigned P n' c' → n'.Contains w x → n'.len ≤ n.len ∧ (n'.len = n.len → c' = c)) ∨
     ((∀ n' c', Assigned P n' c' → ¬ n'.Contains w x) ∧
      ((Ident.default, c) ∈ P.idents ∨ ((∀ c', (Ident.default, c') ∉ P.idents) ∧ c = 0))))

/-- A class has this name. -/
def HasName (t : Tree) (c : Nat) (name : Bytes) : Prop := ∃ n, t[c]? = some n ∧ n.name = name

/-- A class is that of a connection: without a user, of its address; with a user, the class named like the user (up to the first
zero of the field); without such a class, the class assigned to the user (the whole field); without such an assignment, the
class of the address. -/
inductive Belongs (P : Policy) (sa : SockAddr) (c : Nat) : Option Bytes → Prop where
  | address : AddressClass P sa c → Belongs P sa c none
  | named (field) : HasName P.nodes c (cstr field) → Belongs P sa c (some field)
  | assigned (field) : (∀ n ∈ P.nodes, n.name ≠ cstr field) → ((Who.user field).key, c) ∈ P.idents → Belongs P sa c (some field)
  | stranger (field) : (∀ n ∈ P.nodes, n.name ≠ cstr field) → (∀ c', ((Who.user field).key, c') ∉ P.idents) → AddressClass P sa c →
      Belongs P sa c (some field)

/-- The classes have the same names. -/
def SameNames (s t : Tree) : Prop := s.map (·.name) = t.map (·.name)

/-- The lines of a file hold no zero byte. -/
def Lines (lines : List Bytes) : Prop := ∀ l ∈ lines, 0#8 ∉ l

end Owamp.Spec.Admit
