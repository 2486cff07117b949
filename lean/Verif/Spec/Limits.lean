import Verif.Model.Limits
/-!
# Vocabulary for the resource limits of classes
-/
namespace Owamp.Spec.Limits
open Owamp.Policy

/-- The class number `i`, its parent, the parent of that and so on. -/
def lineage (t : Tree) (i : Nat) : List Nat :=
  match t[i]? with
  | none => [i]
  | some n =>
    match n.parent with
    | none => [i]
    | some p => if p < i then i :: lineage t p else [i]
termination_by i

/-- What `OWPDPolicyInstall` leaves of a limits file (proved in `Props/Classes.lean`): parents are defined before their
children, and a class has a record for every limit for which its parent has one. -/
structure WellFormed (t : Tree) : Prop where
  before : ∀ (i : Nat) (n : Node) (p : Nat), t[i]? = some n → n.parent = some p → p < i
  inherits : ∀ (i : Nat) (n : Node) (p : Nat) (m : Node) (l : U32), t[i]? = some n → n.parent = some p → t[p]? = some m →
    findLim m.lims l ≠ none → findLim n.lims l ≠ none

/-- The record of a class for a limit. -/
def entry (t : Tree) (c : Nat) (l : U32) : Option Lim :=
  match t[c]? with
  | none => none
  | some n => findLim n.lims l

/-- Nothing is in use. -/
def Unused (t : Tree) : Prop := ∀ c l e, entry t c l = some e → e.used = 0

/-- A demand made for a class. -/
structure Event where
  cls : Nat
  query : U32
  limit : U32
  value : U64

/-- The tree after a sequence of demands, and the answer to each. -/
def history (claimOver : U64 → U64 → Bool) (t : Tree) : List Event → Tree × List (Event × Bool)
  | [] => (t, [])
  | ev :: evs =>
    let r := demand claimOver t ev.cls ev.query ev.limit ev.value
    let h := history claimOver r.2 evs
    (h.1, (ev, r.1) :: h.2)

/-- What a demand that was answered positively adds to what is outstanding. -/
def contribution (t : Tree) (c : Nat) (l : U32) (a : Event × Bool) : Int :=
  if a.2 = true ∧ a.1.limit = l ∧ c ∈ lineage t a.1.cls then
    (if a.1.query = mesgRelease then - (a.1.value.toNat : Int) else (a.1.value.toNat : Int))
  else 0

/-- The sum of what was granted of limit `l` to the class `c` and the classes below it, less what was given back. -/
def outstanding (t : Tree) (c : Nat) (l : U32) (log : List (Event × Bool)) : Int :=
  (log.map (contribution t c l)).sum

end Owamp.Spec.Limits
