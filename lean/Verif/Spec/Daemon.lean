import Verif.Model.Daemon
import Verif.Spec.Limits
/-!
# Vocabulary for histories of the daemon
-/
namespace Owamp.Spec.Daemon
open Owamp.Policy Owamp.Daemon Owamp.Spec.Limits

/-- The demand in a message to the daemon, if there is one: the message is that of a query, and its sender has a class. -/
def demandOf (big : Bool) (d : State) : Ev → Option (Nat × Event)
  | .mesg pid s =>
    match d.table.find? (·.pid = pid) with
    | some ⟨_, _, some c⟩ =>
      match readQuery big s with
      | .query q l v _ => some (pid, ⟨c, q, l, v⟩)
      | _ => none
    | _ => none
  | _ => none

/-- The demands made during some events, in their order, with the numbers of the processes that made them. -/
def demands (claimOver : U64 → U64 → Bool) (big : Bool) (d : State) : List Ev → List (Nat × Event)
  | [] => []
  | e :: es =>
    match step claimOver big d e with
    | none => []
    | some d' => (demandOf big d e).toList ++ demands claimOver big d' es

/-- Memory is available whenever a process is started. -/
def Memory (es : List Ev) : Prop := ∀ pid fd, Ev.forked pid fd false ∉ es

/-- No process ends just when the daemon is about to reset its flag for ended processes. -/
def Quiet (claimOver : U64 → U64 → Bool) (big : Bool) (d : State) : List Ev → Prop
  | [] => True
  | e :: es =>
    (∀ pid k, e = .ends pid → d.point ≠ .clear k) ∧
    match step claimOver big d e with
    | none => True
    | some d' => Quiet claimOver big d' es

end Owamp.Spec.Daemon
