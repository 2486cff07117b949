import Verif.Model.Life
/-!
# Words for the life of the process that serves a connection
-/
namespace Owamp.Spec.Life
open Owamp.Life

/-- A signal to end. -/
def isTerm : Event → Bool
  | .term _ => true
  | _ => false

/-- Somebody has told the process to end. -/
def Told (es : List Event) : Prop := ∃ int, Event.term int ∈ es

/-- A request a client can make. -/
def IsRequest : Msg → Bool
  | .test => true
  | .fetch => true
  | .start => true
  | _ => false

/-- The event makes the process take up a request of its client. -/
def takes (s : State) (e : Event) : Bool :=
  decide (s.point ≠ .handle) && decide ((apply s e).point = .handle) && IsRequest (apply s e).msg

/-- How many requests the process takes up in a history. -/
def requests : State → List Event → Nat
  | _, [] => 0
  | s, e :: es => (if takes s e then 1 else 0) + requests (apply s e) es

/-- The event is a step of the process itself, and it is one it can take. -/
def moves (s : State) (e : Event) : Bool :=
  match e with
  | .go => decide (apply s .go ≠ s)
  | .ret r => decide (apply s (.ret r) ≠ s)
  | _ => false

/-- How many steps the process takes in a history. -/
def steps : State → List Event → Nat
  | _, [] => 0
  | s, e :: es => (if moves s e then 1 else 0) + steps (apply s e) es

/-- The process waits, in a function. -/
def Waits (s : State) (f : Fn) : Prop := s.point = .inside f .blocked

/-- It has ended, with a status. -/
def Ended (s : State) (status : Nat) : Prop := s.point = .ended status

/-- The places where the process waits for what its client sends next, or for the client to take what it sends, outside of a test. -/
def Ordinary (f : Fn) : Prop := f = .read ∨ f = .serve ∨ f = .start ∨ f = .stop

/-- What neither the client does nor somebody who tells the process to end. -/
def Silent : Event → Prop
  | .bytes => False
  | .term _ => False
  | _ => True

/-- Nothing ever happens to the process again if its client stays silent and nobody tells it to end. -/
def Stuck (s : State) : Prop := (∀ n, ¬ Ended s n) ∧ ∀ es, (∀ e ∈ es, Silent e) → run s es = s

/-- Whatever happens from now on, the process takes up no request, does not wait, and takes at most `n` steps; and as long as it has not ended, it has a step to take. So it ends. -/
def EndsWithin (s : State) (n : Nat) : Prop :=
  ∀ es, requests s es = 0 ∧ steps s es ≤ n ∧ (∀ f, ¬ Waits (run s es) f) ∧ ((∃ status, Ended (run s es) status) ∨ ∃ e, moves (run s es) e = true)

end Owamp.Spec.Life
