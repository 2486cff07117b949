import Verif.Model.Shutdown
/-!
# Vocabulary for the end of a server and for its process file
-/
namespace Owamp.Spec.Shutdown
open Owamp.Shutdown

/-- How often the daemon gets to run. -/
def steps (l : List Event) : Nat := l.countP (· = .step)

/-- The daemon has left its main loop. -/
def Down (s : State) : Prop := match s.point with
  | .leave | .test | .check | .toSuspend | .suspended | .reap .down | .wait .down | .clear .down | .ended => True
  | _ => False

/-- How many children there are, waited for or not. -/
def children (s : State) : Nat := s.running + s.zombies

/-- A server with this number is serving. -/
def Serves (w : World) (p : Nat) : Prop := w.phase p = .serving

/-- A sequence of actions leads from one world to another. -/
inductive Leads : World → World → List Act → Prop
  | nil (w : World) : Leads w w []
  | cons {w w1 w2 : World} {a : Act} {l : List Act} : act w a = some w1 → Leads w1 w2 l → Leads w w2 (a :: l)

/-- No server is there. -/
def empty : World := ⟨fun _ => .gone, none, none, []⟩

end Owamp.Spec.Shutdown
