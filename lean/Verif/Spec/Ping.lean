import Verif.Model.Ping
/-!
# What the ping programs should do
-/
namespace Owamp.Spec.Ping
open Owamp.Ping

/-- The sessions that the user asked for: with `-t` alone only the one to the server, with `-f` alone only the one from it, otherwise both; `twping` has one, whose results come back. -/
def Wanted (o : Opts) : Dir → Prop
  | .there => o.twoway = false ∧ ¬ (o.f = true ∧ o.t = false)
  | .back => o.twoway = true ∨ ¬ (o.t = true ∧ o.f = false)

instance (o : Opts) : (d : Dir) → Decidable (Wanted o d)
  | .there => inferInstanceAs (Decidable (_ ∧ _))
  | .back => inferInstanceAs (Decidable (_ ∨ _))

/-- The user wants to see results: not `-Q`, or `-R`. -/
def Shown (o : Opts) : Prop := o.quiet = false ∨ o.raw = true

instance (o : Opts) : Decidable (Shown o) := inferInstanceAs (Decidable (_ ∨ _))

/-- The program gets to start the sessions. -/
structure Ready (o : Opts) (w : World) : Prop where
  connects : w.connects = true
  threshold : w.threshold = true
  clock : w.clock = true
  quiet : w.intr 0 = 0
  still : o.twoway = false → w.intr 1 = 0
  file : Wanted o .back → w.file = true
  accepted : ∀ d, Wanted o d → w.accepts d = true

/-- The test came to a good end: waiting for it did not fail, the server accepts the result, and if it was interrupted the server accepts that. -/
def Ended (w : World) : Prop := 0 ≤ w.wait ∧ w.waitAccept = true ∧ (w.wait = 2 → w.stopAccept = true)

/-- What should be reported of a test that came to a good end: the sessions asked for, if the user wants to see any, and for the one to the server if there are results to fetch. -/
def reportsOf (o : Opts) (w : World) : List Act :=
  (if Wanted o .there ∧ Shown o ∧ w.records ≠ 0 then [.report .there .own .remote] else []) ++
  (if Wanted o .back ∧ Shown o then [if o.twoway then .report .back .own .remote else .report .back .remote .own] else [])

end Owamp.Spec.Ping
