import Verif.Model.Protocol
/-!
# The order in which RFC 4656 allows requests on a control connection

Between sessions a client may ask for a test session, fetch data, or start the sessions; while sessions
run the only request allowed is to stop them.
-/
namespace Owamp.Spec.Phases
open Owamp.Ctl

inductive Phase where
  | idle
  | testing
deriving DecidableEq, Repr

/-- The phase after one request, `none` where the request is not allowed (one-way server). -/
def next : Phase → ReqType → Option Phase
  | .idle, .test => some .idle
  | .idle, .fetchSession => some .idle
  | .idle, .startSessions => some .testing
  | .testing, .stopSessions => some .idle
  | _, _ => none

/-- The phase after a sequence of requests, `none` if one of them was not allowed. -/
def after : Phase → List ReqType → Option Phase
  | p, [] => some p
  | p, r :: rs => (next p r).bind fun p => after p rs

theorem after_append (p : Phase) (a b : List ReqType) : after p (a ++ b) = (after p a).bind fun q => after q b := by
  induction a generalizing p with
  | nil => rfl
  | cons r rs ih =>
    rw [List.cons_append, after, after]
    cases next p r with
    | none => rfl
    | some q => exact ih q

end Owamp.Spec.Phases
