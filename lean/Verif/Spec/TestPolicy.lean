import Verif.Model.TestPolicy
/-!
# Vocabulary for what a process holds
-/
namespace Owamp.Spec.TestPolicy
open Owamp.Policy

/-- What a query that was answered positively adds to what the process holds of limit `l`. -/
def gained (l : U32) (a : Asked) : Int :=
  if a.answer = mesgOk ∧ a.res.limit = l then
    (if a.query = mesgRelease then - (a.res.value.toNat : Int) else (a.res.value.toNat : Int))
  else 0

/-- What the process has been granted of limit `l` and has not given back. -/
def held (l : U32) (log : List Asked) : Int := (log.map (gained l)).sum

/-- The queries are those of a process that gets its answers from `A`, with amounts below 2^63. -/
inductive Made (A : Answers) : List Asked → Prop where
  | start : Made A []
  | more (log : List Asked) (q : U32) (r : Res) : Made A log → r.value.toNat < 2 ^ 63 → Made A (query A log q r)

/-- The answers of a daemon that is there: each query is granted or denied, and what the process holds may be given back. -/
structure Honest (A : Answers) : Prop where
  answers : ∀ log q r, Made A log → A log q r = mesgOk ∨ A log q r = mesgDenied
  takes : ∀ log r, Made A log → r.value ≠ 0 → (r.value.toNat : Int) ≤ held r.limit log → A log mesgRelease r = mesgOk

/-- What a session in progress has reserved. -/
def reserved (l : U32) (i : TestInfo) : Int :=
  (if i.res0.limit = l then (i.res0.value.toNat : Int) else 0) + (if i.res1.limit = l then (i.res1.value.toNat : Int) else 0)

/-- Amounts are below 2^63, as are the sizes of files; and `fstat` succeeds. -/
def Regular : Op → Prop
  | .request _ _ bandwidth space => bandwidth.toNat < 2 ^ 63 ∧ space.toNat < 2 ^ 63
  | .finish _ .noFile => True
  | .finish _ (.file size stat _) => size.toNat < 2 ^ 63 ∧ stat = true

end Owamp.Spec.TestPolicy
