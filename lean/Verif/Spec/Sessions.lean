import Verif.Model.Sessions
/-!
# Vocabulary for the local sides of sessions
-/
namespace Owamp.Spec.Sessions
open Owamp.Local

/-- What a process that is over has to report: its exit status, and a failure (2) if there is none. -/
def verdict : Ending → Int
  | .exited code => code.toNat
  | _ => 2

/-- The result of an endpoint; `none` while it runs. -/
def result (e : Ep) : Option Int := if e.acceptval < 0 then e.now.map verdict else some e.acceptval

/-- The results of the endpoints of sessions. -/
def results (ts : List Ses) : List (Option Int) := (ts.filterMap Ses.ep).map result

/-- The session of this number has an endpoint, which sends (`true`) or receives (`false`). -/
def Side (ts : List Ses) (i : Nat) (send : Bool) : Prop := ∃ t e, ts[i]? = some t ∧ t.ep = some e ∧ e.send = send

/-- Wherever `b` happens, `a` has happened before. -/
def Before {α : Type} (a b : α) (l : List α) : Prop := ∀ pre post, l = pre ++ b :: post → a ∈ pre

/-- Time goes by: processes may end, and nothing else changes. -/
def Later (t t' : Ses) : Prop :=
  t' = t ∨ ∃ e en, t.ep = some e ∧ e.now = none ∧ t' = { t with ep := some { e with now := some en } }

/-- The same for a list. -/
inductive AllLater : List Ses → List Ses → Prop where
  | nil : AllLater [] []
  | cons {t t' ts ts'} : Later t t' → AllLater ts ts' → AllLater (t :: ts) (t' :: ts')

/-- The sessions have only been watched: time went by and their state was asked for, and no process was told to stop. -/
inductive OnlyWatched : List Ses → List Ses → Prop where
  | start (ts) : OnlyWatched ts ts
  | later {ts ts' ts''} : OnlyWatched ts ts' → AllLater ts' ts'' → OnlyWatched ts ts''
  | look {ts ts'} : OnlyWatched ts ts' → OnlyWatched ts (sessionsActive ts').2.2

/-- No process is left that was not waited for, unless it could not be sent a signal and the severity tells of a failure. -/
def NobodyLeft (err : Nat) (ts : List Ses) : Prop :=
  ∀ t ∈ ts, ∀ e, t.ep = some e → e.child = true → 0 ≤ e.acceptval ∨ (e.killOk = false ∧ err < warning)

/-- Nothing runs any more, or something has failed. -/
def OverOrFailed (ts : List Ses) : Prop := (∀ r ∈ results ts, r ≠ none) ∨ ∃ v, some v ∈ results ts ∧ 0 < v

end Owamp.Spec.Sessions
