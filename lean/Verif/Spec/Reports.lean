import Verif.Model.Reports
/-!
# What reports in parts should be
-/
namespace Owamp.Spec.Reports
open Owamp.Reports

/-- The ranges, each from its first number up to but without its second, follow each other from `a` to `b` without gap, and none is empty. -/
inductive Tiles : Nat → Nat → List (Nat × Nat) → Prop where
  | nil (a : Nat) : Tiles a a []
  | cons (a e b : Nat) (rs : List (Nat × Nat)) : a < e → Tiles e b rs → Tiles a b ((a, e) :: rs)

/-- Number `k` is in the range. -/
def In (k : Nat) (r : Nat × Nat) : Prop := r.1 ≤ k ∧ k < r.2

instance (k : Nat) (r : Nat × Nat) : Decidable (In k r) := inferInstanceAs (Decidable (_ ∧ _))

/-- The summaries that were written, in order. -/
def summaries {σ : Type} (as : List (Act σ)) : List σ := as.filterMap fun a => match a with | .summary s => some s | _ => none

/-- The report of one part: the summary on standard output; or in a file that is made under the name of an unfinished one, then gets its name, with the times of the
summary, loses the first name, and is announced. -/
def report {σ : Type} (M : Engine σ) (o : Opts) (s : σ) : List (Act σ) :=
  if o.files then
    [.create (.inc o.start), .summary s, .link (.inc o.start) (.done (M.start s) (M.stop s) o.machine), .unlink (.inc o.start),
     .say (.done (M.start s) (M.stop s) o.machine)]
  else [.summary s]

/-- The range of a summary as `OWPStatsParse` takes it: `~0` stands for the end of the session. -/
def endOf (npackets last : Nat) : Nat := if last = 2 ^ 32 - 1 then npackets else last

/-- The files there are after what was done, those there were before apart. -/
def after {σ : Type} : List Name → List (Act σ) → List Name
  | ns, [] => ns
  | ns, .create n :: as => after (n :: ns) as
  | ns, .link _ n :: as => after (n :: ns) as
  | ns, .unlink n :: as => after (ns.filter (· ≠ n)) as
  | ns, _ :: as => after ns as

end Owamp.Spec.Reports
