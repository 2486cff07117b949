import Verif.Model.Privileges
/-!
# Vocabulary for the identities of a process

`Cred`, `Call` and `call` (what the system calls do) come from the model.
-/
namespace Owamp.Spec.Privileges
open Owamp.Priv

/-- The text names the identity `u`: a name of the data base, or else `-` and the number of an identity that the data base has. -/
def Means (N : Names) (num : Bytes → Nat) (s : Bytes) (u : Nat) : Prop :=
  N.byName s = some u ∨ (N.byName s = none ∧ ∃ d, s = 45#8 :: d ∧ N.stale s = false ∧ u = num d % 2 ^ 32 ∧ N.byId u = true)

/-- The process is the user `u` and nothing else. -/
def IsUser (k : Cred) (u : Nat) : Prop := k.ruid = u ∧ k.euid = u ∧ k.suid = u

/-- The process has the group `g` and, but for supplementary ones, no other. -/
def IsGroup (k : Cred) (g : Nat) : Prop := k.rgid = g ∧ k.egid = g ∧ k.sgid = g

/-- `k'` can be reached from `k` by some calls. -/
inductive Reaches : Cred → Cred → Prop
  | here (k : Cred) : Reaches k k
  | call {k k1 k2 : Cred} (c : Call) : Priv.call k c = some k1 → Reaches k1 k2 → Reaches k k2

end Owamp.Spec.Privileges
