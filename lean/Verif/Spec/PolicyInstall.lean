import Verif.Model.PolicyInstall
import Verif.Spec.Secrets
/-!
# Words for C108
-/
namespace Owamp.Spec.Install
open Owamp.Policy
open Owamp.Install

/-- The lines a server goes by: none if there is no file, else all those of the file, which could all be read. -/
inductive GoesBy {α : Type} : Opened (List α × Bool) → List α → Prop where
  | nothing : GoesBy .missing []
  | all (lines : List α) : GoesBy (.there (lines, false) true) lines

/-- The file with the pass-phrases: `owamp-server.pfs` in `/etc/owamp-server`, say. -/
def pfsFile (confdir pre : Bytes) : Bytes := confdir ++ text ['/'] ++ pre ++ text ['.', 'p', 'f', 's']

/-- The file with the limits. -/
def limitsFile (confdir pre : Bytes) : Bytes := confdir ++ text ['/'] ++ pre ++ text ['.', 'l', 'i', 'm', 'i', 't', 's']

/-- Reading `assign` lines when these users have pass-phrases. -/
def reading (E : Env) (users : List (Bytes × Bytes)) : AssignEnv :=
  ⟨E.refuseDup, E.getaddr, E.strtoul, fun u => decide (u ∈ users.map (·.1))⟩

end Owamp.Spec.Install
