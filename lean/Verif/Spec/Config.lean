import Verif.Model.Config
/-!
# What a configuration table is
-/
namespace Owamp.Spec.Config
open Owamp.Config

/-- The key a call is about. -/
def key : Op → Bytes
  | .setV k _ _ => k
  | .setU32 k _ _ _ => k
  | .delete k => k

/-- The call did not run out of memory. -/
def took : Op → Bool
  | .setV _ _ s => s ≠ .noMemory
  | .setU32 _ _ _ s => s ≠ .noMemory
  | .delete _ => true

/-- The call was successful: a value to be set was stored. -/
def Succeeds : Op → Prop
  | .setV _ _ s => s = .done
  | .setU32 _ _ _ s => s = .done
  | .delete _ => True

/-- What a call leaves for its key. -/
def leaves : Op → Option Bytes
  | .setV _ p .done => some p
  | .setU32 _ u j .done => some (u ++ j)
  | _ => none

/-- What the last of the calls for the key that had an effect left for it; nothing if there was none. -/
def latest (k : Bytes) (ops : List Op) : Option Bytes :=
  (ops.reverse.find? (fun op => decide (key op = k) && took op)).bind leaves

end Owamp.Spec.Config
