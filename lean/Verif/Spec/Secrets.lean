import Verif.Model.Secrets
/-!
# Words for C89
-/
namespace Owamp.Spec.Secrets
open Owamp.Secrets

/-- What the source has for the identity: the line of the file, or what was typed. -/
def Gives (u : Bytes) : Source → Option Bytes → Prop
  | .noFile, p => p = none
  | .file f, p => p = f
  | .terminal r, p => if u.length < 222 then p = r else p = none

/-- The source is a file that was opened and has no line for the identity. -/
def Missing : Source → Prop
  | .file none => True
  | _ => False

/-- No user is in the file twice. -/
def Once (lines : List (Bytes × Bytes)) : Prop := (lines.map (·.1)).Nodup

/-- The modes for a program that was not told which to use. -/
def usual (tool : Tool) (identified : Bool) : Nat :=
  match tool, identified with
  | .powstream, _ => 7
  | .owping, true => 7
  | .twping, true => 15
  | _, false => 1

end Owamp.Spec.Secrets
