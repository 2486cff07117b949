import Verif.Model.PingOptions
import Verif.Spec.PowOptions
/-!
# Vocabulary for what owping and twping are told on their command line
-/
namespace Owamp.Spec.PingOpt
open Owamp.PingOpt Owamp.Spec.Ports
open Owamp.Startup (Dbl)

def optA : Arg → Option Bytes | .A v => some v | _ => none
def optk : Arg → Option Bytes | .k v => some v | _ => none
def optS : Arg → Option Bytes | .S v => some v | _ => none
def optu : Arg → Option Bytes | .u v => some v | _ => none
def optB : Arg → Option Bytes | .B v => some v | _ => none
def optc : Arg → Option Bytes | .c v => some v | _ => none
def optD : Arg → Option Bytes | .D v => some v | _ => none
def optE : Arg → Option Bytes | .E v => some v | _ => none
def optF : Arg → Option Bytes | .F v => some v | _ => none
def optT : Arg → Option Bytes | .T v => some v | _ => none
def opti : Arg → Option Bytes | .i v => some v | _ => none
def opts : Arg → Option Bytes | .s v => some v | _ => none
def optL : Arg → Option Bytes | .L v => some v | _ => none
def optP : Arg → Option Bytes | .P v => some v | _ => none
def optz : Arg → Option Bytes | .z v => some v | _ => none
def optb : Arg → Option Bytes | .b v => some v | _ => none
def optd : Arg → Option Bytes | .d v => some v | _ => none
def optv : Arg → Option Bytes | .vn v => some v | _ => none
def optn : Arg → Option Bytes | .n v => some v | _ => none
def optN : Arg → Option Bytes | .N v => some v | _ => none
def opta : Arg → Option Bytes | .a v => some v | _ => none

/-- The options with a whole number, and those with a fraction. -/
def wholes : Arg → Option Bytes
  | .c v | .s v | .vn v | .N v => some v
  | _ => none
def fractions : Arg → Option Bytes
  | .E v | .L v | .z v | .b v => some v
  | _ => none

/-- The value of the last such option. -/
def last (sel : Arg → Option Bytes) (args : List Arg) : Option Bytes := (args.filterMap sel).getLast?

/-- What an option with a fraction says, in terms of `strtod`; what holds without it. -/
def Gives (E : Env) (dflt : Dbl) (o : Option Bytes) (x : Dbl) : Prop :=
  (o = none → x = dflt) ∧ ∀ s, o = some s → E.strtod s = (x, [])

/-- A number below 0, in terms of the order of rationals. -/
def Negative (x : Dbl) : Prop := x = .minusInf ∨ ∃ q, x = .fin q ∧ q < 0

/-- The modes of a test session: open, authenticated, encrypted, mixed. -/
def Mode (m : U32) : Prop := m = 1#32 ∨ m = 2#32 ∨ m = 4#32 ∨ m = 8#32

end Owamp.Spec.PingOpt
