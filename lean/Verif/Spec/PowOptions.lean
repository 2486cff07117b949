import Verif.Model.PowOptions
import Verif.Spec.Ports
/-!
# Vocabulary for what powstream is told on its command line, and for its lock
-/
namespace Owamp.Spec.PowOpt
open Owamp.Policy Owamp.PowOpt Owamp.Spec.Ports
open Owamp.Startup (Dbl)

def optc : Arg → Option Bytes | .c v => some v | _ => none
def optE : Arg → Option Bytes | .E v => some v | _ => none
def optI : Arg → Option Bytes | .I v => some v | _ => none
def opti : Arg → Option Bytes | .i v => some v | _ => none
def optL : Arg → Option Bytes | .L v => some v | _ => none
def opts : Arg → Option Bytes | .s v => some v | _ => none
def optz : Arg → Option Bytes | .z v => some v | _ => none
def optA : Arg → Option Bytes | .A v => some v | _ => none
def optk : Arg → Option Bytes | .k v => some v | _ => none
def optS : Arg → Option Bytes | .S v => some v | _ => none
def optB : Arg → Option Bytes | .B v => some v | _ => none
def optu : Arg → Option Bytes | .u v => some v | _ => none
def optP : Arg → Option Bytes | .P v => some v | _ => none
def optb : Arg → Option Bytes | .b v => some v | _ => none
def optd : Arg → Option Bytes | .d v => some v | _ => none
def optN : Arg → Option Bytes | .N v => some v | _ => none

/-- The options with a whole number, and those with a fraction. -/
def wholes : Arg → Option Bytes
  | .c v | .I v | .s v | .z v | .N v => some v
  | _ => none
def fractions : Arg → Option Bytes
  | .E v | .i v | .L v | .b v => some v
  | _ => none

/-- The value of the last such option. -/
def last (sel : Arg → Option Bytes) (args : List Arg) : Option Bytes := (args.filterMap sel).getLast?

/-- What an option says, if it is there and its value is a number of 32 bits; what holds without it. -/
def Tells (dflt : Nat) (o : Option Bytes) (n : Nat) : Prop :=
  (o = none → n = dflt) ∧ ∀ s v, o = some s → Numeral s v → 0 ≤ v → v < 4294967296 → (n : Int) = v

/-- What an option with a fraction says, in terms of `strtod`; what holds without it. -/
def Gives (E : Env) (dflt : Dbl) (o : Option Bytes) (x : Dbl) : Prop :=
  (o = none → x = dflt) ∧ ∀ s, o = some s → E.strtod s = (x, [])

/-- A powstream that begins in a directory, whose lock file is the file `f`, with what `fcntl` tells it; one that ends. -/
inductive Act where
  | begins (pid f : Nat) (answers : List Answer)
  | ends (pid : Nat)
deriving DecidableEq, Repr

/-- The locks of the system, and the powstreams at work: process and lock file. -/
structure World where
  locks : List (Nat × Nat)
  working : List (Nat × Nat)
deriving DecidableEq, Repr

/-- What happens. The system grants a lock if no other process has it, and takes away all locks of a process that ends; the powstream goes to work if its loop says so. -/
inductive Happens : World → Act → World → Prop where
  | granted {w : World} {pid f : Nat} {answers : List Answer} :
      (∀ p ∈ w.locks, p.1 ≠ pid) → (∀ p ∈ w.locks, p.2 ≠ f) → answers.getLast? = some .ok → (∀ a ∈ answers.dropLast, a = .intr) →
      Happens w (.begins pid f answers)
        { locks := (pid, f) :: w.locks, working := if locked answers = some true then (pid, f) :: w.working else w.working }
  | denied {w : World} {pid f : Nat} {answers : List Answer} :
      .ok ∉ answers → Happens w (.begins pid f answers) { w with working := if locked answers = some true then (pid, f) :: w.working else w.working }
  | ended {w : World} {pid : Nat} :
      Happens w (.ends pid) { locks := w.locks.filter fun p => p.1 ≠ pid, working := w.working.filter fun p => p.1 ≠ pid }

/-- What can come about from nothing. -/
inductive Reached : World → Prop where
  | nothing : Reached ⟨[], []⟩
  | more {w w' : World} {a : Act} : Reached w → Happens w a w' → Reached w'

end Owamp.Spec.PowOpt
