import Verif.Model.Startup
import Verif.Spec.Classes
import Verif.Spec.Ports
/-!
# Vocabulary for what a server is told before it starts
-/
namespace Owamp.Spec.Startup
open Owamp.Policy Owamp.Startup Owamp.Spec.Classes Owamp.Spec.Ports

/-- The values that the lines of a configuration file give for a key, whatever its case. -/
def valuesOf (name : List Char) (lines : List (Bytes × Bytes)) : List Bytes := (lines.filter fun l => SameWord l.1 (text name)).map (·.2)

/-- The keys and values are C strings. -/
def Strings (lines : List (Bytes × Bytes)) : Prop := ∀ l ∈ lines, 0#8 ∉ l.1 ∧ 0#8 ∉ l.2

/-- No key is one of the two that are only compared with the beginning and goes on. -/
def Whole (twoway : Bool) (lines : List (Bytes × Bytes)) : Prop :=
  ∀ l ∈ lines,
    (SameWord (l.1.take 18) (text ['m','a','x','c','o','n','t','r','o','l','s','e','s','s','i','o','n','s']) → l.1.length = 18) ∧
    (twoway = true → SameWord (l.1.take 11) (text ['t','e','s','t','t','i','m','e','o','u','t']) → l.1.length = 11)

/-- The lines of the configuration file, none if there is no file. -/
def linesOf (file : Option File) : List (Bytes × Bytes) := (file.map (·.lines)).getD []

/-- The arguments of the options that say the same as a key. -/
def given (sel : Arg → Option Bytes) (args : List Arg) : List Bytes := args.filterMap sel

def optA : Arg → Option Bytes | .a v => some v | _ => none
def optC : Arg → Option Bytes | .c v => some v | _ => none
def optD : Arg → Option Bytes | .d v => some v | _ => none
def optE : Arg → Option Bytes | .e v => some v | _ => none
def optG : Arg → Option Bytes | .G v => some v | _ => none
def optP : Arg → Option Bytes | .P v => some v | _ => none
def optR : Arg → Option Bytes | .R v => some v | _ => none
def optS : Arg → Option Bytes | .S v => some v | _ => none
def optU : Arg → Option Bytes | .U v => some v | _ => none

/-- What counts: the last option of the command line if there is one, otherwise the last line of the file. -/
def counts (cmd file : List Bytes) : Option Bytes := cmd.getLast?.or file.getLast?

/-- A text that begins with the number `i`, of less than 65 bits. -/
def Begins (s : Bytes) (i : Int) : Prop := ∃ n tail, s = n ++ tail ∧ Numeral n i ∧ NoDigit tail ∧ i.natAbs < 2 ^ 64

/-- A range of ports, perhaps with something behind it. -/
def IsRange (s : Bytes) (lo hi : Nat) : Prop :=
  lo < 2 ^ 16 ∧ hi < 2 ^ 16 ∧ (Single s lo ∧ hi = lo ∨ ∃ tail, Pair s lo hi tail ∧ lo ≤ hi)

/-- The names of the levels of messages. -/
def levels : List (List Char × Level) :=
  [(['f','a','t','a','l'], .fatal), (['w','a','r','n','i','n','g'], .warning), (['i','n','f','o'], .info), (['d','e','b','u','g'], .debug), (['a','l','l'], .all), (['n','o','n','e'], .none)]

/-- The keys with a text, without a value, and with a number. -/
def textKeys : List (List Char) :=
  [['d','a','t','a','d','i','r'], ['u','s','e','r'], ['g','r','o','u','p'], ['a','u','t','h','m','o','d','e'], ['s','r','c','n','o','d','e'], ['v','a','r','d','i','r']]
def flagKeys : List (List Char) := [['l','o','g','l','o','c','a','t','i','o','n'], ['r','o','o','t','f','o','l','l','y'], ['v','e','r','b','o','s','e']]
def numberKeys (twoway : Bool) : List (List Char) :=
  [['d','i','e','b','y'], ['c','o','n','t','r','o','l','t','i','m','e','o','u','t'], ['p','b','k','d','f','2','_','c','o','u','n','t'],
    ['m','a','x','c','o','n','t','r','o','l','s','e','s','s','i','o','n','s']] ++ (if twoway then [['t','e','s','t','t','i','m','e','o','u','t']] else [])

/-- A line that is in order. -/
inductive GoodLine (E : Env) (twoway : Bool) (k v : Bytes) : Prop
  | text (n) : n ∈ textKeys → SameWord k (text n) → GoodLine E twoway k v
  | flag (n) : n ∈ flagKeys → SameWord k (Policy.text n) → GoodLine E twoway k v
  | number (n i) : n ∈ numberKeys twoway → SameWord k (Policy.text n) → Begins v i → GoodLine E twoway k v
  | facility (f) : SameWord k (Policy.text ['f','a','c','i','l','i','t','y']) → E.facility v = some f → GoodLine E twoway k v
  | level (n) : SameWord k (Policy.text ['l','o','g','l','e','v','e','l']) → n ∈ levels → SameWord v (Policy.text n.1) → GoodLine E twoway k v
  | ports (lo hi) : SameWord k (Policy.text ['t','e','s','t','p','o','r','t','s']) → IsRange v lo hi → GoodLine E twoway k v
  | fudge (q : Rat) : twoway = false → SameWord k (Policy.text ['d','i','s','k','f','u','d','g','e']) → E.dbl v = some (.fin q) → 1 ≤ q → q ≤ 10 → GoodLine E twoway k v
  | delay (q : Rat) : SameWord k (Policy.text ['e','n','d','d','e','l','a','y']) → E.dbl v = some (.fin q) → 0 ≤ q → GoodLine E twoway k v
  | endless : SameWord k (Policy.text ['e','n','d','d','e','l','a','y']) → E.dbl v = some .inf → GoodLine E twoway k v

/-- An option that is in order. -/
def GoodArg (E : Env) : Arg → Prop
  | .e v => ∃ f, E.facility v = some f
  | .P v => ∃ lo hi, IsRange v lo hi
  | .unknown => False
  | _ => True

end Owamp.Spec.Startup
