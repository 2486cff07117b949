import Verif.Model.Dscp
import Verif.Model.Privileges
/-!
# Model of what owampd and twampd read before they start to serve (`LoadConfig` and the options in `main`, owampd/owampd.c)

`I2ReadConfVar` (how a line becomes a key and a value), `getopt`, `strtod` and the names of syslog facilities are external and parameters. Keys and values are
C strings without their terminator. Not modelled: paths longer than `MAXPATHLEN`, failing `strdup`, the option `-w` of a debugging build, which of the messages is printed.
-/
namespace Owamp.Startup
open Owamp.Policy Owamp.Ports

/-- `!strncasecmp(a,b,n)` for C strings in the C locale: the first `n` bytes, up to and with the terminators, are the same but for case. -/
def sameUpTo (n : Nat) (a b : Bytes) : Bool := ((a ++ [0#8]).take n).map lower == ((b ++ [0#8]).take n).map lower

/-- A comparison with the length of a key and one more: `!strncasecmp(key,"key",4)`. -/
def isKey (key : Bytes) (name : List Char) : Bool := sameUpTo (name.length + 1) key (text name)

/-- A comparison with the length of a key: `!strncasecmp(key,"key",strlen("key"))`. -/
def isKeyPrefix (key : Bytes) (name : List Char) : Bool := sameUpTo name.length key (text name)

/-- A number as `strtod` gives it. -/
inductive Dbl where
  | fin (q : Rat)
  | inf
  | minusInf
  | nan
deriving DecidableEq

/-- `tdbl >= a` for a finite `a`. -/
def Dbl.ge (x : Dbl) (a : Rat) : Bool :=
  match x with
  | .fin q => decide (a ≤ q)
  | .inf => true
  | _ => false

/-- `tdbl <= a` for a finite `a`. -/
def Dbl.le (x : Dbl) (a : Rat) : Bool :=
  match x with
  | .fin q => decide (q ≤ a)
  | .minusInf => true
  | _ => false

/-- `tlng = strtoul(val,&end,10)` with `end == val` or `ERANGE` refused (owampd.c:1119-1127), for 64-bit `unsigned long`; the result is stored in 32 bits. -/
def number (s : Bytes) : Option U32 :=
  let r := sign (s.dropWhile isSpace)
  let ds := r.2.takeWhile isDigit
  if ds = [] then none
  else if Dscp.ulongMax < digitsValue ds then none
  else some (BitVec.ofNat 32 (if r.1 then (Dscp.ulongMax + 1 - digitsValue ds) % (Dscp.ulongMax + 1) else digitsValue ds))

/-- The levels of messages (`OWPReportLevelByName`, error.c:54-79; owamp.h). -/
inductive Level where
  | none
  | fatal
  | warning
  | info
  | debug
  | all
deriving DecidableEq, Repr

/-- `OWPReportLevelByName` (error.c:54-79). -/
def levelByName (s : Bytes) : Option Level :=
  if isKey s ['f','a','t','a','l'] then some .fatal
  else if isKey s ['w','a','r','n','i','n','g'] then some .warning
  else if isKey s ['i','n','f','o'] then some .info
  else if isKey s ['d','e','b','u','g'] then some .debug
  else if isKey s ['a','l','l'] then some .all
  else if isKey s ['n','o','n','e'] then some .none
  else none

/-- What is outside: the syslog facilities and `strtod` (`none`: no number, or one that is too great or too small). -/
structure Env where
  facility : Bytes → Option Nat
  dbl : Bytes → Option Dbl
  daemon : Nat

/-- `opts` and `syslogattr` (owampdP.h:36-76, owampd.c:70-75). `portspec` is what the pointer of that name points at, which is the one record `portrec` if it is set. -/
structure Opts where
  facility : Nat
  level : Level := .info
  location : Bool := false
  allowroot : Bool := false
  verbose : Bool := false
  daemon : Bool := true
  datadir : Option Bytes := none
  vardir : Option Bytes := none
  user : Option Bytes := none
  group : Option Bytes := none
  authmode : Option Bytes := none
  srcnode : Option Bytes := none
  portspec : Option Range := none
  diskfudge : Dbl := .fin 1
  dieby : U32 := 5#32
  controltimeout : U32
  pbkdf2 : U32 := 0#32
  endDelay : Option Dbl := none
  maxcontrolsessions : U32 := 0#32
  testtimeout : U32 := 0#32

/-- The defaults (owampd.c:48-61, 1275-1294). -/
def defaults (E : Env) (twoway : Bool) : Opts := { facility := E.daemon, controltimeout := if twoway then 900#32 else 1800#32 }

/-- `parse_ports` (owampd.c:883-956): both ends 0 leave the pointer as it is, but the record it may point at has changed. -/
def setPorts (o : Opts) (s : Bytes) : Option Opts :=
  match parse true s with
  | none => none
  | some g =>
    if g.high = 0#16 ∧ g.low = 0#16 then some { o with portspec := o.portspec.map fun _ => g }
    else some { o with portspec := some g }

/-- The keys of the configuration file. -/
inductive Key where
  | facility
  | loglevel
  | loglocation
  | rootfolly
  | datadir
  | user
  | group
  | verbose
  | authmode
  | srcnode
  | testports
  | vardir
  | diskfudge
  | dieby
  | controltimeout
  | pbkdf2
  | enddelay
  | maxcontrolsessions
  | testtimeout
deriving DecidableEq, Repr

/-- The tests of `LoadConfig` in their order (owampd.c:1003, 1014, 1024, 1027, 1030, 1038, 1046, 1054, 1057, 1065, 1073, 1081, 1090, 1115, 1129, 1143, 1157, 1180, 1197); `none`: the key is
unknown. The last two compare only as many bytes as the key has. -/
def keyOf (twoway : Bool) (key : Bytes) : Option Key :=
  if isKey key ['f','a','c','i','l','i','t','y'] then some .facility
  else if isKey key ['l','o','g','l','e','v','e','l'] then some .loglevel
  else if isKey key ['l','o','g','l','o','c','a','t','i','o','n'] then some .loglocation
  else if isKey key ['r','o','o','t','f','o','l','l','y'] then some .rootfolly
  else if isKey key ['d','a','t','a','d','i','r'] then some .datadir
  else if isKey key ['u','s','e','r'] then some .user
  else if isKey key ['g','r','o','u','p'] then some .group
  else if isKey key ['v','e','r','b','o','s','e'] then some .verbose
  else if isKey key ['a','u','t','h','m','o','d','e'] then some .authmode
  else if isKey key ['s','r','c','n','o','d','e'] then some .srcnode
  else if isKey key ['t','e','s','t','p','o','r','t','s'] then some .testports
  else if isKey key ['v','a','r','d','i','r'] then some .vardir
  else if twoway = false ∧ isKey key ['d','i','s','k','f','u','d','g','e'] then some .diskfudge
  else if isKey key ['d','i','e','b','y'] then some .dieby
  else if isKey key ['c','o','n','t','r','o','l','t','i','m','e','o','u','t'] then some .controltimeout
  else if isKey key ['p','b','k','d','f','2','_','c','o','u','n','t'] then some .pbkdf2
  else if isKey key ['e','n','d','d','e','l','a','y'] then some .enddelay
  else if isKeyPrefix key ['m','a','x','c','o','n','t','r','o','l','s','e','s','s','i','o','n','s'] then some .maxcontrolsessions
  else if twoway = true ∧ isKeyPrefix key ['t','e','s','t','t','i','m','e','o','u','t'] then some .testtimeout
  else none

/-- What is done for each key (owampd.c:1003-1212); `none`: the value is refused. -/
def assign (E : Env) (o : Opts) (val : Bytes) : Key → Option Opts
  | .facility => (E.facility val).map fun n => { o with facility := n }
  | .loglevel => (levelByName val).map fun n => { o with level := n }
  | .loglocation => some { o with location := true }
  | .rootfolly => some { o with allowroot := true }
  | .datadir => some { o with datadir := some val }
  | .user => some { o with user := some val }
  | .group => some { o with group := some val }
  | .verbose => some { o with verbose := true }
  | .authmode => some { o with authmode := some val }
  | .srcnode => some { o with srcnode := some val }
  | .testports => setPorts o val
  | .vardir => some { o with vardir := some val }
  | .diskfudge => (E.dbl val).bind fun x => if x.ge 1 ∧ x.le 10 then some { o with diskfudge := x } else none
  | .dieby => (number val).map fun n => { o with dieby := n }
  | .controltimeout => (number val).map fun n => { o with controltimeout := n }
  | .pbkdf2 => (number val).map fun n => { o with pbkdf2 := n }
  | .enddelay => (E.dbl val).bind fun x => if x.ge 0 then some { o with endDelay := some x } else none
  | .maxcontrolsessions => (number val).map fun n => { o with maxcontrolsessions := n }
  | .testtimeout => (number val).map fun n => { o with testtimeout := n }

/-- One line of the configuration file (`LoadConfig`, owampd.c:1002-1218); `none`: the line is refused. -/
def setting (E : Env) (twoway : Bool) (o : Opts) (key val : Bytes) : Option Opts := (keyOf twoway key).bind (assign E o val)

/-- The lines of the file, as `I2ReadConfVar` gives them, and whether it ends because a line is not in order. -/
structure File where
  lines : List (Bytes × Bytes)
  broken : Bool := false

/-- The loop of `LoadConfig` (owampd.c:999-1226). -/
def settings (E : Env) (twoway : Bool) : Opts → List (Bytes × Bytes) → Option Opts
  | o, [] => some o
  | o, (key, val) :: r => (setting E twoway o key val).bind fun o => settings E twoway o r

/-- `LoadConfig` (owampd.c:958-1229); `file` is what there is at the path of the configuration file. A file that cannot be opened is an error only if its directory was given. -/
def loadConfig (E : Env) (twoway : Bool) (confdir : Option Bytes) (file : Option File) (o : Opts) : Option Opts :=
  match file with
  | none => if confdir.isSome then none else some o
  | some f => (settings E twoway o f.lines).bind fun o => if f.broken then none else some o

/-- The options that `getopt` finds; `unknown` is `-h` or what is no option. -/
inductive Arg where
  | a (v : Bytes)
  | c (v : Bytes)
  | d (v : Bytes)
  | e (v : Bytes)
  | f
  | G (v : Bytes)
  | P (v : Bytes)
  | R (v : Bytes)
  | S (v : Bytes)
  | U (v : Bytes)
  | v
  | Z
  | unknown
deriving DecidableEq

/-- The first round over the command line (owampd.c:1303-1318): the directory of the configuration file. -/
def confdir : List Arg → Option Bytes → Option Bytes
  | [], c => c
  | .c v :: r, _ => confdir r (some v)
  | _ :: r, c => confdir r c

/-- The second round (owampd.c:1333-1354): what concerns syslog. -/
def logging (E : Env) : List Arg → Opts → Option Opts
  | [], o => some o
  | .e v :: r, o => (E.facility v).bind fun n => logging E r { o with facility := n }
  | .Z :: r, o => logging E r { o with daemon := false }
  | _ :: r, o => logging E r o

/-- One option in the third round (owampd.c:1381-1447). -/
def option (o : Opts) : Arg → Option Opts
  | .a v => some { o with authmode := some v }
  | .d v => some { o with datadir := some v }
  | .f => some { o with allowroot := true }
  | .v => some { o with verbose := true }
  | .S v => some { o with srcnode := some v }
  | .U v => some { o with user := some v }
  | .G v => some { o with group := some v }
  | .P v => setPorts o v
  | .R v => some { o with vardir := some v }
  | .c _ => some o
  | .e _ => some o
  | .Z => some o
  | .unknown => none

/-- The third round. -/
def options : Opts → List Arg → Option Opts
  | o, [] => some o
  | o, a :: r => (option o a).bind fun o => options o r

/-- All of it (owampd.c:1275-1456): the defaults, the configuration file, then the command line; `more` are arguments that are no options. -/
def read (E : Env) (twoway : Bool) (file : Option File) (args : List Arg) (more : Bool) : Option Opts :=
  (loadConfig E twoway (confdir args none) file (defaults E twoway)).bind fun o =>
    (logging E args o).bind fun o => (options o args).bind fun o => if more then none else some o

/-- One letter of the modes (owampd.c:1657-1679): 1 is open, 2 authenticated, 4 encrypted, 8 mixed. -/
def modeBit (twoway : Bool) (b : Byte) : Option Nat :=
  if Dscp.upper b = 79#8 then some 1
  else if Dscp.upper b = 65#8 then some 2
  else if Dscp.upper b = 69#8 then some 4
  else if twoway = true ∧ Dscp.upper b = 77#8 then some 8
  else none

/-- The loop over the letters. -/
def modeBits (twoway : Bool) : Nat → Bytes → Option Nat
  | m, [] => some m
  | m, b :: r => (modeBit twoway b).bind fun x => modeBits twoway (m ||| x) r

/-- `opts.auth_mode` (owampd.c:1651-1688); `OWP_DEFAULT_OFFERED_MODE` is 7 (owamp.h), `TWP_DEFAULT_OFFERED_MODE` 15 (twamp.h). -/
def offered (twoway : Bool) (o : Opts) : Option Nat :=
  match o.authmode with
  | none => some (if twoway then 15 else 7)
  | some s => modeBits twoway 0 s

/-- What is handed on: the directories (owampd.c:1499-1504), where a missing one is the current directory, and the user, group and permission to be root (owampd.c:1568-1640). -/
def directory (cwd : Bytes) (d : Option Bytes) : Bytes := d.getD cwd

/-- The wish that `Privileges` takes. -/
def wish (o : Opts) : Priv.Wish := ⟨o.user, o.group, o.allowroot⟩

end Owamp.Startup
