import Verif.Model.Powstream
import Verif.Model.Startup
/-!
# Model of what powstream reads from its command line and of its lock (`main` before the loop, powstream/powstream.c:1251-1795)

`getopt`, `strtod`, the conversions of doubles and the names of syslog facilities are external and parameters. Texts are C strings without their terminator. Not modelled: failing
`strdup` and `sigaction`, the warnings, the option `-w` of a debugging build, `owp_set_auth` (`Verif/Model/Secrets.lean` and `Verif/Model/Options.lean` have its parts).
-/
namespace Owamp.PowOpt
open Owamp.Policy Owamp.Ports Owamp.Startup

/-- `strtod(s,&endptr)`: the number and the text at `endptr`; `I2ErrLogSyslogFacility`; `OWPDoubleToNum64` (arithm64.c:363-372); `numPackets * meanWait` stored in a `uint32_t`
(powstream.c:1642); `MAX(meanWait,1) + 2` stored in one (powstream.c:1728); the constants 10.0, 0.1 and 0.0001 (powstream.c:1303-1305). -/
structure Env where
  strtod : Bytes → Dbl × Bytes
  facility : Bytes → Option Nat
  num64 : Dbl → U64
  session : U32 → Dbl → U32
  iotime : Dbl → Nat
  ten : Dbl
  tenth : Dbl
  width : Dbl

/-- The options that `getopt` finds (powstream.c:1270-1273); `unknown` is `-h`, `-w` or what is no option. -/
inductive Arg where
  | four
  | six
  | c (v : Bytes)
  | E (v : Bytes)
  | I (v : Bytes)
  | i (v : Bytes)
  | L (v : Bytes)
  | s (v : Bytes)
  | t
  | z (v : Bytes)
  | A (v : Bytes)
  | k (v : Bytes)
  | S (v : Bytes)
  | B (v : Bytes)
  | u (v : Bytes)
  | P (v : Bytes)
  | b (v : Bytes)
  | d (v : Bytes)
  | N (v : Bytes)
  | p
  | U
  | e (v : Bytes)
  | g (v : Bytes)
  | R
  | v
  | unknown
deriving DecidableEq

/-- `appctx.opt` (powstreamP.h:62-99). -/
structure Opts where
  v4 : Bool
  v6 : Bool
  numPackets : U32
  setEndDelay : Bool
  endDelay : Dbl
  retryDelay : U32
  meanWait : Dbl
  loss : Dbl
  padding : U32
  sender : Bool
  delayStart : U32
  authmode : Option Bytes
  pffile : Option Bytes
  srcaddr : Option Bytes
  interface : Option Bytes
  identity : Option Bytes
  ports : Range
  width : Dbl
  savedir : Option Bytes
  bucket : U32
  printfiles : Bool
  unix : Bool

/-- The defaults (powstream.c:1299-1307). -/
def defaults (E : Env) : Opts where
  v4 := false
  v6 := false
  numPackets := 300
  setEndDelay := false
  endDelay := .fin 0
  retryDelay := 60
  meanWait := E.tenth
  loss := E.ten
  padding := 0
  sender := false
  delayStart := 0
  authmode := none
  pffile := none
  srcaddr := none
  interface := none
  identity := none
  ports := ⟨8760, 9960⟩
  width := E.width
  savedir := none
  bucket := 0
  printfiles := false
  unix := false

/-- `strtoul(s,&endptr,10)` for a 64-bit `unsigned long`: the number and the text at `endptr`, which is `s` if there is no number. -/
def ulong (s : Bytes) : Nat × Bytes :=
  match strtol s with
  | none => (0, s)
  | some (v, rest) => (if Dscp.ulongMax < v.natAbs then Dscp.ulongMax else (v % 18446744073709551616).toNat, rest)

/-- A number with `*endptr == '\0'`, stored in a `uint32_t` (powstream.c:1376-1380, 1393-1397, 1418-1423, 1428-1433, 1506-1512). -/
def whole (s : Bytes) : Option U32 := if (ulong s).2 = [] then some (BitVec.ofNat 32 (ulong s).1) else none

/-- A double with `*endptr == '\0'` (powstream.c:1400-1406). -/
def frac (E : Env) (s : Bytes) : Option Dbl := if (E.strtod s).2 = [] then some (E.strtod s).1 else none

/-- The same, and not `<= 0.0` (powstream.c:1384-1391, 1408-1415, 1491-1497). -/
def positive (E : Env) (s : Bytes) : Option Dbl := if (E.strtod s).2 ≠ [] ∨ (E.strtod s).1.le 0 then none else some (E.strtod s).1

/-- One option in the second round (powstream.c:1367-1536); an error is the status the program exits with. `-E` stores its value and nothing else. -/
def option (E : Env) (o : Opts) : Arg → Except Nat Opts
  | .four => .ok { o with v4 := true }
  | .six => .ok { o with v6 := true }
  | .c v => match whole v with
    | none => .error 1
    | some n => .ok { o with numPackets := n }
  | .E v => match positive E v with
    | none => .error 1
    | some x => .ok { o with endDelay := x }
  | .I v => match whole v with
    | none => .error 1
    | some n => .ok { o with retryDelay := n }
  | .i v => match frac E v with
    | none => .error 1
    | some x => .ok { o with meanWait := x }
  | .L v => match positive E v with
    | none => .error 1
    | some x => .ok { o with loss := x }
  | .s v => match whole v with
    | none => .error 1
    | some n => .ok { o with padding := n }
  | .t => .ok { o with sender := true }
  | .z v => match whole v with
    | none => .error 1
    | some n => .ok { o with delayStart := n }
  | .A v => .ok { o with authmode := some v }
  | .k v => .ok { o with pffile := some v }
  | .S v => .ok { o with srcaddr := some v }
  | .B v => if o.interface.isSome then .error 1 else .ok { o with interface := some (v.take 16) }
  | .u v => .ok { o with identity := some v }
  | .P v => match streamRange v with
    | none => .error 1
    | some g => .ok { o with ports := g }
  | .b v => match positive E v with
    | none => .error 1
    | some x => .ok { o with width := x }
  | .d v => .ok { o with savedir := some v }
  | .N v => match whole v with
    | none => .error 1
    | some n => .ok { o with bucket := n }
  | .p => .ok { o with printfiles := true }
  | .U => .ok { o with unix := true }
  | .e _ => .ok o
  | .g _ => .ok o
  | .R => .ok o
  | .v => .ok o
  | .unknown => .error 0

/-- The second round. -/
def options (E : Env) : Opts → List Arg → Except Nat Opts
  | o, [] => .ok o
  | o, a :: r =>
    match option E o a with
    | .error n => .error n
    | .ok o => options E o r

/-- The first round (powstream.c:1317-1349): whether facilities and levels are known. -/
def first (E : Env) : List Arg → Bool
  | [] => true
  | .e v :: r => if (E.facility v).isSome then first E r else false
  | .g v :: r => if (levelByName v).isSome then first E r else false
  | _ :: r => first E r

/-- What the program works with: whom it asks for tests and with whom they are; the test (powstream.c:1656-1676); packets per summary and number of summaries
(powstream.c:1624-1636); the pause after a failure; the delay before the first test; the delay at the end of a session, if one is configured (powstream.c:1773-1780); the rest as the options. -/
structure Plan where
  test : Bytes
  server : Bytes
  npackets : U32
  padding : U32
  timeout : U64
  mean : U64
  bucket : U32
  summaries : Nat
  retry : U32
  delayStart : U32
  endDelay : Option Dbl
  iotime : Nat
  dir : Bytes
  opts : Opts

/-- What is done with the options (powstream.c:1538-1795): `rest` are the arguments that are no options; `lock`: the lock was obtained. `PATH_MAX` is 4096, and the longest name of a file
has 20 + 20 + 1 + 4 + 2 bytes. -/
def settle (E : Env) (o : Opts) (rest : List Bytes) (lock : Bool) : Except Nat Plan :=
  match rest with
  | [] => .error 1
  | test :: more =>
    if 1 < more.length then .error 1
    else if o.savedir.any (fun d => decide (d.length + 1 + 47 + 1 > 4096)) then .error 1
    else if !lock then .error 1
    else if o.bucket ≠ 0 ∧ (o.numPackets.toNat < o.bucket.toNat ∨ o.numPackets.toNat % o.bucket.toNat ≠ 0) then .error 1
    else if o.v4 && o.v6 then .error 1
    else .ok {
      test := test
      server := more.head?.getD test
      npackets := o.numPackets
      padding := if o.padding.toNat > 0xFFFF then 0xFFFF else o.padding
      timeout := E.num64 o.loss
      mean := E.num64 o.meanWait
      bucket := if o.bucket = 0 then o.numPackets else o.bucket
      summaries := if o.bucket = 0 then 0 else o.numPackets.toNat / o.bucket.toNat
      retry := if (E.session o.numPackets o.meanWait).toNat < o.retryDelay.toNat then E.session o.numPackets o.meanWait else o.retryDelay
      delayStart := o.delayStart
      endDelay := if o.setEndDelay then some o.endDelay else none
      iotime := E.iotime o.meanWait
      dir := match o.savedir with
        | some d => d ++ text ['/']
        | none => []
      opts := o }

/-- All of it (powstream.c:1251-1795). -/
def start (E : Env) (args : List Arg) (rest : List Bytes) (lock : Bool) : Except Nat Plan :=
  if first E args then
    match options E (defaults E) args with
    | .error n => .error n
    | .ok o => settle E o rest lock
  else .error 1

/-- The parameters of the main loop. -/
def Plan.cfg (P : Plan) (gap : Nat → Nat → U64) : Pow.Cfg :=
  ⟨P.npackets.toNat, P.opts.bucket.toNat, P.timeout, P.iotime, P.delayStart.toNat, P.opts.sender, gap⟩

/-! ## The lock (powstream.c:1585-1612) -/

/-- An answer of `fcntl(lockfd,F_SETLK,&flk)`: the lock is obtained; `EINTR`; another error. -/
inductive Answer where
  | ok
  | intr
  | other
deriving DecidableEq, Repr

/-- The loop (powstream.c:1602-1610): whether the lock is obtained; `none`: it is not over. -/
def locked : List Answer → Option Bool
  | [] => none
  | .intr :: r => locked r
  | .ok :: _ => some true
  | .other :: _ => some false

end Owamp.PowOpt
