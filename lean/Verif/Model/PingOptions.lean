import Verif.Model.PowOptions
import Verif.Model.Options
import Verif.Model.Sizes
import Verif.Model.Ping
/-!
# Model of what owping and twping read from their command line (`main` of owping/owping.c, up to the request of the first session)

`getopt`, `strtod` and the conversions of doubles are external and parameters. Texts are C strings without their terminator. Not modelled: failing `strdup` and `sigaction`, signals while
options are read, `TMPDIR`, the option `-w` of a debugging build, where a pass-phrase comes from (`Verif/Model/Secrets.lean`); owstats, owfetch and owup read the same options, fewer of them.
-/
namespace Owamp.PingOpt
open Owamp.Policy
open Owamp.Startup (Dbl)
open Owamp.Ports (Range)

/-- `strtod(s,&endptr)`: the number and the text at `endptr`; `OWPDoubleToNum64` (arithm64.c:363-372); `OWPNum64ToDouble(rtt_bound) + 2.0` (owping.c:1775-1776); `a < b`; the constants 0.1
as a `float` and 0.0001 (owping.c:1290, 1293). -/
structure Env where
  strtod : Bytes → Dbl × Bytes
  num64 : Dbl → U64
  patience : U64 → Dbl
  less : Dbl → Dbl → Bool
  tenth : Dbl
  width : Dbl

/-- The options that `getopt` finds (owping.c:1220-1228); `unknown` is `-h`, `-w`, one of the other program or what is no option. `-v` may have a value. -/
inductive Arg where
  | four
  | six
  | A (v : Bytes)
  | k (v : Bytes)
  | S (v : Bytes)
  | u (v : Bytes)
  | B (v : Bytes)
  | Z
  | c (v : Bytes)
  | D (v : Bytes)
  | E (v : Bytes)
  | F (v : Bytes)
  | f
  | T (v : Bytes)
  | t
  | i (v : Bytes)
  | s (v : Bytes)
  | L (v : Bytes)
  | P (v : Bytes)
  | z (v : Bytes)
  | b (v : Bytes)
  | d (v : Bytes)
  | v
  | vn (v : Bytes)
  | M
  | n (v : Bytes)
  | N (v : Bytes)
  | p
  | Q
  | R
  | a (v : Bytes)
  | U
  | unknown
deriving DecidableEq

/-- `ping_ctx` (owpingP.h:43-111). -/
structure Opts where
  v4 : Bool
  v6 : Bool
  authmode : Option Bytes
  pffile : Option Bytes
  srcaddr : Option Bytes
  identity : Option Bytes
  interface : Option Bytes
  zero : Bool
  numPackets : U32
  typeP : U32
  setEndDelay : Bool
  endDelay : Dbl
  saveBack : Option Bytes
  saveThere : Option Bytes
  back : Bool
  there : Bool
  slots : Option (List Sched.Slot)
  padding : U32
  loss : Dbl
  ports : Range
  delayStart : Dbl
  width : Dbl
  savedir : Option Bytes
  records : Bool
  limit : Nat
  machine : Bool
  units : Byte
  bucket : U32
  printfiles : Bool
  quiet : Bool
  raw : Bool
  percentiles : Option (List Dbl)
  unix : Bool

/-- The defaults (owping.c:1265, 1274-1298); `OWP_PADDING_UNSET` is `~0` (owping.c:64). -/
def defaults (E : Env) : Opts where
  v4 := false
  v6 := false
  authmode := none
  pffile := none
  srcaddr := none
  identity := none
  interface := none
  zero := false
  numPackets := 100
  typeP := 0
  setEndDelay := false
  endDelay := .fin 0
  saveBack := none
  saveThere := none
  back := false
  there := false
  slots := none
  padding := 4294967295
  loss := .fin 0
  ports := ⟨8760, 9960⟩
  delayStart := .fin 0
  width := E.width
  savedir := none
  records := false
  limit := 0
  machine := false
  units := 109
  bucket := 0
  printfiles := false
  quiet := false
  raw := false
  percentiles := none
  unix := false

/-- `x < 0.0`. -/
def neg : Dbl → Bool
  | .fin q => decide (q < 0)
  | .minusInf => true
  | _ => false

/-- A double with `*endptr == '\0'` that is not `< 0.0` (owping.c:1397-1403, 1440-1446, 1480-1486). -/
def nonneg (E : Env) (s : Bytes) : Option Dbl := if (E.strtod s).2 ≠ [] ∨ neg (E.strtod s).1 then none else some (E.strtod s).1

/-- The same, not `<= 0.0` (owping.c:1491-1498). -/
def positive (E : Env) (s : Bytes) : Option Dbl := if (E.strtod s).2 ≠ [] ∨ (E.strtod s).1.le 0 then none else some (E.strtod s).1

/-- The doubles of `parse_slots` and `parse_percentile`: `alpha < 0.0`, `alpha > 100.0`. -/
def floats (E : Env) : Options.Floats where
  D := Dbl
  strtod := E.strtod
  toNum64 := E.num64
  below := neg
  above x := match x with
    | .fin q => decide (100 < q)
    | .inf => true
    | _ => false

/-- `OWPStatsScaleFactor(c,NULL,NULL) != 0.0` (stats.c:1850-1886). -/
def unitKnown (c : Byte) : Bool := lower c = 110#8 ∨ lower c = 117#8 ∨ lower c = 109#8 ∨ lower c = 115#8

/-- `optarg[0]`, for a C string. -/
def firstByte : Bytes → Byte
  | [] => 0
  | b :: _ => b

/-- One option (owping.c:1329-1563); an error is the status the program exits with. A `uint32_t` that is read by `strtoul` with `*endptr == '\0'` is `PowOpt.whole` (owping.c:1378-1383,
1431-1436, 1531-1536). -/
def option (E : Env) (o : Opts) : Arg → Except Nat Opts
  | .four => .ok { o with v4 := true }
  | .six => .ok { o with v6 := true }
  | .A v => .ok { o with authmode := some v }
  | .k v => .ok { o with pffile := some v }
  | .S v => .ok { o with srcaddr := some v }
  | .u v => .ok { o with identity := some v }
  | .B v => if o.interface.isSome then .error 1 else .ok { o with interface := some (v.take 16) }
  | .Z => .ok { o with zero := true }
  | .c v => match PowOpt.whole v with
    | none => .error 1
    | some n => .ok { o with numPackets := n }
  | .D v =>
    if o.typeP ≠ 0 then .error 1
    else match Dscp.parseTypeP v with
      | none => .error 1
      | some t => .ok { o with typeP := t }
  | .E v => match nonneg E v with
    | none => .error 1
    | some x => .ok { o with endDelay := x, setEndDelay := true }
  | .F v => .ok { o with saveBack := some v, back := true }
  | .f => .ok { o with back := true }
  | .T v => .ok { o with saveThere := some v, there := true }
  | .t => .ok { o with there := true }
  | .i v => match Options.parseSlots (floats E) v with
    | none => .error 1
    | some l => .ok { o with slots := some l }
  | .s v => match PowOpt.whole v with
    | none => .error 1
    | some n => .ok { o with padding := n }
  | .L v => match nonneg E v with
    | none => .error 1
    | some x => .ok { o with loss := x }
  | .P v => match Ports.toolRange v with
    | none => .error 1
    | some g => .ok { o with ports := g }
  | .z v => match nonneg E v with
    | none => .error 1
    | some x => .ok { o with delayStart := x }
  | .b v => match positive E v with
    | none => .error 1
    | some x => .ok { o with width := x }
  | .d v => .ok { o with savedir := some v }
  | .v => .ok { o with records := true }
  | .vn v => if (PowOpt.ulong v).2 = [] then .ok { o with records := true, limit := (PowOpt.ulong v).1 } else .error 1
  | .M => .ok { o with machine := true }
  | .n v => if unitKnown (firstByte v) then .ok { o with units := firstByte v } else .error 1
  | .N v => match PowOpt.whole v with
    | none => .error 1
    | some n => .ok { o with bucket := n }
  | .p => .ok { o with printfiles := true }
  | .Q => .ok { o with quiet := true }
  | .R => .ok { o with raw := true }
  | .a v => match Options.parsePercentile (floats E) v with
    | none => .error 1
    | some l => .ok { o with percentiles := some l }
  | .U => .ok { o with unix := true }
  | .unknown => .error 0

/-- The loop over the options (owping.c:1328-1566). -/
def options (E : Env) : Opts → List Arg → Except Nat Opts
  | o, [] => .ok o
  | o, a :: r =>
    match option E o a with
    | .error n => .error n
    | .ok o => options E o r

/-- What is printed (owping.c:1590-1610): nothing for people, lines for programs, each packet. -/
structure Shown where
  quiet : Bool
  machine : Bool
  records : Bool
deriving DecidableEq, Repr

/-- The options that others switch off (owping.c:1590-1610). -/
def shown (o : Opts) : Shown :=
  let quiet := o.quiet || o.raw
  let records := if o.records && quiet then false else o.records
  let machine := if o.machine && quiet then false else o.machine
  ⟨quiet, machine, if records && machine then false else records⟩

/-- The padding of packets (owping.c:1666-1688): `modes` are the modes that the connection may use. `MAX_PADDING_SIZE` is 65000 (owping.c:867). -/
def paddingOf (twoway : Bool) (modes padding : U32) : U32 :=
  let p := if padding = 4294967295#32 then (if twoway then Sizes.twPayloadSize modes 0 - Sizes.payloadSize modes 0 else 0) else padding
  if p.toNat > 65000 then 65000 else p

/-- What the program asks for: whom, in which modes and as whom; the test (owping.c:1690-1702, 1829-1835); the delay at the end, if one is configured (owping.c:1716-1720). -/
structure Plan where
  test : Bytes
  server : Bytes
  modes : U32
  identity : Option Bytes
  npackets : U32
  padding : U32
  slots : List Sched.Slot
  typeP : U32
  endDelay : Option Dbl
  shown : Shown
  dir : Bytes
  ping : Ping.Opts
  opts : Opts

/-- What is done with the options until the connection is opened (owping.c:1568-1747): `rest` are the arguments that are no options; `secret`: `owp_set_auth` has got a pass-phrase, without
which it forgets the identity (owping.c:731-750). The longest name of a file has 20 + 20 + 1 + 4 + 2 bytes. -/
def settle (E : Env) (twoway : Bool) (o : Opts) (rest : List Bytes) (secret : Bool) : Except Nat Plan :=
  if o.v4 && o.v6 then .error 1
  else if o.savedir.any (fun d => decide (d.length + 1 + 47 + 1 > 4096)) then .error 1
  else match rest with
    | [] => .error 1
    | test :: more =>
      if 1 < more.length then .error 1
      else
        let identity := if secret then o.identity else none
        match Options.authModes twoway identity.isSome o.authmode with
        | none => .error 1
        | some modes => .ok {
            test := test
            server := more.head?.getD test
            modes := modes
            identity := identity
            npackets := o.numPackets
            padding := paddingOf twoway modes o.padding
            slots := o.slots.getD [.randExp (E.num64 E.tenth)]
            typeP := o.typeP
            endDelay := if o.setEndDelay then some o.endDelay else none
            shown := shown o
            dir := match o.savedir with
              | some d => d ++ text ['/']
              | none => []
            ping := ⟨twoway, o.there, o.back, o.quiet, o.raw, o.saveThere.isSome, o.saveBack.isSome⟩
            opts := o }

/-- All of it (owping.c:1194-1747). -/
def start (E : Env) (twoway : Bool) (args : List Arg) (rest : List Bytes) (secret : Bool) : Except Nat Plan :=
  match options E (defaults E) args with
  | .error n => .error n
  | .ok o => settle E twoway o rest secret

/-- The loss threshold (owping.c:1761-1784, 1829-1830), `none` if it is below the width of a bucket: `rtt` is the bound on the round-trip time. -/
def timeoutOf (E : Env) (o : Opts) (rtt : U64) : Option U64 :=
  let loss := if o.loss.le 0 then E.patience rtt else o.loss
  if E.less loss o.width then none else some (E.num64 loss)

/-- The delay `-z` (owping.c:1810-1815). -/
def delayOf (E : Env) (o : Opts) : U64 :=
  match o.delayStart with
  | .fin q => if 0 < q then E.num64 o.delayStart else 0
  | .inf => E.num64 o.delayStart
  | _ => 0

end Owamp.PingOpt
