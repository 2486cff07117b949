import Verif.Model.Classes
/-!
# Model of port ranges (owamp/capi.c, owampd/owampd.c) and of the choice of a port for a test (owamp/endpoint.c)

Strings are C strings without their terminator. Floating point rounding and `bind` are parameters.
-/
namespace Owamp.Ports
open Owamp.Policy

/-! ## Reading a range -/

/-- `isdigit`, as used by `strtol` with base 10. -/
def isDigit (b : Byte) : Bool := 48#8 ≤ b ∧ b ≤ 57#8

/-- The number `strtol` computes from digits. -/
def digitsValue (ds : Bytes) : Nat := ds.foldl (fun n d => 10 * n + (d.toNat - 48)) 0

/-- The sign `strtol` accepts: whether it is a minus, and the text after it. -/
def sign : Bytes → Bool × Bytes
  | [] => (false, [])
  | b :: r => if b = 45#8 then (true, r) else if b = 43#8 then (false, r) else (false, b :: r)

/-- `strtol(s,&endptr,10)`: the number and the text at `endptr`; `none` if there is no number, so that `endptr` is `s`.
Simplified: numbers that do not fit into a `long` are not replaced by the greatest or least `long`; the callers refuse
both. -/
def strtol (s : Bytes) : Option (Int × Bytes) :=
  let (minus, t) := sign (s.dropWhile isSpace)
  let ds := t.takeWhile isDigit
  if ds = [] then none
  else some (if minus then - (digitsValue ds : Int) else (digitsValue ds : Int), t.dropWhile isDigit)

/-- `OWPPortRangeRec` (owamp.h:523-526). -/
structure Range where
  low : U16
  high : U16
deriving DecidableEq, Repr

/-- One number of a range: blanks, `strtol` and its checks (capi.c:1720-1725, 1744-1749). -/
def portNumber (s : Bytes) : Option (U16 × Bytes) :=
  match strtol (s.dropWhile isSpace) with
  | none => none
  | some (v, rest) => if v < 0 ∨ v > 0xffff then none else some (BitVec.ofInt 16 v, rest)

/-- `OWPParsePortRange` (capi.c:1707-1769) with `zeroAlone = false`, and `parse_ports` (owampd.c:883-952) with
`zeroAlone = true`: they differ in what they do with a single 0. Not modelled: the message for a bad string, and that a
failing call may already have changed `low`. -/
def parse (zeroAlone : Bool) (s : Bytes) : Option Range :=
  match portNumber s with
  | none => none
  | some (low, rest) =>
    match rest.dropWhile isSpace with
    | [] => if low = 0#16 ∧ ¬ zeroAlone then none else some ⟨low, low⟩
    | b :: rest =>
      if b = 45#8 then
        match portNumber rest with
        | none => none
        | some (high, _) => if high < low then none else some ⟨low, high⟩
      else none

/-- What `parse_ports` leaves in `opts.portspec` (owampd.c:935-945): nothing if both ends are 0. -/
def daemonRange (s : Bytes) : Option (Option Range) :=
  (parse true s).map fun g => if g.high = 0#16 ∧ g.low = 0#16 then none else some g

/-- What the option `-P` of owping (owping.c:1448-1472) stores: "0" is compared as a string before the parser is asked.
The check that there is at least one port (owping.c:1460-1467) never fails. -/
def toolRange (s : Bytes) : Option Range :=
  if s = text ['0'] then some ⟨0#16, 0#16⟩ else parse false s

/-- The option `-P` of powstream (powstream.c:1470-1487): as for owping, but a range of one port other than 0 is refused. -/
def streamRange (s : Bytes) : Option Range :=
  if s = text ['0'] then some ⟨0#16, 0#16⟩
  else match parse false s with
    | none => none
    | some g =>
      if g.high ≠ 0#16 ∧ g.low ≠ 0#16 ∧ (g.high.toNat : Int) - g.low.toNat + 1 < 2 then none else some g

/-! ## Choosing a port -/

/-- What `bind` says. -/
inductive Bind where
  | ok
  | inUse
  | other
deriving DecidableEq, Repr

/-- What `_OWPEndpointInit` knows when it chooses a port: the port in the address of the endpoint, whether this is the
server side of a two-way session, the configured range and the random number. -/
structure Ask where
  asked : U16
  reflector : Bool
  cfg : Option Range
  r : U32

/-- The search that follows: the first port, the range (0 if the search is not to go on) and the range record. -/
structure Plan where
  port : Nat
  range : Nat
  rec? : Option Range
deriving DecidableEq, Repr

/-- `portrange->high - portrange->low + 1` stored in a `uint16_t` (endpoint.c:539, 553). -/
def width (g : Range) : Nat := (g.high.toNat + 2 ^ 16 + 1 - g.low.toNat) % 2 ^ 16

/-- `portrange->low + ((double)r / 0xffffffff * range)` before it is stored (endpoint.c:554). `rnd` rounds the result of
an operation on doubles. -/
def pick (rnd : Rat → Rat) (g : Range) (r : U32) : Int :=
  (rnd ((g.low.toNat : Rat) + rnd (rnd ((r.toNat : Rat) / 4294967295) * (width g : Rat)))).floor

/-- The first port and the range (endpoint.c:510-562); `none` if the value does not fit into a `uint16_t`, which is
undefined in C. Not modelled: a failing random source. The check that the range is not upside down comes in `choose`. -/
def plan (rnd : Rat → Rat) (a : Ask) : Option Plan :=
  let port := match a.cfg with
    | some g => if a.reflector ∧ a.asked ≠ 0#16 ∧ (a.asked < g.low ∨ a.asked > g.high) then 0 else a.asked.toNat
    | none => a.asked.toNat
  if port ≠ 0 then
    if a.reflector then
      let g := a.cfg.getD ⟨BitVec.ofNat 16 port, 65535#16⟩
      some ⟨port, width g, some g⟩
    else some ⟨port, 0, a.cfg⟩
  else match a.cfg with
    | none => some ⟨0, 0, none⟩
    | some g =>
      let p := pick rnd g a.r
      if p < 0 ∨ p > 0xffff then none else some ⟨p.toNat, width g, some g⟩

/-- How the search ends. -/
inductive Found where
  /-- The socket is bound to this port (0: the system has chosen one). -/
  | bound (p : Nat)
  /-- `bind` failed and no other port is to be tried. -/
  | failed
  /-- "Full port range exhausted". -/
  | exhausted
  /-- "Invalid port range specified". -/
  | invalid
  /-- A conversion without defined result. -/
  | undefined
  /-- The loop goes on. -/
  | running
deriving DecidableEq, Repr

/-- The next port (endpoint.c:605-609). -/
def nextPort (g : Range) (range p : Nat) : Nat :=
  (((p + 2 ^ 16 - g.low.toNat) % 2 ^ 16 + 1) % range + g.low.toNat) % 2 ^ 16

/-- The loop of endpoint.c:571-610 for at most `fuel` turns: the ports tried and the end. `bind k p` is the answer of
`bind` in turn `k` for port `p`. -/
def search (bind : Nat → Nat → Bind) (pl : Plan) : Nat → Nat → Nat → List Nat × Found
  | 0, _, _ => ([], .running)
  | fuel + 1, k, p =>
    match bind k p with
    | .ok => ([p], .bound p)
    | .other => ([p], .failed)
    | .inUse =>
      match pl.rec? with
      | none => ([p], .failed)
      | some g =>
        if pl.range = 0 then ([p], .failed)
        else
          let p' := nextPort g pl.range p
          if p' = pl.port then ([p], .exhausted)
          else
            let (tried, e) := search bind pl fuel (k + 1) p'
            (p :: tried, e)

/-- The choice of a port (endpoint.c:486-617). -/
def choose (rnd : Rat → Rat) (bind : Nat → Nat → Bind) (a : Ask) (fuel : Nat) : List Nat × Found :=
  match plan rnd a with
  | none => ([], .undefined)
  | some pl =>
    match pl.rec? with
    | some g => if g.high < g.low then ([], .invalid) else search bind pl fuel 0 pl.port
    | none => search bind pl fuel 0 pl.port

end Owamp.Ports
