import Verif.Model.Ports
/-!
# Model of the option `-D` of owping and twping (owping/owping.c), of its use for the packets (owamp/endpoint.c) and in the report (owamp/stats.c)

Strings are C strings without their terminator. `strtoul`, `isspace`, `toupper` and `strncasecmp` are those of the C library in the C locale.
-/
namespace Owamp.Dscp
open Owamp.Policy Owamp.Ports

/-! ## The text -/

/-- The value of a digit or letter, as used by `strtoul`. -/
def digit (b : Byte) : Option Nat :=
  if 48#8 ≤ b ∧ b ≤ 57#8 then some (b.toNat - 48)
  else if 97#8 ≤ b ∧ b ≤ 122#8 then some (b.toNat - 87)
  else if 65#8 ≤ b ∧ b ≤ 90#8 then some (b.toNat - 55)
  else none

def digitIn (base : Nat) (b : Byte) : Bool :=
  match digit b with
  | some d => decide (d < base)
  | none => false

/-- The number `strtoul` computes from digits. -/
def baseValue (base : Nat) (ds : Bytes) : Nat := ds.foldl (fun n b => base * n + (digit b).getD 0) 0

/-- The base `strtoul` with base 0 finds out, and where the digits begin. Without the binary notation of later versions of C. -/
def baseOf (t : Bytes) : Nat × Bytes :=
  match t with
  | a :: x :: h :: r =>
    if a = 48#8 then if (x = 120#8 ∨ x = 88#8) ∧ digitIn 16 h then (16, h :: r) else (8, t)
    else (10, t)
  | a :: _ => if a = 48#8 then (8, t) else (10, t)
  | [] => (10, t)

/-- `ULONG_MAX` for 64 bits. -/
def ulongMax : Nat := 18446744073709551615

/-- `strtoul(s,&endptr,0)`: the number and the text at `endptr`. -/
def strtoul (s : Bytes) : Nat × Bytes :=
  let (minus, t) := sign (s.dropWhile isSpace)
  let (base, t) := baseOf t
  let ds := t.takeWhile (digitIn base)
  if ds = [] then (0, s)
  else
    let v := baseValue base ds
    (if ulongMax < v then ulongMax else if minus then (ulongMax + 1 - v) % (ulongMax + 1) else v, t.dropWhile (digitIn base))

/-- `toupper` in the C locale. -/
def upper (b : Byte) : Byte := if 97#8 ≤ b ∧ b ≤ 122#8 then b - 32#8 else b

/-- The digit after `CS` (owping.c:1083-1108). -/
def selector (b : Byte) : Option Nat :=
  if b = 48#8 then some 0
  else if b = 49#8 then some 0x20
  else if b = 50#8 then some 0x40
  else if b = 51#8 then some 0x60
  else if b = 52#8 then some 0x80
  else if b = 53#8 then some 0xA0
  else if b = 54#8 then some 0xC0
  else if b = 55#8 then some 0xE0
  else none

/-- The first digit after `AF` (owping.c:1114-1129). -/
def forwarding (b : Byte) : Option Nat :=
  if b = 49#8 then some 0x20
  else if b = 50#8 then some 0x40
  else if b = 51#8 then some 0x60
  else if b = 52#8 then some 0x80
  else none

/-- The second digit after `AF` (owping.c:1130-1142). -/
def precedence (b : Byte) : Option Nat :=
  if b = 49#8 then some 0x08
  else if b = 50#8 then some 0x10
  else if b = 51#8 then some 0x18
  else none

/-- The name at the text (owping.c:1064-1145): the byte and the text after the name; `none`: `goto FAILED`. A text that is no name is left as it is. In the condition for `AF` the
call of `toupper` is given the result of the comparison: `toupper(tstr[0] == 'A')`. -/
def named (t : Bytes) : Option (Nat × Bytes) :=
  if eqNoCase t (text ['n', 'o', 'n', 'e']) then some (0, t.drop 4)
  else if eqNoCase t (text ['d', 'e', 'f', 'a', 'u', 'l', 't']) then some (0, t.drop 7)
  else if eqNoCase t (text ['d', 'f']) then some (0, t.drop 2)
  else if eqNoCase t (text ['e', 'f']) then some (0xB8, t.drop 2)
  else
    match t with
    | a :: b :: r =>
      if upper a = 67#8 ∧ upper b = 83#8 then
        match r with
        | [] => none
        | d :: r => (selector d).map fun v => (v, r)
      else if a = 65#8 ∧ upper b = 70#8 then
        match r with
        | c :: d :: r => (forwarding c).bind fun v => (precedence d).map fun w => (v ||| w, r)
        | _ => none
      else some (0, t)
    | _ => some (0, t)

/-- `parse_typeP` (owping.c:960-1164). -/
def parseTypeP (s : Bytes) : Option U32 :=
  let n := strtoul s
  match (if n.2 = [] ∧ n.1 / 64 = 0 then some (n.1 % 64 * 4, []) else named (s.dropWhile isSpace)) with
  | none => none
  | some (tos, rest) => if rest.dropWhile isSpace = [] then some (BitVec.ofNat 32 (tos * 2 ^ 22)) else none

/-! ## The packets -/

/-- What becomes of the traffic class of a socket that sends. -/
inductive Tos where
  | unset
  | refused
  | set (tos : Nat)
deriving DecidableEq, Repr

/-- The use of `typeP` by `_OWPEndpointInit` (endpoint.c:978-1053), for endpoints that send or reflect. The failure of `setsockopt` is not modelled. -/
def socketTos (typeP : U32) : Tos :=
  if typeP = 0 then .unset
  else if typeP &&& ~~~0x3F000000#32 ≠ 0 then .refused
  else .set (((typeP.toNat / 2 ^ 24 % 256) &&& 0x3F) * 4)

/-- The line `DSCP` of the machine readable report (stats.c:2447-2450). -/
def reported (typeP : U32) : Option Nat :=
  if typeP &&& ~~~0x3F000000#32 = 0 then some (typeP.toNat / 2 ^ 24 % 256) else none

end Owamp.Dscp
