import Verif.Model.Ports
import Verif.Model.Schedule
import Verif.Model.Num64
/-!
# Model of how owping and twping read their command line (owping/owping.c)

Strings are C strings without their terminator. The numbers of type `double` and what the C library and the code compute with them are parameters.
-/
namespace Owamp.Options
open Owamp.Policy Owamp.Sched

/-- The type `double`: `strtod(s,&endptr)`, the number and the text at `endptr`; `OWPDoubleToNum64` (arithm64.c:363-372); the comparisons of `parse_percentile`. -/
structure Floats where
  D : Type
  strtod : Bytes → D × Bytes
  toNum64 : D → U64
  below : D → Bool
  above : D → Bool

/-- How many commas there are (owping.c:885-890, 816-821). -/
def commas (s : Bytes) : Nat := (s.filter isComma).length

/-- One piece of the schedule (owping.c:910-945); `none`: `goto FAILED`. -/
def slotOf (F : Floats) (tok : Bytes) : Option Slot :=
  let r := F.strtod tok
  if r.2.length = tok.length then none
  else if 1 < r.2.length then none
  else
    match r.2 with
    | [] => some (.randExp (F.toNum64 r.1))
    | c :: _ =>
      if lower c = 101#8 then some (.randExp (F.toNum64 r.1))
      else if lower c = 102#8 then some (.literal (F.toNum64 r.1))
      else none

/-- One percentile (owping.c:839-848). -/
def alphaOf (F : Floats) (tok : Bytes) : Option F.D :=
  let r := F.strtod tok
  if r.2.length = tok.length ∨ F.below r.1 ∨ F.above r.1 then none else some r.1

/-- The loops over `strtok` (owping.c:905-946, 834-849) with room for `n` elements: what they have stored, `none` for `goto FAILED`. -/
def pieceLoop {α : Type} (item : Bytes → Option α) : Nat → Bytes → List α → Option (List α)
  | 0, _, acc => some acc
  | n + 1, s, acc =>
    match strtok isComma s with
    | none => some acc
    | some (tok, rest) =>
      match item tok with
      | none => none
      | some a => pieceLoop item n rest (acc ++ [a])

/-- A list separated by commas: as many elements as there are commas and one more, or failure (owping.c:948-951, 851-854). -/
def parseList {α : Type} (item : Bytes → Option α) (s : Bytes) : Option (List α) :=
  match pieceLoop item (commas s + 1) s [] with
  | none => none
  | some l => if l.length ≠ commas s + 1 then none else some l

/-- `parse_slots` (owping.c:869-957). -/
def parseSlots (F : Floats) (s : Bytes) : Option (List Slot) := parseList (slotOf F) s

/-- `parse_percentile` (owping.c:798-862). -/
def parsePercentile (F : Floats) (s : Bytes) : Option (List F.D) := parseList (alphaOf F) s

/-- One letter of `-A` (owping.c:761-783); `M` only in twping. -/
def modeBit (twoway : Bool) (b : Byte) : Option U32 :=
  let u := if 97#8 ≤ b ∧ b ≤ 122#8 then b - 32#8 else b
  if u = 79#8 then some 1
  else if u = 65#8 then some 2
  else if u = 69#8 then some 4
  else if twoway ∧ u = 77#8 then some 8
  else none

/-- The loop over the letters of `-A` (owping.c:758-785). -/
def modeBits (twoway : Bool) : Bytes → U32 → Option U32
  | [], m => some m
  | b :: s, m =>
    match modeBit twoway b with
    | none => none
    | some x => modeBits twoway s (m ||| x)

/-- The modes a connection may use (owping.c:755-796): the letters of `-A`, or by whether there is an identity; `NWP_DEFAULT_OFFERED_MODE` is 7, or 15 in twping (owamp.h:155-156). -/
def authModes (twoway identity : Bool) (a : Option Bytes) : Option U32 :=
  match a with
  | some s => modeBits twoway s 0
  | none => if identity then some (if twoway then 15 else 7) else some 1

/-- The start time of the sessions (owping.c:1793-1827): `rtt` is the bound on the round-trip time, `to`, `back` say which sessions are asked for, `delay` is `-z`, `now` the clock. -/
def startTime (rtt : Nat) (there back : Bool) (delay now : Nat) : Nat :=
  let n := 1
  let n := if there then n + 1 else n
  let n := if back then n + 1 else n
  let s := Num64.add (Num64.mult rtt (Num64.ulongToNum64 n)) (Num64.ulongToNum64 1)
  let s := if delay > s then delay else s
  Num64.add s now

end Owamp.Options
