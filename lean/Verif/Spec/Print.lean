import Verif.Spec.Stats
import Verif.Spec.Ports
import Verif.Model.Print
/-!
# How programs read a report

A report is text of lines, each of fields with tabs between them. A line whose first field is a name gives the value of that name. A table has a
line with its name in angle brackets, rows with an empty first field, and a closing line.
-/
namespace Owamp.Spec.Print
open Owamp.Policy Owamp.Spec.Ports

/-- The pieces of a text between the bytes `b`. -/
def split (b : Byte) : Bytes → List Bytes
  | [] => [[]]
  | x :: s =>
    if x = b then [] :: split b s
    else match split b s with
      | [] => [[x]]
      | p :: ps => (x :: p) :: ps

/-- The lines of a text, each as its fields. Every line ends with a newline. -/
def lines (t : Bytes) : List (List Bytes) := (split 10#8 t).dropLast.map (split 9#8)

/-- There is one line for the name, and it has the value. -/
def Says (L : List (List Bytes)) (name : List Char) (v : Bytes) : Prop :=
  L.filter (fun l => l.head? = some (text name)) = [[text name, v]]

/-- There is no line for the name. -/
def Silent (L : List (List Bytes)) (name : List Char) : Prop := ∀ l ∈ L, l.head? ≠ some (text name)

/-- There is one line for the name, and its value is a number. -/
def Number (L : List (List Bytes)) (name : List Char) (n : Nat) : Prop := ∃ v, Says L name v ∧ Numeral v n

/-- Rows that read as pairs of numbers. -/
inductive Rows : List (List Bytes) → List (Int × Nat) → Prop where
  | nil : Rows [] []
  | cons (v w : Bytes) (b : Int) (n : Nat) (ls : List (List Bytes)) (ps : List (Int × Nat)) :
      Numeral v b → Numeral w n → Rows ls ps → Rows ([[], v, w] :: ls) ((b, n) :: ps)

/-- There is one table of the name, and its rows read as the pairs. -/
def Table (L : List (List Bytes)) (name : List Char) (ps : List (Int × Nat)) : Prop :=
  ∃ before rows after, L = before ++ [[text ('<' :: name ++ ['>'])]] ++ rows ++ [[text ('<' :: '/' :: name ++ ['>'])]] ++ after ∧ Rows rows ps ∧
    Silent before ('<' :: name ++ ['>']) ∧ Silent after ('<' :: name ++ ['>'])

/-- There is no such table. -/
def NoTable (L : List (List Bytes)) (name : List Char) : Prop := Silent L ('<' :: name ++ ['>'])

/-- A text without tabs and newlines. -/
def Plain (s : Bytes) : Prop := 9#8 ∉ s ∧ 10#8 ∉ s

/-- The texts that come from outside have neither tabs nor newlines. -/
structure PlainFmt (F : Owamp.Print.Fmt) : Prop where
  delay : ∀ d, Plain (F.delay d)
  bucket : ∀ b, Plain (F.bucket b)
  spread : ∀ a b, Plain (F.spread a b)
  err : ∀ e, Plain (F.err e)
  unix : ∀ t, Plain (F.unix t)
  width : Plain F.width

/-- The same for the texts of addresses and of the session identifier. -/
structure PlainInfo (i : Owamp.Print.Info) : Prop where
  sid : Plain i.sid
  fromHost : Plain i.fromHost
  fromAddr : Plain i.fromAddr
  fromPort : Plain i.fromPort
  toHost : Plain i.toHost
  toAddr : Plain i.toAddr
  toPort : Plain i.toPort

end Owamp.Spec.Print
