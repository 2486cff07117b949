import Verif.Spec.Print
import Verif.Spec.DataFile
import Verif.Model.Raw
/-!
# How a program reads raw output

Lines, each of fields with single spaces between them (the comments at owping.c:245-256 and 278-296).
-/
namespace Owamp.Spec.Raw
open Owamp.Codec Owamp.Spec.Print Owamp.Spec.Ports

/-- The lines of a text, each as its fields. -/
def rows (t : Bytes) : List (List Bytes) := (split 10#8 t).dropLast.map (split 32#8)

/-- Digits, and nothing else, that write the number. -/
def IsNumber (s : Bytes) (n : Nat) : Prop := s ≠ [] ∧ (∀ d ∈ s, Digit d) ∧ value s = n

/-- A time as raw output has it: twenty digits. -/
def IsTime (s : Bytes) (t : U64) : Prop := s.length = 20 ∧ IsNumber s t.toNat

/-- A field that says yes or no. -/
def IsFlag (s : Bytes) (b : Bool) : Prop := IsNumber s (if b then 1 else 0)

/-- The error that a time stamp states, `multiplier * 2^scale`, in units of 2⁻³² s and in the arithmetic of 64 bits (time.c:778-810). -/
def errorOf (t : Time.TimeStamp) : Nat := (t.multiplier.toNat * 2 ^ (t.scale.toNat % 64)) % 2 ^ 64

/-- Eight fields tell about a record; `E` is the text of an error. -/
def Tells (E : Nat → Bytes) (fs : List Bytes) (r : DataRec) : Prop :=
  ∃ seq stime ssync rtime rsync ttl, fs = [seq, stime, ssync, E (errorOf r.send), rtime, rsync, E (errorOf r.recv), ttl] ∧
    IsNumber seq r.seq.toNat ∧ IsTime stime r.send.owptime ∧ IsFlag ssync r.send.sync ∧
    IsTime rtime r.recv.owptime ∧ IsFlag rsync r.recv.sync ∧ IsNumber ttl r.ttl.toNat

/-- Sixteen fields tell about a two-way record. -/
def TellsTW (E : Nat → Bytes) (fs : List Bytes) (r : TWDataRec) : Prop :=
  fs.length = 16 ∧ Tells E (fs.take 8) r.sent ∧ Tells E (fs.drop 8) r.reflected

/-- The two lists correspond, one by one. -/
inductive Match {α β : Type} (R : α → β → Prop) : List α → List β → Prop where
  | nil : Match R [] []
  | cons (a : α) (b : β) (as : List α) (bs : List β) : R a b → Match R as bs → Match R (a :: as) (b :: bs)

/-- A text without spaces and newlines. -/
def Word (s : Bytes) : Prop := 32#8 ∉ s ∧ 10#8 ∉ s

end Owamp.Spec.Raw
