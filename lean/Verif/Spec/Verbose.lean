import Verif.Spec.Raw
import Verif.Spec.Stats
import Verif.Spec.TwStats
import Verif.Model.Verbose
/-!
# What a reader sees in the lines about single packets
-/
namespace Owamp.Spec.Verbose
open Owamp.Codec Owamp.Policy Owamp.Spec.Raw Owamp.Spec.Print

/-- The lines of a text. -/
def linesOf (t : Bytes) : List Bytes := (split 10#8 t).dropLast

/-- The line is about packet `n` and then says `what`. -/
def About (l : Bytes) (n : Nat) (what : Bytes) : Prop :=
  ∃ num blanks, l = text ['s','e','q','_','n','o','='] ++ num ++ blanks ++ what ∧ IsNumber num n ∧ blanks ≠ [] ∧ ∀ b ∈ blanks, b = 32#8

/-- What the line says after the number: that the packet was lost, or its delay and, if both clocks were synchronised, the error (the sum of those
of the two times). With UNIX times, delays are in full and the two times follow, but only if both clocks were synchronised. -/
def told (F : Owamp.Verbose.Fmt) (unix : Bool) (delay : Time.TimeStamp → Time.TimeStamp → Int) (r : DataRec) : Bytes :=
  if Stats.Lost r then text ['*','L','O','S','T','*']
  else if r.send.sync = true ∧ r.recv.sync = true then
    if unix then
      text ['d','e','l','a','y','='] ++ F.exact (delay r.send r.recv) ++ text [' '] ++ F.unit ++
        text [' ','(','s','y','n','c',',',' ','e','r','r','='] ++ F.err (errorOf r.send + errorOf r.recv) ++ text [' '] ++ F.unit ++
        text [')',' ','s','e','n','t','='] ++ F.unix r.send.owptime.toNat ++ text [' ','r','e','c','v','='] ++ F.unix r.recv.owptime.toNat
    else
      text ['d','e','l','a','y','='] ++ F.delay (delay r.send r.recv) ++ text [' '] ++ F.unit ++
        [9#8] ++ text ['(','s','y','n','c',',',' ','e','r','r','='] ++ F.err (errorOf r.send + errorOf r.recv) ++ text [' '] ++ F.unit ++ text [')']
  else
    text ['d','e','l','a','y','='] ++ F.delay (delay r.send r.recv) ++ text [' '] ++ F.unit ++ [9#8] ++ text ['(','u','n','s','y','n','c',')']

/-- The line of a record. -/
def Line (F : Owamp.Verbose.Fmt) (unix : Bool) (delay : Time.TimeStamp → Time.TimeStamp → Int) (l : Bytes) (r : DataRec) : Prop :=
  About l r.seq.toNat (told F unix delay r)

/-- What the line of a two-way record says after the number: the delays there, back, of the round trip and at the reflector, and the error of the
round trip; with UNIX times the four times follow. -/
def toldTW (F : Owamp.Verbose.Fmt) (unix : Bool) (c : Owamp.TwStats.Cfg) (r : TWDataRec) : Bytes :=
  if TwStats.Lost r then text ['*','L','O','S','T','*']
  else
    let D := if unix then F.exact else F.delay
    text ['f','w','d','_','d','e','l','a','y','='] ++ D (TwStats.out c r) ++ text [' '] ++ F.unit ++
      text [' ','b','c','k','_','d','e','l','a','y','='] ++ D (TwStats.back c r) ++ text [' '] ++ F.unit ++
      text [' ','d','e','l','a','y','='] ++ D (TwStats.trip c r) ++ text [' '] ++ F.unit ++
      text [' ','p','r','o','c','_','d','e','l','a','y','='] ++ D (TwStats.held c r) ++ text [' '] ++ F.unit ++
      (if unix then text [' '] else [9#8]) ++
      text ['(','e','r','r','='] ++ F.err (errorOf r.sent.send + errorOf r.sent.recv + errorOf r.reflected.send + errorOf r.reflected.recv) ++
      text [' '] ++ F.unit ++ text [')'] ++
      (if unix then
        text [' ','s','e','n','t','='] ++ F.unix r.sent.send.owptime.toNat ++ text [' ','r','e','c','v','='] ++ F.unix r.sent.recv.owptime.toNat ++
          text [' ','r','e','f','l','e','c','t','e','d','='] ++ F.unix r.reflected.send.owptime.toNat ++
          text [' ','r','e','c','v','='] ++ F.unix r.reflected.recv.owptime.toNat
       else [])

/-- The line of a two-way record. -/
def LineTW (F : Owamp.Verbose.Fmt) (unix : Bool) (c : Owamp.TwStats.Cfg) (l : Bytes) (r : TWDataRec) : Prop :=
  About l r.sent.seq.toNat (toldTW F unix c r)

/-- The texts from outside have no newline. -/
structure NoBreak (F : Owamp.Verbose.Fmt) : Prop where
  delay : ∀ d, 10#8 ∉ F.delay d
  exact : ∀ d, 10#8 ∉ F.exact d
  err : ∀ e, 10#8 ∉ F.err e
  unix : ∀ t, 10#8 ∉ F.unix t
  unit : 10#8 ∉ F.unit

/-- With UNIX times, the numbers are those that fit into an `int`. -/
def Small (unix : Bool) (n : U32) : Prop := unix = true → n.toNat < 2 ^ 31

end Owamp.Spec.Verbose
