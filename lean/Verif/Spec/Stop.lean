import Verif.Model.Stop
/-!
# What a stop-sessions message does to the receiver's files and sessions
-/
namespace Owamp.Spec.Stop
open Owamp.Ctl Owamp.Codec

/-- What is done to a receiver's file. -/
inductive FileOp where
  /-- records after `next` are dropped and the file is made ready for `nskips` skip ranges -/
  | start (next nskips : U32)
  /-- one skip range is written -/
  | skip (bytes : Bytes)
  /-- the file is marked finished -/
  | finish (nskips next : U32)
deriving DecidableEq, Repr

/-- A file that remembers what was done to it; `ok` decides which operations fail. -/
def logFile (ok : List FileOp → FileOp → Bool) : RecvFile (List FileOp) where
  start f next n := if ok f (.start next n) then some (f ++ [.start next n]) else none
  skip f b := if ok f (.skip b) then some (f ++ [.skip b]) else none
  finish f n next := if ok f (.finish n next) then some (f ++ [.finish n next]) else none

/-- The session's account of itself: its next sequence number and the ranges it did not send. -/
structure Account where
  next : U32
  skips : List Skip
deriving DecidableEq, Repr

/-- A skip range as stored: two 32 bit numbers in network order. -/
def rangeBytes (s : Skip) : Bytes := enc32 s.first ++ enc32 s.last

/-- The file operations that record an account. -/
def recorded (a : Account) : List FileOp :=
  .start a.next (BitVec.ofNat 32 a.skips.length) :: a.skips.map (fun s => .skip (rangeBytes s))
    ++ [.finish (BitVec.ofNat 32 a.skips.length) a.next]

/-- An account on the wire (RFC 4656 3.8): next sequence number, number of ranges, the ranges, and zeros
up to a multiple of 16 bytes. -/
def accountText (a : Account) : Bytes :=
  enc32 a.next ++ enc32 (BitVec.ofNat 32 a.skips.length) ++ (a.skips.map rangeBytes).flatten
    ++ (if a.skips.length % 2 = 0 then zeros 8 else [])

/-- Ascending, disjoint and below the next sequence number: what RFC 4656 3.8 asks for. -/
def wellFormed (a : Account) : Prop :=
  (∀ s ∈ a.skips, s.first.toNat ≤ s.last.toNat ∧ s.last.toNat < a.next.toNat) ∧
  a.skips.Pairwise fun s t => s.last.toNat < t.first.toNat

variable {ρ : Type}

/-- Sessions this side receives, and those it sends. -/
def receiving (t : Sess ρ) : Bool := t.ep.elim false fun e => !e.send
def sending (t : Sess ρ) : Bool := t.ep.elim false fun e => e.send

/-- The first block of the message. -/
def headText (acc : Accept) (num : U32) : Bytes := [3#8] ++ [acc.code] ++ zeros 2 ++ enc32 num ++ zeros 8

/-- A session and the account given of it: on the wire, and recorded in the session's file. -/
def claimText (k : Sess ρ × Account) : Bytes := k.1.sid ++ accountText k.2
def record (k : Sess (List FileOp) × Account) : Sess (List FileOp) :=
  { k.1 with ep := k.1.ep.map fun e => { e with file := e.file ++ recorded k.2 } }

/-- What the sending side's skip file holds at the end of a session. -/
def skipFile (a : Account) : Bytes :=
  enc32 a.next ++ enc32 (BitVec.ofNat 32 a.skips.length) ++ (a.skips.map rangeBytes).flatten

/-- A session identifier and an account on the wire. -/
def itemText (i : Bytes × Account) : Bytes := i.1 ++ accountText i.2

/-- A file on which every operation succeeds. -/
def goodFile : RecvFile (List FileOp) := logFile fun _ _ => true

end Owamp.Spec.Stop
