import Verif.Model.Stats
/-!
# What the summary of a one-way session should say

Everything here is about the list of records of a session file, in the order of the file (which is the order of arrival).
-/
namespace Owamp.Spec.Stats
open Owamp.Codec

/-- A record without receive time says that the packet was lost. -/
def Lost (r : DataRec) : Prop := r.recv.owptime = 0

instance (r : DataRec) : Decidable (Lost r) := inferInstanceAs (Decidable (_ = _))

/-- The packet is in one of the ranges that the sender says it skipped. -/
def Skipped (skips : List Skip) (k : Nat) : Prop := ∃ x ∈ skips, x.first.toNat ≤ k ∧ k ≤ x.last.toNat

instance (skips : List Skip) (k : Nat) : Decidable (Skipped skips k) := inferInstanceAs (Decidable (∃ x ∈ skips, _))

/-- The record is about a packet from `first` up to but without `last`. -/
def Within (first last : Nat) (r : DataRec) : Prop := first ≤ r.seq.toNat ∧ r.seq.toNat < last

instance (first last : Nat) (r : DataRec) : Decidable (Within first last r) := inferInstanceAs (Decidable (_ ∧ _))

/-- The records that count for a summary: those within the range and not skipped. -/
def counted (skips : List Skip) (first last : Nat) (rs : List DataRec) : List DataRec :=
  rs.filter fun r => decide (Within first last r ∧ ¬ Skipped skips r.seq.toNat)

/-- The records of arrivals, in their order. -/
def arrivals (rs : List DataRec) : List DataRec := rs.filter fun r => decide (¬ Lost r)

/-- How many copies of packet `k` arrived. -/
def copies (rs : List DataRec) (k : Nat) : Nat := (arrivals rs).countP fun r => r.seq.toNat = k

/-- How many records say that packet `k` was lost. -/
def losses (rs : List DataRec) (k : Nat) : Nat := rs.countP fun r => decide (Lost r ∧ r.seq.toNat = k)

/-- The first copy of packet `k`. -/
def firstCopy (rs : List DataRec) (k : Nat) : Option DataRec := (arrivals rs).find? fun r => r.seq.toNat = k

/-- How many packets below `n` satisfy `p`. -/
def packets (n : Nat) (p : Nat → Bool) : Nat := (List.range n).countP p

/-- Packets of which there is a record. -/
def sent (n : Nat) (rs : List DataRec) : Nat := packets n fun k => decide (∃ r ∈ rs, r.seq.toNat = k)

/-- Packets that are recorded as lost. -/
def lost (n : Nat) (rs : List DataRec) : Nat := packets n fun k => decide (losses rs k ≠ 0)

/-- Copies beyond the first of each packet. -/
def duplicates (n : Nat) (rs : List DataRec) : Nat := ((List.range n).map fun k => copies rs k - 1).sum

/-- Packets whose first copy satisfies `p`. -/
def firsts (n : Nat) (rs : List DataRec) (p : DataRec → Bool) : Nat := packets n fun k => (firstCopy rs k).any p

/-- Arrivals that come right after `j` arrivals all with larger numbers (draft-shalunov-reordering-definition-02). -/
def reordered (rs : List DataRec) (j : Nat) : Nat :=
  let q := (arrivals rs).map (·.seq.toNat)
  (List.range q.length).countP fun p => decide (j ≤ p ∧ ∀ x, x < j → q.getD p 0 < q.getD (p - 1 - x) 0)

/-- `x` is the least of `a` and the numbers in `l`. -/
def LeastOf (a : Int) (l : List Int) (x : Int) : Prop := (x = a ∨ x ∈ l) ∧ x ≤ a ∧ ∀ y ∈ l, x ≤ y

/-- `x` is the greatest of `a` and the numbers in `l`. -/
def GreatestOf (a : Int) (l : List Int) (x : Int) : Prop := (x = a ∨ x ∈ l) ∧ a ≤ x ∧ ∀ y ∈ l, y ≤ x

/-- The place in the file, of records of size `size` from `begin` on, of the first record about a packet that is not below `last`; 0 if there
is none. -/
def nextPlace (size begin last : Nat) (rs : List DataRec) : Nat :=
  match rs.findIdx? fun r => decide (last ≤ r.seq.toNat) with
  | none => 0
  | some i => begin + i * size

/-- The error of a record: that of its times, a lost packet having only a receive time. -/
def recordError (r : DataRec) : Nat :=
  if Lost r then Owamp.Stats.stampError r.recv else Owamp.Stats.stampError r.send + Owamp.Stats.stampError r.recv

/-- The record comes no later than the timeout after the time `sched` of a packet: `recv - timeout` does not exceed it, in the
arithmetic of 64 bit time stamps. -/
def InTime (timeout : Nat) (sched : Nat) (r : DataRec) : Prop :=
  (r.recv.owptime.toNat + 2 ^ 64 - timeout) % 2 ^ 64 ≤ sched

/-- Records as a receiver writes them, for packets scheduled at `sched`: an arrival is in time for its packet and for the packets of all later
records; after a loss come only packets with larger numbers; a packet that arrived is not recorded as lost later. -/
structure Orderly (timeout : Nat) (sched : Nat → Nat) (rs : List DataRec) : Prop where
  self : ∀ r ∈ rs, ¬ Lost r → InTime timeout (sched r.seq.toNat) r
  later : rs.Pairwise fun r r' => ¬ Lost r → InTime timeout (sched r'.seq.toNat) r
  passed : rs.Pairwise fun r r' => Lost r → r.seq.toNat < r'.seq.toNat
  verdict : rs.Pairwise fun r r' => ¬ Lost r → Lost r' → r.seq ≠ r'.seq

/-- The end of a range: -1 as `uint32_t` stands for all the packets of the session (stats.c:1650-1652). -/
def lastOf (c : Owamp.Stats.Cfg) (last : Nat) : Nat := if last = 2 ^ 32 - 1 then c.npackets.toNat else last

end Owamp.Spec.Stats
