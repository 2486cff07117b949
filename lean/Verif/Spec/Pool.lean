import Verif.Model.Pool
/-!
# What an end point should know of its packets

As if there were a table with a line for every packet of the session from the beginning, with its time in the schedule.
-/
namespace Owamp.Spec.Pool
open Owamp.Num64 Owamp.Time Owamp.Pool
open Owamp.TwoWay (Node)

/-- The schedule gives these intervals. -/
def Draws (E : Bytes → Bytes → Bytes) (ctx : Sched.Ctx) (delta : Nat → Nat) (n : Nat) : Prop :=
  ∃ state : Nat → Sched.Ctx, state 0 = ctx ∧ ∀ k < n, Sched.nextDelta E (state k) = (.ok (delta k), state (k + 1))

/-- The time of a packet from the start of the session: the sum of the intervals, in 64 bits. -/
def offset (delta : Nat → Nat) : Nat → Nat
  | 0 => delta 0
  | n + 1 => (offset delta n + delta (n + 1)) % 2 ^ 64

/-- The line of a packet at first: neither received nor sent; its scheduled time. -/
def scheduled (start : U64) (delta : Nat → Nat) (n : Nat) : Node :=
  ⟨n, false, false, offset delta n, timestampToTimespec ⟨BitVec.ofNat 64 ((offset delta n + start.toNat) % 2 ^ 64), false, 0, 0⟩⟩

/-- The table: the lines from `lo` on are in use; `hi` is the first one that was never needed; `most` is the greatest number of lines in between so far. -/
structure Table where
  lo : Nat
  hi : Nat
  most : Nat
  now : Nat → Node

/-- The line `seq` is needed. -/
def Table.need (t : Table) (seq : Nat) : Table := { t with hi := max t.hi (seq + 1), most := max t.most (max t.hi (seq + 1) - t.lo) }

/-- One use of a table for `np` packets; `none` if the table is used up or has no such line. -/
def use (np : Nat) (t : Table) : Op → Option (Out × Table)
  | .look seq =>
    if t.lo < np ∧ seq < np then some (if seq < t.lo then (.node none, t) else (.node (some (t.now seq)), t.need seq)) else none
  | .change seq h s a =>
    if t.lo < np ∧ seq < np then
      some (if seq < t.lo then (.node none, t)
        else (.node (some (t.now seq)), { t.need seq with now := fun k => if k = seq then { t.now seq with hit := h, sent := s, absolute := a } else t.now k }))
    else none
  | .pop => if t.lo < np then some (.popped (t.lo + 1 = np), { t with lo := t.lo + 1, hi := max t.hi (min (t.lo + 2) np) }) else none

/-- Uses one after the other. -/
def uses (np : Nat) : Table → List Op → Option (List Out × Table)
  | t, [] => some ([], t)
  | t, o :: os => (use np t o).bind fun r => (uses np r.2 os).map fun x => (r.1 :: x.1, x.2)

end Owamp.Spec.Pool
