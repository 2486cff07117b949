import Verif.Spec.Schedule
import Verif.Spec.Time
import Verif.Spec.Stop
import Verif.Model.Sender
/-!
# What a sender owes its peer
-/
namespace Owamp.Spec.Sender
open Owamp.Num64 Owamp.Sender Owamp.Codec

/-- A duration or offset in 32.32 fixed point, in whole nanoseconds. -/
def nanos (x : Nat) : Int := ((x * 1000000000 / 2 ^ 32 : Nat) : Int)

/-- The scheduled time of packet `k`, in nanoseconds: the start time plus the first `k+1` delays (a 64 bit sum). -/
def due (start : TimeParts) (ds : List Nat) (k : Nat) : Int :=
  total 1000000000 start + nanos ((ds.take (k + 1)).sum % 2 ^ 64)

/-- Packet `k` is in the range. -/
def covers (k : Nat) (r : Skip) : Bool := r.first.toNat ≤ k && k ≤ r.last.toNat

/-- The calls that handed packet `k` to the network (a call the kernel refused for lack of buffers did not). -/
def handed (k : Nat) (calls : List Call) : List Call := calls.filter fun c => c.seq = k && c.res ≠ .nobufs

/-- How packet `k` was dealt with: handed over exactly once, in its window, and in no range; or never handed over and in exactly
one range. -/
def Accounted (due : Nat → Int) (timeout : Int) (calls : List Call) (ranges : List Skip) (k : Nat) : Prop :=
  (∃ c, handed k calls = [c] ∧ due k ≤ total 1000000000 c.time ∧ total 1000000000 c.time ≤ due k + timeout ∧
    ranges.filter (covers k) = []) ∨
  (handed k calls = [] ∧ (ranges.filter (covers k)).length = 1)

/-- Two lists of ranges that contain the same packets. -/
def SameSet (a b : List Skip) : Prop := ∀ k, (∃ r ∈ a, covers k r) ↔ ∃ r ∈ b, covers k r

/-- Canonical: no empty range, ascending, no two ranges that touch. -/
def Canonical (l : List Skip) : Prop :=
  (∀ r ∈ l, r.first.toNat ≤ r.last.toNat) ∧ l.Pairwise fun a b => a.last.toNat + 1 < b.first.toNat

end Owamp.Spec.Sender
