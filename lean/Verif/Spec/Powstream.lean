import Verif.Base.Bytes
/-!
# Vocabulary for the files of powstream, independent of the code
-/
namespace Owamp.Pow

/-- The time `start` plus the first `n` intervals of a schedule: for `n > 0`, when packet `n - 1` of a session that starts at `start` is due. -/
def sentAt (gap : Nat → U64) (start : U64) : Nat → U64
  | 0 => start
  | n + 1 => sentAt gap start n + gap n

/-- Packet `n` is in one of the ranges of packets that were not sent; a range includes both its ends. -/
def Skipped (skips : List (Nat × Nat)) (n : Nat) : Prop := ∃ r ∈ skips, r.1 ≤ n ∧ n ≤ r.2

/-- `k` is the last packet that was sent among those with a record; packet 0 if there is none. -/
def LastOf (seqs : List Nat) (skips : List (Nat × Nat)) (k : Nat) : Prop :=
  ((k ∈ seqs ∧ ¬ Skipped skips k) ∨ k = 0) ∧ ∀ n ∈ seqs, ¬ Skipped skips n → n ≤ k

/-- The ranges are in ascending order, do not overlap, and are not empty. -/
def Ascending (skips : List (Nat × Nat)) : Prop :=
  (∀ r ∈ skips, r.1 ≤ r.2) ∧ skips.Pairwise (fun a b => a.2 < b.1)

end Owamp.Pow
