import Verif.Model.Schedule
/-!
# What a send schedule should be

Independent of the schedule code (only its slot data type is used): the counter-mode word stream of RFC 4656 section 5 and Knuth's
algorithm S for exponential deviates in 32.32 fixed point.
-/
namespace Owamp.Spec

/-- The `n`-th 32-bit word of the counter-mode key stream: big-endian word `n mod 4` of the cipher
applied to the 128-bit counter `n - n mod 4`. -/
def word (E : Bytes → Bytes → Bytes) (key : Bytes) (n : Nat) : Nat :=
  beDec (get (E key (beEnc 16 (n - n % 4))) (4 * (n % 4)) 4)

/-- The 32-bit number `x` starts with exactly `j` one bits. -/
def LeadingOnes (x j : Nat) : Prop :=
  j ≤ 32 ∧ x / 2 ^ (32 - j) = 2 ^ j - 1 ∧ (j < 32 → x / 2 ^ (31 - j) % 2 = 0)

/-- ln 2 in 32-bit fixed point. -/
def ln2 : Nat := 2977044472

/-- `Q(k) = ln2/1! + ln2²/2! + ... + ln2^k/k!` in 32-bit fixed point (exp-spec.txt); the last entry is
1 minus one unit. -/
def q : Nat → Nat
  | 1 => 2977044472 | 2 => 4008809463 | 3 => 4247197794 | 4 => 4288507344 | 5 => 4294234064
  | 6 => 4294895641 | 7 => 4294961151 | 8 => 4294966827 | 9 => 4294967264 | 10 => 4294967294
  | 11 => 4294967295 | _ => 0

/-- `V` is the minimum of `u lo, ..., u hi`. -/
def IsMin (u : Nat → Nat) (lo hi V : Nat) : Prop :=
  (∃ i, lo ≤ i ∧ i ≤ hi ∧ V = u i) ∧ ∀ i, lo ≤ i → i ≤ hi → V ≤ u i

/-- Algorithm S on the word stream `u`: `val` is the deviate in 32.32 fixed point and `used` the
number of words consumed. -/
def AlgS (u : Nat → Nat) (val used : Nat) : Prop :=
  ∃ j, LeadingOnes (u 0) j ∧
    let U := u 0 * 2 ^ (j + 1) % 2 ^ 32
    (U < ln2 ∧ val = j * ln2 + U ∧ used = 1) ∨
    (ln2 ≤ U ∧ ∃ k, 2 ≤ k ∧ k ≤ 11 ∧ U < q k ∧ (∀ k', 1 ≤ k' → k' < k → q k' ≤ U) ∧
      used = k + 1 ∧ ∃ V, IsMin u 1 k V ∧ val = (j * 2 ^ 32 + V) * ln2 / 2 ^ 32)

/-- `Delays E sid slots k pos ds`: `ds` are the delays of packets `k, k+1, ...` when `pos` words of the
key stream of `sid` have been consumed so far. Packet `k` uses slot `k mod nslots`; a literal slot gives
its offset, an exponential slot a deviate times its mean (32.32 fixed point). -/
inductive Delays (E : Bytes → Bytes → Bytes) (sid : Bytes) (slots : List Sched.Slot) :
    Nat → Nat → List Nat → Prop
  | nil (k pos) : Delays E sid slots k pos []
  | lit (k pos o ds) : slots[k % slots.length]? = some (.literal o) →
      Delays E sid slots (k + 1) pos ds → Delays E sid slots k pos (o.toNat :: ds)
  | exp (k pos m v used ds) : slots[k % slots.length]? = some (.randExp m) →
      AlgS (fun i => word E sid (pos + i)) v used →
      Delays E sid slots (k + 1) (pos + used) ds →
      Delays E sid slots k pos ((v * m.toNat / 2 ^ 32) % 2 ^ 64 :: ds)

end Owamp.Spec
