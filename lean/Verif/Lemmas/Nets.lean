import Verif.Lemmas.Classes
/-!
# Lemmas about networks
-/
namespace Owamp.Policy
open Owamp.Spec.Classes Owamp.Ctl

theorem beDec_cons (b : Byte) (r : Bytes) : beDec (b :: r) = b.toNat * 256 ^ r.length + beDec r := by
  suffices h : ∀ (s : Bytes), beDec (b :: s.reverse) = b.toNat * 256 ^ s.length + beDec s.reverse by
    have := h r.reverse; simpa using this
  intro s
  induction s with
  | nil => simp [beDec]
  | cons c s ih =>
    rw [List.reverse_cons, ← List.cons_append, beDec_append_single, beDec_append_single, ih, List.length_cons, Nat.pow_succ,
      Nat.add_mul, ← Nat.mul_assoc, Nat.add_assoc]

theorem beDec_zero (r : Bytes) : beDec r = 0 ↔ ∀ b ∈ r, b = 0 := by
  induction r with
  | nil => simp [beDec]
  | cons b r ih =>
    rw [beDec_cons, Nat.add_eq_zero_iff, ih, Nat.mul_eq_zero]
    have : ¬ (256 ^ r.length = 0) := by have := Nat.pow_pos (a := 256) (n := r.length) (by decide); omega
    simp only [this, or_false, List.mem_cons, forall_eq_or_imp]
    constructor
    · rintro ⟨h1, h2⟩; exact ⟨BitVec.eq_of_toNat_eq h1, h2⟩
    · rintro ⟨h1, h2⟩; exact ⟨by rw [h1]; rfl, h2⟩

theorem lift2048 {p : Nat → Byte → Prop} (h : ∀ k : Fin 8, ∀ i : Fin 256, p k (BitVec.ofFin i)) (k : Nat) (hk : k < 8) (b : Byte) :
    p k b := h ⟨k, hk⟩ b.toFin

theorem tailBits_byte (k : Nat) (hk : k < 8) (b : Byte) : b &&& tailBits k = 0 ↔ b.toNat % 2 ^ (8 - k) = 0 := by
  refine lift2048 (p := fun k b => b &&& tailBits k = 0 ↔ b.toNat % 2 ^ (8 - k) = 0) ?_ k hk b
  decide +kernel

theorem clear_byte (k : Nat) (hk : k < 8) (b : Byte) :
    (b &&& BitVec.ofNat 8 (0xFF <<< (8 - k))).toNat = b.toNat / 2 ^ (8 - k) * 2 ^ (8 - k) := by
  refine lift2048 (p := fun k b => (b &&& BitVec.ofNat 8 (0xFF <<< (8 - k))).toNat = b.toNat / 2 ^ (8 - k) * 2 ^ (8 - k)) ?_ k hk b
  decide +kernel

theorem pow256 (n : Nat) : 256 ^ n = 2 ^ (8 * n) := by
  rw [Nat.pow_mul]

theorem mod_split (b n j r : Nat) (hr : r < 2 ^ n) :
    (b * 2 ^ n + r) % 2 ^ (n + j) = (b % 2 ^ j) * 2 ^ n + r := by
  rw [Nat.pow_add, Nat.mod_mul, Nat.mul_comm b, Nat.mul_add_mod, Nat.mod_eq_of_lt hr, Nat.mul_add_div (Nat.two_pow_pos n),
    Nat.div_eq_of_lt hr, Nat.add_zero, Nat.mul_comm (b % 2 ^ j), Nat.add_comm]

theorem div_split (b n j r : Nat) (hr : r < 2 ^ n) : (b * 2 ^ n + r) / 2 ^ (n + j) = b / 2 ^ j := by
  rw [Nat.pow_add, ← Nat.div_div_eq_div_mul, Nat.mul_comm b, Nat.mul_add_div (Nat.two_pow_pos n), Nat.div_eq_of_lt hr, Nat.add_zero]

theorem tailClear_cons (len : Nat) (b : Byte) (r : Bytes) (h : 8 ≤ len) : tailClear len (b :: r) = tailClear (len - 8) r := by
  unfold tailClear
  have h1 : len / 8 = (len - 8) / 8 + 1 := by omega
  have h2 : len % 8 = (len - 8) % 8 := by omega
  rw [h1, h2, List.getElem?_cons_succ, List.drop_succ_cons]

/-- No bits are set after the mask. -/
theorem tailClear_iff (len : Nat) (a : Bytes) (h : len ≤ 8 * a.length) :
    tailClear len a = true ↔ beDec a % 2 ^ (8 * a.length - len) = 0 := by
  induction a generalizing len with
  | nil =>
    simp [tailClear, beDec]
  | cons b r ih =>
    have hr := beDec_lt r
    rw [pow256] at hr
    rw [List.length_cons] at h ⊢
    rw [beDec_cons, pow256]
    by_cases h8 : 8 ≤ len
    · rw [tailClear_cons len b r h8, ih (len - 8) (by omega), show 8 * (r.length + 1) - len = 8 * r.length - (len - 8) by omega]
      have hd : 2 ^ (8 * r.length - (len - 8)) ∣ b.toNat * 2 ^ (8 * r.length) :=
        Nat.dvd_trans (Nat.pow_dvd_pow 2 (by omega)) (Nat.dvd_mul_left _ _)
      obtain ⟨c, hc⟩ := hd
      rw [hc, Nat.mul_add_mod]
    · rw [show 8 * (r.length + 1) - len = 8 * r.length + (8 - len) by omega, mod_split _ _ _ _ hr]
      unfold tailClear
      rw [show len / 8 = 0 by omega, show len % 8 = len by omega]
      simp only [List.getElem?_cons_zero, List.drop_succ_cons, List.drop_zero, Bool.and_eq_true, decide_eq_true_iff]
      rw [tailBits_byte len (by omega), Nat.add_eq_zero_iff, beDec_zero, Nat.mul_eq_zero]
      simp

/-- `*ptr &= …` on the address alone. -/
def clearAt (len : Nat) (a : Bytes) : Bytes := a.modify (len / 8) (· &&& BitVec.ofNat 8 (0xFF <<< (8 - len % 8)))

theorem clearAt_length (len : Nat) (a : Bytes) : (clearAt len a).length = a.length := by unfold clearAt; simp

/-- One more bit is cleared. -/
theorem clearAt_dec (len : Nat) (a : Bytes) (h : len < 8 * a.length) (h0 : beDec a % 2 ^ (8 * a.length - (len + 1)) = 0) :
    beDec (clearAt len a) = beDec a / 2 ^ (8 * a.length - len) * 2 ^ (8 * a.length - len) := by
  induction a generalizing len with
  | nil => simp at h
  | cons b r ih =>
    have hr := beDec_lt r
    rw [pow256] at hr
    rw [List.length_cons] at h h0 ⊢
    by_cases h8 : 8 ≤ len
    · have e : clearAt len (b :: r) = b :: clearAt (len - 8) r := by
        unfold clearAt
        rw [show len / 8 = (len - 8) / 8 + 1 by omega, show len % 8 = (len - 8) % 8 by omega]
        rfl
      rw [e, beDec_cons, clearAt_length, beDec_cons, pow256]
      rw [beDec_cons, pow256] at h0
      have e1 : 8 * (r.length + 1) - len = 8 * r.length - (len - 8) := by omega
      have e2 : 8 * (r.length + 1) - (len + 1) = 8 * r.length - (len - 8 + 1) := by omega
      rw [e1]
      rw [e2] at h0
      have hd0 : 2 ^ (8 * r.length - (len - 8 + 1)) ∣ b.toNat * 2 ^ (8 * r.length) :=
        Nat.dvd_trans (Nat.pow_dvd_pow 2 (by omega)) (Nat.dvd_mul_left _ _)
      obtain ⟨c0, hc0⟩ := hd0
      rw [hc0, Nat.mul_add_mod] at h0
      rw [ih (len - 8) (by omega) h0]
      have hd : 2 ^ (8 * r.length - (len - 8)) ∣ b.toNat * 2 ^ (8 * r.length) :=
        Nat.dvd_trans (Nat.pow_dvd_pow 2 (by omega)) (Nat.dvd_mul_left _ _)
      obtain ⟨c, hc⟩ := hd
      rw [hc, Nat.mul_add_div (Nat.two_pow_pos _), Nat.add_mul, Nat.mul_comm c]
    · have e : clearAt len (b :: r) = (b &&& BitVec.ofNat 8 (0xFF <<< (8 - len))) :: r := by
        unfold clearAt
        rw [show len / 8 = 0 by omega, show len % 8 = len by omega]
        rfl
      rw [e, beDec_cons, beDec_cons, pow256, clear_byte len (by omega)]
      rw [beDec_cons, pow256, show 8 * (r.length + 1) - (len + 1) = 8 * r.length + (7 - len) by omega, mod_split _ _ _ _ hr,
        Nat.add_eq_zero_iff] at h0
      rw [show 8 * (r.length + 1) - len = 8 * r.length + (8 - len) by omega, div_split _ _ _ _ hr, h0.2, Nat.add_zero,
        Nat.pow_add, Nat.mul_comm (2 ^ (8 * r.length)), Nat.mul_assoc]

theorem modify_left {α : Type} (f : α → α) (a b : List α) (i : Nat) (h : i < a.length) : (a ++ b).modify i f = a.modify i f ++ b := by
  induction a generalizing i with
  | nil => simp at h
  | cons x a ih =>
    cases i with
    | zero => rfl
    | succ i =>
      simp only [List.cons_append, List.modify_succ_cons, List.length_cons] at h ⊢
      rw [ih i (by omega)]

/-- The first `len` of the `8 * size` bits of `x`. -/
def masked (size len x : Nat) : Nat := x / 2 ^ (8 * size - len) * 2 ^ (8 * size - len)

/-- The network of length `len` around `x`. -/
def netKey (size len x : Nat) : Ident := .net size len (beEnc size (masked size len x) ++ zeros (16 - size))

theorem masked_lt {size x : Nat} (len : Nat) (hx : x < 2 ^ (8 * size)) : masked size len x < 2 ^ (8 * size) :=
  Nat.lt_of_le_of_lt (Nat.div_mul_le_self _ _) hx

theorem masked_full (size x : Nat) : masked size (8 * size) x = x := by simp [masked]

theorem masked_step (size len x : Nat) (h : len < 8 * size) :
    masked size (len + 1) x % 2 ^ (8 * size - (len + 1)) = 0 ∧ masked size len (masked size (len + 1) x) = masked size len x := by
  unfold masked
  refine ⟨Nat.mul_mod_left _ _, ?_⟩
  have e : 8 * size - len = (8 * size - (len + 1)) + 1 := by omega
  rw [e, Nat.pow_succ]
  rw [← Nat.div_div_eq_div_mul, Nat.mul_div_cancel _ (Nat.two_pow_pos _), ← Nat.div_div_eq_div_mul]

theorem clearTail_enc (size len y : Nat) (h : len < 8 * size) (hy : y < 2 ^ (8 * size))
    (h0 : y % 2 ^ (8 * size - (len + 1)) = 0) (pad : Bytes) :
    clearTail size len (beEnc size y ++ pad) = beEnc size (masked size len y) ++ pad := by
  unfold clearTail
  rw [if_pos (by omega)]
  have e : (beEnc size y ++ pad).modify (len / 8) (· &&& BitVec.ofNat 8 (0xFF <<< (8 - len % 8))) = clearAt len (beEnc size y) ++ pad := by
    unfold clearAt
    rw [modify_left _ _ _ _ (by rw [beEnc_length]; omega)]
  rw [e]
  congr 1
  have hd : beDec (beEnc size y) = y := by
    rw [beDec_beEnc, pow256, Nat.mod_eq_of_lt hy]
  have h1 := clearAt_dec len (beEnc size y) (by rw [beEnc_length]; exact h) (by rw [hd, beEnc_length]; exact h0)
  rw [hd, beEnc_length] at h1
  have h2 := beEnc_beDec (clearAt len (beEnc size y))
  rw [clearAt_length, beEnc_length, h1] at h2
  exact h2.symm

theorem clearTail_full (size : Nat) (a : Bytes) : clearTail size (8 * size) a = a := by
  unfold clearTail
  rw [if_neg (by omega)]

/-- The loop finds the longest network. -/
theorem matchNet_spec (ids : List (Ident × Nat)) (size x : Nat) (hx : x < 2 ^ (8 * size)) (len : Nat) (hl : len ≤ 8 * size) (y : Nat)
    (hy : (len = 8 * size ∧ y = x) ∨ (len < 8 * size ∧ y = masked size (len + 1) x)) :
    match matchNet ids size len (beEnc size y ++ zeros (16 - size)) with
    | some c => ∃ k, 1 ≤ k ∧ k ≤ len ∧ fetchIdent ids (netKey size k x) = some c ∧
        ∀ j, k < j → j ≤ len → fetchIdent ids (netKey size j x) = none
    | none => ∀ j, 1 ≤ j → j ≤ len → fetchIdent ids (netKey size j x) = none := by
  induction len generalizing y with
  | zero =>
    simp only [matchNet]
    intro j h1 h2; omega
  | succ len ih =>
    have hc : clearTail size (len + 1) (beEnc size y ++ zeros (16 - size)) = beEnc size (masked size (len + 1) x) ++ zeros (16 - size) := by
      rcases hy with ⟨h1, rfl⟩ | ⟨h1, rfl⟩
      · rw [h1, clearTail_full, masked_full]
      · obtain ⟨g1, g2⟩ := masked_step size (len + 1) x h1
        rw [clearTail_enc size (len + 1) _ h1 (masked_lt _ hx) g1, g2]
    unfold matchNet
    rw [hc, show Ident.net size (len + 1) (beEnc size (masked size (len + 1) x) ++ zeros (16 - size)) = netKey size (len + 1) x from rfl]
    cases hf : fetchIdent ids (netKey size (len + 1) x) with
    | some c =>
      exact ⟨len + 1, by omega, Nat.le_refl _, hf, fun j h1 h2 => by omega⟩
    | none =>
      have := ih (by omega) (masked size (len + 1) x) (.inr ⟨by omega, rfl⟩)
      dsimp only
      split
      · rename_i c hm
        rw [hm] at this
        obtain ⟨k, h1, h2, h3, h4⟩ := this
        refine ⟨k, h1, by omega, h3, fun j g1 g2 => ?_⟩
        by_cases hj : j = len + 1
        · rw [hj]; exact hf
        · exact h4 j g1 (by omega)
      · rename_i hm
        rw [hm] at this
        intro j g1 g2
        by_cases hj : j = len + 1
        · rw [hj]; exact hf
        · exact this j g1 (by omega)

/-- The address looked for. -/
theorem addrKey_eq (sa : SockAddr) :
    addrKey sa = (addressOf sa).map fun x => (x.1 / 8, beEnc (x.1 / 8) x.2 ++ zeros (16 - x.1 / 8)) := by
  cases sa with
  | v4 a p =>
    simp only [addrKey, addressOf, Option.map_some]
  | v6 a p s =>
    simp only [addrKey, addressOf]
    by_cases h : a.toNat / 2 ^ 32 = 0xffff
    · rw [if_pos h, if_pos h]
      simp only [Option.map_some]
    · rw [if_neg h, if_neg h, Option.map_some]
      simp [zeros]
  | unspec => rfl
  | other => rfl

theorem addressOf_some {sa : SockAddr} {w x : Nat} (h : addressOf sa = some (w, x)) : (w = 32 ∨ w = 128) ∧ x < 2 ^ w := by
  cases sa with
  | v4 a p =>
    simp only [addressOf, Option.some.injEq, Prod.mk.injEq] at h
    obtain ⟨rfl, rfl⟩ := h
    exact ⟨.inl rfl, a.isLt⟩
  | v6 a p s =>
    simp only [addressOf] at h
    split at h
    · simp only [Option.some.injEq, Prod.mk.injEq] at h
      obtain ⟨rfl, rfl⟩ := h
      exact ⟨.inl rfl, Nat.mod_lt _ (Nat.two_pow_pos 32)⟩
    · simp only [Option.some.injEq, Prod.mk.injEq] at h
      obtain ⟨rfl, rfl⟩ := h
      exact ⟨.inr rfl, a.isLt⟩
  | unspec => cases h
  | other => cases h

end Owamp.Policy
