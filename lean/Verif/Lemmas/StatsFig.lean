import Verif.Lemmas.StatsParse
/-!
# Lemmas about summaries: what the figures mean
-/
namespace Owamp.Stats
open Owamp.Num64 Owamp.Codec Owamp.Spec.Stats

/-! ## One more record -/

theorem find_none (C : List DataRec) (k : Nat) : firstCopy C k = none ↔ copies C k = 0 := by
  unfold firstCopy copies
  rw [List.find?_eq_none, List.countP_eq_zero]

theorem firstCopy_append (C : List DataRec) (r : DataRec) (k : Nat) :
    firstCopy (C ++ [r]) k = if ¬ Lost r ∧ copies C r.seq.toNat = 0 ∧ r.seq.toNat = k then some r else firstCopy C k := by
  unfold firstCopy
  rw [arrivals_append, List.find?_append]
  by_cases hl : Lost r
  · simp [hl]
  · rw [if_neg hl]
    by_cases hk : r.seq.toNat = k
    · by_cases h0 : copies C r.seq.toNat = 0
      · rw [if_pos ⟨hl, h0, hk⟩]
        rw [hk] at h0
        have := (find_none C k).2 h0
        unfold firstCopy at this
        rw [this]
        simp [hk]
      · rw [if_neg (fun h => h0 h.2.1)]
        rw [hk] at h0
        have : firstCopy C k ≠ none := fun h => h0 ((find_none C k).1 h)
        unfold firstCopy at this
        cases hf : List.find? (fun r => decide (r.seq.toNat = k)) (arrivals C) with
        | none => exact (this hf).elim
        | some x => rfl
    · rw [if_neg (fun h => hk h.2.2)]
      simp [hk]

theorem firsts_append (n : Nat) (C : List DataRec) (r : DataRec) (p : DataRec → Bool) (hn : r.seq.toNat < n) :
    firsts n (C ++ [r]) p = firsts n C p + (if ¬ Lost r ∧ copies C r.seq.toNat = 0 ∧ p r = true then 1 else 0) := by
  unfold firsts
  by_cases h : ¬ Lost r ∧ copies C r.seq.toNat = 0
  · have hother : ∀ k, k ≠ r.seq.toNat → (firstCopy (C ++ [r]) k).any p = (firstCopy C k).any p := by
      intro k hk
      rw [firstCopy_append, if_neg (fun h => hk h.2.2.symm)]
    have hself : firstCopy (C ++ [r]) r.seq.toNat = some r := by rw [firstCopy_append, if_pos ⟨h.1, h.2, rfl⟩]
    have hbefore : firstCopy C r.seq.toNat = none := (find_none _ _).2 h.2
    by_cases hp : p r = true
    · rw [if_pos ⟨h.1, h.2, hp⟩]
      exact packets_point n r.seq.toNat _ _ hn hother (by rw [hbefore]; rfl) (by rw [hself]; exact hp)
    · rw [if_neg (fun hh => hp hh.2.2), Nat.add_zero]
      apply packets_congr
      intro k _
      by_cases hk : k = r.seq.toNat
      · rw [hk, hself, hbefore]; simpa using hp
      · exact hother k hk
  · rw [if_neg (fun hh => h ⟨hh.1, hh.2.1⟩), Nat.add_zero]
    apply packets_congr
    intro k _
    rw [firstCopy_append, if_neg (fun hh => h ⟨hh.1, hh.2.1⟩)]

theorem firsts_le (n : Nat) (C : List DataRec) (p : DataRec → Bool) : firsts n C p ≤ n := packets_le _ _

theorem any_seq (C : List DataRec) (k : Nat) : (∃ r ∈ C, r.seq.toNat = k) ↔ copies C k ≠ 0 ∨ losses C k ≠ 0 := by
  rw [copies_ne, losses_ne]
  constructor
  · rintro ⟨r, h1, h2⟩
    by_cases hl : Lost r
    · exact Or.inr ⟨r, h1, hl, h2⟩
    · exact Or.inl ⟨r, h1, hl, h2⟩
  · rintro (⟨r, h1, _, h2⟩ | ⟨r, h1, _, h2⟩) <;> exact ⟨r, h1, h2⟩

theorem sent_append (n : Nat) (C : List DataRec) (r : DataRec) (hn : r.seq.toNat < n) :
    Spec.Stats.sent n (C ++ [r]) = Spec.Stats.sent n C + (if copies C r.seq.toNat = 0 ∧ losses C r.seq.toNat = 0 then 1 else 0) := by
  unfold Spec.Stats.sent
  have hother : ∀ k, k ≠ r.seq.toNat → decide (∃ x ∈ C ++ [r], x.seq.toNat = k) = decide (∃ x ∈ C, x.seq.toNat = k) := by
    intro k hk
    apply decide_eq_decide.2
    constructor
    · rintro ⟨x, h1, h2⟩
      rcases List.mem_append.1 h1 with h | h
      · exact ⟨x, h, h2⟩
      · rw [List.mem_singleton.1 h] at h2; exact (hk h2.symm).elim
    · rintro ⟨x, h1, h2⟩; exact ⟨x, List.mem_append_left _ h1, h2⟩
  have hself : decide (∃ x ∈ C ++ [r], x.seq.toNat = r.seq.toNat) = true := decide_eq_true ⟨r, by simp, rfl⟩
  by_cases h : copies C r.seq.toNat = 0 ∧ losses C r.seq.toNat = 0
  · rw [if_pos h]
    refine packets_point n r.seq.toNat _ _ hn hother (decide_eq_false fun hh => ?_) hself
    rcases (any_seq _ _).1 hh with hh | hh
    · exact hh h.1
    · exact hh h.2
  · rw [if_neg h, Nat.add_zero]
    apply packets_congr
    intro k _
    by_cases hk : k = r.seq.toNat
    · rw [hk, hself]
      refine (decide_eq_true ((any_seq _ _).2 ?_)).symm
      omega
    · exact hother k hk

theorem sent_le (n : Nat) (C : List DataRec) : Spec.Stats.sent n C ≤ n := packets_le _ _

/-! ## Reordering -/

theorem getD_left (a b : List Nat) (i d : Nat) (h : i < a.length) : (a ++ b).getD i d = a.getD i d := by
  rw [List.getD_eq_getElem?_getD, List.getD_eq_getElem?_getD, List.getElem?_append_left h]

/-- The numbers of the packets that arrived. -/
def seqs (C : List DataRec) : List Nat := (arrivals C).map (·.seq.toNat)

theorem seqs_append (C : List DataRec) (r : DataRec) : seqs (C ++ [r]) = seqs C ++ (if Lost r then [] else [r.seq.toNat]) := by
  unfold seqs
  rw [arrivals_append]
  split <;> simp

/-- The `i`th last element, 0 if there is none. -/
def back (q : List Nat) (i : Nat) : Nat := if i < q.length then q.getD (q.length - 1 - i) 0 else 0

theorem back_zero (q : List Nat) (x : Nat) : back (q ++ [x]) 0 = x := by
  simp [back]

theorem back_succ (q : List Nat) (x i : Nat) : back (q ++ [x]) (i + 1) = back q i := by
  unfold back
  simp only [List.length_append, List.length_singleton]
  by_cases h : i < q.length
  · rw [if_pos (by omega), if_pos h]
    rw [show q.length + 1 - 1 - (i + 1) = q.length - 1 - i by omega]
    rw [getD_left]
    omega
  · rw [if_neg (by omega), if_neg h]

theorem reordered_got (C : List DataRec) (r : DataRec) (j : Nat) (hl : ¬ Lost r) :
    reordered (C ++ [r]) j = reordered C j + (if ∀ x, x < j → r.seq.toNat < back (seqs C) x then 1 else 0) := by
  have e : (arrivals (C ++ [r])).map (·.seq.toNat) = seqs C ++ [r.seq.toNat] := by
    have := seqs_append C r; rw [if_neg hl] at this; exact this
  unfold reordered
  simp only [e]
  rw [List.length_append, List.length_singleton, List.range_succ, List.countP_append]
  have e2 : (arrivals C).map (·.seq.toNat) = seqs C := rfl
  rw [e2]
  obtain ⟨q, hq⟩ : ∃ q, q = seqs C := ⟨_, rfl⟩
  rw [← hq]
  congr 1
  · apply List.countP_congr
    intro p hp
    have hp' : p < q.length := List.mem_range.1 hp
    simp only [decide_eq_true_eq]
    have h1 : ∀ y, y ≤ p → (q ++ [r.seq.toNat]).getD y 0 = q.getD y 0 := fun y hy => getD_left _ _ _ _ (by omega)
    rw [h1 p (Nat.le_refl _)]
    constructor
    · rintro ⟨a1, a2⟩; exact ⟨a1, fun x hx => by have := a2 x hx; rw [h1 _ (by omega)] at this; exact this⟩
    · rintro ⟨a1, a2⟩; exact ⟨a1, fun x hx => by rw [h1 _ (by omega)]; exact a2 x hx⟩
  · rw [List.countP_singleton]
    have h0 : (q ++ [r.seq.toNat]).getD q.length 0 = r.seq.toNat := by simp
    have hiff : (j ≤ q.length ∧ ∀ x, x < j → (q ++ [r.seq.toNat]).getD q.length 0 < (q ++ [r.seq.toNat]).getD (q.length - 1 - x) 0) ↔
        (∀ x, x < j → r.seq.toNat < back q x) := by
      rw [h0]
      constructor
      · rintro ⟨a1, a2⟩ x hx
        have := a2 x hx
        rw [getD_left _ _ _ _ (by omega)] at this
        unfold back
        rw [if_pos (by omega)]; exact this
      · intro a
        have hle : j ≤ q.length := by
          apply Decidable.byContradiction
          intro hh
          have := a q.length (by omega)
          unfold back at this
          rw [if_neg (by omega)] at this
          omega
        refine ⟨hle, fun x hx => ?_⟩
        have := a x hx
        unfold back at this
        rw [if_pos (by omega)] at this
        rw [getD_left _ _ _ _ (by omega)]; exact this
    by_cases hc : ∀ x, x < j → r.seq.toNat < back q x
    · rw [if_pos hc, if_pos (decide_eq_true (hiff.2 hc))]
    · rw [if_neg hc, if_neg (fun hh => hc (hiff.1 (of_decide_eq_true hh)))]

theorem reordered_lost (C : List DataRec) (r : DataRec) (j : Nat) (hl : Lost r) : reordered (C ++ [r]) j = reordered C j := by
  unfold reordered
  rw [arrivals_append, if_pos hl, List.append_nil]

theorem reordered_le (C : List DataRec) (j : Nat) : reordered C j ≤ C.length := by
  unfold reordered
  refine Nat.le_trans List.countP_le_length ?_
  rw [List.length_range, List.length_map]
  exact arrivals_length C

/-- Where the loop finds the `i`th last number. -/
def slot (rlist rindex i : Nat) : Nat := if i + 1 ≤ rindex then rindex - i - 1 else rindex + rlist - i - 1

theorem slot_eq (rlist rindex i : Nat) :
    (if (rindex : Int) - i - 1 ≥ 0 then (rindex : Int) - i - 1 else (rindex : Int) - i - 1 + rlist).toNat = slot rlist rindex i := by
  unfold slot
  split <;> split <;> omega

theorem reorder_spec (rlist : Nat) (rseq : List Nat) (rindex seq : Nat) (B : Nat → Nat) (hB : ∀ i, i < rlist → rseq.getD (slot rlist rindex i) 0 = B i)
    (n : Nat) : ∀ (i : Nat) (rn : List Nat), i + n ≤ rlist → rn.length = rlist → (∀ x, x < i → seq < B x) → (∀ k, i ≤ k → rn.getD k 0 < 2 ^ 32 - 1) →
      (reorder rlist rseq rindex seq n i rn).length = rlist ∧
      ∀ k, k < rlist → (reorder rlist rseq rindex seq n i rn).getD k 0 =
        rn.getD k 0 + (if i ≤ k ∧ k < i + n ∧ ∀ x, x ≤ k → seq < B x then 1 else 0) := by
  induction n with
  | zero =>
    intro i rn _ hl _ _
    refine ⟨hl, fun k _ => ?_⟩
    rw [reorder, if_neg (by omega)]; rfl
  | succ n ih =>
    intro i rn hle hl hx hsm
    have hb := hB i (by omega)
    have hgo : reorder rlist rseq rindex seq (n + 1) i rn =
        if seq < B i then reorder rlist rseq rindex seq n (i + 1) (rn.set i ((rn.getD i 0 + 1) % 2 ^ 32)) else rn := by
      rw [reorder, slot_eq, hb]
    rw [hgo]
    by_cases h : seq < B i
    · rw [if_pos h]
      have hset : ∀ k, (rn.set i ((rn.getD i 0 + 1) % 2 ^ 32)).getD k 0 = if k = i then rn.getD i 0 + 1 else rn.getD k 0 := by
        intro k
        rw [List.getD_eq_getElem?_getD, List.getElem?_set]
        by_cases hk : i = k
        · rw [if_pos hk, if_pos (by omega), if_pos hk.symm, Option.getD_some, Nat.mod_eq_of_lt (by have := hsm i (Nat.le_refl _); omega)]
        · rw [if_neg hk, if_neg (fun h => hk h.symm), List.getD_eq_getElem?_getD]
      obtain ⟨rn', hrn⟩ : ∃ rn', rn' = rn.set i ((rn.getD i 0 + 1) % 2 ^ 32) := ⟨_, rfl⟩
      rw [← hrn] at hset ⊢
      have hx' : ∀ x, x < i + 1 → seq < B x := by
        intro x hxi
        by_cases e : x = i
        · rw [e]; exact h
        · exact hx x (by omega)
      obtain ⟨r1, r2⟩ := ih (i + 1) rn' (by omega) (by rw [hrn, List.length_set]; exact hl) hx'
        (fun k hk => by rw [hset, if_neg (by omega)]; exact hsm k (by omega))
      refine ⟨r1, fun k hk => ?_⟩
      rw [r2 k hk, hset]
      by_cases e : k = i
      · rw [if_pos e, if_neg (by omega), if_pos ⟨by omega, by omega, fun x hxk => hx' x (by omega)⟩, e]
      · rw [if_neg e]
        congr 1
        by_cases g : i + 1 ≤ k ∧ k < i + 1 + n ∧ ∀ x, x ≤ k → seq < B x
        · rw [if_pos g, if_pos ⟨by omega, by omega, g.2.2⟩]
        · rw [if_neg g, if_neg (fun hh => g ⟨by omega, by omega, hh.2.2⟩)]
    · rw [if_neg h]
      refine ⟨hl, fun k hk => ?_⟩
      rw [if_neg, Nat.add_zero]
      rintro ⟨h1, h2, h3⟩
      exact h (h3 i h1)

theorem getD_set' (l : List Nat) (i k x : Nat) (h : i < l.length) : (l.set i x).getD k 0 = if k = i then x else l.getD k 0 := by
  rw [List.getD_eq_getElem?_getD, List.getElem?_set]
  by_cases hk : i = k
  · rw [if_pos hk, if_pos h, if_pos hk.symm, Option.getD_some]
  · rw [if_neg hk, if_neg (fun h => hk h.symm), List.getD_eq_getElem?_getD]

/-- The buffer holds the last numbers, and the counts are right. -/
structure Ring (c : Cfg) (C : List DataRec) (s : St) : Prop where
  index : s.rindex < c.rlist
  seqLen : s.rseq.length = c.rlist
  cntLen : s.rn.length = c.rlist
  buf : ∀ i, i < c.rlist → s.rseq.getD (slot c.rlist s.rindex i) 0 = back (seqs C) i
  enough : (seqs C).length ≤ s.rnum
  counts : ∀ k, k < c.rlist → s.rn.getD k 0 = reordered C (k + 1)

theorem getD_replicate (n k : Nat) : (List.replicate n 0).getD k 0 = 0 := by
  rw [List.getD_eq_getElem?_getD, List.getElem?_replicate]
  split <;> rfl

theorem Ring.start (c : Cfg) (s : St) (h : s.rindex < c.rlist) (h1 : s.rseq = List.replicate c.rlist 0) (h2 : s.rn = List.replicate c.rlist 0) :
    Ring c [] s := by
  refine ⟨h, by rw [h1, List.length_replicate], by rw [h2, List.length_replicate], fun i _ => ?_, Nat.zero_le _, fun k _ => ?_⟩
  · rw [h1, getD_replicate]; rfl
  · rw [h2, getD_replicate]; rfl

theorem Ring.lost {c : Cfg} {C : List DataRec} {s s' : St} (h : Ring c C s) (r : DataRec) (hl : Lost r) (e1 : s'.rindex = s.rindex)
    (e2 : s'.rseq = s.rseq) (e3 : s'.rn = s.rn) (e4 : s'.rnum = s.rnum) : Ring c (C ++ [r]) s' := by
  have hs : seqs (C ++ [r]) = seqs C := by rw [seqs_append, if_pos hl, List.append_nil]
  refine ⟨by rw [e1]; exact h.index, by rw [e2]; exact h.seqLen, by rw [e3]; exact h.cntLen, ?_, by rw [hs, e4]; exact h.enough, fun k hk => ?_⟩
  · rw [e1, e2, hs]; exact h.buf
  · rw [e3, reordered_lost _ _ _ hl]; exact h.counts k hk

theorem Ring.got {c : Cfg} {C : List DataRec} {s s' : St} (h : Ring c C s) (r : DataRec) (hl : ¬ Lost r) (hC : C.length < 2 ^ 32 - 1)
    (e1 : s'.rindex = (arrive c r.seq.toNat s).rindex) (e2 : s'.rseq = (arrive c r.seq.toNat s).rseq)
    (e3 : s'.rn = (arrive c r.seq.toNat s).rn) (e4 : s'.rnum = (arrive c r.seq.toNat s).rnum) : Ring c (C ++ [r]) s' := by
  have hs : seqs (C ++ [r]) = seqs C ++ [r.seq.toNat] := by rw [seqs_append, if_neg hl]
  have hix := h.index
  have hsmall : ∀ k, 0 ≤ k → s.rn.getD k 0 < 2 ^ 32 - 1 := by
    intro k _
    by_cases hk : k < c.rlist
    · rw [h.counts k hk]; have := reordered_le C (k + 1); omega
    · rw [List.getD_eq_getElem?_getD, List.getElem?_eq_none (by rw [h.cntLen]; omega)]; simp
  obtain ⟨a1, a2⟩ := reorder_spec c.rlist s.rseq s.rindex r.seq.toNat (back (seqs C)) h.buf (Nat.min s.rnum c.rlist) 0 s.rn
    (by show 0 + min s.rnum c.rlist ≤ _; omega) h.cntLen (fun x hx => by omega) hsmall
  refine ⟨?_, ?_, ?_, ?_, ?_, ?_⟩
  · rw [e1]; exact Nat.mod_lt _ (by omega)
  · rw [e2]; show (s.rseq.set _ _).length = _; rw [List.length_set]; exact h.seqLen
  · rw [e3]; exact a1
  · intro i hi
    rw [e1, e2, hs]
    show (s.rseq.set s.rindex r.seq.toNat).getD (slot c.rlist ((s.rindex + 1) % c.rlist) i) 0 = _
    rw [getD_set' _ _ _ _ (by rw [h.seqLen]; exact hix)]
    have hmod : (s.rindex + 1) % c.rlist = if s.rindex + 1 = c.rlist then 0 else s.rindex + 1 := by
      by_cases e : s.rindex + 1 = c.rlist
      · rw [if_pos e, e, Nat.mod_self]
      · rw [if_neg e, Nat.mod_eq_of_lt (by omega)]
    cases i with
    | zero =>
      rw [back_zero, if_pos]
      rw [hmod]
      unfold slot
      split <;> split <;> omega
    | succ i =>
      have hsl : slot c.rlist ((s.rindex + 1) % c.rlist) (i + 1) = slot c.rlist s.rindex i := by
        rw [hmod]
        unfold slot
        by_cases e : s.rindex + 1 = c.rlist
        · rw [if_pos e]; split <;> split <;> omega
        · rw [if_neg e]; split <;> split <;> omega
      rw [back_succ, hsl, if_neg, h.buf i (by omega)]
      unfold slot
      split <;> omega
  · rw [hs, e4, List.length_append, List.length_singleton]
    have := h.enough
    show _ ≤ s.rnum + 1
    omega
  · intro k hk
    rw [e3]
    show (reorder _ _ _ _ _ _ _).getD k 0 = _
    rw [a2 k hk, h.counts k hk, reordered_got _ _ _ hl]
    congr 1
    by_cases g : ∀ x, x < k + 1 → r.seq.toNat < back (seqs C) x
    · rw [if_pos g, if_pos]
      refine ⟨Nat.zero_le _, ?_, fun x hx => g x (by omega)⟩
      have hk2 : k < (seqs C).length := by
        apply Decidable.byContradiction
        intro hh
        have := g k (by omega)
        unfold back at this
        rw [if_neg hh] at this
        omega
      have := h.enough
      show k < 0 + min s.rnum c.rlist
      omega
    · rw [if_neg g, if_neg]
      exact fun hh => g fun x hx => hh.2.2 x (by omega)

/-! ## The histogram -/

/-- Samples in buckets that satisfy `P`. -/
def total (P : Int → Bool) (h : List (Int × Nat)) : Nat := (h.map fun x => if P x.1 then x.2 else 0).sum

theorem total_cons (P : Int → Bool) (x : Int × Nat) (h : List (Int × Nat)) : total P (x :: h) = (if P x.1 then x.2 else 0) + total P h := rfl

theorem total_bump (P : Int → Bool) (b : Int) (h : List (Int × Nat)) (hs : ∀ x ∈ h, x.2 + 1 < 2 ^ 32) :
    total P (bump b h) = total P h + (if P b then 1 else 0) := by
  induction h with
  | nil => simp [bump, total]
  | cons x h ih =>
    obtain ⟨k, n⟩ := x
    rw [bump]
    by_cases e : k = b
    · rw [if_pos e, total_cons, total_cons, Nat.mod_eq_of_lt (hs (k, n) (by simp)), e]
      dsimp only
      split <;> omega
    · rw [if_neg e, total_cons, total_cons, ih (fun y hy => hs y (by simp [hy]))]
      omega

theorem mem_bump (b : Int) (h : List (Int × Nat)) (y : Int × Nat) (hy : y ∈ bump b h) :
    (∃ x ∈ h, x.1 = y.1) ∨ y.1 = b := by
  induction h with
  | nil => rw [bump, List.mem_singleton] at hy; rw [hy]; exact Or.inr rfl
  | cons x h ih =>
    obtain ⟨k, n⟩ := x
    rw [bump] at hy
    by_cases e : k = b
    · rw [if_pos e] at hy
      rcases List.mem_cons.1 hy with h1 | h1
      · rw [h1]; exact Or.inl ⟨(k, n), by simp, rfl⟩
      · exact Or.inl ⟨y, by simp [h1], rfl⟩
    · rw [if_neg e] at hy
      rcases List.mem_cons.1 hy with h1 | h1
      · rw [h1]; exact Or.inl ⟨(k, n), by simp, rfl⟩
      · rcases ih h1 with ⟨x, h2, h3⟩ | h2
        · exact Or.inl ⟨x, by simp [h2], h3⟩
        · exact Or.inr h2

/-- Every bucket occurs once and is not empty. -/
structure Tidy (h : List (Int × Nat)) : Prop where
  once : h.Pairwise fun x y => x.1 ≠ y.1
  pos : ∀ x ∈ h, 0 < x.2

theorem Tidy.bump {h : List (Int × Nat)} (ht : Tidy h) (b : Int) (hs : ∀ x ∈ h, x.2 + 1 < 2 ^ 32) : Tidy (bump b h) := by
  induction h with
  | nil => exact ⟨by simp [Stats.bump], by simp [Stats.bump]⟩
  | cons x h ih =>
    obtain ⟨k, n⟩ := x
    obtain ⟨p1, p2⟩ := List.pairwise_cons.1 ht.once
    have ih := ih ⟨p2, fun x hx => ht.pos x (by simp [hx])⟩ (fun y hy => hs y (by simp [hy]))
    rw [Stats.bump]
    by_cases e : k = b
    · rw [if_pos e]
      refine ⟨List.pairwise_cons.2 ⟨p1, p2⟩, fun x hx => ?_⟩
      rcases List.mem_cons.1 hx with h1 | h1
      · rw [h1]; dsimp only; rw [Nat.mod_eq_of_lt (hs (k, n) (by simp))]; omega
      · exact ht.pos x (by simp [h1])
    · rw [if_neg e]
      refine ⟨List.pairwise_cons.2 ⟨fun y hy => ?_, ih.once⟩, fun x hx => ?_⟩
      · rcases mem_bump b h y hy with ⟨z, z1, z2⟩ | z
        · have := p1 z z1; rw [← z2]; exact this
        · rw [z]; exact e
      · rcases List.mem_cons.1 hx with h1 | h1
        · rw [h1]; exact ht.pos (k, n) (by simp)
        · exact ih.pos x h1

theorem mem_total (P : Int → Bool) (h : List (Int × Nat)) (x : Int × Nat) (hx : x ∈ h) (hp : P x.1 = true) : x.2 ≤ total P h := by
  induction h with
  | nil => cases hx
  | cons y h ih =>
    rw [total_cons]
    rcases List.mem_cons.1 hx with e | e
    · rw [← e, if_pos hp]; omega
    · have := ih e; omega

/-! ## All figures -/

/-- No packet is recorded lost twice, or both lost and received. -/
def Clean (C : List DataRec) : Prop := ∀ k, losses C k ≤ 1 ∧ (losses C k ≠ 0 → copies C k = 0)

theorem Clean.init {C : List DataRec} {r : DataRec} (h : Clean (C ++ [r])) : Clean C := by
  intro k
  have := h k
  rw [losses_append, copies_append] at this
  omega

def delays (c : Cfg) (C : List DataRec) : List Int := (arrivals C).map fun r => c.delay r.send r.recv

theorem delays_append (c : Cfg) (C : List DataRec) (r : DataRec) :
    delays c (C ++ [r]) = delays c C ++ (if Lost r then [] else [c.delay r.send r.recv]) := by
  unfold delays
  rw [arrivals_append]
  split <;> simp

structure Fig (c : Cfg) (s0 : St) (D : List DataRec) (s : St) : Prop where
  first : s.first = s0.first
  last : s.last = s0.last
  start : s.startTime = s0.startTime
  i : s.i = D.length
  begOset : s.beginOset = s0.beginOset
  next : s.nextOset = nextPlace c.recSize s.beginOset s.last D
  sent : Clean (cnt c s D) → s.sent = Spec.Stats.sent s.last (cnt c s D)
  ring : Ring c (cnt c s D) s
  rnum : s.rnum = s0.rnum + (arrivals (cnt c s D)).length
  tidy : Tidy s.hist
  hist : ∀ P, total P s.hist = firsts s.last (cnt c s D) fun r => P (c.bucket (c.delay r.send r.recv))
  ttlLen : s.ttl.length = 256
  ttl : ∀ t, t < 256 → s.ttl.getD t 0 = firsts s.last (cnt c s D) fun r => r.ttl.toNat = t
  min : LeastOf c.inf (delays c (cnt c s D)) s.min
  max : GreatestOf (-c.inf) (delays c (cnt c s D)) s.max
  sync : s.sync = true ↔ ∀ r ∈ cnt c s D, r.recv.sync = true ∧ (¬ Lost r → r.send.sync = true)
  err : GreatestOf 0 ((cnt c s D).map fun r => (recordError r : Int)) s.maxerr

theorem nextPlace_append (size b last : Nat) (D : List DataRec) (r : DataRec) (hb : 0 < b) :
    nextPlace size b last (D ++ [r]) =
      if nextPlace size b last D = 0 ∧ r.seq.toNat ≥ last then b + D.length * size else nextPlace size b last D := by
  unfold nextPlace
  rw [List.findIdx?_append]
  cases h : D.findIdx? fun r => decide (last ≤ r.seq.toNat) with
  | some i =>
    simp only [Option.some_or]
    rw [if_neg (by omega)]
  | none =>
    by_cases hr : last ≤ r.seq.toNat
    · simp [hr]
    · simp [hr]

theorem least_snoc {a x d : Int} {l : List Int} (h : LeastOf a l x) : LeastOf a (l ++ [d]) (if d < x then d else x) := by
  obtain ⟨h1, h2, h3⟩ := h
  by_cases hd : d < x
  · rw [if_pos hd]
    refine ⟨Or.inr (by simp), by omega, fun y hy => ?_⟩
    rcases List.mem_append.1 hy with hy | hy
    · have := h3 y hy; omega
    · rw [List.mem_singleton.1 hy]; omega
  · rw [if_neg hd]
    refine ⟨h1.imp id (fun h => by simp [h]), h2, fun y hy => ?_⟩
    rcases List.mem_append.1 hy with hy | hy
    · exact h3 y hy
    · rw [List.mem_singleton.1 hy]; omega

theorem greatest_snoc {a x d : Int} {l : List Int} (h : GreatestOf a l x) : GreatestOf a (l ++ [d]) (if d > x then d else x) := by
  obtain ⟨h1, h2, h3⟩ := h
  by_cases hd : d > x
  · rw [if_pos hd]
    refine ⟨Or.inr (by simp), by omega, fun y hy => ?_⟩
    rcases List.mem_append.1 hy with hy | hy
    · have := h3 y hy; omega
    · rw [List.mem_singleton.1 hy]; omega
  · rw [if_neg hd]
    refine ⟨h1.imp id (fun h => by simp [h]), h2, fun y hy => ?_⟩
    rcases List.mem_append.1 hy with hy | hy
    · exact h3 y hy
    · rw [List.mem_singleton.1 hy]; omega

theorem greatest_nat {x d : Nat} {l : List Int} (h : GreatestOf 0 l x) : GreatestOf 0 (l ++ [(d : Int)]) (Nat.max x d : Nat) := by
  have := greatest_snoc (d := (d : Int)) h
  have e : ((Nat.max x d : Nat) : Int) = if (d : Int) > (x : Int) then (d : Int) else (x : Int) := by
    show ((max x d : Nat) : Int) = _
    split <;> omega
  rw [e]; exact this

theorem Fig.place {c : Cfg} {s0 : St} {D : List DataRec} {s : St} (h : Fig c s0 D s) (r : DataRec) (hb : 0 < s0.beginOset) :
    (place c s r).i = (D ++ [r]).length ∧ (place c s r).nextOset = nextPlace c.recSize s.beginOset s.last (D ++ [r]) := by
  constructor
  · rw [List.length_append, List.length_singleton, ← h.i]; rfl
  · rw [nextPlace_append _ _ _ _ _ (by rw [h.begOset]; exact hb), ← h.next, ← h.i]; rfl

theorem Fig.figure {c : Cfg} {s0 : St} {D : List DataRec} {s : St} (h : Fig c s0 D s) (r : DataRec) (hb : 0 < s0.beginOset)
    (hD : (D ++ [r]).length < 2 ^ 32) (hlast : s0.last < 2 ^ 32) : Fig c s0 (D ++ [r]) (figure c D r s) := by
  obtain ⟨p1, p2⟩ := h.place r hb
  have hfl := figure_first c D r s
  have hcnt : cnt c (Stats.figure c D r s) (D ++ [r]) = cnt c s D ++ (if Within s.first s.last r ∧ ¬ Skipped c.skips r.seq.toNat then [r] else []) := by
    unfold cnt
    rw [hfl.1, hfl.2]
    exact counted_append _ _ _ _ _
  have hClen : (cnt c s D).length < 2 ^ 32 - 1 := by
    have := counted_length c.skips s.first s.last D
    have e : (cnt c s D).length ≤ D.length := this
    simp only [List.length_append, List.length_singleton] at hD
    omega
  by_cases hin : Within s.first s.last r ∧ ¬ Skipped c.skips r.seq.toNat
  · rw [if_pos hin] at hcnt
    have hlt : r.seq.toNat < s.last := hin.1.2
    have hsb := sent_le s.last (cnt c s D)
    have hl0 := h.last
    by_cases hl : Lost r
    · have hf : Stats.figure c D r s = figLost r (Stats.place c s r) := by
        unfold Stats.figure; rw [if_pos hin, if_pos hl]
      have hfirsts : ∀ p, firsts s.last (cnt c s D ++ [r]) p = firsts s.last (cnt c s D) p := by
        intro p; rw [firsts_append _ _ _ _ hlt, if_neg (fun hh => hh.1 hl), Nat.add_zero]
      have harr : arrivals (cnt c s D ++ [r]) = arrivals (cnt c s D) := by rw [arrivals_append, if_pos hl, List.append_nil]
      have hdel : delays c (cnt c s D ++ [r]) = delays c (cnt c s D) := by unfold delays; rw [harr]
      have hfirst : (Stats.figure c D r s).first = s0.first := by rw [hfl.1]; exact h.first
      have hlast' : (Stats.figure c D r s).last = s.last := hfl.2
      refine ⟨hfirst, by rw [hlast']; exact h.last, by rw [hf]; exact h.start, by rw [hf]; exact p1, by rw [hf]; exact h.begOset, ?_, ?_, ?_, ?_, ?_, ?_, ?_, ?_, ?_, ?_, ?_, ?_⟩
      · rw [hlast', hf]; exact p2
      · rw [hcnt, hlast', hf]
        intro hclean
        have hr := hclean r.seq.toNat
        rw [losses_append, copies_append, if_pos ⟨hl, rfl⟩, if_neg (fun x => x.1 hl)] at hr
        rw [sent_append _ _ _ hlt, if_pos ⟨by omega, by omega⟩]
        have := h.sent hclean.init
        show (s.sent + 1) % 2 ^ 32 = _
        rw [this]
        have : Spec.Stats.sent s.last (cnt c s D) + 1 ≤ s.last := by
          have := sent_le s.last (cnt c s D ++ [r])
          rw [sent_append _ _ _ hlt, if_pos ⟨by omega, by omega⟩] at this
          exact this
        omega
      · rw [hcnt]; exact h.ring.lost r hl (by rw [hf]; rfl) (by rw [hf]; rfl) (by rw [hf]; rfl) (by rw [hf]; rfl)
      · rw [hcnt, harr, hf]; exact h.rnum
      · rw [hf]; exact h.tidy
      · intro P; rw [hcnt, hlast', hfirsts, hf]; exact h.hist P
      · rw [hf]; exact h.ttlLen
      · intro t ht; rw [hcnt, hlast', hfirsts, hf]; exact h.ttl t ht
      · rw [hcnt, hdel, hf]; exact h.min
      · rw [hcnt, hdel, hf]; exact h.max
      · rw [hcnt, hf]
        show (s.sync && r.recv.sync) = true ↔ _
        rw [Bool.and_eq_true, h.sync]
        constructor
        · rintro ⟨a, b⟩ x hx
          rcases List.mem_append.1 hx with hx | hx
          · exact a x hx
          · rw [List.mem_singleton.1 hx]; exact ⟨b, fun hh => (hh hl).elim⟩
        · intro a
          exact ⟨fun x hx => a x (by simp [hx]), (a r (by simp)).1⟩
      · rw [hcnt, hf, List.map_append]
        have : ((recordError r : Nat) : Int) = (stampError r.recv : Nat) := by unfold recordError; rw [if_pos hl]
        show GreatestOf 0 (_ ++ [((recordError r : Nat) : Int)]) ((Nat.max s.maxerr (stampError r.recv) : Nat) : Int)
        rw [this]
        exact greatest_nat h.err
    · obtain ⟨seen, hseen⟩ : ∃ n, n = copies (cnt c s D) r.seq.toNat := ⟨_, rfl⟩
      have hf : Stats.figure c D r s = figGot c seen r (Stats.place c s r) := by
        unfold Stats.figure; rw [if_pos hin, if_neg hl, hseen]
      have hfirsts : ∀ p, firsts s.last (cnt c s D ++ [r]) p = firsts s.last (cnt c s D) p + (if seen = 0 ∧ p r = true then 1 else 0) := by
        intro p; rw [firsts_append _ _ _ _ hlt, ← hseen]
        by_cases g : seen = 0 ∧ p r = true
        · rw [if_pos g, if_pos ⟨hl, g⟩]
        · rw [if_neg g, if_neg (fun hh => g hh.2)]
      have harr : arrivals (cnt c s D ++ [r]) = arrivals (cnt c s D) ++ [r] := by rw [arrivals_append, if_neg hl]
      have hdel : delays c (cnt c s D ++ [r]) = delays c (cnt c s D) ++ [c.delay r.send r.recv] := by rw [delays_append, if_neg hl]
      have hfirst : (Stats.figure c D r s).first = s0.first := by rw [hfl.1]; exact h.first
      have hlast' : (Stats.figure c D r s).last = s.last := hfl.2
      have hbound : ∀ x ∈ s.hist, x.2 + 1 < 2 ^ 32 ∨ ¬ seen = 0 := by
        intro x hx
        by_cases h0 : seen = 0
        · left
          have a1 := mem_total (fun _ => true) s.hist x hx rfl
          rw [h.hist] at a1
          have a2 := firsts_le s.last (cnt c s D ++ [r]) (fun _ => true)
          rw [hfirsts, if_pos ⟨h0, rfl⟩] at a2
          omega
        · exact Or.inr h0
      have hd1 : (figGot c seen r (Stats.place c s r)).hist = if seen ≠ 0 then s.hist else bump (c.bucket (c.delay r.send r.recv)) s.hist := by
        unfold figGot; dsimp only; split <;> rfl
      have hd2 : (figGot c seen r (Stats.place c s r)).ttl = if seen ≠ 0 then s.ttl else s.ttl.set r.ttl.toNat (s.ttl.getD r.ttl.toNat 0 + 1) := by
        unfold figGot; dsimp only; split <;> rfl
      have hq : (figGot c seen r (Stats.place c s r)).startTime = s.startTime ∧ (figGot c seen r (Stats.place c s r)).i = (Stats.place c s r).i ∧
          (figGot c seen r (Stats.place c s r)).beginOset = s.beginOset ∧ (figGot c seen r (Stats.place c s r)).nextOset = (Stats.place c s r).nextOset ∧
          (figGot c seen r (Stats.place c s r)).sent = (if seen = 0 then (s.sent + 1) % 2 ^ 32 else s.sent) ∧
          (figGot c seen r (Stats.place c s r)).rindex = (arrive c r.seq.toNat s).rindex ∧ (figGot c seen r (Stats.place c s r)).rseq = (arrive c r.seq.toNat s).rseq ∧
          (figGot c seen r (Stats.place c s r)).rn = (arrive c r.seq.toNat s).rn ∧ (figGot c seen r (Stats.place c s r)).rnum = (arrive c r.seq.toNat s).rnum ∧
          (figGot c seen r (Stats.place c s r)).min = (if c.delay r.send r.recv < s.min then c.delay r.send r.recv else s.min) ∧
          (figGot c seen r (Stats.place c s r)).max = (if c.delay r.send r.recv > s.max then c.delay r.send r.recv else s.max) ∧
          (figGot c seen r (Stats.place c s r)).sync = (s.sync && r.send.sync && r.recv.sync) ∧
          (figGot c seen r (Stats.place c s r)).maxerr = Nat.max s.maxerr (stampError r.send + stampError r.recv) := by
        unfold figGot; dsimp only
        split <;> exact ⟨rfl, rfl, rfl, rfl, rfl, rfl, rfl, rfl, rfl, rfl, rfl, rfl, rfl⟩
      rw [← hf] at hd1 hd2 hq
      obtain ⟨q1, q2, q3, q4, q5, q6, q7, q8, q9, q10, q11, q12, q13⟩ := hq
      refine ⟨hfirst, by rw [hlast']; exact h.last, by rw [q1]; exact h.start, by rw [q2]; exact p1, by rw [q3]; exact h.begOset, ?_, ?_, ?_, ?_, ?_, ?_, ?_, ?_, ?_, ?_, ?_, ?_⟩
      · rw [hlast', q3, q4]; exact p2
      · rw [hcnt, hlast', q5]
        intro hclean
        have hr := hclean r.seq.toNat
        rw [losses_append, copies_append, if_neg (fun x => hl x.1), if_pos ⟨hl, rfl⟩] at hr
        have hz : losses (cnt c s D) r.seq.toNat = 0 := by omega
        have := h.sent hclean.init
        have hle := sent_le s.last (cnt c s D ++ [r])
        rw [sent_append _ _ _ hlt, ← hseen] at hle ⊢
        rw [this]
        by_cases h0 : seen = 0
        · rw [if_pos ⟨h0, hz⟩] at hle
          rw [if_pos h0, if_pos ⟨h0, hz⟩]
          omega
        · rw [if_neg h0, if_neg (fun x => h0 x.1)]; omega
      · rw [hcnt]; exact h.ring.got r hl hClen q6 q7 q8 q9
      · rw [hcnt, harr, q9, List.length_append, List.length_singleton]
        show s.rnum + 1 = _
        rw [h.rnum]; omega
      · rw [hd1]
        by_cases h0 : seen = 0
        · rw [if_neg (fun x => x h0)]; exact h.tidy.bump _ fun x hx => (hbound x hx).resolve_right (fun hh => hh h0)
        · rw [if_pos h0]; exact h.tidy
      · intro P
        rw [hcnt, hlast', hfirsts, hd1]
        by_cases h0 : seen = 0
        · rw [if_neg (fun x => x h0), total_bump _ _ _ (fun x hx => (hbound x hx).resolve_right (fun hh => hh h0)), h.hist P]
          congr 1
          by_cases hp : P (c.bucket (c.delay r.send r.recv)) = true
          · rw [if_pos hp, if_pos ⟨h0, hp⟩]
          · rw [if_neg hp, if_neg (fun x => hp x.2)]
        · rw [if_pos h0, if_neg (fun x => h0 x.1), h.hist P]; rfl
      · rw [hd2]; split
        · exact h.ttlLen
        · rw [List.length_set]; exact h.ttlLen
      · intro t ht
        rw [hcnt, hlast', hfirsts, hd2]
        by_cases h0 : seen = 0
        · rw [if_neg (fun x => x h0), getD_set' _ _ _ _ (by rw [h.ttlLen]; exact r.ttl.isLt)]
          by_cases hp : t = r.ttl.toNat
          · rw [if_pos hp, if_pos ⟨h0, by simp [hp]⟩, ← h.ttl t ht, hp]
          · rw [if_neg hp, if_neg (fun x => hp (by have := x.2; simp only [decide_eq_true_eq] at this; exact this.symm)), h.ttl t ht]; rfl
        · rw [if_pos h0, if_neg (fun x => h0 x.1), h.ttl t ht]; rfl
      · rw [hcnt, hdel, q10]; exact least_snoc h.min
      · rw [hcnt, hdel, q11]; exact greatest_snoc h.max
      · rw [hcnt, q12, Bool.and_eq_true, Bool.and_eq_true, h.sync]
        constructor
        · rintro ⟨⟨a, b⟩, d⟩ x hx
          rcases List.mem_append.1 hx with hx | hx
          · exact a x hx
          · rw [List.mem_singleton.1 hx]; exact ⟨d, fun _ => b⟩
        · intro a
          exact ⟨⟨fun x hx => a x (by simp [hx]), (a r (by simp)).2 hl⟩, (a r (by simp)).1⟩
      · rw [hcnt, q13, List.map_append]
        have : ((recordError r : Nat) : Int) = (stampError r.send + stampError r.recv : Nat) := by unfold recordError; rw [if_neg hl]
        show GreatestOf 0 (_ ++ [((recordError r : Nat) : Int)]) ((Nat.max s.maxerr (stampError r.send + stampError r.recv) : Nat) : Int)
        rw [this]
        exact greatest_nat h.err
  · rw [if_neg hin, List.append_nil] at hcnt
    have hf : Stats.figure c D r s = Stats.place c s r := by unfold Stats.figure; rw [if_neg hin]
    rw [hf] at hcnt ⊢
    refine ⟨h.first, h.last, h.start, p1, h.begOset, p2, ?_, ?_, ?_, h.tidy, ?_, h.ttlLen, ?_, ?_, ?_, ?_, ?_⟩
    · rw [hcnt]; exact h.sent
    · rw [hcnt]; exact ⟨h.ring.index, h.ring.seqLen, h.ring.cntLen, h.ring.buf, h.ring.enough, h.ring.counts⟩
    · rw [hcnt]; exact h.rnum
    · rw [hcnt]; exact h.hist
    · rw [hcnt]; exact h.ttl
    · rw [hcnt]; exact h.min
    · rw [hcnt]; exact h.max
    · rw [hcnt]; exact h.sync
    · rw [hcnt]; exact h.err

theorem Fig.all {c : Cfg} {s0 : St} (hb : 0 < s0.beginOset) (hlast : s0.last < 2 ^ 32) (rs : List DataRec) :
    ∀ (D : List DataRec) (s : St), Fig c s0 D s → (D ++ rs).length < 2 ^ 32 → Fig c s0 (D ++ rs) (figures c D rs s) := by
  induction rs with
  | nil => intro D s h _; rw [List.append_nil]; exact h
  | cons r rs ih =>
    intro D s h hD
    rw [show D ++ r :: rs = (D ++ [r]) ++ rs by simp] at hD ⊢
    refine ih (D ++ [r]) _ (h.figure r hb ?_ hlast) hD
    simp only [List.length_append, List.length_singleton] at hD ⊢
    omega

theorem firsts_nil (n : Nat) (p : DataRec → Bool) : firsts n [] p = 0 := by
  unfold firsts
  induction n with
  | zero => rfl
  | succ n ih => rw [packets_succ, ih]; rfl

theorem sent_nil (n : Nat) : Spec.Stats.sent n [] = 0 := by
  unfold Spec.Stats.sent
  induction n with
  | zero => rfl
  | succ n ih => rw [packets_succ, ih]; simp

theorem Fig.fresh {c : Cfg} {oset first last : Nat} {s s0 : St} (h : Fresh c oset first last s s0) (hr : s.rindex < c.rlist) : Fig c s0 [] s0 := by
  have hc : cnt c s0 [] = [] := rfl
  refine ⟨rfl, rfl, rfl, h.i, rfl, by rw [h.next]; rfl, ?_, ?_, rfl, ?_, ?_, ?_, ?_, ?_, ?_, ?_, ?_⟩
  · rw [hc]; intro _; rw [h.sent, sent_nil]
  · rw [hc]; exact Ring.start c s0 (by rw [h.rindex]; exact hr) h.rseq h.rn
  · rw [h.hist]; exact ⟨by simp, by simp⟩
  · intro P; rw [hc, firsts_nil, h.hist]; rfl
  · rw [h.ttl, List.length_replicate]
  · intro t _; rw [hc, firsts_nil, h.ttl, getD_replicate]
  · rw [hc, h.min]; exact ⟨Or.inl rfl, Int.le_refl _, by simp [delays, arrivals]⟩
  · rw [hc, h.max]; exact ⟨Or.inl rfl, Int.le_refl _, by simp [delays, arrivals]⟩
  · rw [hc, h.sync]; simp
  · rw [hc, h.maxerr]; exact ⟨Or.inl rfl, Int.le_refl _, by simp⟩

/-- The figures do not depend on what `Same` leaves out. -/
theorem Fig.same {c : Cfg} {s0 : St} {D : List DataRec} {s s' : St} (h : Fig c s0 D s) (hs : Same s s') : Fig c s0 D s' := by
  have e := hs s.ctx
  have hc : cnt c s' D = cnt c s D := cnt_same hs D
  have f1 : s'.first = s.first := hs.first
  have f2 : s'.last = s.last := hs.last
  have f3 : s'.startTime = s.startTime := by have := congrArg St.startTime e; exact this
  have f4 : s'.i = s.i := by have := congrArg St.i e; exact this
  have f5 : s'.beginOset = s.beginOset := by have := congrArg St.beginOset e; exact this
  have f6 : s'.nextOset = s.nextOset := by have := congrArg St.nextOset e; exact this
  have f7 : s'.sent = s.sent := hs.sent
  have f8 : s'.rseq = s.rseq := by have := congrArg St.rseq e; exact this
  have f9 : s'.rn = s.rn := by have := congrArg St.rn e; exact this
  have f10 : s'.rindex = s.rindex := by have := congrArg St.rindex e; exact this
  have f11 : s'.rnum = s.rnum := by have := congrArg St.rnum e; exact this
  have f12 : s'.hist = s.hist := by have := congrArg St.hist e; exact this
  have f13 : s'.ttl = s.ttl := by have := congrArg St.ttl e; exact this
  have f14 : s'.min = s.min := by have := congrArg St.min e; exact this
  have f15 : s'.max = s.max := by have := congrArg St.max e; exact this
  have f16 : s'.sync = s.sync := by have := congrArg St.sync e; exact this
  have f17 : s'.maxerr = s.maxerr := by have := congrArg St.maxerr e; exact this
  refine ⟨by rw [f1]; exact h.first, by rw [f2]; exact h.last, by rw [f3]; exact h.start, by rw [f4]; exact h.i, by rw [f5]; exact h.begOset,
    by rw [f6, f5, f2]; exact h.next, by rw [hc, f7, f2]; exact h.sent, ?_, by rw [hc, f11]; exact h.rnum, by rw [f12]; exact h.tidy,
    by rw [hc, f12, f2]; exact h.hist, by rw [f13]; exact h.ttlLen, by rw [hc, f13, f2]; exact h.ttl, by rw [hc, f14]; exact h.min,
    by rw [hc, f15]; exact h.max, by rw [hc, f16]; exact h.sync, by rw [hc, f17]; exact h.err⟩
  rw [hc]
  exact ⟨by rw [f10]; exact h.ring.index, by rw [f8]; exact h.ring.seqLen, by rw [f9]; exact h.ring.cntLen, by rw [f8, f10]; exact h.ring.buf,
    by rw [f11]; exact h.ring.enough, by rw [f9]; exact h.ring.counts⟩

end Owamp.Stats
