import Verif.Lemmas.StatsFig
/-!
# Lemmas about summaries: what is printed
-/
namespace Owamp.Stats
open Owamp.Num64 Owamp.Codec Owamp.Spec.Stats

/-! ## Percentiles -/

theorem total_perm (P : Int → Bool) {a b : List (Int × Nat)} (h : a.Perm b) : total P a = total P b :=
  (h.map _).sum_nat

theorem percentileLoop_spec (t : Rat) (h : List (Int × Nat)) : ∀ sum : Nat, h.Pairwise (fun x y => x.1 < y.1) →
    match percentileLoop t sum h with
    | none => ∀ x ∈ h, ((sum + total (fun k => decide (k ≤ x.1)) h : Nat) : Rat) < t
    | some b => (∃ x ∈ h, x.1 = b) ∧ ¬ ((sum + total (fun k => decide (k ≤ b)) h : Nat) : Rat) < t ∧
        ∀ x ∈ h, x.1 < b → ((sum + total (fun k => decide (k ≤ x.1)) h : Nat) : Rat) < t := by
  induction h with
  | nil => intro sum _; simp [percentileLoop]
  | cons y h ih =>
    intro sum hs
    obtain ⟨b, n⟩ := y
    obtain ⟨p1, p2⟩ := List.pairwise_cons.1 hs
    have hhead : total (fun k => decide (k ≤ b)) ((b, n) :: h) = n := by
      have hz : ∀ l : List (Int × Nat), (∀ x ∈ l, b < x.1) → total (fun k => decide (k ≤ b)) l = 0 := by
        intro l hl
        induction l with
        | nil => rfl
        | cons x l ihl =>
          rw [total_cons, ihl (fun y hy => hl y (by simp [hy])), if_neg]
          have := hl x (by simp)
          simp only [decide_eq_true_eq]; omega
      rw [total_cons, hz h p1]
      simp
    have htail : ∀ x ∈ h, total (fun k => decide (k ≤ x.1)) ((b, n) :: h) = n + total (fun k => decide (k ≤ x.1)) h := by
      intro x hx
      rw [total_cons, if_pos]
      have := p1 x hx
      simp only [decide_eq_true_eq] at this ⊢; omega
    rw [percentileLoop]
    by_cases hlt : ((n + sum : Nat) : Rat) < t
    · rw [if_pos hlt]
      have := ih (sum + n) p2
      cases hc : percentileLoop t (sum + n) h with
      | none =>
        rw [hc] at this
        dsimp only at this ⊢
        intro x hx
        rcases List.mem_cons.1 hx with e | e
        · rw [e]; dsimp only; rw [hhead, Nat.add_comm]; exact hlt
        · rw [htail x e, ← Nat.add_assoc]; exact this x e
      | some b' =>
        rw [hc] at this
        dsimp only at this ⊢
        obtain ⟨⟨x, x1, x2⟩, t2, t3⟩ := this
        refine ⟨⟨x, by simp [x1], x2⟩, ?_, fun y hy hyb => ?_⟩
        · have := htail x x1; rw [x2] at this; rw [this, ← Nat.add_assoc]; exact t2
        · rcases List.mem_cons.1 hy with e | e
          · rw [e]; dsimp only; rw [hhead, Nat.add_comm]; exact hlt
          · rw [htail y e, ← Nat.add_assoc]; exact t3 y e hyb
    · rw [if_neg hlt]
      dsimp only
      refine ⟨⟨(b, n), by simp, rfl⟩, by rw [hhead, Nat.add_comm]; exact hlt, fun x hx hxb => ?_⟩
      rcases List.mem_cons.1 hx with e | e
      · rw [e] at hxb; exact (Int.lt_irrefl _ hxb).elim
      · have := p1 x e; dsimp only at this; omega

theorem sorted_perm (h : List (Int × Nat)) : (sorted h).Perm h := List.mergeSort_perm _ _

theorem sorted_strict (h : List (Int × Nat)) (ht : Tidy h) : (sorted h).Pairwise fun x y => x.1 < y.1 := by
  have h1 : (sorted h).Pairwise fun a b => decide (a.1 ≤ b.1) = true :=
    List.pairwise_mergeSort (le := fun a b : Int × Nat => decide (a.1 ≤ b.1)) (by intro a b c; simp only [decide_eq_true_eq]; omega)
      (by intro a b; simp only [Bool.or_eq_true, decide_eq_true_eq]; omega) h
  have h2 : (sorted h).Pairwise fun x y => x.1 ≠ y.1 := (sorted_perm h).symm.pairwise ht.once (fun e => Ne.symm e)
  exact (h1.and h2).imp fun ⟨a, b⟩ => by simp only [decide_eq_true_eq] at a; omega

theorem packets_pos (n : Nat) (p : Nat → Bool) : 0 < packets n p ↔ ∃ k, k < n ∧ p k = true := by
  unfold packets
  rw [List.countP_pos_iff]
  simp

theorem firsts_pos (n : Nat) (C : List DataRec) (p : DataRec → Bool) : 0 < firsts n C p ↔ ∃ k r, k < n ∧ firstCopy C k = some r ∧ p r = true := by
  unfold firsts
  rw [packets_pos]
  constructor
  · rintro ⟨k, h1, h2⟩
    cases hc : firstCopy C k with
    | none => rw [hc] at h2; cases h2
    | some r => rw [hc] at h2; exact ⟨k, r, h1, hc, h2⟩
  · rintro ⟨k, r, h1, h2, h3⟩
    exact ⟨k, h1, by rw [h2]; exact h3⟩

theorem total_pos (P : Int → Bool) (h : List (Int × Nat)) (ht : Tidy h) : 0 < total P h ↔ ∃ x ∈ h, P x.1 = true := by
  constructor
  · intro hp
    apply Decidable.byContradiction
    intro hn
    have : ∀ l : List (Int × Nat), (∀ x ∈ l, ¬ P x.1 = true) → total P l = 0 := by
      intro l hl
      induction l with
      | nil => rfl
      | cons x l ih => rw [total_cons, if_neg (hl x (by simp)), ih (fun y hy => hl y (by simp [hy]))]
    rw [this h (fun x hx hh => hn ⟨x, hx, hh⟩)] at hp
    omega
  · rintro ⟨x, h1, h2⟩
    have a := ht.pos x h1
    have b := mem_total P h x h1 h2
    omega

theorem percentile_spec (c : Cfg) (s0 s : St) (D : List DataRec) (h : Fig c s0 D s) (mul : Rat → Nat → Rat) (alpha : Rat)
    (B : DataRec → Int) (hB : B = fun r => c.bucket (c.delay r.send r.recv)) :
    match percentile mul s alpha with
    | none => ∀ k r, k < s.last → firstCopy (cnt c s D) k = some r → (firsts s.last (cnt c s D) (fun x => decide (B x ≤ B r)) : Rat) < mul alpha s.sent
    | some b => (∃ k r, k < s.last ∧ firstCopy (cnt c s D) k = some r ∧ B r = b) ∧
        ¬ (firsts s.last (cnt c s D) (fun x => decide (B x ≤ b)) : Rat) < mul alpha s.sent ∧
        ∀ k r, k < s.last → firstCopy (cnt c s D) k = some r → B r < b → (firsts s.last (cnt c s D) (fun x => decide (B x ≤ B r)) : Rat) < mul alpha s.sent := by
  have hl := percentileLoop_spec (mul alpha s.sent) (sorted s.hist) 0 (sorted_strict s.hist h.tidy)
  have htot : ∀ b, total (fun k => decide (k ≤ b)) (sorted s.hist) = firsts s.last (cnt c s D) fun x => decide (B x ≤ b) := by
    intro b
    rw [total_perm _ (sorted_perm s.hist), h.hist, hB]
  have hmem : ∀ b, (∃ x ∈ sorted s.hist, x.1 = b) ↔ ∃ k r, k < s.last ∧ firstCopy (cnt c s D) k = some r ∧ B r = b := by
    intro b
    have e := total_pos (fun k => decide (k = b)) s.hist h.tidy
    rw [h.hist, firsts_pos] at e
    simp only [decide_eq_true_eq] at e
    rw [hB]
    rw [e]
    constructor
    · rintro ⟨x, h1, h2⟩; exact ⟨x, (sorted_perm s.hist).mem_iff.1 h1, h2⟩
    · rintro ⟨x, h1, h2⟩; exact ⟨x, (sorted_perm s.hist).mem_iff.2 h1, h2⟩
  unfold percentile
  cases hp : percentileLoop (mul alpha s.sent) 0 (sorted s.hist) with
  | none =>
    rw [hp] at hl
    dsimp only at hl ⊢
    intro k r hk hr
    obtain ⟨x, x1, x2⟩ := (hmem (B r)).2 ⟨k, r, hk, hr, rfl⟩
    have := hl x x1
    rw [x2, htot, Nat.zero_add] at this
    exact this
  | some b =>
    rw [hp] at hl
    dsimp only at hl ⊢
    obtain ⟨l1, l2, l3⟩ := hl
    rw [htot, Nat.zero_add] at l2
    refine ⟨(hmem b).1 l1, l2, fun k r hk hr hb => ?_⟩
    obtain ⟨x, x1, x2⟩ := (hmem (B r)).2 ⟨k, r, hk, hr, rfl⟩
    have := l3 x x1 (by rw [x2]; exact hb)
    rw [x2, htot, Nat.zero_add] at this
    exact this

/-! ## TTL -/

theorem ttlLoop_spec (h : List Nat) : ∀ (i num lo hi : Nat), num < 2 ^ 8 →
    let y := ttlLoop h i (num, lo, hi)
    y.1 = (num + h.countP (fun n => decide (n ≠ 0))) % 2 ^ 8 ∧
    (y.2.1 = lo ∨ ∃ t, t < h.length ∧ h.getD t 0 ≠ 0 ∧ y.2.1 = i + t) ∧ y.2.1 ≤ lo ∧ (∀ t, t < h.length → h.getD t 0 ≠ 0 → y.2.1 ≤ i + t) ∧
    (y.2.2 = hi ∨ ∃ t, t < h.length ∧ h.getD t 0 ≠ 0 ∧ y.2.2 = i + t) ∧ hi ≤ y.2.2 ∧ (∀ t, t < h.length → h.getD t 0 ≠ 0 → i + t ≤ y.2.2) := by
  induction h with
  | nil =>
    intro i num lo hi hn
    refine ⟨?_, Or.inl rfl, Nat.le_refl _, (fun t ht => (Nat.not_lt_zero _ ht).elim), Or.inl rfl, Nat.le_refl _, (fun t ht => (Nat.not_lt_zero _ ht).elim)⟩
    simp [ttlLoop]; omega
  | cons n h ih =>
    intro i num lo hi hn
    dsimp only
    rw [ttlLoop]
    by_cases h0 : n = 0
    · rw [if_pos h0]
      obtain ⟨a1, a2, a3, a4, a5, a6, a7⟩ := ih (i + 1) num lo hi hn
      refine ⟨by rw [a1, List.countP_cons, if_neg (by simp [h0])]; rfl, ?_, a3, ?_, ?_, a6, ?_⟩
      · rcases a2 with e | ⟨t, t1, t2, t3⟩
        · exact Or.inl e
        · exact Or.inr ⟨t + 1, by simp only [List.length_cons]; omega, by simpa using t2, by rw [t3]; omega⟩
      · intro t ht hx
        cases t with
        | zero => simp [h0] at hx
        | succ t => have := a4 t (by simp only [List.length_cons] at ht; omega) (by simpa using hx); omega
      · rcases a5 with e | ⟨t, t1, t2, t3⟩
        · exact Or.inl e
        · exact Or.inr ⟨t + 1, by simp only [List.length_cons]; omega, by simpa using t2, by rw [t3]; omega⟩
      · intro t ht hx
        cases t with
        | zero => simp [h0] at hx
        | succ t => have := a7 t (by simp only [List.length_cons] at ht; omega) (by simpa using hx); omega
    · rw [if_neg h0]
      obtain ⟨a1, a2, a3, a4, a5, a6, a7⟩ := ih (i + 1) ((num + 1) % 2 ^ 8) (if i < lo then i else lo) (if i > hi then i else hi) (Nat.mod_lt _ (by omega))
      have l1 : (if i < lo then i else lo) ≤ lo ∧ (if i < lo then i else lo) ≤ i := by split <;> omega
      have l2 : hi ≤ (if i > hi then i else hi) ∧ i ≤ (if i > hi then i else hi) := by split <;> omega
      refine ⟨by rw [a1, List.countP_cons, if_pos (by simp [h0])]; omega, ?_, by omega, ?_, ?_, by omega, ?_⟩
      · rcases a2 with e | ⟨t, t1, t2, t3⟩
        · by_cases hil : i < lo
          · exact Or.inr ⟨0, by simp, by simpa using h0, e.trans (if_pos hil)⟩
          · exact Or.inl (e.trans (if_neg hil))
        · exact Or.inr ⟨t + 1, by simp only [List.length_cons]; omega, by simpa using t2, by rw [t3]; omega⟩
      · intro t ht hx
        cases t with
        | zero => omega
        | succ t => have := a4 t (by simp only [List.length_cons] at ht; omega) (by simpa using hx); omega
      · rcases a5 with e | ⟨t, t1, t2, t3⟩
        · by_cases hil : i > hi
          · exact Or.inr ⟨0, by simp, by simpa using h0, e.trans (if_pos hil)⟩
          · exact Or.inl (e.trans (if_neg hil))
        · exact Or.inr ⟨t + 1, by simp only [List.length_cons]; omega, by simpa using t2, by rw [t3]; omega⟩
      · intro t ht hx
        cases t with
        | zero => omega
        | succ t => have := a7 t (by simp only [List.length_cons] at ht; omega) (by simpa using hx); omega

/-- Counting in a list is counting over its places. -/
theorem countP_places (h : List Nat) (p : Nat → Bool) : h.countP p = packets h.length fun t => p (h.getD t 0) := by
  induction h with
  | nil => rfl
  | cons x h ih =>
    unfold packets at ih ⊢
    rw [List.length_cons, List.range_succ_eq_map, List.countP_cons, List.countP_cons, List.countP_map, ih]
    rfl

/-! ## Files -/

open Owamp.Spec.DataFile in
theorem parseFile_feed (c : Cfg) (h : File.Header) (s : St) (oset first last : Nat) (pre post : Bytes) (rs : List DataRec)
    (hd : ∀ r ∈ rs, Props.Stamp r.send ∧ Props.Stamp r.recv) (hrs : rs.length < 2 ^ 32) (hpre : pre.length = Nat.max oset c.osetData)
    (hv : h.version = 3) (hsz : c.recSize = 25)
    (hend : (h.osetSkip > h.osetData ∧ h.osetSkip = ((pre.length + 25 * rs.length : Nat) : Int)) ∨ (¬ h.osetSkip > h.osetData ∧ post = [])) :
    parseFile c (pre ++ (rs.map Props.recLayout).flatten ++ post) h s oset first last =
      parse c (fun proc s => feed proc rs s) s (Nat.max oset c.osetData) first last := by
  have hk : ∀ r ∈ rs, (Props.recLayout r).length = 25 ∧ decodeDataRec 3 (Props.recLayout r) = some r :=
    fun r hr => (Props.C12_record_partial r (hd r hr).1 (hd r hr).2).2
  have hlen := File.flatten_map_length Props.recLayout 25 rs (fun r hr => (hk r hr).1)
  have hnr : nrecs (pre ++ (rs.map Props.recLayout).flatten ++ post) h.osetSkip h.osetData c.recSize (Nat.max oset c.osetData) = rs.length := by
    unfold nrecs
    have hx : (if h.osetSkip > h.osetData then h.osetSkip else ((pre ++ (rs.map Props.recLayout).flatten ++ post).length : Int)) =
        ((pre.length + 25 * rs.length : Nat) : Int) := by
      rcases hend with ⟨e1, e2⟩ | ⟨e1, e2⟩
      · rw [if_pos e1, e2]
      · rw [if_neg e1, e2, List.append_nil, List.length_append, hlen]
    dsimp only
    rw [hx, ← hpre, hsz, File.nat_tdiv _ _ _ (by omega), File.ofInt_nat, show (pre.length + 25 * rs.length - pre.length) / 25 = rs.length by omega]
    simp only [BitVec.toNat_ofNat]
    omega
  unfold parseFile
  dsimp only
  rw [hnr]
  have : ∀ (proc : Except Bad St → DataRec → Int × Except Bad St) (s : Except Bad St),
      File.parseRecords proc (pre ++ (rs.map Props.recLayout).flatten ++ post) (Nat.max oset c.osetData) rs.length h.version s = feed proc rs s := by
    intro proc s
    rw [File.parseRecords, hv, if_neg (by omega), if_pos rfl, ← hpre]
    have := File.parseLoop_feed 25 (decodeDataRec 3) proc Props.recLayout rs hk _ pre post rs.length s (by rfl) (Nat.le_refl _)
    rw [List.take_length] at this
    exact this
  simp only [this]

end Owamp.Stats
