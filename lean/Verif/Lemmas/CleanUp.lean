import Verif.Lemmas.Clean
import Verif.Model.CleanUp
/-!
# Lemmas on the clean-up of files after a lost control connection
-/
namespace Owamp.Clean
open Owamp.Num64 Owamp.Codec Owamp.File Owamp.Ctl Owamp.Spec.Clean Owamp.Spec.DataFile Owamp.Props

theorem topSeq_spec : ∀ (rs : List DataRec) (m : U32),
    m ≤ topSeq m rs ∧ (∀ r ∈ rs, r.seq ≤ topSeq m rs) ∧ (topSeq m rs = m ∨ ∃ r ∈ rs, r.seq = topSeq m rs) := by
  intro rs
  induction rs with
  | nil => intro m; exact ⟨BitVec.le_refl m, by simp, Or.inl rfl⟩
  | cons r rs ih =>
    intro m
    obtain ⟨h1, h2, h3⟩ := ih (if m < r.seq then r.seq else m)
    have hle : m ≤ (if m < r.seq then r.seq else m) ∧ r.seq ≤ (if m < r.seq then r.seq else m) := by
      by_cases h : m < r.seq
      · rw [if_pos h]; exact ⟨BitVec.le_of_lt h, BitVec.le_refl _⟩
      · rw [if_neg h]; exact ⟨BitVec.le_refl _, by rw [BitVec.le_def]; rw [BitVec.lt_def] at h; omega⟩
    refine ⟨BitVec.le_trans hle.1 h1, ?_, ?_⟩
    · intro x hx
      rcases List.mem_cons.1 hx with rfl | hx
      · exact BitVec.le_trans hle.2 h1
      · exact h2 x hx
    · rcases h3 with h3 | ⟨x, hx, h3⟩
      · by_cases h : m < r.seq
        · refine Or.inr ⟨r, by simp, ?_⟩
          rw [if_pos h] at h3
          show r.seq = topSeq (if m < r.seq then r.seq else m) rs
          rw [if_pos h, h3]
        · rw [if_neg h] at h3
          refine Or.inl ?_
          show topSeq (if m < r.seq then r.seq else m) rs = m
          rw [if_neg h, h3]
      · exact Or.inr ⟨x, by simp [hx], h3⟩

theorem lost_iff (r : DataRec) : lost r = true ↔ Lost r := by unfold lost Lost; exact decide_eq_true_iff

/-- What `GetMaxRecv` has found after a list of records. -/
theorem getMaxRecv_feed : ∀ (rs : List DataRec) (m : MaxRecv), m.index.toNat + rs.length < 2 ^ 32 → m.indexBad ≤ m.index →
    ∃ m', feed getMaxRecv rs m = (.ok, m') ∧ m'.found = (m.found || rs.any fun r => !lost r) ∧
      m'.maxrecv = topSeq m.maxrecv (rs.filter fun r => !lost r) ∧ m'.indexBad ≤ m'.index ∧ m'.index.toNat = m.index.toNat + rs.length := by
  intro rs
  induction rs with
  | nil => intro m _ h; exact ⟨m, rfl, by simp, rfl, h, by simp⟩
  | cons r rs ih =>
    intro m hi hb
    simp only [List.length_cons] at hi
    have hidx : ∀ x : U32, x = m.index → (x + 1#32).toNat = m.index.toNat + 1 := by
      rintro x rfl; rw [BitVec.toNat_add]; simp; omega
    have hstep : (getMaxRecv m r).1 = 0 ∧ (getMaxRecv m r).2.index.toNat = m.index.toNat + 1 ∧
        (getMaxRecv m r).2.indexBad ≤ (getMaxRecv m r).2.index ∧ (getMaxRecv m r).2.found = (m.found || !lost r) ∧
        (getMaxRecv m r).2.maxrecv = (if lost r then m.maxrecv else if m.maxrecv < r.seq then r.seq else m.maxrecv) := by
      unfold getMaxRecv
      dsimp only
      by_cases hl : lost r = true
      · rw [if_neg (by simp [hl])]
        by_cases hc : r.seq > m.maxrecv ∧ m.badlost < m.maxrecv
        · rw [if_pos hc]
          refine ⟨rfl, hidx _ rfl, ?_, by simp [hl], by simp [hl]⟩
          show m.index ≤ m.index + 1#32
          rw [BitVec.le_def, hidx _ rfl]; omega
        · rw [if_neg hc]
          refine ⟨rfl, hidx _ rfl, ?_, by simp [hl], by simp [hl]⟩
          show m.indexBad ≤ m.index + 1#32
          rw [BitVec.le_def, hidx _ rfl]; rw [BitVec.le_def] at hb; omega
      · rw [if_pos hl]
        refine ⟨rfl, hidx _ rfl, ?_, by simp [hl], by simp [hl]⟩
        show m.indexBad ≤ m.index + 1#32
        rw [BitVec.le_def, hidx _ rfl]; rw [BitVec.le_def] at hb; omega
    obtain ⟨s1, s2, s3, s4, s5⟩ := hstep
    obtain ⟨m', e1, e2, e3, e4, e5⟩ := ih (getMaxRecv m r).2 (by omega) s3
    refine ⟨m', ?_, ?_, ?_, e4, ?_⟩
    · rw [feed, if_pos s1, e1]
    · rw [e2, s4, List.any_cons, Bool.or_assoc]
    · rw [e3, s5]
      by_cases hl : lost r = true
      · rw [if_pos hl, List.filter_cons_of_neg (by simp [hl])]
      · rw [if_neg hl, List.filter_cons_of_pos (by simp [hl])]; rfl
    · rw [e5, s2, List.length_cons]; omega

/-- The second pass. -/
theorem trim_eq (p : Init) (hdr : Bytes) (f : Bytes) (m : U32) (hv : p.version = 3) (hrs : p.recSize = 25)
    (ho : p.osetData = (hdr.length : Int)) :
    ∀ (suf pre : List DataRec) (s : Scan), (∀ x ∈ pre ++ suf, Stamp x.send ∧ Stamp x.recv) → 25 * (pre ++ suf).length < 2 ^ 32 →
    f = hdr ++ ((pre ++ suf).map recLayout).flatten →
    ∃ s', trim p f m suf.length (hdr.length + 25 * pre.length) pre.length s = some s' ∧
      contents hdr.length f (pre.length + suf.length) s' =
        contents hdr.length f pre.length s ++ ((suf.filter fun r => decide (r.seq ≤ m)).map recLayout).flatten ∧
      s'.num = s.num - BitVec.ofNat 32 (suf.length - (suf.filter fun r => decide (r.seq ≤ m)).length) ∧
      ((∃ A B, suf = A ++ B ∧ (∀ x ∈ A, x.seq ≤ m) ∧ (∀ x ∈ B, ¬ x.seq ≤ m) ∧
          (s.tmp = none ∨ A = [] ∧ ∃ a, s.tmp = some (a, []))) → s'.tmp = none ∨ ∃ a, s'.tmp = some (a, [])) := by
  intro suf
  induction suf with
  | nil =>
    intro pre s _ _ _
    refine ⟨s, rfl, by simp, by simp, ?_⟩
    rintro ⟨A, B, _, _, _, h | h⟩
    · exact Or.inl h
    · exact Or.inr h.2
  | cons r suf ih =>
    intro pre s hd hlen hf
    have hk : ∀ x ∈ pre ++ r :: suf, (recLayout x).length = 25 ∧ decodeDataRec 3 (recLayout x) = some x :=
      fun x hx => (C12_record_partial x (hd x hx).1 (hd x hx).2).2
    have hlp := flatten_map_length recLayout 25 pre (fun x hx => (hk x (by simp [hx])).1)
    obtain ⟨hlr, hdr'⟩ := hk r (by simp)
    have e : f = (hdr ++ (pre.map recLayout).flatten) ++ (recLayout r ++ (suf.map recLayout).flatten) := by
      rw [hf]; simp
    have hl1 : (hdr ++ (pre.map recLayout).flatten).length = hdr.length + 25 * pre.length := by rw [List.length_append, hlp]
    have hrd : rd f (hdr.length + 25 * pre.length) 25 = some (recLayout r) := by
      rw [rd_ok _ _ _ (by rw [e, List.length_append, hl1, List.length_append, hlr]; omega), e, ← hl1,
        get_append_right _ _ _ _ (Nat.le_refl _), Nat.sub_self, get_zero_append _ _ _ hlr.symm]
    have ht1 : f.take (hdr.length + 25 * pre.length) = hdr ++ (pre.map recLayout).flatten := by
      rw [e, List.take_left' hl1]
    have ht2 : f.take (hdr.length + 25 * (pre.length + 1)) = (hdr ++ (pre.map recLayout).flatten) ++ recLayout r := by
      rw [e, ← List.append_assoc, List.take_left' (by rw [List.length_append, hl1, hlr]; omega)]
    have hpos : p.osetData.toNat + (pre.length * p.recSize) % 2 ^ 32 = hdr.length + 25 * pre.length := by
      rw [ho, hrs, Int.toNat_natCast, Nat.mod_eq_of_lt (by simp at hlen; omega)]; omega
    have hlist : pre ++ r :: suf = (pre ++ [r]) ++ suf := by simp
    have hpl : (pre ++ [r]).length = pre.length + 1 := by simp
    have hle : (suf.filter fun r => decide (r.seq ≤ m)).length ≤ suf.length := List.length_filter_le _ _
    by_cases hg : r.seq ≤ m
    · have hng : ¬ r.seq > m := by
        intro h; have h : m < r.seq := h; rw [BitVec.lt_def] at h; rw [BitVec.le_def] at hg; omega
      have hstep : trimStep p f m (hdr.length + 25 * pre.length) pre.length s =
          some { s with tmp := s.tmp.map fun t => (t.1, t.2 ++ recLayout r) } := by
        unfold trimStep
        rw [hrs, hrd, hv, Option.bind_some, hdr', Option.bind_some, if_neg hng]
      obtain ⟨s', g1, g2, g3, g4⟩ := ih (pre ++ [r]) { s with tmp := s.tmp.map fun t => (t.1, t.2 ++ recLayout r) }
        (by rw [← hlist]; exact hd) (by rw [← hlist]; exact hlen) (by rw [← hlist]; exact hf)
      rw [hpl] at g1 g2
      refine ⟨s', ?_, ?_, ?_, ?_⟩
      · rw [List.length_cons, trim, hstep, Option.bind_some, hrs, show hdr.length + 25 * pre.length + 25 = hdr.length + 25 * (pre.length + 1) by omega, g1]
      · rw [List.length_cons, show pre.length + (suf.length + 1) = pre.length + 1 + suf.length by omega, g2,
          List.filter_cons_of_pos (by simpa using hg), List.map_cons, List.flatten_cons, ← List.append_assoc]
        congr 1
        unfold contents
        cases s.tmp with
        | none => dsimp only [Option.map_none]; rw [ht2, ht1]
        | some t => simp
      · rw [g3, List.filter_cons_of_pos (by simpa using hg), List.length_cons, List.length_cons, Nat.add_sub_add_right]
      · rintro ⟨A, B, hAB, hA, hB, hs⟩
        apply g4
        cases A with
        | nil =>
          rw [List.nil_append] at hAB
          subst hAB
          exact absurd hg (hB r (by simp))
        | cons a A =>
          simp only [List.cons_append, List.cons.injEq] at hAB
          obtain ⟨rfl, hAB⟩ := hAB
          refine ⟨A, B, hAB, fun x hx => hA x (by simp [hx]), hB, Or.inl ?_⟩
          rcases hs with hs | hs
          · simp [hs]
          · exact absurd hs.1 (by simp)
    · have hng : r.seq > m := by
        show m < r.seq; rw [BitVec.lt_def]; rw [BitVec.le_def] at hg; omega
      have hstep : trimStep p f m (hdr.length + 25 * pre.length) pre.length s =
          some { s with num := s.num - 1#32, tmp := some (s.tmp.getD (f.take (hdr.length + 25 * pre.length), [])) } := by
        unfold trimStep
        rw [hpos, hrs, hrd, hv, Option.bind_some, hdr', Option.bind_some, if_pos hng]
      obtain ⟨s', g1, g2, g3, g4⟩ := ih (pre ++ [r])
        { s with num := s.num - 1#32, tmp := some (s.tmp.getD (f.take (hdr.length + 25 * pre.length), [])) }
        (by rw [← hlist]; exact hd) (by rw [← hlist]; exact hlen) (by rw [← hlist]; exact hf)
      rw [hpl] at g1 g2
      refine ⟨s', ?_, ?_, ?_, ?_⟩
      · rw [List.length_cons, trim, hstep, Option.bind_some, hrs, show hdr.length + 25 * pre.length + 25 = hdr.length + 25 * (pre.length + 1) by omega, g1]
      · rw [List.length_cons, show pre.length + (suf.length + 1) = pre.length + 1 + suf.length by omega, g2,
          List.filter_cons_of_neg (by simpa using hg)]
        congr 1
        unfold contents
        cases s.tmp with
        | none => simp
        | some t => simp
      · rw [g3, List.filter_cons_of_neg (by simpa using hg), List.length_cons,
          show suf.length + 1 - (suf.filter fun r => decide (r.seq ≤ m)).length =
            1 + (suf.length - (suf.filter fun r => decide (r.seq ≤ m)).length) by omega, BitVec.ofNat_add]
        exact sub_sub32 _ _ _
      · rintro ⟨A, B, hAB, hA, hB, hs⟩
        apply g4
        cases A with
        | nil =>
          rw [List.nil_append] at hAB
          subst hAB
          refine ⟨[], suf, rfl, by simp, fun x hx => hB x (by simp [hx]), Or.inr ⟨rfl, ?_⟩⟩
          rcases hs with hs | ⟨_, a, hs⟩
          · exact ⟨_, by simp [hs]; rfl⟩
          · exact ⟨a, by simp [hs]⟩
        | cons a A =>
          simp only [List.cons_append, List.cons.injEq] at hAB
          obtain ⟨rfl, _⟩ := hAB
          exact absurd (hA r (by simp)) hg

end Owamp.Clean
