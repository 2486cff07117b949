import Verif.Lemmas.Limits
/-!
# C39 and C40: resource counters of classes
-/
namespace Owamp.Props
open Owamp.Policy Owamp.Spec.Limits

/-! ## C40 -/

theorem settle_denied (claimOver : U64 → U64 → Bool) (q l : U32) (v : U64) (t : Tree) (i : Nat) (e : Lim) (up : Bool × Tree)
    (hup : up.1 = false → up.2 = t) (h : (settle claimOver q l v t i e up).1 = false) :
    (settle claimOver q l v t i e up).2 = t := by
  unfold settle at h ⊢
  split
  · rename_i hz; rw [if_pos hz] at h; exact hup h
  · rename_i hz
    rw [if_neg hz] at h
    split
    · rename_i hr
      rw [if_pos hr] at h
      split
      · rfl
      · rename_i hlt
        rw [if_neg hlt] at h
        split
        · rename_i hu; rw [if_pos hu] at h; cases h
        · rename_i hu; exact hup (by simpa using hu)
    · rename_i hr
      rw [if_neg hr] at h
      split
      · rfl
      · rename_i hk
        rw [if_neg hk] at h
        split
        · rfl
        · rename_i ho
          rw [if_neg ho] at h
          split
          · rename_i hu; rw [if_pos hu] at h; cases h
          · rename_i hu; exact hup (by simpa using hu)

theorem intDemand_denied (claimOver : U64 → U64 → Bool) (q l : U32) (v : U64) (t : Tree) (i : Nat)
    (h : (intDemand claimOver q l v t i).1 = false) : (intDemand claimOver q l v t i).2 = t := by
  induction i using Nat.strongRecOn with
  | ind i ih =>
    rw [intDemand] at h ⊢
    cases hn : t[i]? with
    | none => rfl
    | some n =>
      rw [hn] at h
      simp only at h ⊢
      cases hf : findLim n.lims l with
      | none => rfl
      | some e =>
        rw [hf] at h
        simp only at h ⊢
        refine settle_denied claimOver q l v t i e _ (fun hu => ?_) h
        cases hp : n.parent with
        | none => rfl
        | some p =>
          rw [hp] at hu
          simp only at hu ⊢
          by_cases hlt : p < i
          · rw [dif_pos hlt] at hu ⊢
            exact ih p hlt hu
          · rw [dif_neg hlt]

/-- C40: a demand that is denied leaves the whole tree as it was: any tree, any class, any demand. -/
theorem C40_denied (claimOver : U64 → U64 → Bool) (t : Tree) (i : Nat) (q l : U32) (v : U64)
    (h : (demand claimOver t i q l v).1 = false) : (demand claimOver t i q l v).2 = t := by
  unfold demand at h ⊢
  split
  · rfl
  · split
    · rfl
    · split <;> rfl
  · rename_i hk
    rw [hk] at h
    exact intDemand_denied claimOver q l v t i h

/-- C40: what is granted and then released leaves every counter as it was. What is missing: sums beyond 2^64,
see `C40_overflow`. -/
theorem C40_restored_partial (claimOver : U64 → U64 → Bool) (t : Tree) (hw : WellFormed t) (i : Nat) (q l : U32) (v : U64)
    (hq : q ≠ mesgRelease) (h : (demand claimOver t i q l v).1 = true)
    (hno : ∀ c e, c ∈ lineage t i → entry t c l = some e → e.used.toNat + v.toNat < 2 ^ 64) :
    let r := demand claimOver (demand claimOver t i q l v).2 i mesgRelease l v
    r.1 = true ∧ ∀ c l', entry r.2 c l' = entry t c l' := by
  intro r
  unfold demand at h
  have hr : r = demand claimOver (demand claimOver t i q l v).2 i mesgRelease l v := rfl
  unfold demand at hr
  split at h
  · cases h
  · rename_i hk
    rw [if_neg hq] at h
    rw [hk] at hr
    simp only at hr
    rw [if_pos trivial, if_neg hq] at hr
    split at hr
    · rename_i hn; rw [hn] at h; cases h
    · rw [hr]; exact ⟨rfl, fun _ _ => rfl⟩
  · rename_i hk
    rw [hk] at hr
    simp only at hr
    obtain ⟨h1, _, h3, h4⟩ := intDemand_spec claimOver q l v t hw i
    obtain ⟨t', ht'⟩ : ∃ t', t' = (intDemand claimOver q l v t i).2 := ⟨_, rfl⟩
    rw [← ht'] at hr h1 h4
    have hw' := wellFormed_strip h1 hw
    obtain ⟨g1, g2, g3, g4⟩ := intDemand_spec claimOver mesgRelease l v t' hw' i
    have hnone : ∀ c l', entry t c l' = none → entry (intDemand claimOver mesgRelease l v t' i).2 c l' = none := by
      intro c l' hnn
      have := entry_strip (g1.trans h1) c l'
      rw [hnn] at this
      cases hx : entry (intDemand claimOver mesgRelease l v t' i).2 c l' with
      | none => rfl
      | some e => rw [hx] at this; cases this
    have hgrant : (intDemand claimOver mesgRelease l v t' i).1 = true := by
      rw [g3]
      intro c e' ⟨c1, c2, c3⟩
      rw [lineage_strip h1] at c1
      obtain ⟨e, he, hv⟩ := entry_some h1.symm c2
      have := h4 h c l e he
      rw [if_pos ⟨rfl, c1, by rw [hv]; exact c3⟩, c2] at this
      have := Option.some.inj this
      refine Or.inl ⟨rfl, ?_⟩
      rw [this]
      simp only [moved, if_neg hq]
      have := hno c e c1 he
      rw [BitVec.lt_def, BitVec.toNat_add]
      omega
    rw [hr]
    refine ⟨hgrant, fun c l' => ?_⟩
    cases he : entry t c l' with
    | none => exact hnone c l' he
    | some e =>
      have e1 := h4 h c l' e he
      have e2 := g4 hgrant c l' _ e1
      rw [e2, lineage_strip h1]
      by_cases hc : l' = l ∧ c ∈ lineage t i ∧ e.value ≠ 0
      · rw [if_pos hc]
        simp only [moved, if_neg hq, if_pos]
        rw [if_pos hc]
        simp only [BitVec.add_sub_cancel]
      · rw [if_neg hc, if_neg hc]

/-! ## C39 -/

theorem toDouble_ge (n : Nat) (h : 2 ^ 53 ≤ n) : 2 ^ 53 ≤ toDouble n := by
  unfold toDouble
  rw [if_neg (by omega)]
  dsimp only
  have hn : n ≠ 0 := by omega
  have h53 : 53 ≤ Nat.log2 n := (Nat.le_log2 hn).2 h
  have hle := Nat.log2_self_le hn
  generalize Nat.log2 n = g at *
  have hq : 2 ^ 52 ≤ n / 2 ^ (g - 52) := by
    rw [Nat.le_div_iff_mul_le (Nat.two_pow_pos _), ← Nat.pow_add, show 52 + (g - 52) = g by omega]
    exact hle
  have hbig : 2 ^ 53 ≤ 2 ^ 52 * 2 ^ (g - 52) := by
    rw [← Nat.pow_add]; exact Nat.pow_le_pow_right (by decide) (by omega)
  split
  · exact Nat.le_trans hbig (Nat.mul_le_mul_right _ (by omega))
  · exact Nat.le_trans hbig (Nat.mul_le_mul_right _ hq)

theorem toDouble_le (s limit : Nat) (hl : limit < 2 ^ 53) (h : ¬ toDouble limit < toDouble s) : s ≤ limit := by
  have e : toDouble limit = limit := by unfold toDouble; rw [if_pos hl]
  by_cases hs : s < 2 ^ 53
  · have e2 : toDouble s = s := by unfold toDouble; rw [if_pos hs]
    omega
  · have := toDouble_ge s (by omega)
    omega

theorem toDouble_near (n : Nat) (h : n < 2 ^ 64) : n ≤ toDouble n + 2 ^ 10 ∧ toDouble n ≤ n + 2 ^ 10 := by
  unfold toDouble
  by_cases hn53 : n < 2 ^ 53
  · rw [if_pos hn53]; omega
  rw [if_neg hn53]
  dsimp only
  have hn : n ≠ 0 := by omega
  have h63 : Nat.log2 n < 64 := (Nat.log2_lt hn).2 h
  have h53 : 53 ≤ Nat.log2 n := (Nat.le_log2 hn).2 (by omega)
  generalize Nat.log2 n = g at *
  obtain ⟨k, rfl⟩ : ∃ k, g = 53 + k := ⟨g - 53, by omega⟩
  rw [show 53 + k - 52 = k + 1 by omega, show k + 1 - 1 = k by omega]
  have hk : 2 ^ k ≤ 2 ^ 10 := Nat.pow_le_pow_right (by decide) (by omega)
  have hp : 2 ^ (k + 1) = 2 * 2 ^ k := by rw [Nat.pow_succ, Nat.mul_comm]
  have hdm := Nat.div_add_mod n (2 ^ (k + 1))
  have hr := Nat.mod_lt n (Nat.two_pow_pos (k + 1))
  rw [Nat.mul_comm] at hdm
  clear h63 h53 hn hn53 h
  generalize 2 ^ (k + 1) = w at *
  generalize 2 ^ k = u at *
  subst hp
  generalize n / (2 * u) = q at *
  generalize n % (2 * u) = r at *
  split
  · rename_i hc
    have : (q + 1) * (2 * u) = q * (2 * u) + 2 * u := by rw [Nat.add_mul, Nat.one_mul]
    omega
  · rename_i hc
    omega

theorem toDouble_le_near (s limit : Nat) (hs : s < 2 ^ 64) (hl : limit < 2 ^ 64) (h : ¬ toDouble limit < toDouble s) :
    s ≤ limit + 2 ^ 11 := by
  have h1 := (toDouble_near s hs).1
  have h2 := (toDouble_near limit hl).2
  omega

/-- `cap` gives for each limit of the tree a bound for the sums that pass the comparison of doubles, and is small enough for
64 bit arithmetic. -/
structure Moderate (cap : U64 → Nat) (t : Tree) : Prop where
  passes : ∀ c l e, entry t c l = some e → ∀ s : U64, ¬ toDouble e.value.toNat < toDouble s.toNat → s.toNat ≤ cap e.value
  cap_lt : ∀ c l e, entry t c l = some e → cap e.value < 2 ^ 63

theorem demand_counts (claimOver : U64 → U64 → Bool) (cap : U64 → Nat) (t : Tree) (hw : WellFormed t) (hm : Moderate cap t)
    (i : Nat) (q l0 : U32) (v : U64) (hv : v.toNat < 2 ^ 63)
    (hcap : ∀ c l e, entry t c l = some e → e.value ≠ 0 → e.used.toNat ≤ cap e.value)
    (c : Nat) (l : U32) (e : Lim) (he : entry t c l = some e) (hz : e.value ≠ 0) (hk : limKind l = .int) :
    ∃ e', entry (demand claimOver t i q l0 v).2 c l = some e' ∧ e'.value = e.value ∧
      (e'.used.toNat : Int) = (e.used.toNat : Int) + contribution t c l (⟨i, q, l0, v⟩, (demand claimOver t i q l0 v).1) := by
  by_cases hb : (demand claimOver t i q l0 v).1 = true
  · by_cases hl : limKind l0 = .int
    · have hd : demand claimOver t i q l0 v = intDemand claimOver q l0 v t i := by unfold demand; rw [hl]
      rw [hd] at hb ⊢
      obtain ⟨_, _, h3, h4⟩ := intDemand_spec claimOver q l0 v t hw i
      have e1 := h4 hb c l e he
      unfold contribution
      simp only [hb, true_and]
      by_cases hc : l = l0 ∧ c ∈ lineage t i ∧ e.value ≠ 0
      · rw [if_pos hc] at e1
        refine ⟨_, e1, rfl, ?_⟩
        obtain ⟨rfl, hcl2, _⟩ := hc
        have hadm := h3.1 hb c e ⟨hcl2, he, hz⟩
        rw [if_pos ⟨rfl, hcl2⟩]
        have hu := hcap c l e he hz
        have hc2 := hm.cap_lt c l e he
        rcases hadm with ⟨hq, ha⟩ | ⟨hq, _, _⟩
        · simp only [moved, if_pos hq]
          rw [BitVec.not_lt] at ha
          rw [BitVec.toNat_sub_of_le ha]
          have := BitVec.le_def.1 ha
          omega
        · simp only [moved, if_neg hq]
          rw [BitVec.toNat_add, Nat.mod_eq_of_lt (by omega)]
          omega
      · rw [if_neg hc] at e1
        refine ⟨_, e1, rfl, ?_⟩
        rw [if_neg (fun hh => hc ⟨hh.1.symm, hh.2, hz⟩)]
        omega
    · have hne : ¬ l0 = l := fun hh => hl (hh ▸ hk)
      have hd : (demand claimOver t i q l0 v).2 = t := by
        unfold demand
        split
        · rfl
        · split
          · rfl
          · split <;> rfl
        · rename_i h; exact absurd h hl
      rw [hd]
      refine ⟨e, he, rfl, ?_⟩
      unfold contribution
      rw [if_neg (fun hh => hne hh.2.1)]
      omega
  · have hf : (demand claimOver t i q l0 v).1 = false := by simpa using hb
    rw [C40_denied claimOver t i q l0 v hf]
    refine ⟨e, he, rfl, ?_⟩
    unfold contribution
    rw [if_neg (fun hh => hb hh.1)]
    omega

theorem demand_cap (claimOver : U64 → U64 → Bool) (cap : U64 → Nat) (t : Tree) (hw : WellFormed t) (hm : Moderate cap t)
    (i : Nat) (q l0 : U32) (v : U64) (hv : v.toNat < 2 ^ 63)
    (hcl : q = mesgClaim → ∀ s lim, claimOver s lim = false → s.toNat ≤ cap lim)
    (hcap : ∀ c l e, entry t c l = some e → e.value ≠ 0 → e.used.toNat ≤ cap e.value)
    (c : Nat) (l : U32) (e' : Lim) (he' : entry (demand claimOver t i q l0 v).2 c l = some e') (hz' : e'.value ≠ 0) :
    e'.used.toNat ≤ cap e'.value := by
  by_cases hb : (demand claimOver t i q l0 v).1 = true
  · by_cases hl : limKind l0 = .int
    · have hd : demand claimOver t i q l0 v = intDemand claimOver q l0 v t i := by unfold demand; rw [hl]
      rw [hd] at hb he'
      obtain ⟨h1, _, h3, h4⟩ := intDemand_spec claimOver q l0 v t hw i
      obtain ⟨e, he, hev⟩ := entry_some h1.symm he'
      have e1 := h4 hb c l e he
      rw [he'] at e1
      replace e1 := Option.some.inj e1
      have hz : e.value ≠ 0 := by rw [hev]; exact hz'
      have hu := hcap c l e he hz
      have hc2 := hm.cap_lt c l e he
      by_cases hc : l = l0 ∧ c ∈ lineage t i ∧ e.value ≠ 0
      · rw [if_pos hc] at e1
        obtain ⟨rfl, hcl2, _⟩ := hc
        have hadm := h3.1 hb c e ⟨hcl2, he, hz⟩
        rw [← hev, e1]
        rcases hadm with ⟨hq, ha⟩ | ⟨hq, hkind, ha⟩
        · simp only [moved, if_pos hq]
          rw [BitVec.not_lt] at ha
          rw [BitVec.toNat_sub_of_le ha]
          omega
        · simp only [moved, if_neg hq]
          have hsum : (e.used + v).toNat = (v + e.used).toNat := by rw [BitVec.add_comm]
          rw [hsum]
          unfold over at ha
          by_cases hclaim : q = mesgClaim
          · rw [if_pos hclaim] at ha
            exact hcl hclaim _ _ ha
          · rw [if_neg hclaim] at ha
            exact hm.passes c l e he _ (by simpa using ha)
      · rw [if_neg hc] at e1
        rw [e1]; exact hu
    · have hd : (demand claimOver t i q l0 v).2 = t := by
        unfold demand
        split
        · rfl
        · split
          · rfl
          · split <;> rfl
        · rename_i h; exact absurd h hl
      rw [hd] at he'
      exact hcap c l e' he' hz'
  · have hf : (demand claimOver t i q l0 v).1 = false := by simpa using hb
    rw [C40_denied claimOver t i q l0 v hf] at he'
    exact hcap c l e' he' hz'

theorem demand_strip (claimOver : U64 → U64 → Bool) (t : Tree) (hw : WellFormed t) (i : Nat) (q l0 : U32) (v : U64) :
    strip (demand claimOver t i q l0 v).2 = strip t := by
  unfold demand
  split
  · rfl
  · split
    · rfl
    · split <;> rfl
  · exact (intDemand_spec claimOver q l0 v t hw i).1

theorem history_counts (claimOver : U64 → U64 → Bool) (cap : U64 → Nat) (evs : List Event) (t : Tree) (hw : WellFormed t)
    (hm : Moderate cap t) (hv : ∀ ev ∈ evs, ev.value.toNat < 2 ^ 63)
    (hcl : ∀ ev ∈ evs, ev.query = mesgClaim → ∀ s lim, claimOver s lim = false → s.toNat ≤ cap lim)
    (hcap : ∀ c l e, entry t c l = some e → e.value ≠ 0 → e.used.toNat ≤ cap e.value)
    (c : Nat) (l : U32) (e : Lim) (he : entry t c l = some e) (hz : e.value ≠ 0) (hk : limKind l = .int) :
    ∃ e', entry (history claimOver t evs).1 c l = some e' ∧ e'.value = e.value ∧
      (e'.used.toNat : Int) = (e.used.toNat : Int) + outstanding t c l (history claimOver t evs).2 ∧
      e'.used.toNat ≤ cap e.value := by
  induction evs generalizing t e with
  | nil => exact ⟨e, he, rfl, by simp [history, outstanding], hcap c l e he hz⟩
  | cons ev evs ih =>
    have hv0 := hv ev List.mem_cons_self
    have hc0 := hcl ev List.mem_cons_self
    have hs := demand_strip claimOver t hw ev.cls ev.query ev.limit ev.value
    obtain ⟨e1, h1, h2, h3⟩ := demand_counts claimOver cap t hw hm ev.cls ev.query ev.limit ev.value hv0 hcap c l e he hz hk
    have hcap' := demand_cap claimOver cap t hw hm ev.cls ev.query ev.limit ev.value hv0 hc0 hcap
    rw [history]
    obtain ⟨t1, ht1⟩ : ∃ t1, t1 = (demand claimOver t ev.cls ev.query ev.limit ev.value).2 := ⟨_, rfl⟩
    rw [← ht1] at hs h1 hcap' ⊢
    have hm1 : Moderate cap t1 := ⟨fun c l e he => by
      obtain ⟨e0, he0, hv0⟩ := entry_some hs.symm he
      rw [← hv0]; exact hm.passes c l e0 he0, fun c l e he => by
      obtain ⟨e0, he0, hv0⟩ := entry_some hs.symm he
      rw [← hv0]; exact hm.cap_lt c l e0 he0⟩
    obtain ⟨e2, g1, g2, g3, g4⟩ := ih t1 (wellFormed_strip hs hw) hm1 (fun x hx => hv x (List.mem_cons_of_mem _ hx))
      (fun x hx => hcl x (List.mem_cons_of_mem _ hx)) hcap' e1 h1 (by rw [h2]; exact hz)
    refine ⟨e2, g1, g2.trans h2, ?_, by rw [← h2]; exact g4⟩
    rw [g3, h3]
    simp only [outstanding, List.map_cons, List.sum_cons]
    have : contribution t1 c l = contribution t c l := by
      funext a; unfold contribution; rw [lineage_strip hs]
    rw [this, show (⟨ev.cls, ev.query, ev.limit, ev.value⟩ : Event) = ev from rfl]
    omega

/-- C39: from zero usage, after any sequence of requests and releases by any classes, the recorded use of a limited
resource is what is outstanding in the sub-tree of the class, and it is within the limit. What is missing: limits of
2^53 and more (but see `C39_near_partial`) and amounts of 2^63 and more, see `C39_rounding` and `C39_overflow`. -/
theorem C39_within_partial (claimOver : U64 → U64 → Bool) (t : Tree) (hw : WellFormed t) (h0 : Unused t)
    (hsmall : ∀ c l e, entry t c l = some e → e.value.toNat < 2 ^ 53)
    (evs : List Event) (hv : ∀ ev ∈ evs, ev.value.toNat < 2 ^ 63 ∧ ev.query ≠ mesgClaim)
    (c : Nat) (l : U32) (e : Lim) (he : entry t c l = some e) (hz : e.value ≠ 0) (hk : limKind l = .int) :
    ∃ e', entry (history claimOver t evs).1 c l = some e' ∧ e'.value = e.value ∧
      (e'.used.toNat : Int) = outstanding t c l (history claimOver t evs).2 ∧ e'.used.toNat ≤ e.value.toNat := by
  obtain ⟨e', h1, h2, h3, h4⟩ := history_counts claimOver (fun x => x.toNat) evs t hw
    ⟨fun c l e he s hs => toDouble_le _ _ (hsmall c l e he) hs, fun c l e he => Nat.lt_of_lt_of_le (hsmall c l e he) (by decide)⟩
    (fun ev hev => (hv ev hev).1)
    (fun ev hev hq => absurd hq (hv ev hev).2)
    (fun c l e he _ => by rw [h0 c l e he]; exact Nat.zero_le _) c l e he hz hk
  exact ⟨e', h1, h2, by rw [h3, h0 c l e he]; simp, h4⟩

/-- C39 for limits up to 2^62: the use is what is outstanding, and exceeds the limit by 2048 at most. -/
theorem C39_near_partial (claimOver : U64 → U64 → Bool) (t : Tree) (hw : WellFormed t) (h0 : Unused t)
    (hsmall : ∀ c l e, entry t c l = some e → e.value.toNat < 2 ^ 62)
    (evs : List Event) (hv : ∀ ev ∈ evs, ev.value.toNat < 2 ^ 63 ∧ ev.query ≠ mesgClaim)
    (c : Nat) (l : U32) (e : Lim) (he : entry t c l = some e) (hz : e.value ≠ 0) (hk : limKind l = .int) :
    ∃ e', entry (history claimOver t evs).1 c l = some e' ∧ e'.value = e.value ∧
      (e'.used.toNat : Int) = outstanding t c l (history claimOver t evs).2 ∧ e'.used.toNat ≤ e.value.toNat + 2048 := by
  obtain ⟨e', h1, h2, h3, h4⟩ := history_counts claimOver (fun x => x.toNat + 2 ^ 11) evs t hw
    ⟨fun c l e he s hs => toDouble_le_near _ _ s.isLt e.value.isLt hs,
      fun c l e he => by have := hsmall c l e he; omega⟩ (fun ev hev => (hv ev hev).1)
    (fun ev hev hq => absurd hq (hv ev hev).2)
    (fun c l e he _ => by rw [h0 c l e he]; exact Nat.zero_le _) c l e he hz hk
  exact ⟨e', h1, h2, by rw [h3, h0 c l e he]; simp, h4⟩

/-- C39 with claims, for which the limit is multiplied by `diskfudge`: the use is what is outstanding, and it stays within
the limit so raised. -/
theorem C39_claims_partial (claimOver : U64 → U64 → Bool) (cap : U64 → Nat) (hge : ∀ x : U64, x.toNat ≤ cap x)
    (hlt : ∀ x : U64, x.toNat < 2 ^ 53 → cap x < 2 ^ 63) (hclaim : ∀ s lim, claimOver s lim = false → s.toNat ≤ cap lim)
    (t : Tree) (hw : WellFormed t) (h0 : Unused t) (hsmall : ∀ c l e, entry t c l = some e → e.value.toNat < 2 ^ 53)
    (evs : List Event) (hv : ∀ ev ∈ evs, ev.value.toNat < 2 ^ 63)
    (c : Nat) (l : U32) (e : Lim) (he : entry t c l = some e) (hz : e.value ≠ 0) (hk : limKind l = .int) :
    ∃ e', entry (history claimOver t evs).1 c l = some e' ∧ e'.value = e.value ∧
      (e'.used.toNat : Int) = outstanding t c l (history claimOver t evs).2 ∧ e'.used.toNat ≤ cap e.value := by
  obtain ⟨e', h1, h2, h3, h4⟩ := history_counts claimOver cap evs t hw
    ⟨fun c l e he s hs => Nat.le_trans (toDouble_le _ _ (hsmall c l e he) hs) (hge _), fun c l e he => hlt _ (hsmall c l e he)⟩
    hv (fun _ _ _ => hclaim)
    (fun c l e he _ => by rw [h0 c l e he]; exact Nat.zero_le _) c l e he hz hk
  exact ⟨e', h1, h2, by rw [h3, h0 c l e he]; simp, h4⟩

/-! ## Cases and counter-examples -/

/-- A root with a limit of 100 on disk space, a class below it with a limit of 60 and one without a limit of its own. -/
def demoTree : Tree :=
  [⟨text ['r'], none, [⟨limDisk, 100, 0⟩]⟩, ⟨text ['a'], some 0, [⟨limDisk, 60, 0⟩]⟩, ⟨text ['b'], some 0, [⟨limDisk, 0, 0⟩]⟩]

theorem wellFormed_of (t : Tree) (h1 : t.zipIdx.all (fun x => match x.1.parent with
    | none => true
    | some p => decide (p < x.2) && (match t[p]? with
      | none => true
      | some m => m.lims.all fun e => (findLim x.1.lims e.limit).isSome)) = true) : WellFormed t := by
  rw [List.all_eq_true] at h1
  have get : ∀ (i : Nat) (n : Node), t[i]? = some n → (n, i) ∈ t.zipIdx := by
    intro i n hn
    rw [List.mem_zipIdx_iff_getElem?]; exact hn
  refine ⟨fun i n p hn hp => ?_, fun i n p m l hn hp hm hf => ?_⟩
  · have := h1 _ (get i n hn)
    simp only [hp, Bool.and_eq_true, decide_eq_true_iff] at this
    exact this.1
  · have := h1 _ (get i n hn)
    simp only [hp, hm, Bool.and_eq_true, decide_eq_true_iff, List.all_eq_true] at this
    cases hx : findLim m.lims l with
    | none => exact absurd hx hf
    | some e =>
      have he := List.mem_of_find?_eq_some hx
      have hl := List.find?_some hx
      have h2 := this.2 e he
      have hl : e.limit = l := by simpa using hl
      rw [hl] at h2
      intro hnn; rw [hnn] at h2; cases h2

theorem demoTree_wf : WellFormed demoTree := wellFormed_of _ (by decide +kernel)

theorem demoTree_entry (c : Nat) (l : U32) (e : Lim) (h : entry demoTree c l = some e) : e.used = 0 ∧ e.value.toNat < 2 ^ 53 := by
  unfold entry demoTree findLim at h
  match c with
  | 0 | 1 | 2 =>
    simp only [List.getElem?_cons_zero, List.getElem?_cons_succ, List.find?_cons, List.find?_nil] at h
    split at h
    · cases h; decide
    · cases h
  | n + 3 => simp at h

theorem demoTree_unused : Unused demoTree := fun c l e h => (demoTree_entry c l e h).1

def demoEvents : List Event :=
  [⟨1, mesgRequest, limDisk, 50⟩, ⟨1, mesgRequest, limDisk, 20⟩, ⟨2, mesgRequest, limDisk, 40⟩, ⟨2, mesgRequest, limDisk, 20⟩,
   ⟨1, mesgRelease, limDisk, 30⟩, ⟨2, mesgRequest, limDisk, 20⟩]

/-- The second demand is beyond the limit of its class, the fourth beyond that of the root. -/
example : (history (fun _ _ => true) demoTree demoEvents).2.map (·.2) = [true, false, true, false, true, true] := by decide +kernel
example (c : Nat) (l : U32) (e : Lim) := C39_near_partial (fun _ _ => true) demoTree demoTree_wf demoTree_unused
  (fun c l e h => Nat.lt_of_lt_of_le (demoTree_entry c l e h).2 (by decide)) demoEvents (by unfold demoEvents; decide) c l e
example (c : Nat) (l : U32) (e : Lim) := C39_within_partial (fun _ _ => true) demoTree demoTree_wf demoTree_unused
  (fun c l e h => (demoTree_entry c l e h).2) demoEvents (by unfold demoEvents; decide) c l e
example : entry demoTree 0 limDisk = some ⟨limDisk, 100, 0⟩ ∧ limKind limDisk = .int ∧
    outstanding demoTree 0 limDisk (history (fun _ _ => true) demoTree demoEvents).2 = 80 := by decide +kernel
example := C39_claims_partial (fun s lim => decide (s.toNat > lim.toNat + lim.toNat / 10)) (fun x => x.toNat + x.toNat / 10)
  (fun x => by omega) (fun x hx => by omega) (fun s lim h => by simpa using h) demoTree demoTree_wf demoTree_unused
  (fun c l e h => (demoTree_entry c l e h).2) [⟨1, mesgRequest, limDisk, 50⟩, ⟨1, mesgClaim, limDisk, 15⟩] (by decide)
/-- With claims a class may use more than its limit. -/
example : (history (fun s lim => decide (s.toNat > lim.toNat + lim.toNat / 10)) demoTree
    [⟨1, mesgRequest, limDisk, 50⟩, ⟨1, mesgClaim, limDisk, 15⟩]).2.map (·.2) = [true, true] := by decide +kernel
example : (demand (fun _ _ => true) demoTree 1 mesgRequest limDisk 61).1 = false := by decide +kernel
example : (demand (fun _ _ => true) demoTree 1 mesgRequest limDisk 60).1 = true ∧
    (∀ c ∈ lineage demoTree 1, ∀ e, entry demoTree c limDisk = some e → e.used.toNat + (60 : U64).toNat < 2 ^ 64) :=
  ⟨by decide +kernel, fun c _ e he => by rw [(demoTree_entry c _ e he).1]; decide⟩

/-- C39 fails when a sum exceeds 2^64: a class with a limit of 100 that has been granted 50 is granted 2^64 - 50 more,
and is then recorded as using nothing. -/
theorem C39_overflow : ∃ t evs, WellFormed t ∧ Unused t ∧
    (history (fun _ _ => true) t evs).2.map (·.2) = [true, true] ∧
    outstanding t 0 limDisk (history (fun _ _ => true) t evs).2 = 2 ^ 64 ∧
    entry (history (fun _ _ => true) t evs).1 0 limDisk = some ⟨limDisk, 100, 0⟩ :=
  ⟨demoTree, [⟨0, mesgRequest, limDisk, 50⟩, ⟨0, mesgRequest, limDisk, BitVec.ofNat 64 (2 ^ 64 - 50)⟩], demoTree_wf, demoTree_unused,
    by decide +kernel⟩

def demoBig : Tree := [⟨text ['r'], none, [⟨limDisk, BitVec.ofNat 64 (2 ^ 53), 0⟩]⟩]

/-- C39 fails for limits from 2^53 on: the comparison is one of doubles, and a byte more than the limit is granted. -/
theorem C39_rounding :
    (history (fun _ _ => true) demoBig [⟨0, mesgRequest, limDisk, BitVec.ofNat 64 (2 ^ 53)⟩, ⟨0, mesgRequest, limDisk, 1⟩]).2.map
      (·.2) = [true, true] ∧
    entry (history (fun _ _ => true) demoBig
      [⟨0, mesgRequest, limDisk, BitVec.ofNat 64 (2 ^ 53)⟩, ⟨0, mesgRequest, limDisk, 1⟩]).1 0 limDisk =
      some ⟨limDisk, BitVec.ofNat 64 (2 ^ 53), BitVec.ofNat 64 (2 ^ 53 + 1)⟩ := by decide +kernel

/-- C40 fails when a sum exceeds 2^64: the release of what was granted is denied. -/
theorem C40_overflow : ∃ t, WellFormed t ∧
    (demand (fun _ _ => true) t 0 mesgRequest limDisk (BitVec.ofNat 64 (2 ^ 64 - 50))).1 = true ∧
    (demand (fun _ _ => true) (demand (fun _ _ => true) t 0 mesgRequest limDisk (BitVec.ofNat 64 (2 ^ 64 - 50))).2 0
      mesgRelease limDisk (BitVec.ofNat 64 (2 ^ 64 - 50))).1 = false :=
  ⟨[⟨text ['r'], none, [⟨limDisk, 100, 50⟩]⟩], wellFormed_of _ (by decide +kernel), by decide +kernel⟩

end Owamp.Props
