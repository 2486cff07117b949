import Verif.Spec.Limits
/-!
# Lemmas about the counters of classes
-/
namespace Owamp.Policy
open Owamp.Spec.Limits

/-! ## The tree without its counters -/

/-- A class without its counters. -/
def stripNode (n : Node) : Node := { n with lims := n.lims.map fun e => { e with used := 0 } }

def strip (t : Tree) : Tree := t.map stripNode

theorem strip_get {t t' : Tree} (h : strip t' = strip t) (i : Nat) :
    (t'[i]?).map stripNode = (t[i]?).map stripNode := by
  have := congrArg (·[i]?) h
  simpa only [strip, List.getElem?_map] using this

theorem strip_some {t t' : Tree} (h : strip t' = strip t) {i : Nat} {n : Node} (hn : t[i]? = some n) :
    ∃ n', t'[i]? = some n' ∧ stripNode n' = stripNode n := by
  have := strip_get h i
  rw [hn] at this
  cases h' : t'[i]? with
  | none => rw [h'] at this; cases this
  | some n' => rw [h'] at this; exact ⟨n', rfl, by simpa using this⟩

theorem strip_parent {n n' : Node} (h : stripNode n' = stripNode n) : n'.parent = n.parent := by
  have := congrArg Node.parent h; exact this

theorem findLim_strip (lims : List Lim) (l : U32) :
    findLim (lims.map fun e => { e with used := 0 }) l = (findLim lims l).map fun e => { e with used := 0 } := by
  unfold findLim
  induction lims with
  | nil => rfl
  | cons e es ih =>
    rw [List.map_cons, List.find?_cons, List.find?_cons]
    by_cases h : e.limit = l
    · simp [h]
    · simpa [h] using ih

theorem strip_find {n n' : Node} (h : stripNode n' = stripNode n) (l : U32) :
    (findLim n'.lims l).map (fun e => ({ e with used := 0 } : Lim)) = (findLim n.lims l).map (fun e => { e with used := 0 }) := by
  have := congrArg Node.lims h
  rw [← findLim_strip, ← findLim_strip]
  exact congrArg (findLim · l) this

theorem entry_strip {t t' : Tree} (h : strip t' = strip t) (c : Nat) (l : U32) :
    (entry t' c l).map (fun e => ({ e with used := 0 } : Lim)) = (entry t c l).map (fun e => { e with used := 0 }) := by
  unfold entry
  cases ht : t[c]? with
  | none =>
    have := strip_get h c
    rw [ht] at this
    cases h' : t'[c]? with
    | none => rfl
    | some n' => rw [h'] at this; cases this
  | some n =>
    obtain ⟨n', h1, h2⟩ := strip_some h ht
    rw [h1]
    exact strip_find h2 l

theorem entry_some {t t' : Tree} (h : strip t' = strip t) {c : Nat} {l : U32} {e : Lim} (he : entry t c l = some e) :
    ∃ e', entry t' c l = some e' ∧ e'.value = e.value := by
  have := entry_strip h c l
  rw [he] at this
  cases h' : entry t' c l with
  | none => rw [h'] at this; cases this
  | some e' =>
    rw [h'] at this
    have h2 : ({ e' with used := 0 } : Lim) = { e with used := 0 } := Option.some.inj this
    exact ⟨e', rfl, (Lim.mk.inj h2).2.1⟩

theorem lineage_strip {t t' : Tree} (h : strip t' = strip t) (i : Nat) : lineage t' i = lineage t i := by
  induction i using Nat.strongRecOn with
  | ind i ih =>
    rw [lineage, lineage]
    cases ht : t[i]? with
    | none =>
      have := strip_get h i
      rw [ht] at this
      cases h' : t'[i]? with
      | none => rfl
      | some n' => rw [h'] at this; cases this
    | some n =>
      obtain ⟨n', h1, h2⟩ := strip_some h ht
      rw [h1]
      simp only
      rw [strip_parent h2]
      cases hp : n.parent with
      | none => rfl
      | some p =>
        simp only
        by_cases hlt : p < i
        · rw [if_pos hlt, if_pos hlt, ih p hlt]
        · rw [if_neg hlt, if_neg hlt]

theorem wellFormed_strip {t t' : Tree} (h : strip t' = strip t) (hw : WellFormed t) : WellFormed t' := by
  refine ⟨fun i n p hn hp => ?_, fun i n p m l hn hp hm hf => ?_⟩
  · obtain ⟨n0, h0, h1⟩ := strip_some h.symm hn
    exact hw.before i n0 p h0 (by rw [strip_parent h1]; exact hp)
  · obtain ⟨n0, h0, h1⟩ := strip_some h.symm hn
    obtain ⟨m0, h2, h3⟩ := strip_some h.symm hm
    have key := hw.inherits i n0 p m0 l h0 (by rw [strip_parent h1]; exact hp) h2
    have hm' := strip_find h3 l
    have hn' := strip_find h1 l
    intro hnone
    rw [hnone] at hn'
    refine key (fun hx => ?_) ?_
    · rw [hx] at hm'
      cases hf' : findLim m.lims l with
      | none => exact hf hf'
      | some e => rw [hf'] at hm'; cases hm'
    · cases hf' : findLim n0.lims l with
      | none => rfl
      | some e => rw [hf'] at hn'; cases hn'

/-! ## Changing a counter -/

theorem findLim_mod (f : U64 → U64) (l l' : U32) (lims : List Lim) :
    findLim (modLims f l lims) l' =
      if l' = l then (findLim lims l').map (fun e => { e with used := f e.used }) else findLim lims l' := by
  unfold findLim
  induction lims with
  | nil => simp [modLims]
  | cons e es ih =>
    rw [modLims]
    by_cases h : e.limit = l
    · rw [if_pos h, List.find?_cons, List.find?_cons]
      by_cases h2 : l' = l
      · subst h2; simp [h]
      · simp only [h2, if_false]
        have : ¬ l = l' := fun hh => h2 hh.symm
        simp [h, this]
    · rw [if_neg h, List.find?_cons, List.find?_cons]
      by_cases h3 : e.limit = l'
      · have : ¬ l' = l := fun hh => h (h3.trans hh)
        simp [h3, this]
      · simpa [h3] using ih

theorem modLims_strip (f : U64 → U64) (l : U32) (lims : List Lim) :
    (modLims f l lims).map (fun e => ({ e with used := 0 } : Lim)) = lims.map (fun e => { e with used := 0 }) := by
  induction lims with
  | nil => rfl
  | cons e es ih =>
    rw [modLims]
    by_cases h : e.limit = l
    · rw [if_pos h]; rfl
    · rw [if_neg h, List.map_cons, List.map_cons, ih]

theorem strip_mod (t : Tree) (i : Nat) (l : U32) (f : U64 → U64) : strip (modUsed t i l f) = strip t := by
  unfold modUsed
  cases h : t[i]? with
  | none => rfl
  | some n =>
    simp only
    unfold strip
    rw [List.map_set]
    have hs : stripNode { n with lims := modLims f l n.lims } = stripNode n := by
      unfold stripNode; simp only [modLims_strip]
    rw [hs]
    apply List.ext_getElem?
    intro j
    rw [List.getElem?_set]
    by_cases hj : i = j
    · subst hj
      rw [if_pos rfl, List.getElem?_map, h]
      have : i < (t.map stripNode).length := by
        rw [List.length_map]; exact (List.getElem?_eq_some_iff.1 h).1
      rw [if_pos this]; rfl
    · rw [if_neg hj]

theorem entry_mod (t : Tree) (i : Nat) (l : U32) (f : U64 → U64) (c : Nat) (l' : U32) :
    entry (modUsed t i l f) c l' =
      if c = i ∧ l' = l then (entry t c l').map (fun e => { e with used := f e.used }) else entry t c l' := by
  unfold modUsed
  cases h : t[i]? with
  | none =>
    simp only
    by_cases hc : c = i
    · subst hc; unfold entry; rw [h]; simp
    · rw [if_neg (fun hh => hc hh.1)]
  | some n =>
    simp only
    unfold entry
    rw [List.getElem?_set]
    have hlen : i < t.length := (List.getElem?_eq_some_iff.1 h).1
    by_cases hc : i = c
    · subst hc
      rw [if_pos rfl, if_pos hlen, h]
      simp only [true_and]
      exact findLim_mod f l l' n.lims
    · rw [if_neg hc, if_neg (fun hh => hc hh.1.symm)]

/-! ## Demands -/

theorem lineage_le (t : Tree) (i c : Nat) (h : c ∈ lineage t i) : c ≤ i := by
  induction i using Nat.strongRecOn generalizing c with
  | ind i ih =>
    rw [lineage] at h
    split at h
    · rw [List.mem_singleton] at h; omega
    · split at h
      · rw [List.mem_singleton] at h; omega
      · split at h
        · rename_i hlt
          rw [List.mem_cons] at h
          rcases h with h | h
          · omega
          · have := ih _ hlt c h; omega
        · rw [List.mem_singleton] at h; omega

/-- What a counter is changed to. -/
def moved (q : U32) (v u : U64) : U64 := if q = mesgRelease then u - v else u + v

/-- A counter admits the demand. -/
def Admits (claimOver : U64 → U64 → Bool) (q l : U32) (v : U64) (e : Lim) : Prop :=
  (q = mesgRelease ∧ ¬ e.used < v) ∨
  (q ≠ mesgRelease ∧ ¬ ((q = mesgClaim ∧ l ≠ limDisk) ∨ (q ≠ mesgClaim ∧ q ≠ mesgRequest)) ∧
    over claimOver q (v + e.used) e.value = false)

/-- The classes of which the counter is changed. -/
def Counts (t : Tree) (i : Nat) (l : U32) (c : Nat) (e : Lim) : Prop := c ∈ lineage t i ∧ entry t c l = some e ∧ e.value ≠ 0

theorem lineage_none (t : Tree) (i : Nat) (h : t[i]? = none) : lineage t i = [i] := by
  rw [lineage, h]

/-- Without a record for a class there is none for the classes above it. -/
theorem no_entry_above (t : Tree) (hw : WellFormed t) (i : Nat) (l : U32) (n : Node) (hn : t[i]? = some n)
    (h : findLim n.lims l = none) (c : Nat) (hc : c ∈ lineage t i) : entry t c l = none := by
  induction i using Nat.strongRecOn generalizing n with
  | ind i ih =>
    rw [lineage, hn] at hc
    have hself : entry t i l = none := by unfold entry; rw [hn]; exact h
    cases hp : n.parent with
    | none =>
      simp only [hp, List.mem_singleton] at hc
      rw [hc]; exact hself
    | some p =>
      simp only [hp] at hc
      have hlt := hw.before i n p hn hp
      rw [if_pos hlt, List.mem_cons] at hc
      rcases hc with hc | hc
      · rw [hc]; exact hself
      · cases hm : t[p]? with
        | none =>
          rw [lineage_none t p hm, List.mem_singleton] at hc
          rw [hc]; unfold entry; rw [hm]
        | some m =>
          refine ih p hlt m hm ?_ hc
          cases hf : findLim m.lims l with
          | none => rfl
          | some e => exact absurd h (hw.inherits i n p m l hn hp hm (by rw [hf]; exact nofun))

theorem settle_spec (claimOver : U64 → U64 → Bool) (q l : U32) (v : U64) (t : Tree) (i : Nat) (n : Node) (e0 : Lim)
    (hn : t[i]? = some n) (hf : findLim n.lims l = some e0) (L : List Nat) (hlin : lineage t i = i :: L) (hLlt : ∀ c ∈ L, c < i)
    (up : Bool × Tree) (hs : strip up.2 = strip t) (hff : up.1 = false → up.2 = t)
    (hadm : up.1 = true ↔ ∀ c e, (c ∈ L ∧ entry t c l = some e ∧ e.value ≠ 0) → Admits claimOver q l v e)
    (heff : up.1 = true → ∀ c l' e, entry t c l' = some e → entry up.2 c l' =
      some (if l' = l ∧ c ∈ L ∧ e.value ≠ 0 then { e with used := moved q v e.used } else e)) :
    strip (settle claimOver q l v t i e0 up).2 = strip t ∧
    ((settle claimOver q l v t i e0 up).1 = false → (settle claimOver q l v t i e0 up).2 = t) ∧
    ((settle claimOver q l v t i e0 up).1 = true ↔ ∀ c e, Counts t i l c e → Admits claimOver q l v e) ∧
    ((settle claimOver q l v t i e0 up).1 = true → ∀ c l' e, entry t c l' = some e →
      entry (settle claimOver q l v t i e0 up).2 c l' =
        some (if l' = l ∧ c ∈ lineage t i ∧ e.value ≠ 0 then { e with used := moved q v e.used } else e)) := by
  have he0 : entry t i l = some e0 := by unfold entry; rw [hn]; exact hf
  have hiL : i ∉ L := fun hh => Nat.lt_irrefl i (hLlt i hh)
  unfold settle
  by_cases hz : e0.value = 0
  · rw [if_pos hz]
    refine ⟨hs, hff, hadm.trans ⟨fun h c e hc => ?_, fun h c e hc => ?_⟩, fun htrue c l' e he => ?_⟩
    · rcases hc with ⟨h1, h2, h3⟩
      rw [hlin, List.mem_cons] at h1
      rcases h1 with h1 | h1
      · subst h1; rw [he0] at h2; exact absurd (Option.some.inj h2 ▸ hz) h3
      · exact h c e ⟨h1, h2, h3⟩
    · exact h c e ⟨by rw [hlin]; exact List.mem_cons_of_mem _ hc.1, hc.2⟩
    · rw [heff htrue c l' e he]
      by_cases hc : l' = l ∧ c ∈ L ∧ e.value ≠ 0
      · rw [if_pos hc, if_pos ⟨hc.1, by rw [hlin]; exact List.mem_cons_of_mem _ hc.2.1, hc.2.2⟩]
      · rw [if_neg hc, if_neg]
        rintro ⟨h0, h1, h2⟩
        rw [hlin, List.mem_cons] at h1
        rcases h1 with h1 | h1
        · subst h1 h0; rw [he0] at he; exact h2 (Option.some.inj he ▸ hz)
        · exact hc ⟨h0, h1, h2⟩
  · rw [if_neg hz]
    have hcount : Counts t i l i e0 := ⟨by rw [hlin]; exact List.mem_cons_self, he0, hz⟩
    -- the last step, once the own check has passed
    have last : ∀ f : U64 → U64, (∀ u, f u = moved q v u) → Admits claimOver q l v e0 → ∀ r : Bool × Tree,
        r = (if up.1 then (true, modUsed up.2 i l f) else (false, up.2)) →
        strip r.2 = strip t ∧ (r.1 = false → r.2 = t) ∧
        (r.1 = true ↔ ∀ c e, Counts t i l c e → Admits claimOver q l v e) ∧
        (r.1 = true → ∀ c l' e, entry t c l' = some e → entry r.2 c l' =
            some (if l' = l ∧ c ∈ lineage t i ∧ e.value ≠ 0 then { e with used := moved q v e.used } else e)) := by
      intro f hfm hadm0 r hr
      obtain ⟨b, t'⟩ := up
      cases b with
      | false =>
        rw [if_neg (fun hh => nomatch hh)] at hr
        subst hr
        simp only at hs hff hadm heff ⊢
        refine ⟨hs, hff, ⟨(fun h => nomatch h), fun h => ?_⟩, (fun h => nomatch h)⟩
        have := hadm.2 fun c e hc => h c e ⟨by rw [hlin]; exact List.mem_cons_of_mem _ hc.1, hc.2⟩
        exact nomatch this
      | true =>
        rw [if_pos rfl] at hr
        subst hr
        simp only at hs hff hadm heff ⊢
        refine ⟨(strip_mod t' i l f).trans hs, (fun h => nomatch h), ⟨fun _ c e hc => ?_, fun _ => trivial⟩, fun _ c l' e he => ?_⟩
        · rcases hc with ⟨h1, h2, h3⟩
          rw [hlin, List.mem_cons] at h1
          rcases h1 with h1 | h1
          · subst h1; rw [he0] at h2; exact Option.some.inj h2 ▸ hadm0
          · exact hadm.1 trivial c e ⟨h1, h2, h3⟩
        · rw [entry_mod, heff trivial c l' e he]
          by_cases hc : c = i ∧ l' = l
          · obtain ⟨rfl, rfl⟩ := hc
            rw [if_pos ⟨rfl, rfl⟩, if_neg (fun hh => hiL hh.2.1)]
            rw [he0] at he
            have : e = e0 := (Option.some.inj he).symm
            subst this
            rw [if_pos ⟨rfl, by rw [hlin]; exact List.mem_cons_self, hz⟩, Option.map_some, hfm]
          · rw [if_neg hc]
            by_cases hc2 : l' = l ∧ c ∈ L ∧ e.value ≠ 0
            · rw [if_pos hc2, if_pos ⟨hc2.1, by rw [hlin]; exact List.mem_cons_of_mem _ hc2.2.1, hc2.2.2⟩]
            · rw [if_neg hc2, if_neg]
              rintro ⟨h0, h1, h2⟩
              rw [hlin, List.mem_cons] at h1
              rcases h1 with h1 | h1
              · exact hc ⟨h1, h0⟩
              · exact hc2 ⟨h0, h1, h2⟩
    have deny : ¬ Admits claimOver q l v e0 →
        strip t = strip t ∧ (false = false → t = t) ∧
        (false = true ↔ ∀ c e, Counts t i l c e → Admits claimOver q l v e) ∧
        (false = true → ∀ c l' e, entry t c l' = some e → entry t c l' =
            some (if l' = l ∧ c ∈ lineage t i ∧ e.value ≠ 0 then { e with used := moved q v e.used } else e)) :=
      fun hno => ⟨rfl, fun _ => rfl, ⟨(fun h => nomatch h), fun h => absurd (h i e0 hcount) hno⟩, fun h => nomatch h⟩
    by_cases hr : q = mesgRelease
    · rw [if_pos hr]
      by_cases hlt : e0.used < v
      · rw [if_pos hlt]
        exact deny (by rintro (⟨_, h⟩ | ⟨h, _⟩); exact h hlt; exact h hr)
      · rw [if_neg hlt]
        exact last (· - v) (fun u => by unfold moved; rw [if_pos hr]) (Or.inl ⟨hr, hlt⟩) _ rfl
    · rw [if_neg hr]
      by_cases hk : (q = mesgClaim ∧ l ≠ limDisk) ∨ (q ≠ mesgClaim ∧ q ≠ mesgRequest)
      · rw [if_pos hk]
        exact deny (by rintro (⟨h, _⟩ | ⟨_, h, _⟩); exact hr h; exact h hk)
      · rw [if_neg hk]
        by_cases ho : over claimOver q (v + e0.used) e0.value = true
        · rw [if_pos ho]
          exact deny (by rintro (⟨h, _⟩ | ⟨_, _, h⟩); exact hr h; rw [ho] at h; cases h)
        · rw [if_neg ho]
          exact last (· + v) (fun u => by unfold moved; rw [if_neg hr]) (Or.inr ⟨hr, hk, by simpa using ho⟩) _ rfl

theorem intDemand_spec (claimOver : U64 → U64 → Bool) (q l : U32) (v : U64) (t : Tree) (hw : WellFormed t) (i : Nat) :
    strip (intDemand claimOver q l v t i).2 = strip t ∧
    ((intDemand claimOver q l v t i).1 = false → (intDemand claimOver q l v t i).2 = t) ∧
    ((intDemand claimOver q l v t i).1 = true ↔ ∀ c e, Counts t i l c e → Admits claimOver q l v e) ∧
    ((intDemand claimOver q l v t i).1 = true → ∀ c l' e, entry t c l' = some e →
      entry (intDemand claimOver q l v t i).2 c l' =
        some (if l' = l ∧ c ∈ lineage t i ∧ e.value ≠ 0 then { e with used := moved q v e.used } else e)) := by
  induction i using Nat.strongRecOn with
  | ind i ih =>
    rw [intDemand]
    cases hn : t[i]? with
    | none =>
      refine ⟨rfl, fun _ => rfl, ⟨fun _ c e hc => ?_, fun _ => rfl⟩, fun _ c l' e he => ?_⟩
      · rcases hc with ⟨h1, h2, _⟩
        rw [lineage_none t i hn, List.mem_singleton] at h1
        subst h1
        unfold entry at h2; rw [hn] at h2; cases h2
      · rw [if_neg]
        · exact he
        · rintro ⟨_, h1, _⟩
          rw [lineage_none t i hn, List.mem_singleton] at h1
          subst h1
          unfold entry at he; rw [hn] at he; cases he
    | some n =>
      simp only
      cases hf : findLim n.lims l with
      | none =>
        refine ⟨rfl, fun _ => rfl, ⟨fun _ c e hc => ?_, fun _ => rfl⟩, fun _ c l' e he => ?_⟩
        · have := no_entry_above t hw i l n hn hf c hc.1
          have h2 := hc.2.1
          rw [this] at h2; exact nomatch h2
        · rw [if_neg]
          · exact he
          · rintro ⟨h0, h1, _⟩
            subst h0
            have := no_entry_above t hw i l' n hn hf c h1
            rw [this] at he; cases he
      | some e0 =>
        simp only
        cases hp : n.parent with
        | none =>
          simp only
          exact settle_spec claimOver q l v t i n e0 hn hf [] (by rw [lineage, hn]; simp [hp]) nofun (true, t) rfl
            (fun _ => rfl) ⟨(fun _ c e hc => nomatch hc.1), fun _ => rfl⟩
            (fun _ c l' e he => by rw [if_neg (fun hh => nomatch hh.2.1)]; exact he)
        | some p =>
          have hlt := hw.before i n p hn hp
          simp only [hlt, dite_true]
          obtain ⟨h1, h2, h3, h4⟩ := ih p hlt
          exact settle_spec claimOver q l v t i n e0 hn hf (lineage t p) (by rw [lineage, hn]; simp [hp, hlt])
            (fun c hc => by have := lineage_le t p c hc; omega) _ h1 h2 h3 h4

end Owamp.Policy
