import Verif.Lemmas.TwStatsFig
/-!
# Facts about the summaries of two-way sessions: `parse`
-/
namespace Owamp.TwStats
open Owamp.Codec Owamp.Spec.TwStats Owamp.Num64
open Owamp.Stats (Bad)
open Owamp.Spec.Stats (LeastOf GreatestOf)

theorem within_snoc_in {first last : Nat} (p : List TWDataRec) (r : TWDataRec) (h : first ≤ seqOf r ∧ seqOf r < last) :
    within first last (p ++ [r]) = within first last p ++ [r] := by
  unfold within; rw [List.filter_append]; congr 1; simp [h]

theorem within_snoc_out {first last : Nat} (p : List TWDataRec) (r : TWDataRec) (h : ¬ (first ≤ seqOf r ∧ seqOf r < last)) :
    within first last (p ++ [r]) = within first last p := by
  unfold within; rw [List.filter_append]
  have : List.filter (fun r => decide (first ≤ seqOf r ∧ seqOf r < last)) [r] = [] := by simp only [List.filter_cons, h, decide_false, Bool.false_eq_true, if_false, List.filter_nil]
  rw [this, List.append_nil]

theorem within_length (first last : Nat) (rs : List TWDataRec) : (within first last rs).length ≤ rs.length := List.length_filter_le _ _

/-- All the records `rs` after the records `p`. -/
theorem processAll_spec {c : Cfg} {first last : Nat} (rs : List TWDataRec) : ∀ (p : List TWDataRec) (s : St), s.first = first → s.last = last →
    Mid c (within first last p) s → (∀ r ∈ within first last (p ++ rs), Clear c r) → (p ++ rs).length < 2 ^ 32 →
    (processAll c s rs = .error .refused ∧ ∃ q r t, rs = q ++ r :: t ∧ (first ≤ seqOf r ∧ seqOf r < last) ∧ Cause c first (within first last (p ++ q)) r) ∨
    ∃ s', processAll c s rs = .ok s' ∧ Mid c (within first last (p ++ rs)) s' ∧ s'.first = first ∧ s'.last = last ∧ s'.startTime = s.startTime := by
  induction rs with
  | nil => intro p s h1 h2 hM _ _; exact Or.inr ⟨s, rfl, by rw [List.append_nil]; exact hM, h1, h2, rfl⟩
  | cons r rs ih =>
    intro p s h1 h2 hM hcl hlen
    have happ : p ++ r :: rs = (p ++ [r]) ++ rs := by simp
    have hsub : ∀ x ∈ within first last p, Clear c x := by
      intro x hx
      apply hcl
      unfold within at hx ⊢
      rw [List.filter_append]; exact List.mem_append_left _ hx
    have hlp : (p ++ [r]).length < 2 ^ 32 := by simp at hlen ⊢; omega
    unfold processAll
    by_cases hr : first ≤ seqOf r ∧ seqOf r < last
    · have hD : (within first last p ++ [r]).length < 2 ^ 32 := by
        have := within_length first last p; simp at hlp ⊢; omega
      rcases process_spec hM hsub r hD (by rw [h1, h2]; exact hr) with ⟨e1, e2⟩ | ⟨s', e1, e2, e3, e4, e5⟩
      · rw [e1]
        refine Or.inl ⟨rfl, [], r, rs, rfl, hr, ?_⟩
        rw [List.append_nil, ← h1]; rw [h1] at e2 ⊢; exact e2
      · rw [e1]
        dsimp only
        rw [← within_snoc_in p r hr] at e2
        rcases ih (p ++ [r]) s' (e3.trans h1) (e4.trans h2) e2 (by rw [← happ]; exact hcl) (by rw [← happ]; exact hlen) with ⟨g1, q, x, t, g2, g3, g4⟩ | ⟨s'', g1, g2, g3, g4, g5⟩
        · exact Or.inl ⟨g1, r :: q, x, t, by rw [g2]; rfl, g3, by rw [show p ++ r :: q = p ++ [r] ++ q by simp]; exact g4⟩
        · exact Or.inr ⟨s'', g1, by rw [happ]; exact g2, g3, g4, g5.trans e5⟩
    · obtain ⟨s', e1, e2, e3, e4, e5⟩ := process_outside hM r (by rw [h1, h2]; exact hr)
      rw [e1]
      dsimp only
      rw [← within_snoc_out p r hr] at e2
      rcases ih (p ++ [r]) s' (e3.trans h1) (e4.trans h2) e2 (by rw [← happ]; exact hcl) (by rw [← happ]; exact hlen) with ⟨g1, q, x, t, g2, g3, g4⟩ | ⟨s'', g1, g2, g3, g4, g5⟩
      · exact Or.inl ⟨g1, r :: q, x, t, by rw [g2]; rfl, g3, by rw [show p ++ r :: q = p ++ [r] ++ q by simp]; exact g4⟩
      · exact Or.inr ⟨s'', g1, by rw [happ]; exact g2, g3, g4, g5.trans e5⟩

/-! ## The end -/

theorem flushAllF {c : Cfg} {D : List TWDataRec} {kB : Nat} (hcl : ∀ r ∈ D, Clear c r) (hD : D.length < 2 ^ 32) :
    ∀ (fuel kF : Nat) (s : St), Inv c D kF kB s → s.last < fuel + kF → 0 < fuel →
    ∃ kF' s', flushAll (flushF c) fuel s = .ok s' ∧ Inv c D kF' kB s' ∧ Same s s' ∧ s'.bck = s.bck ∧ s'.fwd.nodes = [] := by
  intro fuel
  induction fuel with
  | zero => intro kF s _ _ h; omega
  | succ fuel ih =>
    intro kF s hI hf _
    unfold flushAll
    by_cases hne : s.fwd.nodes = []
    · have : flushF c s = .ok (false, s) := by unfold flushF; rw [hne]
      rw [this]
      exact ⟨kF, s, rfl, hI, rfl, rfl, hne⟩
    · obtain ⟨n, rest, hn⟩ := List.exists_cons_of_ne_nil hne
      have := hI.capF
      have hpos : 0 < s.fwd.nodes.length := List.length_pos_iff.2 hne
      obtain ⟨g, s', f1, f2, f3, f4, f5, f6⟩ := flushF_spec hI hcl hD n rest hn
      rw [f1]
      cases g with
      | false =>
        dsimp only
        refine ⟨kF + 1, s', rfl, f2, f3, f4, ?_⟩
        apply Classical.byContradiction
        intro hh
        have := f5.2 hh
        cases this
      | true =>
        dsimp only
        obtain ⟨kF', t, g1, g2, g3, g4, g5⟩ := ih (kF + 1) s' f2 (by rw [f3.last]; omega) (by omega)
        exact ⟨kF', t, g1, g2, f3.trans g3, g4.trans f4, g5⟩

theorem flushAllB {c : Cfg} {D : List TWDataRec} {kF : Nat} (hcl : ∀ r ∈ D, Clear c r) (hD : D.length < 2 ^ 32) :
    ∀ (fuel kB : Nat) (s : St), Inv c D kF kB s → s.last < fuel + kB → s.bck.nodes.length < fuel →
    ∃ kB' s', flushAll (flushB c) fuel s = .ok s' ∧ Inv c D kF kB' s' ∧ Same s s' ∧ s'.fwd = s.fwd ∧ s'.bck.nodes = [] := by
  intro fuel
  induction fuel with
  | zero => intro kB s _ _ h; omega
  | succ fuel ih =>
    intro kB s hI hf hl
    unfold flushAll
    by_cases hne : s.bck.nodes = []
    · have : flushB c s = .ok (false, s) := by unfold flushB; rw [hne]
      rw [this]
      exact ⟨kB, s, rfl, hI, rfl, rfl, hne⟩
    · obtain ⟨n, rest, hn⟩ := List.exists_cons_of_ne_nil hne
      have hpos : 0 < s.bck.nodes.length := List.length_pos_iff.2 hne
      obtain ⟨g, s', f1, f2, f3, f4, f5, f6, f7, f8⟩ := flushB_spec hI hcl hD n rest hn
      rw [f1]
      cases g with
      | false =>
        dsimp only
        refine ⟨kB + 1, s', rfl, f2, f3, f4, ?_⟩
        apply Classical.byContradiction
        intro hh
        have := f5.2 hh
        cases this
      | true =>
        dsimp only
        obtain ⟨kB', t, g1, g2, g3, g4, g5⟩ := ih (kB + 1) s' f2 (by rw [f3.last]; omega) (by omega)
        exact ⟨kB', t, g1, g2, f3.trans g3, g4.trans f4, g5⟩

/-- What a summary of the records `D`, all about packets in the range, says. -/
structure Says (c : Cfg) (first last : Nat) (D : List TWDataRec) (s : St) : Prop where
  isFirst : s.first = first
  isLast : s.last = last
  startTime : s.startTime = c.times first
  sent : s.sent = (losses D).length + (firsts seqOf (replies D)).length
  lost : s.lost = (firsts seqOf (losses D)).length
  dupsF : s.dupsF + (firsts seqOf (replies D)).length = (firsts replyOf (replies D)).length
  dupsB : s.dupsB + (firsts replyOf (replies D)).length = (replies D).length
  owner : ∀ r ∈ replies D, ∀ r' ∈ replies D, replyOf r = replyOf r' → seqOf r = seqOf r'
  excl : ∀ r ∈ losses D, ∀ r' ∈ replies D, seqOf r ≠ seqOf r'
  fig : Fig c D s

theorem start_spec (c : Cfg) (oset first last : Nat) (h1 : first < lastOf c last) (h2 : lastOf c last ≤ c.npackets.toNat) :
    ∃ s, start c oset first last = .ok s ∧ s.first = first ∧ s.last = lastOf c last ∧ s.startTime = c.times first ∧ Mid c [] s := by
  have hl : (if last = 2 ^ 32 - 1 then c.npackets.toNat else last) = lastOf c last := rfl
  unfold start
  dsimp only
  rw [hl, if_neg (by omega)]
  refine ⟨_, rfl, rfl, rfl, rfl, ?_⟩
  have hc : ∀ b, b = (⟨[⟨first, c.times first, 0, false, 0⟩], first + 1, []⟩ : Buf) → Chain first b := by
    intro b hb; rw [hb]; exact ⟨rfl, rfl⟩
  refine ⟨⟨first, first, ?_, ⟨fun q q1 q2 => ?_, Or.inl rfl⟩⟩, by simp, by simp, ?_⟩
  · refine { chF := hc _ rfl, chB := hc _ rfl, firstF := Nat.le_refl _, firstB := Nat.le_refl _, capF := ?_, seen := ?_, assoc := ?_, topF := ?_, seenB := ?_, assocB := ?_, topB := ?_, owner := ?_, excl := ?_, dupF := rfl, dupB := rfl, lost := rfl, sent := rfl, sched := ?_, stale := ?_, idle := ?_ }
    · show first + 1 ≤ lastOf c last; omega
    · intro n hn; rw [List.mem_singleton.1 hn]; simp [replies, losses]
    · intro n hn hs; rw [List.mem_singleton.1 hn] at hs; exact absurd rfl hs
    · intro r hr; cases hr
    · intro n hn; rw [List.mem_singleton.1 hn]; simp [replies]
    · intro n hn r hr; cases hr
    · intro r hr; cases hr
    · intro r hr; cases hr
    · intro r hr; cases hr
    · intro n hn; rw [List.mem_singleton.1 hn]
    · intro x hx; cases hx
    · intro n hn _; rw [List.mem_singleton.1 hn]; exact Or.inl rfl
  · dsimp only at q1; omega
  · have hh : ∀ f : TWDataRec → Int, Hist f [] [] := fun f => ⟨fun P => rfl, ⟨List.Pairwise.nil, fun x hx => by cases hx⟩⟩
    have ht : ∀ f : TWDataRec → Nat, Table f [] (List.replicate 256 0) := fun f => ⟨List.length_replicate, fun k => by rw [Stats.getD_replicate]; rfl⟩
    have hL : LeastOf c.inf [] c.inf := ⟨Or.inl rfl, Int.le_refl _, fun y hy => by cases hy⟩
    have hG : GreatestOf (-c.inf) [] (-c.inf) := ⟨Or.inl rfl, Int.le_refl _, fun y hy => by cases hy⟩
    have hZ : GreatestOf 0 [] ((0 : Nat) : Int) := ⟨Or.inl rfl, Int.le_refl _, fun y hy => by cases hy⟩
    exact ⟨hh _, hh _, hh _, ht _, ht _, ⟨⟨_, _, _, _, rfl, hL, hL, hL, hL⟩, ⟨_, _, _, _, rfl, hG, hG, hG, hG⟩⟩,
      ⟨fun h => (by cases h), fun ⟨r, h, _⟩ => (by cases h)⟩, ⟨⟨_, _, _, rfl, hZ, hZ, hZ⟩⟩, ⟨fun _ r h => (by cases h), fun _ => rfl⟩⟩

theorem parse_spec (c : Cfg) (rs : List TWDataRec) (oset first last : Nat) (h1 : first < lastOf c last) (h2 : lastOf c last ≤ c.npackets.toNat)
    (hlen : rs.length < 2 ^ 32) (hcl : ∀ r ∈ within first (lastOf c last) rs, Clear c r) :
    (parse c rs oset first last = .error .refused ∧ ∃ q r t, rs = q ++ r :: t ∧ (first ≤ seqOf r ∧ seqOf r < lastOf c last) ∧ Cause c first (within first (lastOf c last) q) r) ∨
    ∃ s, parse c rs oset first last = .ok s ∧ Says c first (lastOf c last) (within first (lastOf c last) rs) s := by
  obtain ⟨s0, e1, e2, e3, e4, e5⟩ := start_spec c oset first last h1 h2
  unfold parse
  rw [e1]
  dsimp only
  rcases processAll_spec (c := c) rs [] s0 e2 e3 e5 hcl hlen with ⟨g1, g2⟩ | ⟨s, g1, ⟨⟨kF, kB, i1, _⟩, _, _, i4⟩, g3, g4, g5⟩
  · rw [g1]; exact Or.inl ⟨rfl, g2⟩
  · rw [g1]
    dsimp only
    refine Or.inr ?_
    rw [List.nil_append] at i1 i4
    have hD : (within first (lastOf c last) rs).length < 2 ^ 32 := by have := within_length first (lastOf c last) rs; omega
    obtain ⟨kF', t, f1, f2, f3, f4, f5⟩ := flushAllF hcl hD (s.last + 2) kF s i1 (by omega) (by omega)
    rw [f1]
    dsimp only
    obtain ⟨kB', u, b1, b2, b3, b4, b5⟩ := flushAllB hcl hD (t.bck.nodes.length + t.last + 2) kB t f2 (by omega) (by omega)
    refine ⟨u, b1, ?_⟩
    have hs := f3.trans b3
    have hF : u.fwd.nodes = [] := by rw [b4]; exact f5
    have d1 := b2.dupF
    have d2 := b2.dupB
    have d3 := b2.lost
    rw [hF] at d1 d3
    rw [b5] at d2
    simp only [List.map_nil, List.sum_nil, Nat.add_zero] at d1 d2 d3
    exact ⟨hs.first.trans g3, hs.last.trans g4, by rw [hs.figs.startTime, g5, e4], b2.sent, d3, d1, d2, b2.owner, b2.excl, i4.same hs.figs⟩

end Owamp.TwStats
