import Verif.Lemmas.TwStatsStep
/-!
# Facts about the summaries of two-way sessions: whole files
-/
namespace Owamp.TwStats
open Owamp.Codec Owamp.Spec.TwStats Owamp.Num64
open Owamp.Stats (Bad bump total Tidy total_bump mem_total least_snoc greatest_snoc greatest_nat)
open Owamp.Spec.Stats (LeastOf GreatestOf)

/-! ## The figures -/

/-- A histogram of `f` over the records `l`. -/
structure Hist (f : TWDataRec → Int) (l : List TWDataRec) (h : List (Int × Nat)) : Prop where
  count : ∀ P : Int → Bool, total P h = l.countP fun r => P (f r)
  tidy : Tidy h

theorem Hist.snoc {f : TWDataRec → Int} {l : List TWDataRec} {h : List (Int × Nat)} (hh : Hist f l h) (r : TWDataRec) (hl : l.length + 1 < 2 ^ 32) :
    Hist f (l ++ [r]) (bump (f r) h) := by
  have hs : ∀ x ∈ h, x.2 + 1 < 2 ^ 32 := by
    intro x hx
    have h1 := mem_total (fun _ => true) h x hx rfl
    rw [hh.count] at h1
    have := List.countP_le_length (p := fun _ : TWDataRec => true) (l := l)
    omega
  refine ⟨fun P => ?_, hh.tidy.bump _ hs⟩
  rw [total_bump P _ h hs, hh.count, List.countP_append, List.countP_cons, List.countP_nil]
  omega

/-- A table of how often each of the 256 values of `f` occurs in `l`. -/
structure Table (f : TWDataRec → Nat) (l : List TWDataRec) (t : List Nat) : Prop where
  length : t.length = 256
  count : ∀ k, t.getD k 0 = l.countP fun r => f r = k

theorem Table.snoc {f : TWDataRec → Nat} {l : List TWDataRec} {t : List Nat} (h : Table f l t) (r : TWDataRec) (hf : f r < 256) :
    Table f (l ++ [r]) (t.set (f r) (t.getD (f r) 0 + 1)) := by
  refine ⟨by rw [List.length_set]; exact h.length, fun k => ?_⟩
  rw [Stats.getD_set' _ _ _ _ (by rw [h.length]; exact hf), List.countP_append, List.countP_cons, List.countP_nil]
  by_cases hk : k = f r
  · rw [if_pos hk, if_pos (by simp [hk]), h.count, hk]
  · rw [if_neg hk, if_neg (by simpa using fun h => hk h.symm), h.count]; rfl

theorem least_snoc' {a x d : Int} {l : List Int} (h : LeastOf a l x) : LeastOf a (l ++ [d]) (if x < d then x else d) := by
  have := least_snoc (d := d) h
  have e : (if x < d then x else d) = if d < x then d else x := by split <;> split <;> omega
  rw [e]; exact this

theorem greatest_snoc' {a x d : Int} {l : List Int} (h : GreatestOf a l x) : GreatestOf a (l ++ [d]) (if x > d then x else d) := by
  have := greatest_snoc (d := d) h
  have e : (if x > d then x else d) = if d > x then d else x := by split <;> split <;> omega
  rw [e]; exact this

/-- Least and greatest of each of the delays: round trip, out, back, at the reflector. -/
structure Bounds (c : Cfg) (R : List TWDataRec) (mn mx : List Int) : Prop where
  min : ∃ a b d e, mn = [a, b, d, e] ∧ LeastOf c.inf (R.map (trip c)) a ∧ LeastOf c.inf (R.map (out c)) b ∧ LeastOf c.inf (R.map (back c)) d ∧
    LeastOf c.inf (R.map (held c)) e
  max : ∃ a b d e, mx = [a, b, d, e] ∧ GreatestOf (-c.inf) (R.map (trip c)) a ∧ GreatestOf (-c.inf) (R.map (out c)) b ∧
    GreatestOf (-c.inf) (R.map (back c)) d ∧ GreatestOf (-c.inf) (R.map (held c)) e

theorem Bounds.snoc {c : Cfg} {R : List TWDataRec} {mn mx : List Int} (h : Bounds c R mn mx) (r : TWDataRec) :
    Bounds c (R ++ [r]) (List.zipWith (fun m x => if m < x then m else x) mn (delays c r)) (List.zipWith (fun m x => if m > x then m else x) mx (delays c r)) := by
  obtain ⟨⟨a, b, d, e, h0, h1, h2, h3, h4⟩, ⟨a', b', d', e', g0, g1, g2, g3, g4⟩⟩ := h
  constructor
  · refine ⟨_, _, _, _, by rw [h0]; rfl, ?_, ?_, ?_, ?_⟩
    · rw [List.map_append]; exact least_snoc' h1
    · rw [List.map_append]; exact least_snoc' h2
    · rw [List.map_append]; exact least_snoc' h3
    · rw [List.map_append]; exact least_snoc' h4
  · refine ⟨_, _, _, _, by rw [g0]; rfl, ?_, ?_, ?_, ?_⟩
    · rw [List.map_append]; exact greatest_snoc' g1
    · rw [List.map_append]; exact greatest_snoc' g2
    · rw [List.map_append]; exact greatest_snoc' g3
    · rw [List.map_append]; exact greatest_snoc' g4

/-- The greatest errors of the round trip and of the ways out and back. -/
structure Errs (D : List TWDataRec) (l : List Nat) : Prop where
  max : ∃ a b d : Nat, l = [a, b, d] ∧ GreatestOf 0 (D.map fun r => (errTrip r : Int)) a ∧ GreatestOf 0 (D.map fun r => (errOut r : Int)) b ∧
    GreatestOf 0 (D.map fun r => (errBack r : Int)) d

theorem Errs.lost {D : List TWDataRec} {l : List Nat} (h : Errs D l) (r : TWDataRec) (hr : Lost r) :
    Errs (D ++ [r]) (l.map fun e => Nat.max e (Stats.stampError r.sent.recv)) := by
  obtain ⟨a, b, d, h0, h1, h2, h3⟩ := h.max
  refine ⟨_, _, _, by rw [h0]; rfl, ?_, ?_, ?_⟩
  · rw [List.map_append]; have := greatest_nat (d := errTrip r) h1; rw [show errTrip r = Stats.stampError r.sent.recv from if_pos hr] at this
    simpa [errTrip, hr] using this
  · rw [List.map_append]; have := greatest_nat (d := errOut r) h2; rw [show errOut r = Stats.stampError r.sent.recv from if_pos hr] at this
    simpa [errOut, hr] using this
  · rw [List.map_append]; have := greatest_nat (d := errBack r) h3; rw [show errBack r = Stats.stampError r.sent.recv from if_pos hr] at this
    simpa [errBack, hr] using this

theorem Errs.got {D : List TWDataRec} {l : List Nat} (h : Errs D l) (r : TWDataRec) (hr : ¬ Lost r) : Errs (D ++ [r]) (List.zipWith Nat.max l (errors r)) := by
  obtain ⟨a, b, d, h0, h1, h2, h3⟩ := h.max
  have e1 : errOut r = Stats.stampError r.sent.send + Stats.stampError r.sent.recv := if_neg hr
  have e2 : errBack r = Stats.stampError r.reflected.send + Stats.stampError r.reflected.recv := if_neg hr
  have e3 : errTrip r = Stats.stampError r.sent.send + Stats.stampError r.reflected.recv + Stats.stampError r.reflected.send + Stats.stampError r.sent.recv := by
    unfold errTrip; rw [if_neg hr, e1, e2]; omega
  refine ⟨_, _, _, by rw [h0]; rfl, ?_, ?_, ?_⟩
  · rw [List.map_append, ← e3]; exact greatest_nat h1
  · rw [List.map_append, ← e1]; exact greatest_nat h2
  · rw [List.map_append, ← e2]; exact greatest_nat h3

/-- The figures after the records `D`, all about packets in the range. -/
structure Fig (c : Cfg) (D : List TWDataRec) (s : St) : Prop where
  hist : Hist (fun r => c.bucket (trip c r)) (firsts seqOf (replies D)) s.hist
  histF : Hist (fun r => c.bucket (out c r)) (firsts seqOf (replies D)) s.histF
  histB : Hist (fun r => c.bucket (back c r)) (firsts seqOf (replies D)) s.histB
  ttlF : Table (fun r => r.sent.ttl.toNat) (firsts seqOf (replies D)) s.ttlF
  ttlB : Table (fun r => r.reflected.ttl.toNat) (firsts seqOf (replies D)) s.ttlB
  bounds : Bounds c (replies D) s.min s.max
  offset : s.offset = true ↔ ∃ r ∈ replies D, out c r < 0 ∨ back c r < 0
  errs : Errs D s.maxerr
  sync : s.sync = true ↔ ∀ r ∈ losses D, r.sent.recv.sync = true

/-- The figures of two states are the same. -/
structure SameFigs (s s' : St) : Prop where
  hist : s'.hist = s.hist
  histF : s'.histF = s.histF
  histB : s'.histB = s.histB
  ttlF : s'.ttlF = s.ttlF
  ttlB : s'.ttlB = s.ttlB
  min : s'.min = s.min
  max : s'.max = s.max
  offset : s'.offset = s.offset
  maxerr : s'.maxerr = s.maxerr
  sync : s'.sync = s.sync
  startTime : s'.startTime = s.startTime

theorem SameFigs.trans {a b d : St} (h : SameFigs a b) (h' : SameFigs b d) : SameFigs a d :=
  ⟨h'.1.trans h.1, h'.2.trans h.2, h'.3.trans h.3, h'.4.trans h.4, h'.5.trans h.5, h'.6.trans h.6, h'.7.trans h.7, h'.8.trans h.8, h'.9.trans h.9, h'.10.trans h.10,
    h'.11.trans h.11⟩

theorem Same.figs {s s' : St} (h : Same s s') : SameFigs s s' := by
  constructor
  · simpa [strip] using congrArg St.hist h
  · simpa [strip] using congrArg St.histF h
  · simpa [strip] using congrArg St.histB h
  · simpa [strip] using congrArg St.ttlF h
  · simpa [strip] using congrArg St.ttlB h
  · simpa [strip] using congrArg St.min h
  · simpa [strip] using congrArg St.max h
  · simpa [strip] using congrArg St.offset h
  · simpa [strip] using congrArg St.maxerr h
  · simpa [strip] using congrArg St.sync h
  · simpa [strip] using congrArg St.startTime h

theorem Fig.same {c : Cfg} {D : List TWDataRec} {s s' : St} (h : Fig c D s) (e : SameFigs s s') : Fig c D s' := by
  refine ⟨?_, ?_, ?_, ?_, ?_, ?_, ?_, ?_, ?_⟩
  · rw [e.hist]; exact h.hist
  · rw [e.histF]; exact h.histF
  · rw [e.histB]; exact h.histB
  · rw [e.ttlF]; exact h.ttlF
  · rw [e.ttlB]; exact h.ttlB
  · rw [e.min, e.max]; exact h.bounds
  · rw [e.offset]; exact h.offset
  · rw [e.maxerr]; exact h.errs
  · rw [e.sync]; exact h.sync

theorem Fig.lost {c : Cfg} {D : List TWDataRec} {s : St} (h : Fig c D s) (r : TWDataRec) (hr : Lost r) (s' : St)
    (e : s' = { s with fwd := s'.fwd, sent := s'.sent, sync := s.sync && r.sent.recv.sync
                       maxerr := s.maxerr.map fun e => Nat.max e (Stats.stampError r.sent.recv) }) : Fig c (D ++ [r]) s' := by
  rw [e]
  refine ⟨?_, ?_, ?_, ?_, ?_, ?_, ?_, h.errs.lost r hr, ?_⟩
  · rw [replies_lost hr]; exact h.hist
  · rw [replies_lost hr]; exact h.histF
  · rw [replies_lost hr]; exact h.histB
  · rw [replies_lost hr]; exact h.ttlF
  · rw [replies_lost hr]; exact h.ttlB
  · rw [replies_lost hr]; exact h.bounds
  · rw [replies_lost hr]; exact h.offset
  · rw [losses_lost hr]
    dsimp only
    rw [Bool.and_eq_true, h.sync]
    constructor
    · rintro ⟨h1, h2⟩ x hx
      rcases List.mem_append.1 hx with hx | hx
      · exact h1 x hx
      · rw [List.mem_singleton.1 hx]; exact h2
    · intro h1; exact ⟨fun x hx => h1 x (by simp [hx]), h1 r (by simp)⟩

theorem Fig.got {c : Cfg} {D : List TWDataRec} {s : St} (h : Fig c D s) (r : TWDataRec) (hr : ¬ Lost r) (hD : (D ++ [r]).length < 2 ^ 32) :
    Fig c (D ++ [r]) (figures c r (decide (∃ r' ∈ replies D, seqOf r' = seqOf r)) s) := by
  have hoff : (s.offset || decide ((delays c r).getD 1 0 < 0) || decide ((delays c r).getD 2 0 < 0)) = true ↔ ∃ x ∈ replies D ++ [r], out c x < 0 ∨ back c x < 0 := by
    rw [Bool.or_eq_true, Bool.or_eq_true, h.offset, decide_eq_true_eq, decide_eq_true_eq]
    constructor
    · rintro ((⟨x, h1, h2⟩ | h1) | h1)
      · exact ⟨x, by simp [h1], h2⟩
      · exact ⟨r, by simp, Or.inl h1⟩
      · exact ⟨r, by simp, Or.inr h1⟩
    · rintro ⟨x, h1, h2⟩
      rcases List.mem_append.1 h1 with h1 | h1
      · exact Or.inl (Or.inl ⟨x, h1, h2⟩)
      · rw [List.mem_singleton.1 h1] at h2
        rcases h2 with h2 | h2
        · exact Or.inl (Or.inr h2)
        · exact Or.inr h2
  have hlen : (firsts seqOf (replies D)).length + 1 < 2 ^ 32 := by
    have := firsts_length seqOf (replies D)
    have := replies_length D
    simp at hD
    omega
  unfold figures
  dsimp only
  by_cases hd : ∃ r' ∈ replies D, seqOf r' = seqOf r
  · rw [decide_eq_true hd, if_pos rfl]
    have hf := firsts_old seqOf (replies D) r hd
    refine ⟨?_, ?_, ?_, ?_, ?_, ?_, ?_, h.errs.got r hr, ?_⟩
    · rw [replies_got hr, hf]; exact h.hist
    · rw [replies_got hr, hf]; exact h.histF
    · rw [replies_got hr, hf]; exact h.histB
    · rw [replies_got hr, hf]; exact h.ttlF
    · rw [replies_got hr, hf]; exact h.ttlB
    · rw [replies_got hr]; exact h.bounds.snoc r
    · rw [replies_got hr]; exact hoff
    · rw [losses_got hr]; exact h.sync
  · rw [decide_eq_false hd, if_neg (by simp)]
    have hf := firsts_new seqOf (replies D) r hd
    refine ⟨?_, ?_, ?_, ?_, ?_, ?_, ?_, h.errs.got r hr, ?_⟩
    · rw [replies_got hr, hf]; exact h.hist.snoc r hlen
    · rw [replies_got hr, hf]; exact h.histF.snoc r hlen
    · rw [replies_got hr, hf]; exact h.histB.snoc r hlen
    · rw [replies_got hr, hf]; exact h.ttlF.snoc r r.sent.ttl.isLt
    · rw [replies_got hr, hf]; exact h.ttlB.snoc r r.reflected.ttl.isLt
    · rw [replies_got hr]; exact h.bounds.snoc r
    · rw [replies_got hr]; exact hoff
    · rw [losses_got hr]; exact h.sync

/-! ## One record -/

/-- Why the summary is refused at record `r` after the records `D`, all about packets in the range. -/
def Cause (c : Cfg) (first : Nat) (D : List TWDataRec) (r : TWDataRec) : Prop :=
  (∃ r' ∈ D ++ [r], Passed c r' (seqOf r)) ∨
  (∃ r' ∈ D, seqOf r' = seqOf r ∧ (Lost r' ↔ ¬ Lost r)) ∨
  (¬ Lost r ∧ replyOf r < first) ∨
  (¬ Lost r ∧ ∃ r' ∈ replies D, replyOf r < replyOf r' ∧ seqOf r' ≤ seqOf r) ∨
  (¬ Lost r ∧ ∃ r' ∈ replies D, replyOf r' = replyOf r ∧ seqOf r' ≠ seqOf r)

/-- All that is known between records. -/
structure Mid (c : Cfg) (D : List TWDataRec) (s : St) : Prop where
  inv : ∃ kF kB, Inv c D kF kB s ∧ Gone c D D s.first kF kB
  fwd : s.fwd.nodes ≠ []
  bck : s.bck.nodes ≠ []
  fig : Fig c D s

theorem figures_frame (c : Cfg) (r : TWDataRec) (dup : Bool) (s : St) : (figures c r dup s).first = s.first ∧ (figures c r dup s).last = s.last ∧
    (figures c r dup s).fwd = s.fwd ∧ (figures c r dup s).bck = s.bck ∧ (figures c r dup s).startTime = s.startTime := by
  unfold figures
  dsimp only
  split <;> exact ⟨rfl, rfl, rfl, rfl, rfl⟩

theorem process_spec {c : Cfg} {D : List TWDataRec} {s : St} (hM : Mid c D s) (hcl : ∀ r ∈ D, Clear c r) (r : TWDataRec) (hD : (D ++ [r]).length < 2 ^ 32)
    (hr : s.first ≤ seqOf r ∧ seqOf r < s.last) :
    (process c s r = .error .refused ∧ Cause c s.first D r) ∨
    ∃ s', process c s r = .ok s' ∧ Mid c (D ++ [r]) s' ∧ s'.first = s.first ∧ s'.last = s.last ∧ s'.startTime = s.startTime := by
  obtain ⟨⟨kF, kB, hI0, hG⟩, hne0, hneB0, hfig0⟩ := hM
  unfold process
  dsimp only
  rw [if_neg (by have := hr.1; have := hr.2; unfold seqOf at *; omega)]
  generalize hs1 : ({ s with nextOset := if s.nextOset = 0 ∧ r.sent.seq.toNat ≥ s.last then s.beginOset + s.i * c.recSize else s.nextOset, i := s.i + 1 } : St) = s1
  have f1 : s1.first = s.first := by rw [← hs1]
  have f2 : s1.last = s.last := by rw [← hs1]
  have f3 : s1.startTime = s.startTime := by rw [← hs1]
  have hI : Inv c D kF kB s1 := by rw [← hs1]; exact { hI0 with }
  have hne : s1.fwd.nodes ≠ [] := by rw [← hs1]; exact hne0
  have hneB : s1.bck.nodes ≠ [] := by rw [← hs1]; exact hneB0
  have hfig : Fig c D s1 := by rw [← hs1]; exact hfig0.same ⟨rfl, rfl, rfl, rfl, rfl, rfl, rfl, rfl, rfl, rfl, rfl⟩
  have hD' : D.length < 2 ^ 32 := by simp at hD; omega
  rcases flushWhileF hcl hD' r (s1.last + 2) kF s1 hI hne (by omega) with ⟨e1, e2⟩ | ⟨kF', s2, e1, e2, e3, e4, e5, e6, e7, e8⟩
  · rw [f2] at e1 e2
    rw [e1]
    refine Or.inl ⟨rfl, Or.inl ?_⟩
    by_cases hk : kF ≤ seqOf r
    · exact ⟨r, by simp, e2 _ hk hr.2⟩
    · obtain ⟨r', r1, r2⟩ := hG.out (seqOf r) hr.1 (by omega)
      exact ⟨r', by simp [r1], r2⟩
  rw [f2] at e1
  rw [e1]
  dsimp only
  obtain ⟨kB', s3, g1, g2, g3, g4, g5, g6⟩ := flushWhileB hcl hD' (s2.bck.nodes.length + s2.last + 2) kB s2 e2 e5 (by rw [e4]; exact hneB) (by omega)
  rw [g1]
  dsimp only
  have l1 : s3.first = s.first := by rw [g3.first, e3.first, f1]
  have l2 : s3.last = s.last := by rw [g3.last, e3.last, f2]
  have l3 : s3.startTime = s.startTime := by rw [g3.figs.startTime, e3.figs.startTime, f3]
  have hne3 : s3.fwd.nodes ≠ [] := by rw [g4]; exact e5
  have hfig3 : Fig c D s3 := hfig.same (e3.figs.trans g3.figs)
  have hout : ∀ q, s.first ≤ q → q < kF' → ∃ r' ∈ D ++ [r], Passed c r' q := by
    intro q q1 q2
    by_cases hq : q < kF
    · obtain ⟨r', r1, r2⟩ := hG.out q q1 hq
      exact ⟨r', by simp [r1], r2⟩
    · exact ⟨r, by simp, e7 q (by omega) q2⟩
  have hback : kB' = s.first ∨ ∃ r' ∈ replies D, kB' ≤ replyOf r' ∧ seqOf r' ≤ kF' := by
    rcases g6 with g6 | g6
    · rw [g6]; exact hG.back.imp id fun ⟨r', a, b, d⟩ => ⟨r', a, b, by omega⟩
    · exact Or.inr g6
  rcases get_spec c.times s3.first (some s3.last) (seqOf r) kF' s3.fwd g2.chF hne3 with ⟨h1, h2⟩ | ⟨n, b, h1, h2, h3, h4, h5, h6, h7, h8⟩
  · have : getF c r.sent.seq.toNat s3 = .error .refused := h1
    rw [this]
    refine Or.inl ⟨rfl, Or.inl ?_⟩
    rcases h2 with h2 | h2 | ⟨l, h2, h2'⟩
    · omega
    · exact hout _ hr.1 h2
    · cases h2; omega
  have hgf : getF c r.sent.seq.toNat s3 = .ok (n, b) := h1
  rw [hgf]
  dsimp only
  have hcap := g2.capF
  have hJ := g2.extF b h2 h3 (by omega)
  generalize hs4 : ({ s3 with fwd := b } : St) = s4 at hJ
  have hJ4 : s4.fwd = b := by rw [← hs4]
  have m1 : s4.first = s.first := by rw [← hs4]; exact l1
  have m2 : s4.last = s.last := by rw [← hs4]; exact l2
  have m3 : s4.startTime = s.startTime := by rw [← hs4]; exact l3
  have hfig4 : Fig c D s4 := by rw [← hs4]; exact hfig3.same ⟨rfl, rfl, rfl, rfl, rfl, rfl, rfl, rfl, rfl, rfl, rfl⟩
  have hneB4 : s4.bck.nodes ≠ [] := by rw [← hs4]; exact g5
  have hne4 : 0 < s4.fwd.nodes.length := by rw [hJ4]; exact List.length_pos_iff.2 (List.ne_nil_of_mem h4)
  have hgone : ∀ D', (∀ x ∈ replies D, x ∈ replies D') → Gone c D' (D ++ [r]) s.first kF' kB' := fun D' hd =>
    ⟨hout, hback.imp id fun ⟨r', a, b, d⟩ => ⟨r', hd r' a, b, d⟩⟩
  by_cases hl : Lost r
  · rw [if_pos ((isLost_iff r).2 hl)]
    rcases addLost_spec hJ r hD hl n (by rw [hJ4]; exact h4) h5 with ⟨a1, r', a2, a3⟩ | ⟨s', a1, a2, a3, a4, a5⟩
    · rw [a1]
      exact Or.inl ⟨rfl, Or.inr (Or.inl ⟨r', (mem_replies.1 a2).1, a3, ⟨fun h => absurd h (mem_replies.1 a2).2, fun h => absurd hl h⟩⟩)⟩
    · rw [a1]
      have q1 : s'.first = s.first := by rw [a5]; exact m1
      refine Or.inr ⟨s', rfl, ⟨⟨kF', kB', a2, ?_⟩, ?_, by rw [a4]; exact hneB4, hfig4.lost r hl s' a5⟩, q1, by rw [a5]; exact m2, by rw [a5]; exact m3⟩
      · rw [q1]; exact hgone _ fun x hx => by rw [replies_lost hl]; exact hx
      · exact List.length_pos_iff.1 (by rw [a3]; exact hne4)
  · rw [if_neg (fun h => hl ((isLost_iff r).1 h))]
    rcases addGot_spec hJ r hD hl hneB4 n (by rw [hJ4]; exact h4) h5 with ⟨a1, a2⟩ | ⟨t, a1, a2, a3, a4, a5⟩
    · rw [a1]
      refine Or.inl ⟨rfl, ?_⟩
      rcases a2 with ⟨r', b1, b2⟩ | a2 | a2 | ⟨r', b1, b2, b3⟩
      · exact Or.inr (Or.inl ⟨r', (mem_losses.1 b1).1, b2, ⟨fun _ => hl, fun _ => (mem_losses.1 b1).2⟩⟩)
      · exact Or.inr (Or.inr (Or.inl ⟨hl, by omega⟩))
      · rcases hback with hb | ⟨r', b1, b2, b3⟩
        · exact Or.inr (Or.inr (Or.inl ⟨hl, by omega⟩))
        · exact Or.inr (Or.inr (Or.inr (Or.inl ⟨hl, r', b1, by omega, by omega⟩)))
      · exact Or.inr (Or.inr (Or.inr (Or.inr ⟨hl, r', b1, b2, b3⟩)))
    · rw [a1]
      obtain ⟨p1, p2, p3, p4, p5⟩ := figures_frame c r (decide (∃ r' ∈ replies D, seqOf r' = seqOf r)) t
      have q1 : t.first = s.first := by rw [a5]; exact m1
      have hft : Fig c D t := hfig4.same (by rw [a5]; exact ⟨rfl, rfl, rfl, rfl, rfl, rfl, rfl, rfl, rfl, rfl, rfl⟩)
      refine Or.inr ⟨_, rfl, ⟨⟨kF', kB', a2.figures r _, ?_⟩, ?_, ?_, hft.got r hl hD⟩, p1.trans q1, p2.trans (by rw [a5]; exact m2), p5.trans (by rw [a5]; exact m3)⟩
      · rw [p1, q1]; exact hgone _ fun x hx => by rw [replies_got hl]; simp [hx]
      · rw [p3]; exact List.length_pos_iff.1 (by rw [a3]; exact hne4)
      · rw [p4]; exact a4

/-- A record about a packet outside the range is passed over. -/
theorem process_outside {c : Cfg} {D : List TWDataRec} {s : St} (hM : Mid c D s) (r : TWDataRec) (hr : ¬ (s.first ≤ seqOf r ∧ seqOf r < s.last)) :
    ∃ s', process c s r = .ok s' ∧ Mid c D s' ∧ s'.first = s.first ∧ s'.last = s.last ∧ s'.startTime = s.startTime := by
  obtain ⟨⟨kF, kB, hI0, hG⟩, hne0, hneB0, hfig0⟩ := hM
  unfold process
  dsimp only
  rw [if_pos (by unfold seqOf at hr; omega)]
  exact ⟨_, rfl, ⟨⟨kF, kB, { hI0 with }, hG⟩, hne0, hneB0, hfig0.same ⟨rfl, rfl, rfl, rfl, rfl, rfl, rfl, rfl, rfl, rfl, rfl⟩⟩, rfl, rfl, rfl⟩

end Owamp.TwStats
