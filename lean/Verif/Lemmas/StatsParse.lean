import Verif.Lemmas.StatsRun
import Verif.Spec.DataFile
/-!
# Lemmas about summaries: a whole parse
-/
namespace Owamp.Stats
open Owamp.Num64 Owamp.Codec Owamp.Spec.Stats Owamp.Spec.DataFile

/-- The figures after several records. -/
def figures (c : Cfg) : List DataRec → List DataRec → St → St
  | _, [], s => s
  | D, r :: rs, s => figures c (D ++ [r]) rs (figure c D r s)

theorem figure_first (c : Cfg) (D : List DataRec) (r : DataRec) (s : St) :
    (figure c D r s).first = s.first ∧ (figure c D r s).last = s.last := by
  unfold figure
  split
  · split
    · exact ⟨rfl, rfl⟩
    · unfold figGot
      dsimp only
      split <;> exact ⟨rfl, rfl⟩
  · exact ⟨rfl, rfl⟩

theorem figure_same (c : Cfg) (D : List DataRec) (r : DataRec) (s s' : St) (h : Same s s') : Same (figure c D r s) (figure c D r s') := by
  unfold figure
  rw [h.first, h.last, cnt_same h]
  split
  · split
    · exact strip_figLost r _ _ (strip_place c r _ _ h)
    · exact strip_figGot c _ r _ _ (strip_place c r _ _ h)
  · exact strip_place c r _ _ h

theorem figures_same (c : Cfg) (rs : List DataRec) : ∀ (D : List DataRec) (s s' : St), Same s s' → Same (figures c D rs s) (figures c D rs s') := by
  induction rs with
  | nil => intro D s s' h; exact h
  | cons r rs ih => intro D s s' h; exact ih _ _ _ (figure_same c D r s s' h)

/-- Why packet `k` has left the window. -/
def Cause (c : Cfg) (ds : List Nat) (first last : Nat) (D : List DataRec) (k : Nat) : Prop :=
  ∃ r ∈ D, Within first last r ∧ Gone c ds r k

/-- All the records of a file. -/
theorem run_spec (c : Cfg) (c0 : Sched.Ctx) (ds : List Nat) (hN : ds.length < 2 ^ 32) (rs : List DataRec) :
    ∀ (D : List DataRec) (b : Nat) (s : St), Win c c0 ds b s → Marks c b D s → (D ++ rs).length < 2 ^ 32 →
      (∀ k, s.first ≤ k → k < b → Cause c ds s.first s.last D k) →
      (∃ b' s', feed (callback c) rs (.ok s) = (.ok, .ok s') ∧ Win c c0 ds b' s' ∧ Marks c b' (D ++ rs) s' ∧ Same (figures c D rs s) s') ∨
      (feed (callback c) rs (.ok s) = (.fatal, .error .refused) ∧
        ∃ p r q, rs = p ++ r :: q ∧ Within s.first s.last r ∧
          (Cause c ds s.first s.last (D ++ p) r.seq.toNat ∨ Gone c ds r r.seq.toNat ∨
            (Lost r ∧ ∃ r' ∈ D ++ p, ¬ Lost r' ∧ r'.seq.toNat = r.seq.toNat) ∨
            (¬ Lost r ∧ ∃ r' ∈ D ++ p, Lost r' ∧ Within s.first s.last r' ∧ r'.seq.toNat = r.seq.toNat))) := by
  induction rs with
  | nil =>
    intro D b s hw hm hD _
    exact Or.inl ⟨b, s, rfl, hw, by rw [List.append_nil]; exact hm, Same.rfl' s⟩
  | cons r rs ih =>
    intro D b s hw hm hD hc
    have hlen : (D ++ [r]).length < 2 ^ 32 := by simp only [List.length_append, List.length_cons, List.length_nil] at hD ⊢; omega
    rcases process_spec c c0 ds b D s r hw hm hN hlen with ⟨e1, e2, e3⟩ | ⟨b', s', e1, e2, e3, e4, e5, e6⟩
    · right
      constructor
      · have : callback c (.ok s) r = (-1, .error .refused) := by unfold callback; dsimp only; rw [e1]
        rw [feed, this, if_neg (by decide), if_pos (by decide)]
      · refine ⟨[], r, rs, rfl, e2, ?_⟩
        rw [List.append_nil]
        by_cases h1 : b ≤ r.seq.toNat
        · by_cases h2 : Gone c ds r r.seq.toNat
          · exact Or.inr (Or.inl h2)
          · right; right
            have h3 : ¬ (¬ Skipped c.skips r.seq.toNat → if Lost r then copies (cnt c s D) r.seq.toNat = 0 else losses (cnt c s D) r.seq.toNat = 0) :=
              fun h => e3 ⟨h1, h2, h⟩
            by_cases hl : Lost r
            · left
              rw [if_pos hl] at h3
              have : copies (cnt c s D) r.seq.toNat ≠ 0 := fun h => h3 fun _ => h
              obtain ⟨r', x1, x2, x3⟩ := (copies_ne _ _).1 this
              exact ⟨hl, r', (mem_counted _ _ _ _ _ x1).1, x2, x3⟩
            · right
              rw [if_neg hl] at h3
              have : losses (cnt c s D) r.seq.toNat ≠ 0 := fun h => h3 fun _ => h
              obtain ⟨r', x1, x2, x3⟩ := (losses_ne _ _).1 this
              exact ⟨hl, r', (mem_counted _ _ _ _ _ x1).1, x2, (mem_counted _ _ _ _ _ x1).2.1, x3⟩
        · exact Or.inl (hc _ e2.1 (by omega))
    · have hcb : callback c (.ok s) r = (0, .ok s') := by unfold callback; dsimp only; rw [e1]
      have hf : feed (callback c) (r :: rs) (.ok s) = feed (callback c) rs (.ok s') := by
        rw [feed, hcb, if_pos (by rfl)]
      rw [hf]
      have hfl := figure_first c D r s
      have hf1 : s'.first = s.first := e5.first.trans hfl.1
      have hf2 : s'.last = s.last := e5.last.trans hfl.2
      have hcons : D ++ r :: rs = (D ++ [r]) ++ rs := by simp
      have hcause : ∀ k, s'.first ≤ k → k < b' → Cause c ds s'.first s'.last (D ++ [r]) k := by
        intro k k1 k2
        rw [hf1] at k1
        rw [hf1, hf2]
        by_cases hk : k < b
        · obtain ⟨x, x1, x2⟩ := hc k k1 hk
          exact ⟨x, by simp [x1], x2⟩
        · have := e6 k (by omega) k2
          exact ⟨r, by simp, this⟩
      rcases ih (D ++ [r]) b' s' e3 e4 (by rw [← hcons]; exact hD) hcause with ⟨b2, s2, f1, f2, f3, f4⟩ | ⟨f1, p, x, q, f2, f3, f4⟩
      · left
        refine ⟨b2, s2, f1, f2, by rw [hcons]; exact f3, ?_⟩
        exact (figures_same c rs (D ++ [r]) _ _ e5).trans f4
      · right
        rw [hf1, hf2] at f3 f4
        refine ⟨f1, r :: p, x, q, by rw [f2]; rfl, f3, ?_⟩
        rw [show D ++ r :: p = D ++ [r] ++ p by simp]
        exact f4

theorem flushAll_spec (c : Cfg) (c0 : Sched.Ctx) (ds : List Nat) (D : List DataRec) (hN : ds.length < 2 ^ 32) (f : Nat) :
    ∀ (b : Nat) (s : St), Win c c0 ds b s → Marks c b D s → s.last < f + b →
      ∃ s', flushAll c f s = .ok s' ∧ Same s s' ∧ Clock c c0 ds s.last s' ∧
        s'.lost = Spec.Stats.lost s.last (cnt c s D) ∧ s'.dups = duplicates s.last (cnt c s D) := by
  induction f with
  | zero => intro b s hw _ hf; have := hw.fits; omega
  | succ f ih =>
    intro b s hw hm hf
    obtain ⟨f1, f2⟩ := flushOne_spec c c0 ds b D s hw hm hN
    by_cases hlt : b + 1 < s.last
    · obtain ⟨s1, e1, e2, e3, e4⟩ := f1 hlt
      obtain ⟨s', g1, g2, g3, g4, g5⟩ := ih (b + 1) s1 e2 e3 (by rw [e4.last]; omega)
      refine ⟨s', ?_, e4.trans g2, by rw [← e4.last]; exact g3, ?_, ?_⟩
      · rw [flushAll, e1]; exact g1
      · rw [g4, e4.last, cnt_same e4]
      · rw [g5, e4.last, cnt_same e4]
    · obtain ⟨s1, e1, e2, e3, e4, e5, e6, e7, e8⟩ := f2 hlt
      have hfit := hw.fits
      have hb : b + 1 = s.last := by omega
      refine ⟨s1, by rw [flushAll, e1], e2, ?_, by rw [e3, hb]; rfl, by rw [e4, hb]⟩
      have := hw.clock
      rw [e5, hb] at this
      exact ⟨by rw [e7]; exact this.idx, by rw [e8]; exact this.time, by rw [e6]; exact this.used, by rw [e6]; exact this.rest, this.le⟩

/-! ## The start of a parse -/

theorem lost_nil (n : Nat) : packets n (fun k => decide (losses [] k ≠ 0)) = 0 := by
  induction n with
  | zero => rfl
  | succ n ih => rw [packets_succ, ih]; rfl

theorem dups_nil (n : Nat) : duplicates n [] = 0 := by
  induction n with
  | zero => rfl
  | succ n ih => rw [dups_succ, ih]; rfl

theorem advance_spec (c : Cfg) (c0 : Sched.Ctx) (ds : List Nat) (n : Nat) : ∀ (m : Nat) (s : St), Clock c c0 ds m s → m + n ≤ ds.length →
    ∃ s', advance c n s = .ok s' ∧ Clock c c0 ds (m + n) s' ∧ s'.used = s.used ∧ s'.rindex = s.rindex ∧ s'.rnum = s.rnum ∧ s'.endTime = s.endTime := by
  induction n with
  | zero => intro m s h _; exact ⟨s, rfl, h, rfl, rfl, rfl, rfl⟩
  | succ n ih =>
    intro m s h hle
    obtain ⟨d, d1, d2, d3⟩ := h.next (by omega)
    obtain ⟨s1, hs1⟩ : ∃ s1 : St, s1 = { s with ctx := (Sched.nextDelta c.E s.ctx).2, isctx := s.isctx + 1, endnum := add s.endnum d } := ⟨_, rfl⟩
    have hc := d3 s1 (by rw [hs1]) (by rw [hs1]) (by rw [hs1])
    obtain ⟨s', a1, a2, a3, a4, a5, a6⟩ := ih (m + 1) s1 hc (by omega)
    refine ⟨s', ?_, by rw [show m + (n + 1) = m + 1 + n by omega]; exact a2, by rw [a3, hs1], by rw [a4, hs1], by rw [a5, hs1], by rw [a6, hs1]⟩
    rw [advance, d1]
    dsimp only
    rw [← hs1]; exact a1

/-- A range of packets and a state as `begin` leaves it. -/
structure Fresh (c : Cfg) (oset first last : Nat) (s s' : St) : Prop where
  first : s'.first = first
  last : s'.last = last
  i : s'.i = 0
  begOset : s'.beginOset = Nat.max oset c.osetData
  next : s'.nextOset = 0
  sent : s'.sent = 0
  rseq : s'.rseq = List.replicate c.rlist 0
  rn : s'.rn = List.replicate c.rlist 0
  rindex : s'.rindex = s.rindex
  rnum : s'.rnum = s.rnum
  hist : s'.hist = []
  ttl : s'.ttl = List.replicate 256 0
  min : s'.min = c.inf
  max : s'.max = -c.inf
  sync : s'.sync = true
  maxerr : s'.maxerr = 0
  used : s'.used = true

theorem begin_spec (c : Cfg) (sid : Bytes) (slots : List Sched.Slot) (c0 : Sched.Ctx) (hc0 : Sched.create sid ⟨c.npackets, slots⟩ = some c0)
    (ds : List Nat) (hds : Sched.deltas c.E ds.length c0 = ds.map .ok) (hn : ds.length = c.npackets.toNat) (m : Nat) (s : St)
    (h : Clock c c0 ds m s) (oset first last : Nat) (hu : s.used = false ∨ 0 < first) (h1 : first < lastOf c last) (h2 : lastOf c last ≤ c.npackets.toNat) :
    ∃ s', begin c s oset first last = .ok s' ∧ Fresh c oset first (lastOf c last) s s' ∧ Win c c0 ds first s' ∧ Marks c first [] s' ∧
      s'.startTime = tm c ds (first + 1) := by
  obtain ⟨L, hL⟩ : ∃ L, L = lastOf c last := ⟨_, rfl⟩
  rw [← hL] at h1 h2 ⊢
  obtain ⟨s1, hs1⟩ : ∃ s1, s1 = if first = 0 ∨ first < s.isctx then
        { s with ctx := (Sched.reset s.ctx none).2, isctx := 0, endnum := c.start.toNat } else s := ⟨_, rfl⟩
  have hk : ∃ m1, Clock c c0 ds m1 s1 ∧ m1 ≤ first + 1 ∧ s1.used = s.used ∧ s1.rindex = s.rindex ∧ s1.rnum = s.rnum := by
    by_cases hr : first = 0 ∨ first < s.isctx
    · rw [if_pos hr] at hs1
      obtain ⟨ops, ho⟩ := h.used
      have hreset : (Sched.reset s.ctx none).2 = c0 := by rw [ho, Props.C06_reset_restores c.E sid _ c0 hc0 ops]
      rw [hreset] at hs1
      refine ⟨0, ⟨by rw [hs1], by rw [hs1, tm_zero], ⟨[], by rw [hs1]; rfl⟩, ?_, by omega⟩, by omega, by rw [hs1], by rw [hs1], by rw [hs1]⟩
      rw [hs1]; exact hds
    · rw [if_neg hr] at hs1
      rw [hs1]
      exact ⟨m, h, by rw [h.idx] at hr; omega, rfl, rfl, rfl⟩
  obtain ⟨m1, k1, k2, k3, k4, k5⟩ := hk
  obtain ⟨s2, a1, a2, a3, a4, a5, a6⟩ := advance_spec c c0 ds (first + 1 - m1) m1 s1 k1 (by omega)
  rw [show m1 + (first + 1 - m1) = first + 1 by omega] at a2
  obtain ⟨s3, hs3⟩ : ∃ s3 : St, s3 = { ctx := s2.ctx, isctx := s2.isctx, endnum := s2.endnum
                                       nodes := [⟨first, s2.endnum, 0, false⟩], used := true
                                       first := first, last := L, iskip := 0, i := 0
                                       beginOset := Nat.max oset c.osetData, nextOset := 0
                                       startTime := s2.endnum, endTime := s2.endTime
                                       sent := 0, lost := 0, dups := 0
                                       rseq := List.replicate c.rlist 0, rn := List.replicate c.rlist 0
                                       rindex := s2.rindex, rnum := s2.rnum
                                       hist := [], ttl := List.replicate 256 0
                                       min := c.inf, max := -c.inf, sync := true, maxerr := 0 } := ⟨_, rfl⟩
  refine ⟨s3, ?_, ?_, ?_, ?_, ?_⟩
  · have e : begin c s oset first last = if first > L ∨ L > c.npackets.toNat then .error .refused else
        match advance c (first + 1 - s1.isctx) s1 with
        | .error x => .error x
        | .ok s =>
          if s.used ∧ first ≤ 0 then .error .stuck
          else
            .ok { ctx := s.ctx, isctx := s.isctx, endnum := s.endnum
                  nodes := [⟨first, s.endnum, 0, false⟩], used := true
                  first := first, last := L, iskip := 0, i := 0
                  beginOset := Nat.max oset c.osetData, nextOset := 0
                  startTime := s.endnum, endTime := s.endTime
                  sent := 0, lost := 0, dups := 0
                  rseq := List.replicate c.rlist 0, rn := List.replicate c.rlist 0
                  rindex := s.rindex, rnum := s.rnum
                  hist := [], ttl := List.replicate 256 0
                  min := c.inf, max := -c.inf, sync := true, maxerr := 0 } := by rw [hL, hs1]; rfl
    rw [e, if_neg (by omega), k1.idx, a1]
    dsimp only
    rw [if_neg, hs3]
    rw [a3, k3]
    rcases hu with hu | hu
    · rw [hu]; simp
    · omega
  · rw [hs3]
    exact ⟨rfl, rfl, rfl, rfl, rfl, rfl, rfl, rfl, by rw [← k4, ← a4], by rw [← k5, ← a5], rfl, rfl, rfl, rfl, rfl, rfl, rfl⟩
  · rw [hs3]
    refine ⟨⟨a2.idx, a2.time, a2.used, a2.rest, a2.le⟩, ⟨⟨rfl, a2.time⟩, trivial⟩, by simp, Nat.le_refl _, ?_, ?_⟩
    · show first + 1 ≤ L; omega
    · show L ≤ ds.length; omega
  · have hc : cnt c s3 [] = [] := rfl
    rw [hs3] at hc ⊢
    refine ⟨?_, ?_, ?_, ?_, ?_, ?_, by simp⟩
    · rw [hc]; intro n hn; rw [List.mem_singleton.1 hn]; simp [copies, losses, arrivals]
    · rw [hc]; intro r hr; cases hr
    · intro m hm; cases hm
    · rw [hc]; exact (lost_nil first).symm
    · rw [hc]; exact (dups_nil first).symm
    · rw [hc]; intro k hk; exact (hk rfl).elim
  · rw [hs3]; exact a2.time

/-- A whole parse. -/
theorem parse_spec (c : Cfg) (sid : Bytes) (slots : List Sched.Slot) (c0 : Sched.Ctx) (hc0 : Sched.create sid ⟨c.npackets, slots⟩ = some c0)
    (ds : List Nat) (hds : Sched.deltas c.E ds.length c0 = ds.map .ok) (hn : ds.length = c.npackets.toNat) (m : Nat) (s : St)
    (h : Clock c c0 ds m s) (rs : List DataRec) (hrs : rs.length < 2 ^ 32) (oset first last : Nat) (hu : s.used = false ∨ 0 < first)
    (h1 : first < lastOf c last) (h2 : lastOf c last ≤ c.npackets.toNat) :
    (∃ s0 s', parse c (fun proc s => feed proc rs s) s oset first last = .ok s' ∧ Fresh c oset first (lastOf c last) s s0 ∧
      Clock c c0 ds (lastOf c last) s' ∧ Same (figures c [] rs s0) s' ∧
      s'.lost = Spec.Stats.lost (lastOf c last) (counted c.skips first (lastOf c last) rs) ∧
      s'.dups = duplicates (lastOf c last) (counted c.skips first (lastOf c last) rs) ∧
      s0.startTime = tm c ds (first + 1) ∧ s'.endTime = tm c ds (lastOf c last) ∧
      ∀ k, losses (counted c.skips first (lastOf c last) rs) k ≠ 0 → copies (counted c.skips first (lastOf c last) rs) k = 0) ∨
    (parse c (fun proc s => feed proc rs s) s oset first last = .error .refused ∧
        ∃ p r q, rs = p ++ r :: q ∧ Within first (lastOf c last) r ∧
          (Cause c ds first (lastOf c last) p r.seq.toNat ∨ Gone c ds r r.seq.toNat ∨
            (Lost r ∧ ∃ r' ∈ p, ¬ Lost r' ∧ r'.seq.toNat = r.seq.toNat) ∨
            (¬ Lost r ∧ ∃ r' ∈ p, Lost r' ∧ Within first (lastOf c last) r' ∧ r'.seq.toNat = r.seq.toNat))) := by
  have hN : ds.length < 2 ^ 32 := by rw [hn]; exact c.npackets.isLt
  obtain ⟨s0, b1, b2, b3, b4, b5⟩ := begin_spec c sid slots c0 hc0 ds hds hn m s h oset first last hu h1 h2
  rcases run_spec c c0 ds hN rs [] first s0 b3 b4 (by simpa using hrs) (fun k k1 k2 => by rw [b2.first] at k1; omega) with
    ⟨b', s1, r1, r2, r3, r4⟩ | ⟨r1, r2⟩
  · left
    obtain ⟨s2, f1, f2, f3, f4, f5⟩ := flushAll_spec c c0 ds _ hN (s1.last + 2) b' s1 r2 r3 (by omega)
    have hfl : ∀ (rs D : List DataRec) (s : St), (figures c D rs s).first = s.first ∧ (figures c D rs s).last = s.last ∧ (figures c D rs s).startTime = s.startTime := by
      intro rs
      induction rs with
      | nil => intro D s; exact ⟨rfl, rfl, rfl⟩
      | cons r rs ih =>
        intro D s
        obtain ⟨i1, i2, i3⟩ := ih (D ++ [r]) (figure c D r s)
        obtain ⟨j1, j2⟩ := figure_first c D r s
        refine ⟨i1.trans j1, i2.trans j2, i3.trans ?_⟩
        unfold figure figGot
        split
        · split
          · rfl
          · dsimp only; split <;> rfl
        · rfl
    obtain ⟨l1, l2, l3⟩ := hfl rs [] s0
    have hlast : s1.last = lastOf c last := by rw [r4.last, l2, b2.last]
    have hfirst : s1.first = first := by rw [r4.first, l1, b2.first]
    rw [List.nil_append] at f4 f5
    refine ⟨s0, flushBack s2, ?_, b2, ?_, ?_, ?_, ?_, b5, ?_, ?_⟩
    · unfold parse
      rw [b1]
      dsimp only
      rw [r1]
      dsimp only
      rw [f1]
      rfl
    · rw [← hlast]; exact ⟨f3.idx, f3.time, f3.used, f3.rest, f3.le⟩
    · exact (r4.trans f2).trans (fun x => rfl)
    · show s2.lost = _
      rw [f4, hlast]; show Spec.Stats.lost _ (counted _ s1.first s1.last rs) = _; rw [hfirst, hlast]
    · show s2.dups = _
      rw [f5, hlast]; show duplicates _ (counted _ s1.first s1.last rs) = _; rw [hfirst, hlast]
    · show (if s2.first + 1 < s2.last then s2.endnum else s2.startTime) = _
      rw [f2.first, f2.last, hfirst, hlast, f3.time, hlast]
      have hst : s2.startTime = tm c ds (first + 1) := by
        have e1 : s2.startTime = (figures c [] rs s0).startTime := by
          have := congrArg St.startTime ((r4.trans f2) s2.ctx); exact this
        rw [e1, l3, b5]
      rw [hst]
      split
      · rfl
      · rw [show first + 1 = lastOf c last by omega]
    · have := r3.excl
      rw [List.nil_append, cnt, hfirst, hlast] at this
      exact this
  · right
    rw [b2.first, b2.last, ] at r2
    refine ⟨?_, by simpa using r2⟩
    unfold parse
    rw [b1]
    dsimp only
    rw [r1]

/-- A fresh object. -/
theorem create_clock (c : Cfg) (c0 : Sched.Ctx) (ds : List Nat)
    (hds : Sched.deltas c.E ds.length c0 = ds.map .ok) : Clock c c0 ds 0 (create c c0) :=
  ⟨rfl, (tm_zero c ds).symm, ⟨[], rfl⟩, hds, Nat.zero_le _⟩

/-- A summary that succeeds leaves the object used. -/
theorem used_parse (c : Cfg) (rs : List DataRec) (s s' : St) (oset first last : Nat)
    (hp : parse c (fun proc s => feed proc rs s) s oset first last = .ok s')
    (hb : ∀ s t oset first last, begin c s oset first last = .ok t → t.used = true) : s'.used = true := by
  have hgrow : ∀ (n : Nat) (s t : St), grow c n s = .ok t → t.used = s.used := by
    intro n
    induction n with
    | zero => intro s t h; cases h; rfl
    | succ n ih =>
      intro s t h
      rw [grow] at h
      split at h
      · cases h
      · split at h
        · cases h
        · split at h
          · cases h
          · split at h
            · cases h
            · dsimp only at h
              have := ih _ _ h; exact this
  have hget : ∀ (k : Nat) (s : St) (x : Node × St), packetGet c k s = .ok x → x.2.used = s.used := by
    intro k s x h
    unfold packetGet at h
    split at h
    · split at h
      · cases h; rfl
      · split at h
        · cases h
        · split at h
          · split at h
            · cases h
            · rename_i s1 hg
              split at h
              · cases h; exact hgrow _ _ _ hg
              · cases h
          · split at h
            · cases h
            · split at h
              · cases h; rfl
              · cases h
    · cases h
  have htally : ∀ (n : Node) (s : St), (tally c n s).used = s.used := by
    intro n s
    unfold tally
    dsimp only
    split
    · rfl
    · split
      · rfl
      · split <;> rfl
  have hone : ∀ (s : St) (x : Bool × St), flushOne c s = .ok x → x.2.used = s.used := by
    intro s x h
    unfold flushOne at h
    split at h
    · cases h; rfl
    · dsimp only at h
      split at h
      · cases h; exact htally _ _
      · split at h
        · split at h
          · cases h
          · rename_i s1 hg
            cases h
            exact (hget _ _ _ hg).trans (htally _ _)
        · cases h; exact htally _ _
  have hwhile : ∀ (p : Node → Bool) (n : Nat) (s t : St), flushWhile c p n s = .ok t → t.used = s.used := by
    intro p n
    induction n with
    | zero => intro s t h; cases h
    | succ n ih =>
      intro s t h
      rw [flushWhile] at h
      split at h
      · cases h
      · split at h
        · split at h
          · cases h
          · cases h
          · rename_i s1 hf
            exact (ih _ _ h).trans (hone _ _ hf)
        · cases h; rfl
  have hproc : ∀ (s : St) (r : DataRec) (t : St), process c s r = .ok t → t.used = s.used := by
    intro s r t h
    unfold process at h
    dsimp only at h
    split at h
    · cases h; rfl
    · split at h
      · cases h
      · rename_i s1 hf
        have e1 := hwhile _ _ _ _ hf
        split at h
        · cases h
        · rename_i n s2 hg
          have e2 := hget _ _ _ hg
          split at h
          · cases h; exact e2.trans e1
          · split at h
            · unfold addLost at h
              split at h
              · cases h
              · cases h; exact e2.trans e1
            · unfold addGot at h
              split at h
              · cases h
              · dsimp only at h
                split at h
                · cases h; exact e2.trans e1
                · cases h; exact e2.trans e1
  have hfeed : ∀ (rs : List DataRec) (s : St) (x : File.Parsed) (t : St), feed (callback c) rs (.ok s) = (x, .ok t) → t.used = s.used := by
    intro rs
    induction rs with
    | nil => intro s x t h; cases h; rfl
    | cons r rs ih =>
      intro s x t h
      rw [feed] at h
      cases hc : process c s r with
      | error y =>
        have e : callback c (.ok s) r = (-1, .error y) := by unfold callback; dsimp only; rw [hc]
        rw [e] at h
        simp at h
      | ok s1 =>
        have e : callback c (.ok s) r = (0, .ok s1) := by unfold callback; dsimp only; rw [hc]
        rw [e, if_pos rfl] at h
        exact (ih _ _ _ h).trans (hproc _ _ _ hc)
  have hall : ∀ (n : Nat) (s t : St), flushAll c n s = .ok t → t.used = s.used := by
    intro n
    induction n with
    | zero => intro s t h; cases h
    | succ n ih =>
      intro s t h
      rw [flushAll] at h
      split at h
      · cases h
      · rename_i s1 hf; exact (ih _ _ h).trans (hone _ _ hf)
      · rename_i s1 hf; cases h; exact hone _ _ hf
  unfold parse at hp
  split at hp
  · cases hp
  · rename_i s1 hb1
    split at hp
    · rename_i s2 hf
      cases hfl : flushAll c (s2.last + 2) s2 with
      | error y => rw [hfl] at hp; cases hp
      | ok s3 =>
        rw [hfl] at hp
        cases hp
        show s3.used = true
        rw [hall _ _ _ hfl, hfeed _ _ _ _ hf, hb _ _ _ _ _ hb1]
    · cases hp
    · cases hp

end Owamp.Stats
