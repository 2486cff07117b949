import Verif.Spec.Sender
import Verif.Props.Time
import Verif.Props.Num64
import Verif.Props.Schedule
/-!
# Steps towards C22 and C23
-/
namespace Owamp.Sender
open Owamp.Num64 Owamp.Time Owamp.Pkt Owamp.Ctl Owamp.Codec Owamp.Spec Owamp.Spec.Sender Owamp.Props

/-! ## `skip` -/

theorem skip_cases (l : List Skip) (seq : U32) :
    (∃ a t, l = a ++ [t] ∧ t.last + 1 = seq ∧ skip l seq = a ++ [{ t with last := seq }]) ∨
    ((∀ a t, l = a ++ [t] → t.last + 1 ≠ seq) ∧ skip l seq = l ++ [⟨seq, seq⟩]) := by
  rcases List.eq_nil_or_concat l with h | ⟨a, t, h⟩
  · subst h
    refine Or.inr ⟨?_, rfl⟩
    intro a t h; simp at h
  · have h : l = a ++ [t] := by rw [h]; simp
    subst h
    by_cases hs : t.last + 1 = seq
    · refine Or.inl ⟨a, t, rfl, hs, ?_⟩
      simp only [skip, List.getLast?_append, List.getLast?_singleton, Option.some_or, List.dropLast_concat]
      rw [if_pos hs]
    · refine Or.inr ⟨?_, ?_⟩
      · intro a' t' h'
        have := List.append_inj_right' h' rfl
        simp at this
        rwa [← this]
      · simp only [skip, List.getLast?_append, List.getLast?_singleton, Option.some_or]
        rw [if_neg hs]

theorem toNat_ofNat32 (i : Nat) (h : i < 2 ^ 32) : (BitVec.ofNat 32 i).toNat = i := by
  rw [BitVec.toNat_ofNat, Nat.mod_eq_of_lt h]

theorem succ_eq (x : U32) (i : Nat) (hx : x.toNat < i) (hi : i < 2 ^ 32) : x + 1 = BitVec.ofNat 32 i ↔ x.toNat + 1 = i := by
  constructor
  · intro h
    have := congrArg BitVec.toNat h
    rw [BitVec.toNat_add, BitVec.toNat_ofNat] at this
    simp at this
    omega
  · intro h
    apply BitVec.eq_of_toNat_eq
    rw [BitVec.toNat_add, BitVec.toNat_ofNat]
    simp
    omega

theorem skip_canonical (l : List Skip) (i : Nat) (hi : i < 2 ^ 32) (hc : Canonical l) (hb : ∀ r ∈ l, r.last.toNat < i) :
    Canonical (skip l (BitVec.ofNat 32 i)) ∧ ∀ r ∈ skip l (BitVec.ofNat 32 i), r.last.toNat < i + 1 := by
  have hn := toNat_ofNat32 i hi
  rcases skip_cases l (BitVec.ofNat 32 i) with ⟨a, t, hl, ht, hs⟩ | ⟨hne, hs⟩
  · rw [hs]
    subst hl
    rw [succ_eq _ _ (hb t (by simp)) hi] at ht
    obtain ⟨h1, h2⟩ := hc
    refine ⟨⟨?_, ?_⟩, ?_⟩
    · intro r hr
      rcases List.mem_append.1 hr with h | h
      · exact h1 r (by simp [h])
      · simp at h; subst h
        have := h1 t (by simp)
        simp only [hn]; omega
    · rw [List.pairwise_append] at h2 ⊢
      refine ⟨h2.1, by simp, ?_⟩
      intro x hx y hy
      simp at hy; subst hy
      exact h2.2.2 x hx t (by simp)
    · intro r hr
      rcases List.mem_append.1 hr with h | h
      · have := hb r (by simp [h]); omega
      · simp at h; subst h; simp only [hn]; omega
  · rw [hs]
    obtain ⟨h1, h2⟩ := hc
    refine ⟨⟨?_, ?_⟩, ?_⟩
    · intro r hr
      rcases List.mem_append.1 hr with h | h
      · exact h1 r h
      · simp at h; subst h; simp
    · rw [List.pairwise_append]
      refine ⟨h2, by simp, ?_⟩
      intro x hx y hy
      simp at hy; subst hy
      simp only [hn]
      -- the last element does not touch `i`, and the earlier ones end before it
      rcases List.eq_nil_or_concat l with h | ⟨a, t, h⟩
      · rw [h] at hx; simp at hx
      · have h : l = a ++ [t] := by rw [h]; simp
        have hne := hne a t h
        rw [Ne, succ_eq _ _ (hb t (by simp [h])) hi] at hne
        have hbt := hb t (by simp [h])
        subst h
        rcases List.mem_append.1 hx with h | h
        · have h3 := (List.pairwise_append.1 h2).2.2 x h t (by simp)
          have h4 := h1 t (by simp)
          omega
        · simp at h; subst h; omega
    · intro r hr
      rcases List.mem_append.1 hr with h | h
      · have := hb r h; omega
      · simp at h; subst h; simp only [hn]; omega

theorem covers_iff (k : Nat) (r : Skip) : covers k r = true ↔ r.first.toNat ≤ k ∧ k ≤ r.last.toNat := by
  simp [covers]

theorem skip_count (l : List Skip) (i : Nat) (hi : i < 2 ^ 32) (hc : Canonical l) (hb : ∀ r ∈ l, r.last.toNat < i) (k : Nat) :
    ((skip l (BitVec.ofNat 32 i)).filter (covers k)).length = (l.filter (covers k)).length + if k = i then 1 else 0 := by
  have hn := toNat_ofNat32 i hi
  rcases skip_cases l (BitVec.ofNat 32 i) with ⟨a, t, hl, ht, hs⟩ | ⟨hne, hs⟩
  · rw [hs]
    subst hl
    rw [succ_eq _ _ (hb t (by simp)) hi] at ht
    have h1 := hc.1 t (by simp)
    simp only [List.filter_append, List.length_append, Nat.add_assoc]
    congr 1
    have e1 : covers k ⟨t.first, BitVec.ofNat 32 i⟩ = (decide (t.first.toNat ≤ k) && decide (k ≤ i)) := by
      simp only [covers, hn]
    have e2 : covers k t = (decide (t.first.toNat ≤ k) && decide (k ≤ t.last.toNat)) := rfl
    simp only [List.filter_cons, List.filter_nil, e1, e2]
    by_cases h : k = i
    · subst h
      have a1 : (decide (t.first.toNat ≤ k) && decide (k ≤ k)) = true := by simp; omega
      have a2 : (decide (t.first.toNat ≤ k) && decide (k ≤ t.last.toNat)) = false := by simp; omega
      simp only [a1, a2]; simp
    · rw [if_neg h]
      have a1 : (decide (t.first.toNat ≤ k) && decide (k ≤ i)) = (decide (t.first.toNat ≤ k) && decide (k ≤ t.last.toNat)) := by
        congr 1
        exact decide_eq_decide.2 (by omega)
      rw [a1]; split <;> rfl
  · rw [hs]
    simp only [List.filter_append, List.length_append]
    congr 1
    have e1 : covers k ⟨BitVec.ofNat 32 i, BitVec.ofNat 32 i⟩ = decide (k = i) := by
      simp only [covers, hn]
      by_cases h : k = i
      · subst h; simp
      · have : ¬ (i ≤ k ∧ k ≤ i) := by omega
        simp only [h, decide_false, Bool.and_eq_false_imp, decide_eq_true_eq, decide_eq_false_iff_not]
        omega
    simp only [List.filter_cons, List.filter_nil, e1]
    split <;> simp_all

theorem uncovered (l : List Skip) (i k : Nat) (hb : ∀ r ∈ l, r.last.toNat < i) (hk : i ≤ k) : l.filter (covers k) = [] := by
  rw [List.filter_eq_nil_iff]
  intro r hr
  have := hb r hr
  rw [covers_iff]; omega

/-! ## The loop -/

/-- Clock readings the C library can return. -/
def GoodClock (ts : List Tick) : Prop := ∀ t ∈ ts, ∀ r, t.clock = some r → 0 ≤ r.time.sub ∧ r.time.sub < 1000000000

/-- What holds between turns. -/
structure Inv (c : Cfg) (ds : List Nat) (s : St) : Prop where
  le : s.i ≤ c.npackets.toNat
  canon : Canonical s.skips
  bound : ∀ r ∈ s.skips, r.last.toNat < s.i
  before : ∀ k, k < s.i → Accounted (due c.start ds) (nanos c.timeout.toNat) s.calls s.skips k
  after : s.phase ≠ .dead → ∀ k, s.i ≤ k → handed k s.calls = []
  sending : s.phase = .sending → s.i < c.npackets.toNat ∧ s.off = (ds.take (s.i + 1)).sum % 2 ^ 64 ∧
    Sched.deltas c.E (c.npackets.toNat - (s.i + 1)) s.ctx = (ds.drop (s.i + 1)).map Except.ok ∧
    total 1000000000 s.next = due c.start ds s.i ∧ 0 ≤ s.next.sub ∧ s.next.sub < 1000000000

/-- Being dead or finished asks nothing more. -/
theorem Inv.leave {c : Cfg} {ds : List Nat} {s : St} (h : Inv c ds s) (p : Phase) (hd : s.phase ≠ .dead) (hp : p ≠ .sending) :
    Inv c ds { s with phase := p } :=
  ⟨h.le, h.canon, h.bound, h.before, fun _ => h.after hd, fun e => (hp e).elim⟩

theorem nanos_eq (x : Nat) (h : x < 2 ^ 64) : total 1000000000 (toTimespec x) = nanos x ∧
    0 ≤ (toTimespec x).sub ∧ (toTimespec x).sub < 1000000000 := by
  obtain ⟨h1, h2⟩ := C02_toTimespec_value x h
  refine ⟨h2, ?_⟩
  simp only [Normalised] at h1
  omega

theorem prep_inv (c : Cfg) (ds : List Nat) (s : St) (hst : 0 ≤ c.start.sub ∧ c.start.sub < 1000000000)
    (hlen : ds.length = c.npackets.toNat) (hi : s.i < c.npackets.toNat) (hcan : Canonical s.skips)
    (hb : ∀ r ∈ s.skips, r.last.toNat < s.i)
    (hbef : ∀ k, k < s.i → Accounted (due c.start ds) (nanos c.timeout.toNat) s.calls s.skips k)
    (haft : ∀ k, s.i ≤ k → handed k s.calls = [])
    (hoff : s.off = (ds.take s.i).sum % 2 ^ 64)
    (hd : Sched.deltas c.E (c.npackets.toNat - s.i) s.ctx = (ds.drop s.i).map Except.ok) :
    Inv c ds (prep c s) ∧ (prep c s).phase = .sending ∧ (prep c s).i = s.i := by
  obtain ⟨m, hm⟩ : ∃ m, c.npackets.toNat - s.i = m + 1 := ⟨c.npackets.toNat - s.i - 1, by omega⟩
  have hds : ds.drop s.i = ds[s.i]'(by omega) :: ds.drop (s.i + 1) := List.drop_eq_getElem_cons (by omega)
  rw [hm, hds] at hd
  simp only [Sched.deltas, List.map_cons, List.cons.injEq] at hd
  obtain ⟨x, hx⟩ : ∃ x, x = ds[s.i]'(by omega) := ⟨_, rfl⟩
  rw [← hx] at hd hds
  have hp : prep c s = { s with
      ctx := (Sched.nextDelta c.E s.ctx).2, off := add s.off x, next := tsAdd (toTimespec (add s.off x)) c.start
      phase := .sending } := by
    simp only [prep, hd.1]
  have hsum : (ds.take (s.i + 1)).sum = (ds.take s.i).sum + x := by
    rw [hx, List.take_succ_eq_append_getElem (by omega), List.sum_append]; simp only [List.sum_cons, List.sum_nil, Nat.add_zero]
  have ho : add s.off x = (ds.take (s.i + 1)).sum % 2 ^ 64 := by
    rw [hsum, add, u64, hoff, Nat.mod_add_mod]
  rw [hp]
  refine ⟨⟨Nat.le_of_lt hi, hcan, hb, hbef, fun _ => haft, fun _ => ⟨hi, ho, ?_, ?_⟩⟩, rfl, rfl⟩
  · rw [show c.npackets.toNat - (s.i + 1) = m by omega]; exact hd.2
  · simp only
    rw [ho]
    have hn := nanos_eq ((ds.take (s.i + 1)).sum % 2 ^ 64) (Nat.mod_lt _ (by decide))
    have ha := (C60_timespec_arith (toTimespec ((ds.take (s.i + 1)).sum % 2 ^ 64)) c.start hn.2 hst).2.2.1
    refine ⟨?_, ha.2⟩
    rw [ha.1, hn.1, due]
    omega

theorem advance_inv (c : Cfg) (ds : List Nat) (s : St) (hst : 0 ≤ c.start.sub ∧ c.start.sub < 1000000000)
    (hlen : ds.length = c.npackets.toNat) (hi : s.i < c.npackets.toNat) (hcan : Canonical s.skips)
    (hb : ∀ r ∈ s.skips, r.last.toNat < s.i + 1)
    (hbef : ∀ k, k < s.i + 1 → Accounted (due c.start ds) (nanos c.timeout.toNat) s.calls s.skips k)
    (haft : ∀ k, s.i + 1 ≤ k → handed k s.calls = [])
    (hoff : s.off = (ds.take (s.i + 1)).sum % 2 ^ 64)
    (hd : Sched.deltas c.E (c.npackets.toNat - (s.i + 1)) s.ctx = (ds.drop (s.i + 1)).map Except.ok) :
    Inv c ds (advance c s) := by
  have hlt := c.npackets.isLt
  have hmod : (s.i + 1) % 2 ^ 32 = s.i + 1 := Nat.mod_eq_of_lt (by omega)
  simp only [advance, hmod]
  split
  · rename_i h
    exact (prep_inv c ds { s with i := s.i + 1 } hst hlen h hcan hb hbef haft hoff hd).1
  · exact ⟨by simp only; omega, hcan, hb, hbef, fun _ => haft, fun e => by cases e⟩

theorem handed_append (k : Nat) (l : List Call) (x : Call) :
    handed k (l ++ [x]) = handed k l ++ (if x.seq = k ∧ x.res ≠ .nobufs then [x] else []) := by
  simp only [handed, List.filter_append, List.filter_cons, List.filter_nil]
  by_cases h : x.seq = k ∧ x.res ≠ .nobufs
  · rw [if_pos h, if_pos (by simpa using h)]
  · rw [if_neg h, if_neg (by simpa using h)]

theorem transmit_inv (c : Cfg) (ds : List Nat) (s : St) (t : Tick) (r : Reading)
    (hst : 0 ≤ c.start.sub ∧ c.start.sub < 1000000000)
    (hlen : ds.length = c.npackets.toNat) (hs : s.phase = .sending) (h : Inv c ds s)
    (h1 : due c.start ds s.i ≤ total 1000000000 r.time)
    (h2 : total 1000000000 r.time ≤ due c.start ds s.i + nanos c.timeout.toNat) :
    Inv c ds (transmit c t r s) := by
  have hs' := h.sending hs
  have hd : s.phase ≠ .dead := by rw [hs]; decide
  simp only [transmit]
  split
  · exact h.leave .dead hd (by decide)
  · rename_i pkt _
    split
    · exact ⟨h.le, h.canon, h.bound, h.before, fun _ => h.after hd, fun e => by cases e⟩
    · have keep : ∀ k, k ≠ s.i → handed k (s.calls ++ [⟨s.i, r.time, pkt, t.send⟩]) = handed k s.calls := by
        intro k hk
        rw [handed_append, if_neg (fun e => hk e.1.symm), List.append_nil]
      have bef : ∀ k, k < s.i → Accounted (due c.start ds) (nanos c.timeout.toNat)
          (s.calls ++ [⟨s.i, r.time, pkt, t.send⟩]) s.skips k := by
        intro k hk
        have := h.before k hk
        unfold Accounted at this ⊢
        rwa [keep k (by omega)]
      have adv : t.send ≠ .nobufs → ∀ S : St, S = { s with stamp := { timespecToTimestamp s.stamp r.time (some r.err) (some s.last) with sync := r.sync }, last := r.err, buf := pkt, calls := s.calls ++ [⟨s.i, r.time, pkt, t.send⟩] } → Inv c ds (advance c S) := by
        intro hne S hS
        subst hS
        refine advance_inv c ds _ hst hlen hs'.1 h.canon (fun r hr => Nat.lt_succ_of_lt (h.bound r hr)) ?_ ?_ hs'.2.1 hs'.2.2.1
        · intro k hk
          rcases Nat.lt_succ_iff_lt_or_eq.1 hk with hk | hk
          · exact bef k hk
          · subst hk
            refine Or.inl ⟨⟨s.i, r.time, pkt, t.send⟩, ?_, h1, h2, ?_⟩
            · simp only
              rw [handed_append, if_pos ⟨rfl, hne⟩, h.after hd _ (Nat.le_refl _)]; rfl
            · exact uncovered _ _ _ h.bound (Nat.le_refl _)
        · intro k hk
          simp only at hk ⊢
          rw [keep k (by omega)]
          exact h.after hd k (by omega)
      cases hsend : t.send with
      | nobufs =>
        simp only
        rw [hsend] at bef keep
        refine ⟨h.le, h.canon, h.bound, bef, ?_, fun _ => hs'⟩
        intro _ k hk
        simp only at hk ⊢
        rw [handed_append, if_neg (fun e => e.2 rfl), List.append_nil]
        exact h.after hd k hk
      | fatal =>
        simp only
        rw [hsend] at bef
        exact ⟨h.le, h.canon, h.bound, bef, fun e => (e rfl).elim, fun e => by cases e⟩
      | ok => simp only; rw [hsend] at adv; exact adv (by decide) _ rfl
      | other => simp only; rw [hsend] at adv; exact adv (by decide) _ rfl

theorem step_inv (c : Cfg) (ds : List Nat) (s : St) (t : Tick) (hst : 0 ≤ c.start.sub ∧ c.start.sub < 1000000000)
    (hlen : ds.length = c.npackets.toNat) (hclk : ∀ r, t.clock = some r → 0 ≤ r.time.sub ∧ r.time.sub < 1000000000)
    (h : Inv c ds s) : Inv c ds (step c s t) := by
  unfold step
  cases hp : s.phase with
  | finish => exact h
  | dead => exact h
  | linger =>
    have hd : s.phase ≠ .dead := by rw [hp]; decide
    simp only [lingerTurn]
    split
    · exact h.leave _ hd (by decide)
    · cases hc : t.clock with
      | none => exact h.leave _ hd (by decide)
      | some r =>
        simp only
        split
        · exact h.leave _ hd (by decide)
        · split
          · exact h.leave _ hd (by decide)
          · split
            · exact h
            · exact h.leave _ hd (by decide)
  | sending =>
    have hd : s.phase ≠ .dead := by rw [hp]; decide
    have hs := h.sending hp
    simp only [turn]
    split
    · exact h.leave _ hd (by decide)
    · cases hc : t.clock with
      | none => exact h.leave _ hd (by decide)
      | some r =>
        have hr := hclk r hc
        have hto := nanos_eq c.timeout.toNat c.timeout.isLt
        have hl := (C60_timespec_arith (toTimespec c.timeout.toNat) s.next hto.2 hs.2.2.2.2).2.2.1
        have hg1 := (C60_timespec_arith r.time s.next hr hs.2.2.2.2).2.1
        have hg2 := (C60_timespec_arith r.time (tsAdd (toTimespec c.timeout.toNat) s.next) hr hl.2).2.1
        rw [hl.1, hto.1, hs.2.2.2.1] at hg2
        rw [hs.2.2.2.1] at hg1
        simp only
        split
        · rename_i h1
          rw [hg1] at h1
          split
          · have hi32 : s.i < 2 ^ 32 := Nat.lt_trans hs.1 c.npackets.isLt
            have hsk := skip_canonical s.skips s.i hi32 h.canon h.bound
            refine advance_inv c ds { s with skips := skip s.skips (BitVec.ofNat 32 s.i) } hst hlen hs.1 hsk.1 hsk.2 ?_ ?_ hs.2.1 hs.2.2.1
            · intro k hk
              simp only at hk ⊢
              have hcnt := skip_count s.skips s.i hi32 h.canon h.bound k
              rcases Nat.lt_succ_iff_lt_or_eq.1 hk with hk | hk
              · rw [if_neg (by omega), Nat.add_zero] at hcnt
                rcases h.before k hk with ⟨x, a1, a2, a3, a4⟩ | ⟨a1, a2⟩
                · refine Or.inl ⟨x, a1, a2, a3, ?_⟩
                  rw [a4] at hcnt
                  exact List.eq_nil_of_length_eq_zero hcnt
                · exact Or.inr ⟨a1, by rw [hcnt]; exact a2⟩
              · subst hk
                rw [if_pos rfl, uncovered _ _ _ h.bound (Nat.le_refl _)] at hcnt
                exact Or.inr ⟨h.after hd _ (Nat.le_refl _), hcnt⟩
            · intro k hk
              exact h.after hd k (by simp only at hk; omega)
          · rename_i h2
            rw [hg2] at h2
            exact transmit_inv c ds s t r hst hlen hp h (Int.le_of_lt h1) (Int.add_comm .. ▸ Int.not_lt.1 h2)
        · split
          · exact h
          · exact h.leave _ hd (by decide)

theorem run_inv (c : Cfg) (ds : List Nat) (hst : 0 ≤ c.start.sub ∧ c.start.sub < 1000000000)
    (hlen : ds.length = c.npackets.toNat) (ts : List Tick) (s : St) (hclk : GoodClock ts) (h : Inv c ds s) :
    Inv c ds (run c s ts) := by
  induction ts generalizing s with
  | nil => exact h
  | cons t ts ih =>
    exact ih (step c s t) (fun t' ht' => hclk t' (by simp [ht']))
      (step_inv c ds s t hst hlen (hclk t (by simp)) h)

theorem init_inv (c : Cfg) (sid : Bytes) (slots : List Sched.Slot) (c0 : Sched.Ctx)
    (hc : Sched.create sid ⟨c.npackets, slots⟩ = some c0) (ops : List Sched.Op) (hn : c.npackets ≠ 0)
    (hst : 0 ≤ c.start.sub ∧ c.start.sub < 1000000000) (buf : Bytes) (stamp : TimeStamp) (ds : List Nat)
    (hds : Sched.deltas c.E c.npackets.toNat c0 = ds.map Except.ok) (hlen : ds.length = c.npackets.toNat) :
    Inv c ds (init c (Sched.run c.E c0 ops) buf stamp) := by
  have hn' : 0 < c.npackets.toNat := by
    rcases Nat.eq_zero_or_pos c.npackets.toNat with h | h
    · exact (hn (BitVec.eq_of_toNat_eq h)).elim
    · exact h
  simp only [init, C06_reset_restores c.E sid _ c0 hc ops]
  exact (prep_inv c ds _ hst hlen hn' ⟨by simp, by simp⟩ (by simp) (fun k hk => by simp at hk) (fun k _ => by simp [handed])
    (by simp [ulongToNum64, u64]) (by simpa using hds)).1

end Owamp.Sender
