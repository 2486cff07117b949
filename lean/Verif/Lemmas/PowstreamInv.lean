import Verif.Lemmas.Powstream
/-! The invariant of the main loop of powstream. -/
namespace Owamp.Pow

/-- Between two sessions. -/
structure NextInv (g : Cfg) (s : St) : Prop where
  fresh : ∀ i, Fresh g (s.conn i) s.outs
  writable : ∀ i, Writable g (s.conn i) s.outs
  next : ∀ i, (s.conn i).packets = 0 → NextOk g (s.conn i) s.outs
  one : ∀ i, (s.conn i).packets ≠ 0 → (s.conn (!i)).packets = 0
  alive : ∀ i, (s.conn i).packets ≠ 0 → (s.conn i).file = true

/-- During the session of the record `!which`. -/
structure LoopInv (g : Cfg) (s : St) : Prop where
  fresh : Fresh g (s.conn s.which) s.outs
  writable : Writable g (s.conn s.which) s.outs
  next : (s.conn s.which).packets = 0 → NextOk g (s.conn s.which) s.outs
  other : (s.conn s.which).packets ≠ 0 → NextOk g (s.conn (!s.which)) s.outs
  cur : (s.conn (!s.which)).file = true → Cur g (s.conn (!s.which)) s.outs
  alive : ∀ i, (s.conn i).packets ≠ 0 → (s.conn i).file = true

/-- The first `k` packets of the session of record `c` are dealt with. -/
def Prog (g : Cfg) (c : Conn) (outs : List Out) (k : Nat) (last : U64) : Prop :=
  c.file = true → Held g c.sid outs (fun st => c.curStart = st ∧ c.pos = k ∧ last = sentAt (g.gap c.sid) 0 k)

/-- The times of a summary. -/
def Span (g : Cfg) (c : Conn) (outs : List Out) (lo hi : Nat) (start stop : U64) : Prop :=
  c.file = true → Held g c.sid outs (fun st => start = sentAt (g.gap c.sid) st lo ∧ stop = sentAt (g.gap c.sid) st hi)

theorem Prog.out {g : Cfg} {c : Conn} {outs : List Out} {k : Nat} {last : U64} (h : Prog g c outs k last) (o : List Out) : Prog g c (outs ++ o) k last :=
  fun hf => Held.out (h hf) o
theorem Span.out {g : Cfg} {c : Conn} {outs : List Out} {lo hi : Nat} {a b : U64} (h : Span g c outs lo hi a b) (o : List Out) :
    Span g c (outs ++ o) lo hi a b := fun hf => Held.out (h hf) o

def LocInv (g : Cfg) (s : St) : Loc → Prop
  | .next => NextInv g s
  | .waitAll => LoopInv g s ∧ NextOk g (s.conn (!s.which)) s.outs
  | .sums sum last => LoopInv g s ∧ (g.bucket ≠ 0 ∧ sum < g.count) ∧ Prog g (s.conn (!s.which)) s.outs (sum * g.bucket) last ∧
      (((s.conn (!s.which)).packets = 0 ∨ 0 < sum) → NextOk g (s.conn (!s.which)) s.outs)
  | .waitSum sum last start stop => LoopInv g s ∧ (g.bucket ≠ 0 ∧ sum < g.count) ∧ Prog g (s.conn (!s.which)) s.outs ((sum + 1) * g.bucket) last ∧
      Span g (s.conn (!s.which)) s.outs (sum * g.bucket) ((sum + 1) * g.bucket) start stop ∧ NextOk g (s.conn (!s.which)) s.outs
  | .collect sum last start stop => LoopInv g s ∧ (g.bucket ≠ 0 ∧ sum < g.count) ∧ Prog g (s.conn (!s.which)) s.outs ((sum + 1) * g.bucket) last ∧
      Span g (s.conn (!s.which)) s.outs (sum * g.bucket) ((sum + 1) * g.bucket) start stop ∧ NextOk g (s.conn (!s.which)) s.outs
  | .finish _ => LoopInv g s ∧ NextOk g (s.conn (!s.which)) s.outs
  | .ended => True

def Inv (g : Cfg) (s : St) : Prop := AllOk g s.outs ∧ LocInv g s s.loc

theorem init_inv (g : Cfg) : Inv g init := by
  refine ⟨AllOk.nil g, ?_, ?_, ?_, fun _ _ => rfl, fun _ h => absurd rfl h⟩
  · intro i h; exact absurd rfl h
  · intro i h; cases h
  · intro i _; exact NextOk.none _ rfl

theorem closed_next {g : Cfg} {s : St} (h : Closed g s) : NextInv g s :=
  ⟨fun i hp => absurd (h.1 i).1 hp, fun i => writable_nofile (h.1 i).2, fun _ _ => NextOk.none _ h.2, fun i _ => (h.1 (!i)).1, fun i hp => absurd (h.1 i).1 hp⟩

theorem again_closed {g : Cfg} {s : St} (ha : AllOk g s.outs) (h : s.loc = .ended ∨ Closed g s) : Inv g (again s) := by
  unfold again
  by_cases hx : s.loc = .ended
  · rw [if_pos hx]; exact ⟨ha, by rw [hx]; trivial⟩
  · rw [if_neg hx]
    rcases h with h | h
    · exact absurd h hx
    · exact ⟨ha, closed_next (s := { s with loc := .next }) h⟩

theorem bool_cases {P : Bool → Prop} (i : Bool) (h1 : P i) (h2 : P (!i)) : ∀ j, P j := by
  intro j
  cases i <;> cases j <;> assumption

theorem LoopInv.writables {g : Cfg} {s : St} (h : LoopInv g s) : ∀ i, Writable g (s.conn i) s.outs :=
  bool_cases s.which h.writable (fun hf _ => h.cur hf)

theorem count_le {g : Cfg} {sum : Nat} (h : sum < g.count) : (sum + 1) * g.bucket ≤ g.npackets := by
  have h1 : g.count ≤ g.npackets / g.bucket := by
    unfold Cfg.count Cfg.summaries
    split
    · exact Nat.zero_le _
    · split
      · exact Nat.zero_le _
      · exact Nat.le_refl _
  exact Nat.le_trans (Nat.mul_le_mul_right _ (Nat.le_trans h h1)) (Nat.div_mul_le_self _ _)

theorem count_bucket {g : Cfg} (hs : g.summaries.isSome) : g.count ≠ 0 ↔ g.bucket ≠ 0 := by
  unfold Cfg.count
  unfold Cfg.summaries at hs ⊢
  by_cases hb : g.bucket = 0
  · rw [if_pos hb]; simp [hb]
  · rw [if_neg hb] at hs ⊢
    by_cases hc : g.npackets < g.bucket ∨ g.npackets % g.bucket ≠ 0
    · rw [if_pos hc] at hs; cases hs
    · rw [if_neg hc]
      refine ⟨fun _ => hb, fun _ => ?_⟩
      show g.npackets / g.bucket ≠ 0
      have h1 : g.bucket ≤ g.npackets := by omega
      have := Nat.div_pos h1 (by omega)
      omega

theorem held_other {g : Cfg} {s s' : St} {o : List Out} {i : Bool} (h : s'.outs = s.outs ++ o) {d : Conn} (hc : Fresh g d s.outs) : Fresh g d s'.outs := by
  rw [h]; exact hc.out o

theorem next_inv (g : Cfg) (hN : 0 < g.npackets) (hs : g.summaries.isSome) (s0 : St) (e : Ev) (hl : s0.loc = .next) (h : Inv g s0) : Inv g (stepNext g s0 e) := by
  obtain ⟨ha, hi⟩ := h
  rw [hl] at hi
  have hi : NextInv g s0 := hi
  unfold stepNext
  dsimp only
  have key : AllOk g (sigCheck g s0 e.sig).1.outs ∧ ((sigCheck g s0 e.sig).1.loc = .ended ∨ NextInv g (sigCheck g s0 e.sig).1) := by
    cases hsg : e.sig with
    | none => exact ⟨ha, Or.inr hi⟩
    | some x =>
      obtain ⟨_, k1, k2⟩ := sig_ok g s0 x ha hi.writable
      exact ⟨k1, k2.imp id (fun k => closed_next k.2.2)⟩
  generalize (sigCheck g s0 e.sig).1 = s at key
  clear hi ha hl
  obtain ⟨ha, hi⟩ := key
  by_cases hx : s.loc = .ended
  · rw [if_pos hx]; exact ⟨ha, by rw [hx]; trivial⟩
  rw [if_neg hx]
  replace hi := hi.resolve_left hx
  clear hx
  generalize hw : s.which = i
  by_cases hp : (s.conn i).packets = 0
  · rw [if_pos hp]
    obtain ⟨k1, k2⟩ := setup_ok g { s with which := !i, loc := .next } (!i) none e.setup ha hi.writable (hi.next (!i))
    generalize setupSession g { s with which := !i, loc := .next } (!i) none e.setup = r at k1 k2
    cases k2 with
    | ended s' hl => exact again_closed k1 (Or.inl hl)
    | closed s' _ _ hc => exact again_closed k1 (Or.inr hc)
    | failed s' o e1 e2 e3 e4 e5 e6 e7 e8 e9 e10 =>
      unfold again
      dsimp only at k1 ⊢
      rw [if_neg (by rw [e1]; nofun)]
      simp only [Bool.not_not] at e4
      refine ⟨k1, ?_, ?_, ?_, ?_, ?_⟩
      · refine bool_cases (!i) (fun hh => absurd e5 hh) ?_
        rw [Bool.not_not]
        show Fresh g (s'.conn i) s'.outs
        rw [e4, e8]; exact (hi.fresh i).out o
      · refine bool_cases (!i) (writable_nofile e6) ?_
        rw [Bool.not_not]
        show Writable g (s'.conn i) s'.outs
        rw [e4, e8]; exact (hi.writable i).out o
      · refine bool_cases (!i) (fun _ => e7) ?_
        rw [Bool.not_not]
        intro _
        show NextOk g (s'.conn i) s'.outs
        rw [e4, e8]; exact (hi.next i hp).out e10
      · refine bool_cases (!i) (fun hh => absurd e5 hh) ?_
        simp only [Bool.not_not]
        intro _; exact e5
      · refine bool_cases (!i) (fun hh => absurd e5 hh) ?_
        rw [Bool.not_not]
        show (s'.conn i).packets ≠ 0 → (s'.conn i).file = true
        rw [e4]; exact hi.alive i
    | already hq =>
      unfold again
      dsimp only
      exact ⟨ha, hi.fresh, hi.writable, hi.next, hi.one, hi.alive⟩
    | late s' n t _ _ _ hst => exact absurd rfl hst
    | begun s' o n t e1 e2 e3 e4 e5 e6 e7 e8 e9 e10 e11 =>
      unfold again
      dsimp only at k1 ⊢
      rw [if_neg (by rw [e1]; nofun)]
      simp only [Bool.not_not] at e5 e6
      have z : (s'.conn i).packets = 0 := by rw [e5]; exact hp
      refine ⟨k1, ?_, ?_, ?_, ?_, ?_⟩
      · refine bool_cases (!i) e8 ?_
        rw [Bool.not_not]
        intro hh; exact absurd z hh
      · refine bool_cases (!i) ?_ ?_
        · intro _ hh
          have : (s'.conn (!i)).started = true := hh
          rw [e9] at this; cases this
        rw [Bool.not_not]
        show Writable g (s'.conn i) s'.outs
        rw [e5, e10]; exact (hi.writable i).out o
      · refine bool_cases (!i) ?_ ?_
        · intro hh
          have : (s'.conn (!i)).packets = 0 := hh
          rw [e7] at this; omega
        rw [Bool.not_not]
        intro _
        exact e6
      · refine bool_cases (!i) ?_ ?_
        · rw [Bool.not_not]; intro _; exact z
        · simp only [Bool.not_not]; intro hh; exact absurd z hh
      · refine bool_cases (!i) (fun _ => e11) ?_
        rw [Bool.not_not]
        intro hh; exact absurd z hh
  · rw [if_neg hp]
    generalize hs1 : ({ (({ s with which := !i, loc := .next } : St).set i { s.conn i with curStart := (s.conn i).nextStart, curEnd := (s.conn i).nextEnd }) with accept := true } : St) = s1
    have e1 : s1.conn i = { s.conn i with curStart := (s.conn i).nextStart, curEnd := (s.conn i).nextEnd } := by rw [← hs1]; simp
    have e2 : s1.conn (!i) = s.conn (!i) := by rw [← hs1]; simp
    have e3 : s1.outs = s.outs := by rw [← hs1]; rfl
    have e4 : s1.loc = .next := by rw [← hs1]; rfl
    have e5 : s1.which = !i := by rw [← hs1]; rfl
    have a1 : AllOk g s1.outs := by rw [e3]; exact ha
    have hfr := hi.fresh i hp
    have z : (s1.conn (!i)).packets = 0 := by rw [e2]; exact hi.one i hp
    have cur1 : Cur g (s1.conn i) s1.outs := by
      rw [e1, e3]
      exact Held.imp hfr (fun st hst => ⟨hst.1, hst.2.1⟩)
    have fr1 : Fresh g (s1.conn i) s1.outs := by
      intro _; rw [e1, e3]; exact hfr
    have wr1 : ∀ j, Writable g (s1.conn j) s1.outs :=
      bool_cases i (fun _ _ => cur1) (by rw [e2, e3]; exact hi.writable (!i))
    have nx1 : NextOk g (s1.conn (!i)) s1.outs := by rw [e2, e3]; exact hi.next (!i) (hi.one i hp)
    by_cases hc : g.count = 0
    · rw [if_pos hc]
      obtain ⟨k1, k2⟩ := setup_ok g s1 (!i) none e.setup a1 wr1 (fun _ => nx1)
      generalize setupSession g s1 (!i) none e.setup = r at k1 k2
      cases k2 with
      | ended s' hl => exact again_closed k1 (Or.inl hl)
      | closed s' _ _ hc => exact again_closed k1 (Or.inr hc)
      | failed s' o f1 f2 f3 f4 f5 f6 f7 f8 f9 f10 =>
        rw [if_pos rfl]
        unfold again
        dsimp only at k1 ⊢
        rw [if_neg (by rw [f1, e4]; nofun)]
        simp only [Bool.not_not] at f4
        refine ⟨k1, ?_, ?_, ?_, ?_, ?_⟩
        · refine bool_cases (!i) (fun hh => absurd f5 hh) ?_
          rw [Bool.not_not]
          show Fresh g (s'.conn i) s'.outs
          rw [f4, f8]; exact fr1.out o
        · refine bool_cases (!i) (writable_nofile f6) ?_
          rw [Bool.not_not]
          show Writable g (s'.conn i) s'.outs
          rw [f4, f8]; exact (wr1 i).out o
        · refine bool_cases (!i) (fun _ => f7) ?_
          rw [Bool.not_not]
          intro hh
          have : (s'.conn i).packets = 0 := hh
          rw [f4, e1] at this; exact absurd this hp
        · refine bool_cases (!i) (fun hh => absurd f5 hh) ?_
          simp only [Bool.not_not]
          intro _; exact f5
        · refine bool_cases (!i) (fun hh => absurd f5 hh) ?_
          rw [Bool.not_not]
          intro _
          show (s'.conn i).file = true
          rw [f4, e1]; exact hi.alive i hp
      | already hq => exact absurd z hq
      | late s' n t _ _ _ hst => exact absurd rfl hst
      | begun s' o n t f1 f2 f3 f4 f5 f6 f7 f8 f9 f10 f11 =>
        rw [if_neg (by simp)]
        simp only [Bool.not_not] at f5 f6
        have w1 : s'.which = !i := f2.trans e5
        dsimp only at k1 ⊢
        refine ⟨k1, ?_⟩
        have c1 : ({ (s'.set i { s'.conn i with started := true }) with loc := Loc.waitAll } : St).conn i = { s'.conn i with started := true } := by simp
        have c2 : ({ (s'.set i { s'.conn i with started := true }) with loc := Loc.waitAll } : St).conn (!i) = s'.conn (!i) := by simp
        have cu : Cur g { s'.conn i with started := true } s'.outs := by
          rw [f5, f10]; exact Cur.out cur1 o
        refine ⟨⟨?_, ?_, ?_, ?_, ?_, ?_⟩, ?_⟩
        · show Fresh g _ s'.outs
          rw [show ({ (s'.set i { s'.conn i with started := true }) with loc := Loc.waitAll } : St).which = !i from w1, c2]
          exact f8
        · show Writable g _ s'.outs
          rw [show ({ (s'.set i { s'.conn i with started := true }) with loc := Loc.waitAll } : St).which = !i from w1, c2]
          intro _ hh; rw [f9] at hh; cases hh
        · rw [show ({ (s'.set i { s'.conn i with started := true }) with loc := Loc.waitAll } : St).which = !i from w1, c2]
          intro hh; rw [f7] at hh; omega
        · rw [show ({ (s'.set i { s'.conn i with started := true }) with loc := Loc.waitAll } : St).which = !i from w1, Bool.not_not, c1]
          intro _; exact f6.congr rfl rfl
        · rw [show ({ (s'.set i { s'.conn i with started := true }) with loc := Loc.waitAll } : St).which = !i from w1, Bool.not_not, c1]
          exact fun _ => cu
        · refine bool_cases i ?_ ?_
          · rw [c1]; intro _; show (s'.conn i).file = true; rw [f5, e1]; exact hi.alive i hp
          · rw [c2]; intro _; exact f11
        · rw [show ({ (s'.set i { s'.conn i with started := true }) with loc := Loc.waitAll } : St).which = !i from w1, Bool.not_not, c1]
          exact f6.congr rfl rfl
    · rw [if_neg hc]
      have hb := (count_bucket hs).1 hc
      have goal : Inv g { s1 with loc := .sums 0 0 } := by
        refine ⟨a1, ⟨?_, ?_, ?_, ?_, ?_, ?_⟩, ⟨hb, by omega⟩, ?_, ?_⟩ <;> dsimp only <;> try rw [e5]
        · intro hh; exact absurd z hh
        · exact wr1 (!i)
        · intro _; exact nx1
        · intro hh; exact absurd z hh
        · rw [Bool.not_not]; exact fun _ => cur1
        · refine bool_cases i (fun _ => by rw [e1]; exact hi.alive i hp) (fun hh => absurd z hh)
        · rw [Bool.not_not]
          intro _
          refine Held.imp (R := fun st => (s1.conn i).curStart = st ∧ (s1.conn i).pos = 0) ?_ ?_
          · rw [e1, e3]; exact Held.imp hfr (fun st hst => ⟨hst.1, hst.2.2⟩)
          · intro st hst
            rw [Nat.zero_mul]
            exact ⟨hst.1, hst.2, rfl⟩
        · rw [Bool.not_not]
          intro hh
          rcases hh with hh | hh
          · rw [e1] at hh; exact absurd hh hp
          · omega
      rw [← hs1] at goal
      exact goal

/-- A step within the session that leaves the records as they are for our purposes. -/
theorem LoopInv.same {g : Cfg} {s s' : St} (h : LoopInv g s) (hw : s'.which = s.which) (ho : s'.outs = s.outs) (hq : s'.conn s.which = s.conn s.which)
    (hc : ∃ a b f p, s'.conn (!s.which) = { s.conn (!s.which) with cntrl := a, callStop := b, started := f, pos := p }) : LoopInv g s' := by
  obtain ⟨a, b, f, p, hc⟩ := hc
  refine ⟨?_, ?_, ?_, ?_, ?_, ?_⟩ <;> try rw [hw, ho]
  · rw [hq]; exact h.fresh
  · rw [hq]; exact h.writable
  · rw [hq]; exact h.next
  · rw [hq, hc]; exact fun hh => (h.other hh).congr rfl rfl
  · rw [hc]; exact h.cur
  · exact bool_cases s.which (by rw [hq]; exact h.alive _) (by rw [hc]; exact h.alive (!s.which))

theorem LoopInv.out {g : Cfg} {s s' : St} (h : LoopInv g s) (hw : s'.which = s.which) (hc : s'.conn = s.conn) {o : List Out} (ho : s'.outs = s.outs ++ o)
    (hn : ∀ x ∈ o, Neutral x) : LoopInv g s' := by
  refine ⟨?_, ?_, ?_, ?_, ?_, by rw [hc]; exact h.alive⟩ <;> rw [hw, ho, hc]
  · exact h.fresh.out o
  · exact h.writable.out o
  · exact fun hh => (h.next hh).out hn
  · exact fun hh => (h.other hh).out hn
  · exact fun hf => (h.cur hf).out o

/-- A signal, in any place of the session. -/
theorem signal_inv {g : Cfg} {s : St} (x : Sig) (ha : AllOk g s.outs) (hw : ∀ i, Writable g (s.conn i) s.outs) :
    Inv g (again (sigCheck g s (some x)).1) := by
  obtain ⟨_, k1, k2⟩ := sig_ok g s x ha hw
  exact again_closed k1 (k2.imp id (fun k => k.2.2))

theorem waitAll_inv (g : Cfg) (s : St) (e : Ev) (hl : s.loc = .waitAll) (h : Inv g s) : Inv g (stepWaitAll g s e) := by
  obtain ⟨ha, hi⟩ := h
  rw [hl] at hi
  obtain ⟨hi, hn⟩ := hi
  have done : Inv g { (s.set (!s.which) { s.conn (!s.which) with callStop := false }) with accept := e.accept, loc := .finish 0 } := by
    refine ⟨ha, hi.same rfl rfl (by simp) ⟨_, _, _, _, set_same s (!s.which) _⟩, ?_⟩
    simp only [set_which, set_same, set_outs]
    exact hn.congr rfl rfl
  unfold stepWaitAll
  dsimp only
  cases e.waits with
  | error =>
    dsimp only
    have hw1 : ∀ j, Writable g (({ (s.set (!s.which) { s.conn (!s.which) with callStop := false }) with accept := e.accept } : St).conn j) s.outs := by
      refine bool_cases (!s.which) ?_ ?_
      · simp only [set_same]
        exact fun hf _ => hi.cur hf
      · simp only [Bool.not_not, set_not']
        exact hi.writable
    obtain ⟨k1, k2⟩ := close_ok g { (s.set (!s.which) { s.conn (!s.which) with callStop := false }) with accept := e.accept } e.closing ha hw1
    exact again_closed k1 (k2.imp id (fun k => k.2.2))
  | event =>
    dsimp only
    cases e.sig with
    | none =>
      rw [if_neg (by simp [sigCheck])]
      refine ⟨ha, ?_⟩
      show LocInv g { s with accept := e.accept } s.loc
      rw [hl]
      exact ⟨hi.same rfl rfl rfl ⟨_, _, _, _, rfl⟩, hn⟩
    | some x =>
      rw [if_pos (sig_ok g { s with accept := e.accept } x ha hi.writables).1]
      exact signal_inv (s := { s with accept := e.accept }) x ha hi.writables
  | over => exact done
  | timeUp => exact done

theorem sums_inv (g : Cfg) (hN : 0 < g.npackets) (s0 : St) (sum : Nat) (last : U64) (e : Ev) (hl : s0.loc = .sums sum last) (h : Inv g s0) : Inv g (stepSums g s0 sum last e) := by
  obtain ⟨ha, hi⟩ := h
  rw [hl] at hi
  obtain ⟨hi, hb, hp, hn⟩ := hi
  unfold stepSums
  dsimp only
  cases hsg : e.sig with
  | some x =>
    rw [if_pos (sig_ok g s0 x ha hi.writables).1]
    exact signal_inv x ha hi.writables
  | none =>
    rw [show sigCheck g s0 none = (s0, false) from rfl, if_neg (by simp)]
    dsimp only
    generalize hlast : walk (g.gap (s0.conn (!s0.which)).sid) (s0.conn (!s0.which)).pos g.bucket last = last'
    generalize hs1 : s0.set (!s0.which) { s0.conn (!s0.which) with pos := (s0.conn (!s0.which)).pos + g.bucket } = s1
    have e1 : s1.conn (!s0.which) = { s0.conn (!s0.which) with pos := (s0.conn (!s0.which)).pos + g.bucket } := by rw [← hs1]; simp
    have e2 : s1.conn s0.which = s0.conn s0.which := by rw [← hs1]; simp
    have e3 : s1.outs = s0.outs := by rw [← hs1]; rfl
    have e4 : s1.loc = .sums sum last := by rw [← hs1]; exact hl
    have e5 : s1.which = s0.which := by rw [← hs1]; rfl
    have a1 : AllOk g s1.outs := by rw [e3]; exact ha
    have l1 : LoopInv g s1 := hi.same e5 e3 (e2) ⟨_, _, _, _, e1⟩
    have p1 : Prog g (s1.conn (!s0.which)) s1.outs ((sum + 1) * g.bucket) last' := by
      rw [e1, e3]
      intro hf
      refine Held.imp (hp hf) ?_
      rintro st ⟨q1, q2, q3⟩
      refine ⟨q1, ?_, ?_⟩
      · show (s0.conn (!s0.which)).pos + g.bucket = _
        rw [q2, Nat.add_mul, Nat.one_mul]
      · rw [← hlast, q2, q3, walk_sentAt, Nat.add_mul, Nat.one_mul]
    have sp1 : Span g (s1.conn (!s0.which)) s1.outs (sum * g.bucket) ((sum + 1) * g.bucket) ((s0.conn (!s0.which)).curStart + last) ((s0.conn (!s0.which)).curStart + last') := by
      rw [e1, e3]
      intro hf
      refine Held.imp (hp hf) ?_
      rintro st ⟨q1, q2, q3⟩
      refine ⟨?_, ?_⟩
      · rw [q1, q3, add_zero_sentAt]
      · rw [← hlast, q2, q3, walk_sentAt, q1, add_zero_sentAt, Nat.add_mul, Nat.one_mul]
    obtain ⟨k1, k2⟩ := setup_ok g s1 s1.which (some ((s0.conn (!s0.which)).curStart + last' + (g.loss + seconds g.iotime))) e.setup a1 l1.writables l1.next
    generalize setupSession g s1 s1.which (some ((s0.conn (!s0.which)).curStart + last' + (g.loss + seconds g.iotime))) e.setup = r at k1 k2
    rw [e5] at k2
    have lw : LoopInv g s1 := l1
    cases k2 with
    | ended s' hl => exact again_closed k1 (Or.inl hl)
    | closed s' _ _ hc => exact again_closed k1 (Or.inr hc)
    | failed s' o f1 f2 f3 f4 f5 f6 f7 f8 f9 f10 =>
      rw [if_pos rfl]
      unfold again
      dsimp only at k1 ⊢
      rw [if_neg (by rw [f1, e4]; nofun)]
      have cu := l1.cur
      rw [e5] at cu
      refine ⟨k1, ?_, ?_, ?_, ?_, ?_⟩
      · refine bool_cases s0.which (fun hh => absurd f5 hh) ?_
        show Fresh g (s'.conn (!s0.which)) s'.outs
        rw [f4, f8]
        exact fun hh => Held.taint (cu (by have := l1.alive (!s0.which) hh; exact this)) o f9 hb.1 _
      · refine bool_cases s0.which (writable_nofile f6) ?_
        show Writable g (s'.conn (!s0.which)) s'.outs
        rw [f4, f8]; exact fun hf _ => (cu hf).out o
      · refine bool_cases s0.which (fun _ => f7) ?_
        intro hh
        have hh' : (s'.conn (!s0.which)).packets = 0 := hh
        show NextOk g (s'.conn (!s0.which)) s'.outs
        rw [f4, e1] at hh'
        rw [f4, f8, e1, e3]
        exact NextOk.out ((hn (Or.inl hh')).congr rfl rfl) f10
      · refine bool_cases s0.which (fun hh => absurd f5 hh) ?_
        rw [Bool.not_not]
        intro _; exact f5
      · refine bool_cases s0.which (fun hh => absurd f5 hh) ?_
        show (s'.conn (!s0.which)).packets ≠ 0 → (s'.conn (!s0.which)).file = true
        rw [f4]; exact l1.alive _
    | already hq =>
      rw [if_neg (by simp)]
      refine ⟨a1, ?_⟩
      show LocInv g { s1 with loc := .waitSum sum last' ((s0.conn (!s0.which)).curStart + last) ((s0.conn (!s0.which)).curStart + last') } (.waitSum _ _ _ _)
      refine ⟨l1.same rfl rfl rfl ⟨_, _, _, _, rfl⟩, hb, ?_, ?_, ?_⟩ <;> dsimp only <;> rw [e5]
      · exact p1
      · exact sp1
      · have := l1.other (by rw [e5]; exact hq)
        rw [e5] at this; exact this
    | late s' n t f1 f2 f3 hst f4 f5 f6 f7 f8 f9 f10 =>
      rw [if_neg (by simp)]
      have w1 : s'.which = s0.which := f2.trans e5
      refine ⟨k1, ?_⟩
      show LocInv g { s' with loc := .waitSum sum last' ((s0.conn (!s0.which)).curStart + last) ((s0.conn (!s0.which)).curStart + last') } (.waitSum _ _ _ _)
      refine ⟨⟨?_, ?_, ?_, ?_, ?_, ?_⟩, hb, ?_, ?_, ?_⟩ <;> dsimp only <;> try rw [w1]
      · exact fun hh => absurd f7 hh
      · exact writable_nofile f8
      · exact fun _ => f9
      · exact fun hh => absurd f7 hh
      · rw [f5, f10]; have := l1.cur; rw [e5] at this; exact this
      · exact bool_cases s0.which (fun hh => absurd f7 hh) (by rw [f5]; exact l1.alive (!s0.which))
      · rw [f5, f10]; exact p1
      · rw [f5, f10]; exact sp1
      · exact f6
    | begun s' o n t f1 f2 f3 f4 f5 f6 f7 f8 f9 f10 f11 =>
      rw [if_neg (by simp)]
      have w1 : s'.which = s0.which := f2.trans e5
      refine ⟨k1, ?_⟩
      show LocInv g { s' with loc := .waitSum sum last' ((s0.conn (!s0.which)).curStart + last) ((s0.conn (!s0.which)).curStart + last') } (.waitSum _ _ _ _)
      refine ⟨⟨?_, ?_, ?_, ?_, ?_, ?_⟩, hb, ?_, ?_, ?_⟩ <;> dsimp only <;> try rw [w1]
      · exact f8
      · intro _ hh; rw [f9] at hh; cases hh
      · intro hh; rw [f7] at hh; omega
      · exact fun _ => f6
      · rw [f5, f10]; have := l1.cur; rw [e5] at this; exact fun hf => (this hf).out o
      · exact bool_cases s0.which (fun _ => f11) (by rw [f5]; exact l1.alive (!s0.which))
      · rw [f5, f10]; exact p1.out o
      · rw [f5, f10]; exact sp1.out o
      · exact f6

theorem waitSum_inv (g : Cfg) (s : St) (sum : Nat) (last start stop : U64) (e : Ev) (hl : s.loc = .waitSum sum last start stop) (h : Inv g s) :
    Inv g (stepWaitSum g s sum last start stop e) := by
  obtain ⟨ha, hi⟩ := h
  rw [hl] at hi
  obtain ⟨hi, hb, hp, hsp, hn⟩ := hi
  have collects : ∀ (a b ok : Bool), Inv g { (s.set (!s.which) { s.conn (!s.which) with cntrl := a, callStop := b }) with accept := ok, loc := .collect sum last start stop } := by
    intro a b ok
    refine ⟨ha, hi.same rfl rfl (by simp) ⟨_, _, _, _, set_same s (!s.which) _⟩, hb, ?_, ?_, ?_⟩ <;> simp only [set_which, set_same, set_outs]
    · exact hp
    · exact hsp
    · exact hn.congr rfl rfl
  have finishes : ∀ (a b ok : Bool), Inv g { (s.set (!s.which) { s.conn (!s.which) with cntrl := a, callStop := b }) with accept := ok, loc := .finish sum } := by
    intro a b ok
    refine ⟨ha, hi.same rfl rfl (by simp) ⟨_, _, _, _, set_same s (!s.which) _⟩, ?_⟩
    simp only [set_which, set_same, set_outs]
    exact hn.congr rfl rfl
  have plain : ∀ ok : Bool, Inv g { s with accept := ok, loc := .collect sum last start stop } := fun ok =>
    ⟨ha, hi.same rfl rfl rfl ⟨_, _, _, _, rfl⟩, hb, hp, hsp, hn⟩
  unfold stepWaitSum
  dsimp only
  by_cases hcs : (s.conn (!s.which)).callStop = false
  · rw [if_pos hcs]; exact plain s.accept
  · rw [if_neg hcs]
    cases e.waits with
    | error => exact finishes false _ e.accept
    | over =>
      dsimp only
      cases e.accept with
      | true => exact collects _ false true
      | false => exact finishes _ false false
    | timeUp => exact plain e.accept
    | event =>
      dsimp only
      cases e.sig with
      | some x =>
        rw [if_pos (sig_ok g { s with accept := e.accept } x ha hi.writables).1]
        exact signal_inv (s := { s with accept := e.accept }) x ha hi.writables
      | none =>
        rw [if_neg (by simp [sigCheck])]
        cases e.active with
        | false => exact plain e.accept
        | true =>
          refine ⟨ha, ?_⟩
          show LocInv g { s with accept := e.accept } s.loc
          rw [hl]
          exact ⟨hi.same rfl rfl rfl ⟨_, _, _, _, rfl⟩, hb, hp, hsp, hn⟩

theorem nextSum_inv (g : Cfg) (s : St) (sum : Nat) (last : U64) (ha : AllOk g s.outs) (hi : LoopInv g s) (hb : g.bucket ≠ 0 ∧ sum < g.count)
    (hp : Prog g (s.conn (!s.which)) s.outs ((sum + 1) * g.bucket) last) (hn : NextOk g (s.conn (!s.which)) s.outs) : Inv g (nextSum g s sum last) := by
  unfold nextSum
  split
  · exact ⟨ha, hi.same rfl rfl rfl ⟨_, _, _, _, rfl⟩, ⟨hb.1, by assumption⟩, hp, fun _ => hn⟩
  · exact ⟨ha, hi.same rfl rfl rfl ⟨_, _, _, _, rfl⟩, hn⟩

theorem collect_inv (g : Cfg) (s0 : St) (sum : Nat) (last start stop : U64) (e : Ev) (hl : s0.loc = .collect sum last start stop) (h : Inv g s0) :
    Inv g (stepCollect g s0 sum last start stop e) := by
  obtain ⟨ha, hi⟩ := h
  rw [hl] at hi
  obtain ⟨hi, hb, hp, hsp, hn⟩ := hi
  unfold stepCollect
  dsimp only
  generalize hs1 : s0.set (!s0.which) { s0.conn (!s0.which) with started := true } = s
  have e1 : s.conn (!s0.which) = { s0.conn (!s0.which) with started := true } := by rw [← hs1]; simp
  have e2 : s.conn s0.which = s0.conn s0.which := by rw [← hs1]; simp
  have e3 : s.outs = s0.outs := by rw [← hs1]; rfl
  have e5 : s.which = s0.which := by rw [← hs1]; rfl
  have l1 : LoopInv g s := hi.same e5 e3 e2 ⟨_, _, _, _, e1⟩
  have a1 : AllOk g s.outs := by rw [e3]; exact ha
  have p1 : Prog g (s.conn (!s.which)) s.outs ((sum + 1) * g.bucket) last := by rw [e5, e1, e3]; exact hp
  have sp1 : Span g (s.conn (!s.which)) s.outs (sum * g.bucket) ((sum + 1) * g.bucket) start stop := by rw [e5, e1, e3]; exact hsp
  have n1 : NextOk g (s.conn (!s.which)) s.outs := by rw [e5, e1, e3]; exact hn.congr rfl rfl
  rw [← e5]
  have finishes : Inv g { s with loc := .finish sum } := ⟨a1, l1.same rfl rfl rfl ⟨_, _, _, _, rfl⟩, n1⟩
  by_cases hf : (s.conn (!s.which)).file = false
  · rw [if_pos hf]; exact ⟨a1.snoc trivial, trivial⟩
  rw [if_neg hf]
  have hft : (s.conn (!s.which)).file = true := by cases h : (s.conn (!s.which)).file <;> simp_all
  cases e.collected with
  | giveUp => exact finishes
  | skip => exact nextSum_inv g s sum last a1 l1 hb p1 n1
  | skipSignal x =>
    dsimp only
    obtain ⟨_, k1, k2⟩ := sig_ok g s x a1 l1.writables
    generalize (sigCheck g s (some x)).1 = s2 at k1 k2
    by_cases hx : s2.loc = .ended
    · rw [if_pos hx]; exact ⟨k1, by rw [hx]; trivial⟩
    · rw [if_neg hx]
      obtain ⟨c1, c2, c3⟩ := k2.resolve_left hx
      have nf : ∀ i, (s2.conn i).file ≠ true := fun i => by rw [(c3.1 i).2]; nofun
      refine nextSum_inv g s2 sum last k1 ⟨?_, ?_, ?_, ?_, ?_, ?_⟩ hb ?_ ?_
      · exact fun hh => absurd (c3.1 _).1 hh
      · exact writable_nofile (c3.1 _).2
      · exact fun _ => NextOk.none _ c3.2
      · exact fun hh => absurd (c3.1 _).1 hh
      · exact fun hh => absurd hh (nf _)
      · exact fun i hh => absurd (c3.1 _).1 hh
      · exact fun hh => absurd hh (nf _)
      · exact NextOk.none _ c3.2
  | signal x => exact signal_inv x a1 l1.writables
  | noFile =>
    dsimp only
    split
    · exact nextSum_inv g s sum last a1 l1 hb p1 n1
    · exact finishes
  | exits => exact ⟨a1.snoc trivial, trivial⟩
  | wrote =>
    dsimp only
    have claim : Claim g s.outs (.summ (s.conn (!s.which)).sid start stop (sum * g.bucket) ((sum + 1) * g.bucket)) :=
      ⟨by rw [Nat.add_mul, Nat.one_mul], ⟨sum, Nat.mul_comm _ _⟩, count_le hb.2, sp1 hft⟩
    have a2 := a1.snoc claim
    have neu : ∀ x ∈ [Out.summ (s.conn (!s.which)).sid start stop (sum * g.bucket) ((sum + 1) * g.bucket)], Neutral x := by
      intro x hx; rw [List.mem_singleton] at hx; rw [hx]; exact neutral_summ ..
    split
    · exact nextSum_inv g (s.out _) sum last a2 (l1.out (s' := s.out _) rfl rfl rfl neu) hb (p1.out _) (n1.out neu)
    · exact ⟨a2, l1.out (s' := { (s.out _) with loc := .finish sum }) rfl rfl rfl neu, n1.out neu⟩

theorem finish_inv (g : Cfg) (s : St) (sum : Nat) (e : Ev) (hl : s.loc = .finish sum) (h : Inv g s) : Inv g (stepFinish g s sum e) := by
  obtain ⟨ha, hi⟩ := h
  rw [hl] at hi
  obtain ⟨hi, hn⟩ := hi
  unfold stepFinish
  dsimp only
  generalize hpp : (if ((s.conn (!s.which)).cntrl && (s.conn (!s.which)).callStop && !e.stops) = true then { s.conn (!s.which) with cntrl := false } else s.conn (!s.which)) = p
  generalize (if ((s.conn (!s.which)).cntrl && (s.conn (!s.which)).callStop) = true then e.accept else s.accept) = ok
  have hp : ∃ a, p = { s.conn (!s.which) with cntrl := a } := by
    rw [← hpp]
    split
    · exact ⟨_, rfl⟩
    · exact ⟨(s.conn (!s.which)).cntrl, rfl⟩
  obtain ⟨a, hp⟩ := hp
  have hw : Writable g p s.outs := by rw [hp]; exact fun hf _ => hi.cur hf
  obtain ⟨k1, k2, q, k3⟩ := writeSession_ok g p ok false e.write s.outs ha hw
  generalize writeSession g p ok false e.write = r at k1 k2 k3
  by_cases hx : r.2.2 = true
  · rw [if_pos hx]
    refine ⟨?_, trivial⟩
    show AllOk g (s.outs ++ (r.2.1 ++ [Out.exited]))
    rw [← List.append_assoc]
    exact k1.snoc trivial
  rw [if_neg hx]
  generalize hs1 : ({ ((s.set (!s.which) { r.1 with packets := 0, file := false }).out r.2.1) with loc := .next, accept := ok } : St) = s1
  have e1 : s1.conn (!s.which) = { r.1 with packets := 0, file := false } := by rw [← hs1]; simp
  have e2 : s1.conn s.which = s.conn s.which := by rw [← hs1]; simp
  have e3 : s1.outs = s.outs ++ r.2.1 := by rw [← hs1]; rfl
  have e4 : s1.loc = .next := by rw [← hs1]
  have e5 : s1.which = s.which := by rw [← hs1]; rfl
  have z : (s1.conn (!s.which)).packets = 0 := by rw [e1]
  have zf : (s1.conn (!s.which)).file = false := by rw [e1]
  have a1 : AllOk g s1.outs := by rw [e3]; exact k1
  have w1 : Writable g (s1.conn s.which) s1.outs := by rw [e2, e3]; exact hi.writable.out _
  by_cases hc : sum < g.count
  · rw [if_pos hc]
    show Inv g (resetSession g s1 s.which e.reset)
    obtain ⟨b1, b2⟩ := reset_ok g s1 s.which e.reset a1 w1
    generalize resetSession g s1 s.which e.reset = s2 at b1 b2
    rcases b2 with b2 | ⟨c1, c2, c3, c4, c5, c6, _⟩
    · exact ⟨b1, by rw [b2]; trivial⟩
    · refine ⟨b1, ?_⟩
      rw [c1, e4]
      refine closed_next ⟨bool_cases s.which ⟨c3, c4⟩ ?_, c6⟩
      rw [c5]; exact ⟨z, zf⟩
  · rw [if_neg hc]
    refine ⟨a1, ?_⟩
    rw [e4]
    refine ⟨bool_cases s.which ?_ ?_, bool_cases s.which w1 (writable_nofile zf), bool_cases s.which ?_ ?_, bool_cases s.which ?_ ?_, bool_cases s.which ?_ ?_⟩
    · rw [e2, e3]; exact hi.fresh.out _
    · exact fun hh => absurd z hh
    · rw [e2, e3]; exact fun hh => (hi.next hh).out k2
    · intro _
      rw [e1, e3]
      refine NextOk.out (hn.congr ?_ ?_) k2
      · show r.1.nextSet = _; rw [k3, hp]
      · show r.1.nextStart = _; rw [k3, hp]
    · exact fun _ => z
    · exact fun hh => absurd z hh
    · rw [e2]; exact hi.alive _
    · exact fun hh => absurd z hh

theorem step_inv (g : Cfg) (hN : 0 < g.npackets) (hs : g.summaries.isSome) (s : St) (e : Ev) (h : Inv g s) : Inv g (step g s e) := by
  unfold step
  split
  · exact next_inv g hN hs s e (by assumption) h
  · exact waitAll_inv g s e (by assumption) h
  · exact sums_inv g hN s _ _ e (by assumption) h
  · exact waitSum_inv g s _ _ _ _ e (by assumption) h
  · exact collect_inv g s _ _ _ _ e (by assumption) h
  · exact finish_inv g s _ e (by assumption) h
  · exact h

theorem run_inv (g : Cfg) (hN : 0 < g.npackets) (hs : g.summaries.isSome) : ∀ (es : List Ev) (s : St), Inv g s → Inv g (run g s es)
  | [], _, h => h
  | e :: es, s, h => run_inv g hN hs es _ (step_inv g hN hs s e h)

end Owamp.Pow
