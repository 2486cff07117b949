import Verif.Lemmas.Powstream
/-!
# After everything was closed, a session starts at a time that was tried since
-/
namespace Owamp.Pow

/-- What has been seen since the last session began or everything was closed. -/
def since (outs : List Out) : List Out :=
  outs.foldl (fun l o => match o with
    | .begun _ _ => []
    | .closed => []
    | o => l ++ [o]) []

theorem since_neutral (a : List Out) {o : Out} (h : Neutral o) : since (a ++ [o]) = since a ++ [o] := by
  unfold since
  rw [List.foldl_append]
  cases o with
  | closed => exact absurd rfl h.1
  | begun i t => exact absurd rfl (h.2 i t)
  | _ => rfl

theorem since_neutrals (a : List Out) : ∀ os : List Out, (∀ o ∈ os, Neutral o) → since (a ++ os) = since a ++ os := by
  intro os
  induction os generalizing a with
  | nil => intro _; simp
  | cons o os ih =>
    intro h
    rw [show a ++ o :: os = (a ++ [o]) ++ os by simp, ih _ (fun x hx => h x (List.mem_cons_of_mem _ hx)), since_neutral a (h o (List.mem_cons_self))]
    simp

theorem since_closed (a : List Out) : since (a ++ [.closed]) = [] := by unfold since; rw [List.foldl_append]; rfl

/-- The start time record `c` holds was tried since everything was closed. -/
def Tried (g : Cfg) (c : Conn) (outs : List Out) : Prop :=
  lastEnd g outs = none → c.nextSet = true → Out.tried c.nextStart ∈ since outs

/-- The sessions that began when nothing was under way. -/
def AllTried (g : Cfg) (outs : List Out) : Prop :=
  ∀ a sid st b, outs = a ++ .begun sid st :: b → lastEnd g a = none → Out.tried st ∈ since a

structure Fine (g : Cfg) (s : St) : Prop where
  all : AllTried g s.outs
  recs : ∀ i, Tried g (s.conn i) s.outs

theorem AllTried.snoc {g : Cfg} {outs : List Out} (h : AllTried g outs) {o : Out}
    (ho : ∀ sid st, o = .begun sid st → lastEnd g outs = none → Out.tried st ∈ since outs) : AllTried g (outs ++ [o]) := by
  intro a sid st b e
  rcases List.eq_nil_or_concat b with rfl | ⟨b', x, rfl⟩
  · have := List.append_inj' e rfl
    obtain ⟨rfl, h2⟩ := this
    cases h2; exact ho _ _ rfl
  · rw [show a ++ Out.begun sid st :: (b'.concat x) = (a ++ Out.begun sid st :: b') ++ [x] by simp] at e
    have := List.append_inj' e rfl
    exact h a _ _ b' this.1

theorem AllTried.neutrals {g : Cfg} {outs : List Out} (h : AllTried g outs) : ∀ {o : List Out}, (∀ x ∈ o, Neutral x) → AllTried g (outs ++ o) := by
  intro o
  induction o generalizing outs with
  | nil => intro _; rw [List.append_nil]; exact h
  | cons x o ih =>
    intro hx
    rw [show outs ++ x :: o = (outs ++ [x]) ++ o by simp]
    refine ih (h.snoc ?_) (fun y hy => hx y (List.mem_cons_of_mem _ hy))
    intro sid st hh
    exact absurd hh ((hx x List.mem_cons_self).2 _ _)

theorem Tried.out {g : Cfg} {c : Conn} {outs : List Out} (h : Tried g c outs) {o : List Out} (ho : ∀ x ∈ o, Neutral x) : Tried g c (outs ++ o) := by
  intro h1 h2
  rw [lastEnd_neutrals g outs o ho] at h1
  rw [since_neutrals outs o ho]
  exact List.mem_append.2 (Or.inl (h h1 h2))

theorem Tried.congr {g : Cfg} {c d : Conn} {outs : List Out} (h : Tried g c outs) (h1 : d.nextSet = c.nextSet) (h2 : d.nextStart = c.nextStart) : Tried g d outs := by
  intro h3; rw [h1, h2]; exact h h3

theorem Fine.out {g : Cfg} {s : St} (h : Fine g s) {o : List Out} (ho : ∀ x ∈ o, Neutral x) : Fine g (s.out o) :=
  ⟨h.all.neutrals ho, fun i => (h.recs i).out ho⟩

theorem Fine.set {g : Cfg} {s : St} (h : Fine g s) (i : Bool) {c : Conn} (hc : Tried g c s.outs) : Fine g (s.set i c) := by
  refine ⟨h.all, fun j => ?_⟩
  by_cases hj : j = i
  · rw [hj, set_same]; exact hc
  · have : (s.set i c).conn j = s.conn j := by unfold St.set; dsimp only; rw [if_neg hj]
    rw [this]; exact h.recs j

theorem one {o : Out} (h : Neutral o) : ∀ x ∈ [o], Neutral x := by
  intro x hx; rw [List.mem_singleton] at hx; rw [hx]; exact h

theorem putFiles_neutral (c : Conn) (stop : U64) (early : Bool) (w : WriteEnv) : ∀ o ∈ (putFiles c stop early w).1, Neutral o := by
  intro o ho
  unfold putFiles at ho
  by_cases h1 : w.data = .linked <;> by_cases h2 : w.data = .exits <;> by_cases h3 : w.summ = .linked <;> simp_all
  · rcases ho with rfl | rfl
    · exact neutral_data ..
    · exact neutral_whole ..
  · exact neutral_data ..
  · exact neutral_whole ..

theorem writeSession_neutral (g : Cfg) (c : Conn) (ok newend : Bool) (w : WriteEnv) :
    (∀ o ∈ (writeSession g c ok newend w).2.1, Neutral o) ∧ ∃ p, (writeSession g c ok newend w).1 = { c with pos := p } := by
  unfold writeSession
  repeat' split
  all_goals first
    | exact ⟨fun o ho => by (cases ho), c.pos, rfl⟩
    | exact ⟨fun o ho => putFiles_neutral _ _ _ _ o ho, _, rfl⟩
    | exact ⟨fun o ho => putFiles_neutral _ _ _ _ o ho, c.pos, rfl⟩

theorem reset_fine (g : Cfg) (s : St) (i : Bool) (e : CloseEnv) (h : Fine g s) : Fine g (resetSession g s i e) := by
  unfold resetSession
  dsimp only
  obtain ⟨k2, p, k3⟩ := writeSession_neutral g (s.conn i) (if (s.conn i).packets ≠ 0 ∧ (s.conn i).callStop = true ∧ (s.conn i).cntrl = true then e.accept else true) true e.write
  generalize writeSession g (s.conn i) _ true e.write = r at k2 k3
  by_cases hx : r.2.2 = true
  · rw [if_pos hx]
    have := h.out (o := r.2.1 ++ [.exited]) (by
      intro x hx
      rcases List.mem_append.1 hx with hx | hx
      · exact k2 x hx
      · exact one neutral_exited x hx)
    exact ⟨this.all, this.recs⟩
  · rw [if_neg hx]
    refine ⟨?_, ?_⟩
    · show AllTried g (s.outs ++ (r.2.1 ++ [.closed]))
      rw [← List.append_assoc]
      exact (h.all.neutrals k2).snoc (fun _ _ hh => by cases hh)
    · intro j h1 h2
      exfalso
      cases i <;> cases j <;> simp [St.set, St.out] at h2

theorem close_fine (g : Cfg) (s : St) (e : Sig) (h : Fine g s) : Fine g (closeSessions g s e) := by
  unfold closeSessions
  dsimp only
  split
  · exact reset_fine g s _ _ h
  · exact reset_fine g _ _ _ (reset_fine g s _ _ h)

theorem sig_fine (g : Cfg) (s : St) (e : Option Sig) (h : Fine g s) : Fine g (sigCheck g s e).1 := by
  cases e with
  | none => exact h
  | some e =>
    unfold sigCheck
    dsimp only
    have := close_fine g s e h
    split
    · exact this
    · split
      · have := this.out (one neutral_exited)
        exact ⟨this.all, this.recs⟩
      · exact this

theorem handOver_fine (g : Cfg) (s : St) (i : Bool) (h : Fine g s) : Fine g (handOver s i) := by
  unfold handOver
  refine h.set _ ?_
  intro h1 h2
  have h2' : (s.conn i).nextSet = true := h2
  show Out.tried (if (s.conn i).nextSet = true then _ else _) ∈ _
  rw [if_pos h2']
  exact h.recs i h1 h2'

theorem setup_fine (g : Cfg) (s : St) (i : Bool) (stop : Option U64) (e : SetupEnv) (h : Fine g s) : Fine g (setupSession g s i stop e).1 := by
  unfold setupSession
  dsimp only
  split
  · exact h
  · have h1 : Fine g (s.set i { s.conn i with cntrl := false, file := false, callStop := false, started := false }) := h.set i ((h.recs i).congr rfl rfl)
    generalize s.set i { s.conn i with cntrl := false, file := false, callStop := false, started := false } = s1 at h1
    generalize soonest g s1 e.now1 = t
    have c2 : Tried g { s1.conn i with nextSet := true, nextStart := chosen (s1.conn i) t } (s1.outs ++ [.tried t]) := by
      intro a1 _
      rw [lastEnd_neutral g _ (neutral_tried t)] at a1
      rw [since_neutral _ (neutral_tried t)]
      show Out.tried (chosen (s1.conn i) t) ∈ _
      unfold chosen
      split
      · rename_i hb
        exact List.mem_append.2 (Or.inl (h1.recs i a1 hb.1))
      · simp
    have h2 : Fine g { ((s1.set i { s1.conn i with nextSet := true, nextStart := chosen (s1.conn i) t }).out [Out.tried t]) with first := false } := by
      have h1' := h1.out (one (neutral_tried t))
      have := h1'.set i c2
      exact ⟨this.all, this.recs⟩
    generalize hs2 : ({ ((s1.set i { s1.conn i with nextSet := true, nextStart := chosen (s1.conn i) t }).out [Out.tried t]) with first := false } : St) = s2 at h2
    have n2 : (s2.conn i).nextSet = true := by rw [← hs2]; simp
    have h3 : Fine g (begin_ g s2 i e.sid) := by
      refine ⟨?_, ?_⟩
      · show AllTried g (s2.outs ++ [.begun e.sid (s2.conn i).nextStart])
        refine h2.all.snoc ?_
        intro sid st hh hl
        cases hh
        exact h2.recs i hl n2
      · intro j hl
        have : lastEnd g (s2.outs ++ [.begun e.sid (s2.conn i).nextStart]) = none := hl
        rw [lastEnd_append] at this
        cases this
    have f1 := h1.out (one neutral_failed)
    have f2 := h2.out (one neutral_failed)
    have l1 := handOver_fine g s1 i h1
    repeat' split
    all_goals first
      | exact l1
      | exact h3
      | exact f1
      | exact f2
      | exact sig_fine g _ _ h1
      | exact sig_fine g _ _ h2

theorem again_fine {g : Cfg} {s : St} (h : Fine g s) : Fine g (again s) := by
  unfold again; split
  · exact h
  · exact ⟨h.all, h.recs⟩

theorem nextSum_fine {g : Cfg} {s : St} (h : Fine g s) (sum : Nat) (last : U64) : Fine g (nextSum g s sum last) := by
  unfold nextSum; split <;> exact ⟨h.all, h.recs⟩

theorem step_fine (g : Cfg) (s : St) (e : Ev) (h : Fine g s) : Fine g (step g s e) := by
  have setc : ∀ {s : St}, Fine g s → ∀ i (c : Conn), c.nextSet = (s.conn i).nextSet → c.nextStart = (s.conn i).nextStart → Fine g (s.set i c) :=
    fun h i c h1 h2 => h.set i ((h.recs i).congr h1 h2)
  unfold step
  split
  · unfold stepNext
    dsimp only
    have h1 := sig_fine g s e.sig h
    generalize (sigCheck g s e.sig).1 = s1 at h1
    split
    · exact h1
    · have h2 : Fine g { s1 with which := !s1.which, loc := .next } := ⟨h1.all, h1.recs⟩
      generalize hi : s1.which = i at h2 ⊢
      split
      · exact again_fine (setup_fine g _ _ _ _ h2)
      · have h3 := setc h2 i { s1.conn i with curStart := (s1.conn i).nextStart, curEnd := (s1.conn i).nextEnd } rfl rfl
        have h4 : Fine g { (St.set { s1 with which := !i, loc := .next } i { s1.conn i with curStart := (s1.conn i).nextStart, curEnd := (s1.conn i).nextEnd }) with accept := true } := ⟨h3.all, h3.recs⟩
        split
        · have h5 := setup_fine g _ (!i) none e.setup h4
          split
          · exact again_fine h5
          · exact ⟨(setc h5 i _ rfl rfl).all, (setc h5 i { (setupSession g _ (!i) none e.setup).1.conn i with started := true } rfl rfl).recs⟩
        · exact ⟨h4.all, h4.recs⟩
  · unfold stepWaitAll
    dsimp only
    have h1 := setc h (!s.which) { s.conn (!s.which) with callStop := false } rfl rfl
    split
    · exact again_fine (close_fine g _ _ ⟨h1.all, h1.recs⟩)
    · have h2 : Fine g { s with accept := e.accept } := ⟨h.all, h.recs⟩
      have h3 := sig_fine g _ e.sig h2
      split
      · exact again_fine h3
      · exact h3
    · exact ⟨h1.all, h1.recs⟩
  · unfold stepSums
    dsimp only
    have h1 := sig_fine g s e.sig h
    split
    · exact again_fine h1
    · generalize (sigCheck g s e.sig).1 = s1 at h1
      have h2 := setc h1 (!s1.which) { s1.conn (!s1.which) with pos := (s1.conn (!s1.which)).pos + g.bucket } rfl rfl
      split
      · exact again_fine (setup_fine g _ _ _ _ h2)
      · exact ⟨(setup_fine g _ _ _ _ h2).all, (setup_fine g _ _ _ _ h2).recs⟩
  · unfold stepWaitSum
    dsimp only
    split
    · exact ⟨h.all, h.recs⟩
    · have h1 := setc h (!s.which) { s.conn (!s.which) with callStop := false } rfl rfl
      have h2 := setc h (!s.which) { s.conn (!s.which) with cntrl := false } rfl rfl
      split
      · exact ⟨h2.all, h2.recs⟩
      · split <;> exact ⟨h1.all, h1.recs⟩
      · exact ⟨h.all, h.recs⟩
      · have h3 : Fine g { s with accept := e.accept } := ⟨h.all, h.recs⟩
        have h4 := sig_fine g _ e.sig h3
        split
        · exact again_fine h4
        · split
          · exact h4
          · exact ⟨h4.all, h4.recs⟩
  · unfold stepCollect
    dsimp only
    have h1 := setc h (!s.which) { s.conn (!s.which) with started := true } rfl rfl
    generalize s.set (!s.which) { s.conn (!s.which) with started := true } = s1 at h1
    split
    · exact ⟨(h1.out (one neutral_crashed)).all, (h1.out (one neutral_crashed)).recs⟩
    · split
      · exact ⟨h1.all, h1.recs⟩
      · exact nextSum_fine h1 _ _
      · split
        · exact sig_fine g _ _ h1
        · exact nextSum_fine (sig_fine g _ _ h1) _ _
      · exact again_fine (sig_fine g _ _ h1)
      · split
        · exact nextSum_fine h1 _ _
        · exact ⟨h1.all, h1.recs⟩
      · exact ⟨(h1.out (one neutral_exited)).all, (h1.out (one neutral_exited)).recs⟩
      · split
        · exact nextSum_fine (h1.out (one (neutral_summ ..))) _ _
        · exact ⟨(h1.out (one (neutral_summ ..))).all, (h1.out (one (neutral_summ ..))).recs⟩
  · rename_i sum _
    unfold stepFinish
    dsimp only
    generalize hc : (if (((s.conn (!s.which)).cntrl && (s.conn (!s.which)).callStop) && !e.stops) = true then { s.conn (!s.which) with cntrl := false } else s.conn (!s.which)) = c
    have c1 : c.nextSet = (s.conn (!s.which)).nextSet ∧ c.nextStart = (s.conn (!s.which)).nextStart := by
      rw [← hc]; split <;> exact ⟨rfl, rfl⟩
    generalize (if ((s.conn (!s.which)).cntrl && (s.conn (!s.which)).callStop) = true then e.accept else s.accept) = acc
    obtain ⟨k2, p, k3⟩ := writeSession_neutral g c acc false e.write
    generalize writeSession g c acc false e.write = r at k2 k3
    split
    · have := h.out (o := r.2.1 ++ [.exited]) (by
        intro x hx
        rcases List.mem_append.1 hx with hx | hx
        · exact k2 x hx
        · exact one neutral_exited x hx)
      exact ⟨this.all, this.recs⟩
    · have h1 := (setc h (!s.which) { r.1 with packets := 0, file := false } (by rw [k3]; exact c1.1) (by rw [k3]; exact c1.2)).out k2
      have h2 : Fine g { (St.out (s.set (!s.which) { r.1 with packets := 0, file := false }) r.2.1) with loc := .next, accept := acc } := ⟨h1.all, h1.recs⟩
      split
      · exact reset_fine g _ _ _ h2
      · exact h2
  · exact h

theorem run_fine (g : Cfg) : ∀ (es : List Ev) (s : St), Fine g s → Fine g (run g s es)
  | [], _, h => h
  | e :: es, s, h => run_fine g es _ (step_fine g s e h)

theorem init_fine (g : Cfg) : Fine g init :=
  ⟨fun a _ _ b e => by (have := congrArg List.length e; simp [init] at this), fun i _ h => by (simp [init, Conn.zero] at h)⟩

end Owamp.Pow
