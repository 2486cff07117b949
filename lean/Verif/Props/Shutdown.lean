import Verif.Spec.Shutdown
/-!
# C82, C83: one server at a time; a server that is told to end ends
-/
namespace Owamp.Props
open Owamp.Shutdown Owamp.Spec.Shutdown

/-! ## C82 -/

/-- What holds while no server detaches itself. -/
structure Alone (w : World) : Prop where
  attached : ∀ p, w.phase p ≠ .begin_ true ∧ w.phase p ≠ .locked true ∧ ∀ q, w.phase p ≠ .parent q
  locked : ∀ p, w.phase p = .locked false ∨ w.phase p = .binding ∨ w.phase p = .serving → w.lock = some p
  named : ∀ p, w.phase p = .binding ∨ w.phase p = .serving → w.file = some p

theorem alone_gone {w : World} (h : Alone w) (p : Nat) : Alone (gone w p) := by
  refine ⟨fun i => ?_, fun i hi => ?_, fun i hi => ?_⟩
  · dsimp only [gone]
    by_cases e : i = p
    · rw [if_pos e]; exact ⟨nofun, nofun, nofun⟩
    · rw [if_neg e]; exact h.attached i
  · dsimp only [gone] at hi ⊢
    by_cases e : i = p
    · rw [if_pos e] at hi; rcases hi with hi | hi | hi <;> cases hi
    · rw [if_neg e] at hi
      have := h.locked i hi
      rw [if_neg (by rw [this]; simpa using e)]; exact this
  · dsimp only [gone] at hi ⊢
    by_cases e : i = p
    · rw [if_pos e] at hi; rcases hi with hi | hi <;> cases hi
    · rw [if_neg e] at hi; exact h.named i hi

theorem alone_act {w w' : World} {a : Act} (h : Alone w) (ha : act w a = some w') (hd : ∀ p, a ≠ .start p true) : Alone w' := by
  cases a with
  | start p d =>
    cases d with
    | true => exact absurd rfl (hd p)
    | false =>
      dsimp only [act] at ha
      split at ha
      · cases ha
        refine ⟨fun i => ?_, fun i hi => ?_, fun i hi => ?_⟩ <;> dsimp only [setPhase] at * <;> by_cases e : i = p
        · rw [if_pos e]; exact ⟨nofun, nofun, nofun⟩
        · rw [if_neg e]; exact h.attached i
        · rw [if_pos e] at hi; rcases hi with hi | hi | hi <;> cases hi
        · rw [if_neg e] at hi; exact h.locked i hi
        · rw [if_pos e] at hi; rcases hi with hi | hi <;> cases hi
        · rw [if_neg e] at hi; exact h.named i hi
      · cases ha
  | lock p =>
    dsimp only [act] at ha
    split at ha
    · rename_i d hp
      split at ha
      · rename_i hl
        cases ha
        have hdf : d = false := by
          cases d with
          | false => rfl
          | true => exact absurd hp (h.attached p).1
        subst hdf
        refine ⟨fun i => ?_, fun i hi => ?_, fun i hi => ?_⟩ <;> dsimp only [setPhase] at * <;> by_cases e : i = p
        · rw [if_pos e]; exact ⟨nofun, nofun, nofun⟩
        · rw [if_neg e]; exact h.attached i
        · rw [e]
        · rw [if_neg e] at hi; have := h.locked i hi; rw [hl] at this; cases this
        · rw [if_pos e] at hi; rcases hi with hi | hi <;> cases hi
        · rw [if_neg e] at hi; exact h.named i hi
      · cases ha; exact alone_gone h p
    · cases ha
  | fork p q =>
    dsimp only [act] at ha
    split at ha
    · rename_i hp
      exact absurd hp (h.attached p).2.1
    · cases ha
  | record p =>
    dsimp only [act] at ha
    split at ha
    · rename_i q hp
      exact absurd hp ((h.attached p).2.2 q)
    · rename_i hp
      cases ha
      have hl := h.locked p (Or.inl hp)
      refine ⟨fun i => ?_, fun i hi => ?_, fun i hi => ?_⟩ <;> dsimp only [setPhase] at * <;> by_cases e : i = p
      · rw [if_pos e]; exact ⟨nofun, nofun, nofun⟩
      · rw [if_neg e]; exact h.attached i
      · rw [e]; exact hl
      · rw [if_neg e] at hi; exact h.locked i hi
      · rw [e]
      · rw [if_neg e] at hi
        have := h.locked i (Or.inr hi)
        rw [hl] at this
        exact absurd (Option.some.inj this).symm e
    · cases ha
  | bind p a =>
    dsimp only [act] at ha
    split at ha
    · rename_i hp
      split at ha
      · cases ha
        refine ⟨fun i => ?_, fun i hi => ?_, fun i hi => ?_⟩ <;> dsimp only [setPhase] at * <;> by_cases e : i = p
        · rw [if_pos e]; exact ⟨nofun, nofun, nofun⟩
        · rw [if_neg e]; exact h.attached i
        · rw [e]; exact h.locked p (Or.inr (Or.inl hp))
        · rw [if_neg e] at hi; exact h.locked i hi
        · rw [e]; exact h.named p (Or.inl hp)
        · rw [if_neg e] at hi; exact h.named i hi
      · cases ha; exact alone_gone h p
    · cases ha
  | die p => cases ha; exact alone_gone h p

theorem alone_leads {w w' : World} {l : List Act} (h : Leads w w' l) : Alone w → (∀ p, .start p true ∉ l) → Alone w' := by
  induction h with
  | nil w => exact fun h _ => h
  | @cons w w1 w2 a l ha _ ih =>
    intro hw hd
    exact ih (alone_act hw ha fun p e => hd p (by rw [e]; exact List.mem_cons_self)) fun p hp => hd p (List.mem_cons_of_mem _ hp)

theorem alone_empty : Alone empty := by
  refine ⟨fun _ => ⟨nofun, nofun, nofun⟩, fun _ h => ?_, fun _ h => ?_⟩
  · rcases h with h | h | h <;> cases h
  · rcases h with h | h <;> cases h

/-- C82: of the servers started with the same directory for the process file, whenever they are started, and whenever they die, never two serve at once; and while one serves, the file has its
number. Missing: servers that detach themselves, i.e. without -Z (`C82_two`, `C82_stale`). -/
theorem C82_one_partial (w : World) (l : List Act) (h : Leads empty w l) (hd : ∀ p, .start p true ∉ l) :
    (∀ p q, Serves w p → Serves w q → p = q) ∧ ∀ p, Serves w p → w.file = some p := by
  have hw := alone_leads h alone_empty hd
  refine ⟨fun p q hp hq => ?_, fun p hp => hw.named p (Or.inr hp)⟩
  have h1 := hw.locked p (Or.inr (Or.inr hp))
  have h2 := hw.locked q (Or.inr (Or.inr hq))
  rw [h1] at h2
  exact Option.some.inj h2

/-- The actions one after the other. -/
def acts (w : World) : List Act → Option World
  | [] => some w
  | a :: l => (act w a).bind fun w => acts w l

theorem acts_leads {l : List Act} {w w' : World} (h : acts w l = some w') : Leads w w' l := by
  induction l generalizing w with
  | nil => cases h; exact .nil _
  | cons a l ih =>
    dsimp only [acts] at h
    cases ha : act w a with
    | none => rw [ha] at h; cases h
    | some w1 => rw [ha] at h; exact .cons ha (ih h)

theorem acts_some {l : List Act} {w : World} (h : (acts w l).isSome = true) : ∃ w', acts w l = some w' := Option.isSome_iff_exists.1 h

/-- Non-vacuity of C82: with -Z, the second server does not come up while the first serves, and serves after it has died. -/
example : ∃ w l, Leads empty w l ∧ (∀ p, .start p true ∉ l) ∧ Serves w 2 ∧ ¬ Serves w 1 ∧ w.phase 3 = .gone ∧ w.file = some 2 :=
  ⟨_, [.start 1 false, .lock 1, .start 3 false, .record 1, .bind 1 7, .lock 3, .die 1, .start 2 false, .lock 2, .record 2, .bind 2 7], acts_leads rfl, by simp, rfl, nofun, rfl, rfl⟩

/-- C82 fails for servers that detach themselves: the process that has the lock exits once it has written the number of its child, and with it the lock is gone; a second server, for another
address, comes up and serves together with the first, and the file names only the second. -/
theorem C82_two : ∃ w l, Leads empty w l ∧ Serves w 2 ∧ Serves w 4 ∧ w.file = some 4 ∧ w.lock = none :=
  ⟨_, [.start 1 true, .lock 1, .fork 1 2, .record 1, .bind 2 7, .start 3 true, .lock 3, .fork 3 4, .record 3, .bind 4 8], acts_leads rfl, rfl, rfl, rfl, rfl⟩

/-- C82 fails even when the second server is for the same address: it does not come up, but the file has then the number of a process that is gone, while the first goes on serving. -/
theorem C82_stale : ∃ w l, Leads empty w l ∧ Serves w 2 ∧ w.file = some 4 ∧ w.phase 4 = .gone :=
  ⟨_, [.start 1 true, .lock 1, .fork 1 2, .record 1, .bind 2 7, .start 3 true, .lock 3, .fork 3 4, .record 3, .bind 4 7], acts_leads rfl, rfl, rfl, rfl⟩

/-! ## C83 -/

theorem downRun_cons (s : State) (e : Event) (l : List Event) : run s (e :: l) = run (apply s e) l := rfl

/-- A set of states that no event leaves and in which every step of the daemon lowers a number until it is 0: after as many steps it is 0. -/
theorem downRun_measure {P : State → Prop} {m : State → Nat} (hP : ∀ s e, P s → P (apply s e)) (hm : ∀ s e, P s → m (apply s e) ≤ m s)
    (hs : ∀ s, P s → 0 < m s → m (apply s .step) < m s) (l : List Event) : ∀ s, P s → m s ≤ steps l → P (run s l) ∧ m (run s l) = 0 := by
  induction l with
  | nil => intro s h1 h2; exact ⟨h1, Nat.le_zero.1 h2⟩
  | cons e l ih =>
    intro s h1 h2
    rw [downRun_cons]
    refine ih _ (hP s e h1) ?_
    by_cases he : e = .step
    · subst he
      have : steps (.step :: l) = steps l + 1 := by simp [steps]
      by_cases h0 : 0 < m s
      · have := hs s h1 h0; omega
      · have := hm s .step h1; omega
    · have : steps (e :: l) = steps l := by simp [steps, he]
      have := hm s e h1
      omega

/-- How far the main loop is from its end when `owpd_exit` is set. -/
def toLeave (s : State) : Nat :=
  match s.point with
  | .top | .back | .done => 1
  | .work _ | .clear .loop => 2
  | .wait .loop => 3 + children s
  | .reap .loop => 4 + children s
  | .toPoll | .polling => 5
  | _ => 0

def Leaving (s : State) : Prop := s.exit = true ∧ s.point ≠ .toPoll ∧ s.point ≠ .polling

theorem toLeave_down {s : State} (h : Leaving s) (h0 : toLeave s = 0) : Down s := by
  obtain ⟨_, h1, h2⟩ := h
  unfold toLeave at h0
  unfold Down
  split at h0 <;> rename_i hp <;> first | omega | skip
  split <;> first | trivial | skip
  rename_i hq
  cases hp' : s.point with
  | work c => rename_i hw _ _ _ _ _ _ _ _ _ _ _ _ _ _ _; simp_all
  | reap f => cases f <;> simp_all
  | wait f => cases f <;> simp_all
  | clear f => cases f <;> simp_all
  | _ => simp_all

theorem leaving_apply (s : State) (e : Event) (h : Leaving s) : Leaving (apply s e) ∧ toLeave (apply s e) ≤ toLeave s ∧ (0 < toLeave s → e = .step → toLeave (apply s e) < toLeave s) := by
  obtain ⟨dieby, point, exit, alrm, chld, armed, running, zombies, termed, killed⟩ := s
  obtain ⟨h1, h2, h3⟩ := h
  dsimp only at h1 h2 h3
  subst h1
  cases point with
  | toPoll => exact absurd rfl h2
  | polling => exact absurd rfl h3
  | reap f =>
    cases f <;> cases e <;> simp [apply, step, Leaving, toLeave, children, woken] <;> (repeat' split) <;> simp_all <;> omega
  | wait f =>
    cases f <;> cases e <;> simp [apply, step, Leaving, toLeave, children, woken] <;> (repeat' split) <;> simp_all <;> omega
  | clear f =>
    cases f <;> cases e <;> simp [apply, step, Leaving, toLeave, children, woken] <;> (repeat' split) <;> simp_all
  | _ =>
    cases e <;> simp [apply, step, Leaving, toLeave, children, woken] <;> (repeat' split) <;> simp_all

theorem ended_run (l : List Event) : ∀ s : State, s.point = .ended → run s l = s := by
  induction l with
  | nil => intro s _; rfl
  | cons e l ih =>
    intro s he
    have : apply s e = s := by cases e <;> simp [apply, step, he]
    rw [downRun_cons, this, ih s he]

/-- C83: a server that gets a signal to end leaves its main loop, and accepts no more connections, within a number of steps bounded by the number of its children, whatever happens meanwhile. Missing:
a signal that comes between the test for such signals and `poll` (`C83_unnoticed`). -/
theorem C83_leaves_partial (s : State) (hs : s.point ≠ .toPoll) (l : List Event) (hl : 4 + children s ≤ steps l) : Down (run (apply s .term) l) := by
  by_cases he : s.point = .ended
  · have e1 : apply s .term = s := by simp [apply, he]
    rw [e1, ended_run l s he]
    unfold Down; rw [he]; trivial
  · have hx : apply s .term = { s with exit := true, point := woken s.point } := by simp [apply, he]
    have hL : Leaving (apply s .term) := by
      rw [hx]
      refine ⟨rfl, ?_, ?_⟩ <;> dsimp only <;> cases hp : s.point <;> simp_all [woken]
    have hm : toLeave (apply s .term) ≤ 4 + children s := by
      obtain ⟨_, h1, h2⟩ := hL
      rw [hx] at h1 h2 ⊢
      unfold toLeave children
      dsimp only at h1 h2 ⊢
      split <;> first | omega | simp_all
    obtain ⟨h1, h2⟩ := downRun_measure (P := Leaving) (m := toLeave) (fun s e h => (leaving_apply s e h).1) (fun s e h => (leaving_apply s e h).2.1)
      (fun s h h0 => (leaving_apply s .step h).2.2 h0 rfl) l _ hL (Nat.le_trans hm hl)
    exact toLeave_down h1 h2

/-- How far the end is when the alarm has gone off. -/
def toEnd (s : State) : Nat :=
  match s.point with
  | .ended => 0
  | .test => 1
  | .clear _ => 2
  | .wait _ => 3 + children s
  | .reap _ => 4 + children s
  | _ => 5 + children s

/-- The alarm has gone off and the server does not wait for a signal. -/
def Ending (s : State) : Prop :=
  s.alrm = true ∧ Down s ∧ s.point ≠ .leave ∧ s.point ≠ .toSuspend ∧ s.point ≠ .suspended ∧ (s.point = .check → s.chld = true)

theorem ending_apply (s : State) (e : Event) (h : Ending s) : Ending (apply s e) ∧ toEnd (apply s e) ≤ toEnd s ∧ (0 < toEnd s → e = .step → toEnd (apply s e) < toEnd s) := by
  obtain ⟨dieby, point, exit, alrm, chld, armed, running, zombies, termed, killed⟩ := s
  obtain ⟨h1, h2, h3, h4, h5, h6⟩ := h
  dsimp only at h1 h2 h3 h4 h5 h6
  subst h1
  cases point with
  | leave => exact absurd rfl h3
  | toSuspend => exact absurd rfl h4
  | suspended => exact absurd rfl h5
  | reap f =>
    cases f <;> cases e <;> simp [apply, step, Ending, Down, toEnd, children, woken] at h2 ⊢ <;> (repeat' split) <;> simp_all <;> omega
  | wait f =>
    cases f <;> cases e <;> simp [apply, step, Ending, Down, toEnd, children, woken] at h2 ⊢ <;> (repeat' split) <;> simp_all <;> omega
  | clear f =>
    cases f <;> cases e <;> simp [apply, step, Ending, Down, toEnd, children, woken] at h2 ⊢ <;> (repeat' split) <;> simp_all
  | check =>
    have := h6 rfl
    subst this
    cases e <;> simp [apply, step, Ending, Down, toEnd, children, woken] at h2 ⊢ <;> (repeat' split) <;> simp_all <;> omega
  | _ =>
    cases e <;> simp [apply, step, Ending, Down, toEnd, children, woken] at h2 ⊢ <;> (repeat' split) <;> simp_all

/-- C83: when the alarm set at the end of the main loop goes off, the server ends within a number of steps bounded by the number of its children, whatever they do. Missing: an alarm that goes off
between the test for it and `sigsuspend` (`C83_stuck`), and `dieby 0`, with which none is set (`C83_zero`). -/
theorem C83_ends_partial (s : State) (hd : Down s) (h0 : s.point ≠ .leave) (ha : s.armed = true) (h1 : s.point ≠ .toSuspend) (h2 : s.point = .check → s.chld = true)
    (l : List Event) (hl : 5 + children s ≤ steps l) : (run (apply s .alarm) l).point = .ended := by
  by_cases he : s.point = .ended
  · have e1 : apply s .alarm = s := by simp [apply, he]
    rw [e1, ended_run l s he, he]
  · have hx : apply s .alarm = { s with alrm := true, armed := false, point := woken s.point } := by simp [apply, he, ha]
    have hL : Ending (apply s .alarm) := by
      rw [hx]
      refine ⟨rfl, ?_, ?_, ?_, ?_, ?_⟩
      · unfold Down at hd ⊢; dsimp only; cases hp : s.point <;> simp_all [woken]
      all_goals dsimp only; cases hp : s.point <;> simp_all [woken]
    have hm : toEnd (apply s .alarm) ≤ 5 + children s := by
      rw [hx]
      unfold toEnd children
      dsimp only
      split <;> omega
    obtain ⟨g1, g2⟩ := downRun_measure (P := Ending) (m := toEnd) (fun s e h => (ending_apply s e h).1) (fun s e h => (ending_apply s e h).2.1)
      (fun s h h0 => (ending_apply s .step h).2.2 h0 rfl) l _ hL (Nat.le_trans hm hl)
    unfold toEnd at g2
    split at g2 <;> first | assumption | omega

/-- All children have ended, and the server will see it. -/
def Clearing (s : State) : Prop :=
  s.running = 0 ∧ ((s.chld = true ∧ (s.point = .leave ∨ s.point = .test ∨ s.point = .check ∨ s.point = .reap .down ∨ s.point = .wait .down)) ∨
    (s.zombies = 0 ∧ (s.point = .clear .down ∨ s.point = .test)) ∨ s.point = .ended)

def toClear (s : State) : Nat :=
  match s.point with
  | .ended => 0
  | .test => if s.zombies = 0 then 1 else 6 + s.zombies
  | .clear _ => 2
  | .wait _ => 3 + s.zombies
  | .reap _ => 4 + s.zombies
  | .check => 5 + s.zombies
  | _ => 7 + s.zombies

theorem clearing_apply (s : State) (e : Event) (h : Clearing s) : Clearing (apply s e) ∧ toClear (apply s e) ≤ toClear s ∧ (0 < toClear s → e = .step → toClear (apply s e) < toClear s) := by
  obtain ⟨dieby, point, exit, alrm, chld, armed, running, zombies, termed, killed⟩ := s
  obtain ⟨h1, h2⟩ := h
  dsimp only at h1 h2
  subst h1
  rcases h2 with ⟨rfl, rfl | rfl | rfl | rfl | rfl⟩ | ⟨rfl, rfl | rfl⟩ | rfl
  all_goals cases e <;> simp [apply, step, Clearing, toClear, woken] <;> (repeat' split) <;> simp_all <;> omega

/-- C83: when the last child ends, the server ends within a number of steps bounded by the number of children, without waiting for the alarm. Missing: an end between the test of `owpd_chld` and `sigsuspend`,
or between the last `waitpid` and the clearing of `owpd_chld` (`C83_late`). -/
theorem C83_prompt_partial (s : State) (hd : Down s) (hr : s.running = 1) (h1 : s.point ≠ .toSuspend) (h3 : s.point ≠ .clear .down)
    (l : List Event) (hl : 8 + s.zombies ≤ steps l) : (run (apply s .child) l).point = .ended := by
  by_cases he : s.point = .ended
  · have e1 : apply s .child = s := by simp [apply, he]
    rw [e1, ended_run l s he, he]
  · have hx : apply s .child = { s with running := 0, zombies := s.zombies + 1, chld := true, point := woken s.point } := by simp [apply, he, hr]
    have hL : Clearing (apply s .child) := by
      rw [hx]
      refine ⟨rfl, Or.inl ⟨rfl, ?_⟩⟩
      unfold Down at hd
      dsimp only
      cases hp : s.point with
      | reap f => cases f <;> simp_all [woken]
      | wait f => cases f <;> simp_all [woken]
      | clear f => cases f <;> simp_all [woken]
      | _ => simp_all [woken]
    have hm : toClear (apply s .child) ≤ 8 + s.zombies := by
      rw [hx]
      unfold toClear
      dsimp only
      split <;> (try split) <;> omega
    obtain ⟨g1, g2⟩ := downRun_measure (P := Clearing) (m := toClear) (fun s e h => (clearing_apply s e h).1) (fun s e h => (clearing_apply s e h).2.1)
      (fun s h h0 => (clearing_apply s .step h).2.2 h0 rfl) l _ hL (Nat.le_trans hm hl)
    unfold toClear at g2
    split at g2 <;> first | assumption | (split at g2 <;> omega) | omega

/-- What holds at the end. -/
def Tidy (s : State) : Prop :=
  (Down s → s.point = .leave ∨ s.termed = true) ∧ (s.point = .ended → s.killed = true ∨ children s = 0) ∧ (s.killed = true → s.point = .ended ∧ s.alrm = true)

set_option maxHeartbeats 2000000 in
theorem tidy_apply (s : State) (e : Event) (h : Tidy s) : Tidy (apply s e) ∧ (Down s → Down (apply s e) ∧ children (apply s e) ≤ children s) := by
  obtain ⟨dieby, point, exit, alrm, chld, armed, running, zombies, termed, killed⟩ := s
  obtain ⟨h1, h2, h3⟩ := h
  cases point with
  | reap f =>
    cases f <;> cases e <;> simp [apply, step, Tidy, Down, children, woken] at h1 h2 h3 ⊢ <;> (repeat' split) <;> simp_all <;> omega
  | wait f =>
    cases f <;> cases e <;> simp [apply, step, Tidy, Down, children, woken] at h1 h2 h3 ⊢ <;> (repeat' split) <;> simp_all <;> omega
  | clear f =>
    cases f <;> cases e <;> simp [apply, step, Tidy, Down, children, woken] at h1 h2 h3 ⊢ <;> (repeat' split) <;> simp_all <;> omega
  | test =>
    have hk : killed = false := by cases killed <;> simp_all
    subst hk
    have ht : termed = true := by simpa [Down] using h1
    subst ht
    cases e with
    | step =>
      cases alrm with
      | true =>
        simp only [apply, step, Bool.not_true, Bool.false_and, Bool.false_eq_true, if_false, Option.getD_some]
        refine ⟨⟨fun _ => Or.inr rfl, fun _ => ?_, fun _ => ⟨rfl, rfl⟩⟩, fun _ => ⟨trivial, Nat.le_refl _⟩⟩
        dsimp only [children]
        by_cases h : 0 < running + zombies
        · left; simpa using h
        · right; omega
      | false =>
        by_cases h : 0 < running + zombies
        · simp only [apply, step, h, Bool.not_false, decide_true, Bool.and_self, if_true, Option.getD_some]
          exact ⟨⟨fun _ => Or.inr rfl, nofun, nofun⟩, fun _ => ⟨trivial, Nat.le_refl _⟩⟩
        · simp only [apply, step, h, Bool.not_false, decide_false, Bool.and_false, Bool.false_eq_true, if_false, Option.getD_some]
          exact ⟨⟨fun _ => Or.inr rfl, fun _ => Or.inr (by dsimp only [children]; omega), nofun⟩, fun _ => ⟨trivial, Nat.le_refl _⟩⟩
    | child =>
      simp only [apply, reduceCtorEq, false_or, woken]
      split
      · exact ⟨⟨h1, h2, h3⟩, fun hd => ⟨hd, Nat.le_refl _⟩⟩
      · exact ⟨⟨fun _ => Or.inr rfl, nofun, nofun⟩, fun _ => ⟨trivial, by dsimp only [children]; omega⟩⟩
    | alarm =>
      simp only [apply, woken]
      split
      · exact ⟨⟨fun _ => Or.inr rfl, nofun, nofun⟩, fun _ => ⟨trivial, Nat.le_refl _⟩⟩
      · exact ⟨⟨h1, h2, h3⟩, fun hd => ⟨hd, Nat.le_refl _⟩⟩
    | _ => simp [apply, Tidy, Down, children, woken]
  | ended =>
    cases e <;> simp [apply, step, Tidy, Down, children, woken] at h1 h2 h3 ⊢ <;> simp_all
  | _ =>
    have hk : killed = false := by cases killed <;> simp_all
    subst hk
    cases e <;> simp [apply, step, Tidy, Down, children, woken] at h1 ⊢ <;> (repeat' split) <;> simp_all <;> omega

/-- C83: whatever happens, a server that has left its main loop has sent its children a signal to end before it waits for them, gets no new ones, and when it ends they have all ended or are killed, which
happens only after the alarm. -/
theorem C83_children (dieby : U32) (l l' : List Event) :
    let s := run (start dieby) l
    (Down s → s.point = .leave ∨ s.termed = true) ∧ (s.point = .ended → s.killed = true ∨ children s = 0) ∧ (s.killed = true → s.alrm = true) ∧
    (Down s → Down (run s l') ∧ children (run s l') ≤ children s) := by
  have key : ∀ (l : List Event) s, Tidy s → Tidy (run s l) ∧ (Down s → Down (run s l) ∧ children (run s l) ≤ children s) := by
    intro l
    induction l with
    | nil => intro s h; exact ⟨h, fun hd => ⟨hd, Nat.le_refl _⟩⟩
    | cons e l ih =>
      intro s h
      obtain ⟨a1, a2⟩ := tidy_apply s e h
      obtain ⟨b1, b2⟩ := ih _ a1
      refine ⟨b1, fun hd => ?_⟩
      obtain ⟨c1, c2⟩ := a2 hd
      obtain ⟨d1, d2⟩ := b2 c1
      exact ⟨d1, Nat.le_trans d2 c2⟩
  obtain ⟨t1, _⟩ := key l (start dieby) ⟨by simp [Down, start], by simp [start], by simp [start]⟩
  obtain ⟨_, t2⟩ := key l' _ t1
  exact ⟨t1.1, t1.2.1, fun h => (t1.2.2 h).2, t2⟩

/-! ## Examples -/

/-- A connection has been accepted, and the server waits for the next. -/
def served : List Event := [.step, .step, .connection, .step, .step, .step, .step, .step]

/-- Non-vacuity of C83: a signal in `poll`; the server leaves the loop; its child does not end; the alarm goes off in `sigsuspend`; the server kills the child and ends. -/
example : (run (start 5) served).point = .polling ∧ (run (start 5) (served ++ [.term, .step, .step, .step, .step, .step])).point = .suspended ∧
    (run (start 5) (served ++ [.term, .step, .step, .step, .step, .step])).armed = true ∧
    (run (start 5) (served ++ [.term, .step, .step, .step, .step, .step, .alarm, .step, .step])).point = .ended ∧
    (run (start 5) (served ++ [.term, .step, .step, .step, .step, .step, .alarm, .step, .step])).killed = true ∧
    (run (start 5) (served ++ [.term, .step, .step, .step, .step, .step, .child, .step, .step, .step, .step, .step])).point = .ended ∧
    (run (start 5) (served ++ [.term, .step, .step, .step, .step, .step, .child, .step, .step, .step, .step, .step])).killed = false := by decide +kernel

/-- C83 fails for a signal between the test and `poll`: the server goes on waiting for connections, for as long as none comes, and accepts one that comes. -/
theorem C83_unnoticed : ∃ l, let s := run (start 5) l
    s.exit = true ∧ s.point = .polling ∧ (∀ n, run s (List.replicate n .step) = s) ∧ (run s [.connection, .step]).running = 1 := by
  refine ⟨[.step, .term, .step], by decide, by decide, fun n => ?_, by decide⟩
  induction n with
  | zero => rfl
  | succ n ih => rw [List.replicate_succ, downRun_cons]; exact ih

/-- C83 fails for an alarm between the test and `sigsuspend`: a server with a child that does not end waits for ever. -/
theorem C83_stuck : ∃ l, let s := run (start 5) l
    s.exit = true ∧ s.alrm = true ∧ s.armed = false ∧ s.point = .suspended ∧ (∀ n, run s (List.replicate n .step) = s) := by
  refine ⟨served ++ [.term, .step, .step, .step, .step, .alarm, .step], by decide, by decide, by decide, by decide, fun n => ?_⟩
  induction n with
  | zero => rfl
  | succ n ih => rw [List.replicate_succ, downRun_cons]; exact ih

/-- C83 fails for `dieby 0`: a server with a child that does not end waits for ever. -/
theorem C83_zero : ∃ l, let s := run (start 0) l
    s.exit = true ∧ s.armed = false ∧ s.point = .suspended ∧ (∀ n, run s (List.replicate n .step) = s) := by
  refine ⟨served ++ [.term, .step, .step, .step, .step, .step], by decide, by decide, by decide, fun n => ?_⟩
  induction n with
  | zero => rfl
  | succ n ih => rw [List.replicate_succ, downRun_cons]; exact ih

/-- C83 fails for the end of a child between the last `waitpid` and `owpd_chld = 0`: all children have ended and the server waits for the alarm. -/
theorem C83_late : ∃ l, let s := run (start 5) l
    s.running = 0 ∧ s.point = .suspended ∧ (∀ n, run s (List.replicate n .step) = s) := by
  refine ⟨served ++ [.connection, .step, .step, .step, .step, .step, .term, .step, .step, .step, .step, .step, .child, .step, .step, .step, .child, .step, .step, .step, .step], by decide, by decide, fun n => ?_⟩
  induction n with
  | zero => rfl
  | succ n ih => rw [List.replicate_succ, downRun_cons]; exact ih

end Owamp.Props
