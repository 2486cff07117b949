import Verif.Spec.Life
/-!
# C105: a connection whose client falls silent, or that is told to end, comes to an end

A person who runs the server sets a control timeout so that no client can hold a connection by saying nothing, and stops the server with a
signal. The process of each connection has to end in both cases, and its exit status says whether the connection ended as it should.
-/
namespace Owamp.Props
open Owamp.Life Owamp.Spec.Life

/-! ## Each event keeps the options -/

private theorem step_timeout {s t : State} (h : step s = some t) : t.timeout = s.timeout ∧ t.twoway = s.twoway := by
  unfold step at h
  repeat' split at h
  all_goals first
    | (cases h; done)
    | (injection h with h; subst h; exact ⟨rfl, rfl⟩)

private theorem ret_timeout {s t : State} {r : Ret} (h : ret s r = some t) : t.timeout = s.timeout ∧ t.twoway = s.twoway := by
  unfold ret at h
  repeat' split at h
  all_goals first
    | (cases h; done)
    | (injection h with h; subst h; exact ⟨rfl, rfl⟩)

private theorem apply_timeout (s : State) (e : Event) : (apply s e).timeout = s.timeout ∧ (apply s e).twoway = s.twoway := by
  cases e with
  | go =>
    show ((step s).getD s).timeout = _ ∧ ((step s).getD s).twoway = _
    cases h : step s with
    | none => exact ⟨rfl, rfl⟩
    | some t => exact step_timeout h
  | ret r =>
    show ((ret s r).getD s).timeout = _ ∧ ((ret s r).getD s).twoway = _
    cases h : ret s r with
    | none => exact ⟨rfl, rfl⟩
    | some t => exact ret_timeout h
  | _ =>
    unfold apply
    dsimp only
    repeat' split
    all_goals exact ⟨rfl, rfl⟩

private theorem run_timeout (es : List Event) : ∀ s : State, (run s es).timeout = s.timeout ∧ (run s es).twoway = s.twoway := by
  induction es with
  | nil => intro s; exact ⟨rfl, rfl⟩
  | cons e es ih =>
    intro s
    have h := ih (apply s e)
    have g := apply_timeout s e
    exact ⟨h.1.trans g.1, h.2.trans g.2⟩

/-! ## The timer -/

/-- The points between setting the timer and what follows the wait for the client. -/
private def timed : Point → Bool
  | .inside .read _ => true
  | .inside .serve _ => true
  | .inside .start _ => true
  | .inside .stop _ => true
  | .handle => true
  | _ => false

private def Kept (s : State) : Prop := timed s.point = true → s.timer = true ∨ s.alrm = true

private theorem kept_step {s t : State} (ht : s.timeout ≠ 0) (k : Kept s) (h : step s = some t) : Kept t := by
  unfold step at h
  unfold Kept at *
  revert k
  repeat' split at h
  all_goals first
    | (cases h; done)
    | (injection h with h; subst h; simp_all [timed]; done)
    | (injection h with h; subst h; intro k; simp_all [timed]; (repeat' split) <;> simp_all; done)

private theorem kept_ret {s t : State} {r : Ret} (k : Kept s) (h : ret s r = some t) : Kept t := by
  unfold ret at h
  unfold Kept at *
  revert k
  repeat' split at h
  all_goals first
    | (cases h; done)
    | (injection h with h; subst h; simp_all [timed]; done)
    | (injection h with h; subst h; intro k; simp_all [timed]; (repeat' split) <;> simp_all; done)

private theorem timed_woken (p : Point) : timed (woken p) = timed p := by
  unfold woken
  split <;> first | rfl | (rename_i f; cases f <;> rfl)

private theorem kept_apply {s : State} (ht : s.timeout ≠ 0) (k : Kept s) (e : Event) : Kept (apply s e) := by
  cases e with
  | go =>
    show Kept ((step s).getD s)
    cases h : step s with
    | none => exact k
    | some t => exact kept_step ht k h
  | ret r =>
    show Kept ((ret s r).getD s)
    cases h : ret s r with
    | none => exact k
    | some t => exact kept_ret k h
  | block =>
    unfold apply
    dsimp only
    split
    · rename_i f hp
      split
      · exact k
      · intro g
        refine k ?_
        rw [hp]
        revert g
        cases f <;> exact id
    · exact k
  | bytes =>
    unfold apply
    dsimp only
    split
    · rename_i hp
      intro g
      cases g
    · rename_i f _ hp
      intro g
      refine k ?_
      rw [hp]
      revert g
      cases f <;> exact id
    · exact k
  | term i =>
    unfold apply
    dsimp only
    split
    · exact k
    · intro g
      refine k ?_
      rw [← timed_woken]
      exact g
  | child b =>
    unfold apply
    dsimp only
    split
    · exact k
    · intro g
      refine k ?_
      rw [← timed_woken]
      exact g
  | alarm =>
    unfold apply
    dsimp only
    split
    · intro _
      exact Or.inr rfl
    · exact k

private theorem kept_run (es : List Event) : ∀ s : State, s.timeout ≠ 0 → Kept s → Kept (run s es) := by
  induction es with
  | nil => intro s _ k; exact k
  | cons e es ih =>
    intro s ht k
    exact ih (apply s e) (by rw [(apply_timeout s e).1]; exact ht) (kept_apply ht k e)

/-- With a control timeout, whenever the process waits for a request, for the rest of one, to send an answer, or to trade the messages that stop sessions after a signal to end,
the timer runs - or it has expired before the process began to wait, in the same pass of the loop. Partial: not so for the messages of a test that ends by itself
(`C105_stop_untimed`), and the expiry may have been missed (`C105_lost_alarm`). -/
theorem C105_timer_partial (timeout : Nat) (twoway : Bool) (es : List Event) (f : Fn) (ht : timeout ≠ 0) (hf : Ordinary f)
    (hw : Waits (run (accepted timeout twoway) es) f) :
    (run (accepted timeout twoway) es).timer = true ∨ (run (accepted timeout twoway) es).alrm = true := by
  refine kept_run es (accepted timeout twoway) ht (fun h => by cases h) ?_
  unfold Waits at hw
  rw [hw]
  rcases hf with h | h | h | h <;> subst h <;> rfl

/-! ## What follows when the timer expires, or a signal to end comes, while the process waits -/

/-- The points from which the process does not go back to the top of the loop if it is to end. -/
private def past (s : State) : Prop :=
  (s.alrm = true ∨ s.exit = true) ∧
    (s.point = .inside .read .broken ∨ (s.point = .handle ∧ s.msg = .intr) ∨ s.point = .inside .serve .broken ∨ s.point = .inside .start .broken
      ∨ s.point = .inside .stop .broken ∨ s.point = .next ∨ s.point = .done ∨ ∃ n, s.point = .ended n)

private theorem past_apply {s : State} (h : past s) (e : Event) : past (apply s e) := by
  obtain ⟨ha, hp⟩ := h
  unfold past
  rcases hp with hp | ⟨hp, hm⟩ | hp | hp | hp | hp | hp | ⟨n, hp⟩
  all_goals
    cases e with
    | go =>
      simp only [apply, step, hp]
      try rw [hm]
      simp only [Option.getD]
      try simp
      try (refine ⟨ha, ?_⟩)
      try simp [hp]
      try (cases hr : s.rc <;> rcases ha with ha | ha <;> simp [ha])
    | ret r =>
      cases r <;> simp only [apply, ret, hp] <;> (repeat' split) <;> simp_all
    | block => simp [apply, hp, ha]; try simp [hm]
    | bytes => simp [apply, hp, ha]; try simp [hm]
    | term i => simp [apply, hp, Point.over, woken]; try simp [hm]
                try exact ha
    | child b => simp only [apply, hp, Point.over]; split <;> simp_all [woken]
    | alarm => simp only [apply, hp, Point.over]; split <;> simp_all [woken]

/-- How many steps are left from a point if the process is to end. -/
private def left : Point → Nat
  | .top => 14
  | .inside .read _ => 13
  | .handle => 12
  | .inside .start _ => 11
  | .unset => 10
  | .again => 9
  | .waitTop => 8
  | .inside .poll _ => 7
  | .inside .readStop _ => 6
  | .inside .stopIn _ => 6
  | .waited _ => 5
  | .rearm => 4
  | .inside .stop _ => 3
  | .inside .serve _ => 3
  | .next => 2
  | .done => 1
  | .ended _ => 0

private theorem left_woken (p : Point) : left (woken p) = left p := by
  unfold woken
  split <;> first | rfl | (rename_i f; cases f <;> rfl)

private theorem left_step {s t : State} (hx : s.exit = true) (h : step s = some t) : left t.point < left s.point ∧ t.exit = true := by
  unfold step at h
  repeat' split at h
  all_goals first
    | (cases h; done)
    | (injection h with h; subst h; simp_all [left]; done)
    | (injection h with h; subst h; simp_all [left]; (repeat' split) <;> simp_all [left]; done)

private theorem left_ret {s t : State} {r : Ret} (hx : s.exit = true) (h : ret s r = some t) : left t.point < left s.point ∧ t.exit = true := by
  unfold ret at h
  repeat' split at h
  all_goals first
    | (cases h; done)
    | (injection h with h; subst h; simp_all [left]; done)
    | (injection h with h; subst h; simp_all [left]; (repeat' split) <;> simp_all [left]; done)

private theorem left_apply {s : State} (hx : s.exit = true) (e : Event) :
    (apply s e).exit = true ∧ left (apply s e).point + (if moves s e then 1 else 0) ≤ left s.point := by
  cases e with
  | go =>
    cases h : step s with
    | none =>
      have : apply s .go = s := by show (step s).getD s = s; rw [h]; rfl
      refine ⟨by rw [this]; exact hx, ?_⟩
      have hm : moves s .go = false := by unfold moves; simp [this]
      rw [this, hm]
      exact Nat.le_refl _
    | some t =>
      have : apply s .go = t := by show (step s).getD s = t; rw [h]; rfl
      have g := left_step hx h
      refine ⟨by rw [this]; exact g.2, ?_⟩
      rw [this]
      split
      · exact g.1
      · exact Nat.le_of_lt g.1
  | ret r =>
    cases h : ret s r with
    | none =>
      have : apply s (.ret r) = s := by show (ret s r).getD s = s; rw [h]; rfl
      refine ⟨by rw [this]; exact hx, ?_⟩
      have hm : moves s (.ret r) = false := by unfold moves; simp [this]
      rw [this, hm]
      exact Nat.le_refl _
    | some t =>
      have : apply s (.ret r) = t := by show (ret s r).getD s = t; rw [h]; rfl
      have g := left_ret hx h
      refine ⟨by rw [this]; exact g.2, ?_⟩
      rw [this]
      split
      · exact g.1
      · exact Nat.le_of_lt g.1
  | block =>
    show _ ∧ _ + 0 ≤ _
    unfold apply
    dsimp only
    split
    · rename_i f hp
      split
      · exact ⟨hx, Nat.le_refl _⟩
      · refine ⟨hx, ?_⟩
        rw [hp]
        cases f <;> exact Nat.le_refl _
    · exact ⟨hx, Nat.le_refl _⟩
  | bytes =>
    show _ ∧ _ + 0 ≤ _
    unfold apply
    dsimp only
    split
    · rename_i hp
      refine ⟨hx, ?_⟩
      rw [hp]
      exact Nat.le_succ _
    · rename_i f _ hp
      refine ⟨hx, ?_⟩
      rw [hp]
      cases f <;> exact Nat.le_refl _
    · exact ⟨hx, Nat.le_refl _⟩
  | term i =>
    show _ ∧ _ + 0 ≤ _
    unfold apply
    dsimp only
    split
    · exact ⟨hx, Nat.le_refl _⟩
    · exact ⟨rfl, Nat.le_of_eq (left_woken _)⟩
  | child b =>
    show _ ∧ _ + 0 ≤ _
    unfold apply
    dsimp only
    split
    · exact ⟨hx, Nat.le_refl _⟩
    · exact ⟨hx, Nat.le_of_eq (left_woken _)⟩
  | alarm =>
    show _ ∧ _ + 0 ≤ _
    unfold apply
    dsimp only
    split
    · exact ⟨hx, Nat.le_of_eq (left_woken _)⟩
    · exact ⟨hx, Nat.le_refl _⟩

private theorem steps_left (es : List Event) : ∀ s : State, s.exit = true → steps s es + left (run s es).point ≤ left s.point := by
  induction es with
  | nil => intro s _; show 0 + _ ≤ _; exact Nat.le_of_eq (Nat.zero_add _)
  | cons e es ih =>
    intro s hx
    have g := left_apply hx e
    have := ih (apply s e) g.1
    show (if moves s e then 1 else 0) + steps (apply s e) es + left (run (apply s e) es).point ≤ left s.point
    omega

private theorem moved {s t : State} {e : Event} (h : apply s e = t) (hp : t.point ≠ s.point) (he : e = .go ∨ ∃ r, e = .ret r) : moves s e = true := by
  have hne : apply s e ≠ s := by
    rw [h]
    intro g
    exact hp (by rw [g])
  rcases he with rfl | ⟨r, rfl⟩
  · exact decide_eq_true hne
  · exact decide_eq_true hne

/-- A process that neither waits nor has ended has a step to take. -/
private theorem progress (s : State) : (∃ f, Waits s f) ∨ (∃ n, Ended s n) ∨ ∃ e, moves s e = true := by
  cases hp : s.point with
  | inside f m =>
    cases m with
    | blocked => exact Or.inl ⟨f, hp⟩
    | free =>
      refine Or.inr (Or.inr ?_)
      cases f with
      | read =>
        cases hv : s.valid with
        | true => exact ⟨.ret (.msg .close), moved rfl (by simp [apply, ret, hp, hv]) (Or.inr ⟨_, rfl⟩)⟩
        | false => exact ⟨.ret (.msg .other), moved rfl (by simp [apply, ret, hp, hv]) (Or.inr ⟨_, rfl⟩)⟩
      | _ => exact ⟨.ret (.rc false), moved rfl (by simp [apply, ret, hp]) (Or.inr ⟨_, rfl⟩)⟩
    | broken =>
      refine Or.inr (Or.inr ?_)
      cases f with
      | read => exact ⟨.ret (.msg .intr), moved rfl (by simp [apply, ret, hp]) (Or.inr ⟨_, rfl⟩)⟩
      | _ => exact ⟨.ret (.rc false), moved rfl (by simp [apply, ret, hp]) (Or.inr ⟨_, rfl⟩)⟩
  | ended n => exact Or.inr (Or.inl ⟨n, hp⟩)
  | handle =>
    refine Or.inr (Or.inr ⟨.go, moved rfl ?_ (Or.inl rfl)⟩)
    cases hm : s.msg <;> cases ht : s.twoway <;> simp [apply, step, hp, hm, ht]
  | waitTop =>
    refine Or.inr (Or.inr ⟨.go, moved rfl ?_ (Or.inl rfl)⟩)
    simp only [apply, step, hp]
    (repeat' split) <;> simp
  | waited two =>
    refine Or.inr (Or.inr ⟨.go, moved rfl ?_ (Or.inl rfl)⟩)
    simp only [apply, step, hp]
    (repeat' split) <;> simp
  | next =>
    refine Or.inr (Or.inr ⟨.go, moved rfl ?_ (Or.inl rfl)⟩)
    simp only [apply, step, hp, Option.getD]
    (repeat' split) <;> simp
  | _ =>
    refine Or.inr (Or.inr ⟨.go, moved rfl ?_ (Or.inl rfl)⟩)
    simp [apply, step, hp]

/-- How many steps are left once the process is past the last wait. -/
private def few : Point → Nat
  | .inside .read _ => 4
  | .inside _ _ => 3
  | .handle => 3
  | .next => 2
  | .done => 1
  | _ => 0

private theorem few_apply {s : State} (h : past s) (e : Event) : few (apply s e).point + (if moves s e then 1 else 0) ≤ few s.point := by
  obtain ⟨ha, hp⟩ := h
  rcases hp with hp | ⟨hp, hm⟩ | hp | hp | hp | hp | hp | ⟨n, hp⟩
  all_goals
    cases e with
    | go =>
      have hle : (if moves s .go = true then 1 else 0) ≤ 1 := by split <;> omega
      first
        | (have hn : apply s .go = s := by simp [apply, step, hp]
           have hf : moves s .go = false := by simp [moves, hn]
           rw [hn, hf]
           exact Nat.le_refl _)
        | (have hq : few (apply s .go).point + 1 ≤ few s.point := by
             simp only [apply, step, hp]
             try rw [hm]
             simp only [Option.getD]
             try simp [few]
             try (cases hr : s.rc <;> rcases ha with ha | ha <;> simp [ha])
           omega)
    | ret r =>
      have hle : (if moves s (.ret r) = true then 1 else 0) ≤ 1 := by split <;> omega
      cases hr : ret s r with
      | none =>
        have hn : apply s (.ret r) = s := by simp [apply, hr]
        have hf : moves s (.ret r) = false := by simp [moves, hn]
        rw [hn, hf]
        exact Nat.le_refl _
      | some t =>
        have hn : apply s (.ret r) = t := by simp [apply, hr]
        have hq : few t.point + 1 ≤ few s.point := by
          unfold ret at hr
          rw [hp] at hr
          cases r <;> dsimp only at hr <;> (repeat' split at hr) <;> first
            | (cases hr; done)
            | (injection hr with hr; subst hr; rw [hp]; simp [few])
        rw [hn]
        omega
    | block => simp [apply, hp, moves]
    | bytes => simp [apply, hp, moves]
    | term i => simp [apply, hp, moves, Point.over, woken]
    | child b => simp only [apply, hp, moves, Point.over]; split <;> simp_all [woken]
    | alarm => simp only [apply, hp, moves, Point.over]; split <;> simp_all [woken]

private theorem past_takes {s : State} (h : past s) (e : Event) : takes s e = false := by
  obtain ⟨_, hp⟩ := past_apply h e
  unfold takes
  rcases hp with hp | ⟨hp, hm⟩ | hp | hp | hp | hp | hp | ⟨n, hp⟩
  all_goals simp [hp]
  rw [hm]
  simp [IsRequest]

private theorem past_ends (es : List Event) : ∀ s : State, past s → past (run s es) ∧ requests s es = 0 ∧ steps s es ≤ few s.point := by
  induction es with
  | nil => intro s h; exact ⟨h, rfl, Nat.zero_le _⟩
  | cons e es ih =>
    intro s h
    obtain ⟨h1, h2, h3⟩ := ih (apply s e) (past_apply h e)
    have h4 := few_apply h e
    refine ⟨h1, ?_, ?_⟩
    · show (if takes s e then 1 else 0) + requests (apply s e) es = 0
      rw [past_takes h e, h2]
      rfl
    · show (if moves s e then 1 else 0) + steps (apply s e) es ≤ few s.point
      omega

private theorem past_endsWithin {s : State} (h : past s) (hf : few s.point ≤ 4) : EndsWithin s 4 := by
  intro es
  obtain ⟨h1, h2, h3⟩ := past_ends es s h
  have hw : ∀ f, ¬ Waits (run s es) f := by
    intro f hw
    unfold Waits at hw
    obtain ⟨_, hp⟩ := h1
    rw [hw] at hp
    simp at hp
  refine ⟨h2, Nat.le_trans h3 hf, hw, ?_⟩
  rcases progress (run s es) with ⟨f, h⟩ | h | h
  · exact absurd h (hw f)
  · exact Or.inl h
  · exact Or.inr h

private theorem ordinary_past {s t : State} {f : Fn} (hf : Ordinary f) (hw : Waits s f) (ht : t.point = woken s.point) (ha : t.alrm = true ∨ t.exit = true) :
    past t ∧ few t.point ≤ 4 := by
  unfold Waits at hw
  rw [hw] at ht
  unfold past
  rcases hf with h | h | h | h <;> subst h <;> rw [ht] <;> refine ⟨⟨ha, ?_⟩, by decide⟩ <;> simp [woken]

/-- If the timer expires while the process waits for a request, for the rest of one, to send an answer, or to trade the messages that stop sessions after a signal to end, it takes up no further request, does not wait again, and
ends after at most four more steps - whatever else happens. -/
theorem C105_silent_partial (s : State) (f : Fn) (hf : Ordinary f) (hw : Waits s f) (ht : s.timer = true) : EndsWithin (apply s .alarm) 4 := by
  have hover : s.point.over = false := by rw [hw]; rfl
  have h : apply s .alarm = { s with alrm := true, timer := false, intr := true, point := woken s.point } := by
    unfold apply
    dsimp only
    rw [ht, hover]
    rfl
  rw [h]
  obtain ⟨h1, h2⟩ := ordinary_past (t := { s with alrm := true, timer := false, intr := true, point := woken s.point }) hf hw rfl (Or.inl rfl)
  exact past_endsWithin h1 h2

/-- The same if a signal to end comes while it waits so. -/
theorem C105_told_waiting (s : State) (f : Fn) (int : Bool) (hf : Ordinary f) (hw : Waits s f) : EndsWithin (apply s (.term int)) 4 := by
  have hover : s.point.over = false := by rw [hw]; rfl
  have h : apply s (.term int) = { s with exit := true, int := s.int || int, intr := true, point := woken s.point } := by
    unfold apply
    dsimp only
    rw [hover]
    rfl
  rw [h]
  obtain ⟨h1, h2⟩ := ordinary_past (t := { s with exit := true, int := s.int || int, intr := true, point := woken s.point }) hf hw rfl (Or.inr rfl)
  exact past_endsWithin h1 h2

/-! ## Once told to end -/

private theorem takes_left {s : State} {e : Event} (h : takes s e = true) : left (apply s e).point = 12 ∧ (13 ≤ left s.point) := by
  unfold takes at h
  simp only [Bool.and_eq_true, decide_eq_true_eq] at h
  obtain ⟨⟨h1, h2⟩, h3⟩ := h
  refine ⟨by rw [h2]; rfl, ?_⟩
  cases e with
  | go =>
    cases hs : step s with
    | none => simp [apply, hs, h1] at h2
    | some t =>
      simp only [apply, hs, Option.getD] at h2
      unfold step at hs
      (repeat' split at hs) <;> first
        | (cases hs; done)
        | (injection hs with hs; subst hs; simp at h2; done)
        | (injection hs with hs; subst hs; dsimp only at h2; (repeat' split at h2) <;> cases h2)
  | ret r =>
    cases hs : ret s r with
    | none => simp [apply, hs, h1] at h2
    | some t =>
      simp only [apply, hs, Option.getD] at h2
      unfold ret at hs
      (repeat' split at hs) <;> first
        | (cases hs; done)
        | (injection hs with hs; subst hs; simp at h2; done)
        | (injection hs with hs; subst hs; dsimp only at h2; (repeat' split at h2) <;> cases h2; done)
        | (rename_i hp _ _ _; rw [hp]; decide)
        | (rename_i hp _ _; rw [hp]; decide)
        | (rename_i hp _; rw [hp]; decide)
        | (rename_i hp; rw [hp]; decide)
  | _ =>
    exfalso
    revert h2
    unfold apply woken
    dsimp only
    (repeat' split) <;> simp_all

private theorem requests_left (es : List Event) : ∀ s : State, s.exit = true → requests s es ≤ if 13 ≤ left s.point then 1 else 0 := by
  induction es with
  | nil => intro s _; exact Nat.zero_le _
  | cons e es ih =>
    intro s hx
    have g := left_apply hx e
    have h := ih (apply s e) g.1
    show (if takes s e then 1 else 0) + requests (apply s e) es ≤ _
    cases ht : takes s e with
    | true =>
      have := takes_left ht
      rw [this.1] at h
      rw [if_pos this.2]
      simp at h
      simp [h]
    | false =>
      have hle : left (apply s e).point ≤ left s.point := by omega
      simp only [Bool.false_eq_true, if_false, Nat.zero_add]
      refine Nat.le_trans h ?_
      split <;> split <;> omega

/-- Once it has been told to end, wherever it is, the process takes up at most one more request, and takes at most fourteen more steps; and as long as it has not ended, it waits or has a step to take. -/
theorem C105_told (s : State) (int : Bool) (es : List Event) (hs : ∀ n, ¬ Ended s n) :
    requests (apply s (.term int)) es ≤ 1 ∧ steps (apply s (.term int)) es ≤ 14 ∧
      ((∃ f, Waits (run (apply s (.term int)) es) f) ∨ (∃ status, Ended (run (apply s (.term int)) es) status)
        ∨ ∃ e, moves (run (apply s (.term int)) es) e = true) := by
  have hx : (apply s (.term int)).exit = true := by
    unfold apply
    dsimp only
    split
    · rename_i h
      cases hp : s.point with
      | ended n => exact absurd hp (hs n)
      | _ => rw [hp] at h; cases h
    · rfl
  refine ⟨?_, ?_, progress _⟩
  · refine Nat.le_trans (requests_left es _ hx) ?_
    split <;> omega
  · have h := steps_left es _ hx
    have h14 : left (apply s (.term int)).point ≤ 14 := by
      cases (apply s (.term int)).point with
      | inside f m => cases f <;> simp [left]
      | _ => simp [left]
    omega

/-! ## The exit status -/

private theorem exit_step {s t : State} (h : step s = some t) : t.exit = s.exit := by
  unfold step at h
  repeat' split at h
  all_goals first
    | (cases h; done)
    | (injection h with h; subst h; rfl)

private theorem exit_ret {s t : State} {r : Ret} (h : ret s r = some t) : t.exit = s.exit := by
  unfold ret at h
  repeat' split at h
  all_goals first
    | (cases h; done)
    | (injection h with h; subst h; rfl)

private theorem over_stays {s : State} (h : s.point.over = true) (e : Event) : apply s e = s := by
  cases hp : s.point with
  | ended n =>
    cases e with
    | go => simp [apply, step, hp]
    | ret r => simp [apply, ret, hp]
    | block => simp [apply, hp]
    | bytes => simp [apply, hp]
    | term i => simp [apply, hp, Point.over]
    | child b => simp [apply, hp, Point.over]
    | alarm => simp [apply, hp, Point.over]
  | _ => rw [hp] at h; cases h

private theorem over_run (es : List Event) : ∀ s : State, s.point.over = true → run s es = s := by
  induction es with
  | nil => intro s _; rfl
  | cons e es ih =>
    intro s h
    show run (apply s e) es = s
    rw [over_stays h e]
    exact ih s h

private theorem exit_apply {s : State} (hs : s.point.over = false) (e : Event) : (apply s e).exit = (s.exit || isTerm e) := by
  cases e with
  | go =>
    show ((step s).getD s).exit = _
    cases h : step s with
    | none => simp [isTerm]
    | some t => simp [isTerm, exit_step h]
  | ret r =>
    show ((ret s r).getD s).exit = _
    cases h : ret s r with
    | none => simp [isTerm]
    | some t => simp [isTerm, exit_ret h]
  | term i => simp [apply, hs, isTerm]
  | block => unfold apply; dsimp only; (repeat' split) <;> simp [isTerm]
  | bytes => unfold apply; dsimp only; (repeat' split) <;> simp [isTerm]
  | child b => unfold apply; dsimp only; (repeat' split) <;> simp [isTerm]
  | alarm => unfold apply; dsimp only; (repeat' split) <;> simp [isTerm]

private theorem exit_run (es : List Event) : ∀ s : State, (run s es).point.over = false → (run s es).exit = (s.exit || es.any isTerm) := by
  induction es with
  | nil => intro s _; simp [run]
  | cons e es ih =>
    intro s h
    have hs : s.point.over = false := by
      cases ho : s.point.over with
      | false => rfl
      | true => rw [over_run (e :: es) s ho, ho] at h; exact h
    have := ih (apply s e) h
    show (run (apply s e) es).exit = _
    rw [this, exit_apply hs e, List.any_cons, Bool.or_assoc]

private theorem told_any (es : List Event) : es.any isTerm = true ↔ Told es := by
  unfold Told
  rw [List.any_eq_true]
  constructor
  · rintro ⟨e, he, ht⟩
    cases e with
    | term i => exact ⟨i, he⟩
    | _ => cases ht
  · rintro ⟨i, h⟩
    exact ⟨_, h, rfl⟩

private theorem last_event (es : List Event) : ∀ (s : State) (n : Nat), s.point.over = false → Ended (run s es) n →
    ∃ pre post, es = pre ++ .go :: post ∧ (run s pre).point = .done ∧ run s es = apply (run s pre) .go := by
  induction es with
  | nil =>
    intro s n hs h
    unfold Ended at h
    rw [show run s [] = s from rfl] at h
    rw [h] at hs
    cases hs
  | cons e es ih =>
    intro s n hs h
    cases ho : (apply s e).point.over with
    | false =>
      obtain ⟨pre, post, h1, h2, h3⟩ := ih (apply s e) n ho h
      exact ⟨e :: pre, post, by rw [h1]; rfl, h2, h3⟩
    | true =>
      have hrun : run s (e :: es) = apply s e := over_run es _ ho
      have hp : s.point = .done ∧ e = .go := by
        cases e with
        | go =>
          refine ⟨?_, rfl⟩
          cases hst : step s with
          | none => simp [apply, hst, hs] at ho
          | some t =>
            simp only [apply, hst, Option.getD] at ho
            unfold step at hst
            (repeat' split at hst) <;> first
              | (cases hst; done)
              | (assumption)
              | (injection hst with hst; subst hst; cases ho; done)
              | (injection hst with hst; subst hst; dsimp only at ho; (repeat' split at ho) <;> cases ho)
        | ret r =>
          exfalso
          cases hst : ret s r with
          | none => simp [apply, hst, hs] at ho
          | some t =>
            simp only [apply, hst, Option.getD] at ho
            unfold ret at hst
            (repeat' split at hst) <;> first
              | (cases hst; done)
              | (injection hst with hst; subst hst; cases ho; done)
              | (injection hst with hst; subst hst; dsimp only at ho; (repeat' split at ho) <;> cases ho)
        | _ =>
          exfalso
          revert ho
          unfold apply woken
          dsimp only
          (repeat' split) <;> simp_all [Point.over]
      obtain ⟨hp, rfl⟩ := hp
      exact ⟨[], es, rfl, hp, hrun⟩

/-- The process ends with status 0 if, before its end, somebody told it to end or the last thing it read was the end of the connection, and with status 1 in all other cases. -/
theorem C105_status (timeout : Nat) (twoway : Bool) (es : List Event) (status : Nat) (h : Ended (run (accepted timeout twoway) es) status) :
    ∃ pre post, es = pre ++ .go :: post ∧ (run (accepted timeout twoway) pre).point = .done ∧
      (status = 0 ∧ (Told pre ∨ (run (accepted timeout twoway) pre).msg = .close)
        ∨ status = 1 ∧ ¬ Told pre ∧ (run (accepted timeout twoway) pre).msg ≠ .close) := by
  obtain ⟨pre, post, h1, h2, h3⟩ := last_event es (accepted timeout twoway) status rfl h
  refine ⟨pre, post, h1, h2, ?_⟩
  have hx := exit_run pre (accepted timeout twoway) (by rw [h2]; rfl)
  have hx' : (run (accepted timeout twoway) pre).exit = pre.any isTerm := by
    rw [hx]
    rfl
  unfold Ended at h
  rw [h3] at h
  simp only [apply, step, h2, Option.getD, Point.ended.injEq] at h
  rw [hx'] at h
  have ht := told_any pre
  cases hb : pre.any isTerm with
  | true =>
    rw [hb] at h
    exact Or.inl ⟨by simpa using h.symm, Or.inl (ht.1 hb)⟩
  | false =>
    rw [hb] at h
    have hn : ¬ Told pre := fun g => by rw [ht.2 g] at hb; cases hb
    by_cases hm : (run (accepted timeout twoway) pre).msg = .close
    · rw [hm] at h
      exact Or.inl ⟨by simpa using h.symm, Or.inr hm⟩
    · simp [hm] at h
      exact Or.inr ⟨h.symm, hn, hm⟩

/-! ## During a test -/

/-- An interrupt while sessions run ends the process without the messages that stop them: two steps after `OWPStopSessionsWait` returns, with status 0. -/
theorem C105_interrupt (s : State) (ok : Bool) (hw : Waits s .poll) :
    Ended (run s [.term true, .ret (.rc ok), .go, .go]) 0 := by
  unfold Waits at hw
  simp [run, apply, hw, Point.over, woken, ret, step, Ended]

/-- Any other signal to end while sessions run, on a one-way connection: the process goes on to trade the messages that stop them, with the timer set, and then ends with status 0. -/
theorem C105_graceful (s : State) (ok ok' : Bool) (hw : Waits s .poll) (ht : s.twoway = false) (hi : s.int = false) :
    (run s [.term false, .ret (.rc ok), .go, .go]).point = .inside .stop .free ∧
      (run s [.term false, .ret (.rc ok), .go, .go]).timer = decide (s.timeout ≠ 0) ∧
      Ended (run s [.term false, .ret (.rc ok), .go, .go, .ret (.rc ok'), .go, .go]) 0 := by
  unfold Waits at hw
  cases ok' <;> simp [run, apply, hw, Point.over, woken, ret, step, Ended, ht, hi]

/-- On a two-way connection it ends, with status 0. -/
theorem C105_two_way_end (s : State) (ok : Bool) (hw : Waits s .poll) (ht : s.twoway = true) :
    Ended (run s [.term false, .ret (.rc ok), .go, .go, .go]) 0 := by
  unfold Waits at hw
  cases hi : s.int <;> cases hr : s.rc <;> simp [run, apply, hw, Point.over, woken, ret, step, Ended, ht, hi, hr]

/-- The end of a session does not end the wait for the others: the process is back at `OWPStopSessionsWait`. -/
theorem C105_session_over (s : State) (ok fails : Bool) (hw : Waits s .poll) (hn : s.sessions ≠ 0) (hx : s.exit = false) (hi : s.int = false) :
    (run s [.child fails, .ret (.rc ok), .go, .go]).point = .waitTop ∧
      (run s [.child fails, .ret (.rc ok), .go, .go]).sessions = s.sessions - 1 := by
  unfold Waits at hw
  simp [run, apply, hw, Point.over, woken, ret, step, hx, hi, hn]

/-! ## Where it does not end -/

private theorem stuck_of {s : State} {f : Fn} (hw : Waits s f) (hn : s.sessions = 0) (ht : s.timer = false) : Stuck s := by
  unfold Waits at hw
  refine ⟨(fun n h => by unfold Ended at h; rw [hw] at h; cases h), ?_⟩
  intro es
  induction es with
  | nil => intro _; rfl
  | cons e es ih =>
    intro h
    have he : apply s e = s := by
      have := h e (List.mem_cons_self ..)
      cases e with
      | go => simp [apply, step, hw]
      | block => simp [apply, hw]
      | bytes => exact this.elim
      | ret r => cases f <;> simp [apply, ret, hw]
      | term i => exact this.elim
      | child b => simp [apply, hn]
      | alarm => simp [apply, ht]
    show run (apply s e) es = s
    rw [he]
    exact ih (fun e' h' => h e' (List.mem_cons_of_mem _ h'))

/-- A client asks for a session, is served, and starts it; the process waits for the session. -/
private def started : List Event :=
  [.go, .block, .bytes, .ret (.msg .test), .go, .ret (.rc true), .go, .go, .block, .bytes, .ret (.msg .start), .go, .ret (.rc true), .go, .go, .go, .block]

/-- Defect: the session ends, and the one-way server goes to trade the messages that stop it within `OWPStopSessionsWait`, with the timer unset: a client that says nothing holds the connection for ever,
whatever the control timeout. No signal was missed. -/
theorem C105_stop_untimed : ∃ es, .alarm ∉ es ∧ ¬ Told es ∧ Waits (run (accepted 1800 false) es) .stopIn ∧ Stuck (run (accepted 1800 false) es) := by
  refine ⟨started ++ [.child false, .ret (.rc true), .go, .go, .go, .block], by decide, ?_, by unfold Waits; decide,
    stuck_of (f := .stopIn) (by unfold Waits; decide) (by decide) (by decide)⟩
  rw [← told_any]
  decide

/-- Defect: so does a two-way client that never sends the message that stops the sessions: they are all over, and the timer is unset. -/
theorem C105_two_way_untimed :
    Waits (run (accepted 1800 true) (started ++ [.child false, .ret (.rc true), .go, .go, .go, .block])) .poll ∧
      (run (accepted 1800 true) (started ++ [.child false, .ret (.rc true), .go, .go, .go, .block])).sessions = 0 ∧
      Stuck (run (accepted 1800 true) (started ++ [.child false, .ret (.rc true), .go, .go, .go, .block])) := by
  exact ⟨by unfold Waits; decide, by decide, stuck_of (f := .poll) (by unfold Waits; decide) (by decide) (by decide)⟩

/-- Defect: a timer that expires just before the process begins to wait is missed: the process then waits for a silent client for ever. -/
theorem C105_lost_alarm : Waits (run (accepted 1800 false) [.go, .alarm, .block]) .read ∧ Stuck (run (accepted 1800 false) [.go, .alarm, .block]) := by
  exact ⟨by unfold Waits; decide, stuck_of (f := .read) (by unfold Waits; decide) (by decide) (by decide)⟩

/-- Defect: so is a signal to end that comes just before; without a control timeout, the process told to end waits for a silent client until it is told again. -/
theorem C105_lost_end : Told [.go, .term false, .block] ∧ Stuck (run (accepted 0 false) [.go, .term false, .block]) := by
  exact ⟨⟨false, by decide⟩, stuck_of (f := .read) (by unfold Waits; decide) (by decide) (by decide)⟩

/-- Defect: the process of a session that ends while the server waits for the next request ends the whole connection, with status 1: `OWPReadRequestType` gives up the request and takes the connection
out of the state in which it can read one. The client had said nothing wrong, no timer expired, and nobody told the process to end. -/
theorem C105_child : Ended (run (accepted 1800 false)
    [.go, .block, .bytes, .ret (.msg .test), .go, .ret (.rc true), .go, .go, .block, .child true, .ret (.msg .intr), .go, .go, .go, .ret (.msg .other), .go, .go, .go]) 1 := by
  unfold Ended
  decide

/-- On a two-way connection the process then answers a request nobody made. -/
theorem C105_child_two_way : (run (accepted 1800 true)
    [.go, .block, .bytes, .ret (.msg .test), .go, .ret (.rc true), .go, .go, .block, .child true, .ret (.msg .intr), .go, .go, .go, .ret (.msg .other), .go]).point = .inside .serve .free := by
  decide

/-! ## The hypotheses can be met -/

/-- A process that waits for its first request, and one that waits for its sessions. -/
example : Waits (run (accepted 1800 false) [.go, .block]) .read ∧ (run (accepted 1800 false) [.go, .block]).timer = true
    ∧ Ended (run (accepted 1800 false) [.go, .block, .alarm, .ret (.msg .intr), .go, .go, .go]) 1
    ∧ Ended (run (accepted 1800 false) [.go, .block, .term false, .ret (.msg .intr), .go, .go, .go]) 0
    ∧ Ended (run (accepted 1800 false) [.go, .block, .bytes, .ret (.msg .close), .go, .go, .go]) 0
    ∧ Waits (run (accepted 1800 false) started) .poll ∧ (run (accepted 1800 false) started).sessions = 1
    ∧ requests (accepted 1800 false) started = 2 := by
  unfold Waits Ended
  decide

end Owamp.Props
