import Verif.Spec.Sessions
/-!
# C55, C56: the local sides of sessions

C55: `OWPSessionsActive` counts what runs and reports the worst result; stopping reports failures. C56: senders start only
after both sides agreed.
-/
namespace Owamp.Props
open Owamp.Local Owamp.Spec.Sessions

/-! ## C55: watching -/

theorem endpointStatus_result (e : Ep) :
    result (endpointStatus e 0).1 = result e ∧
    (endpointStatus e 0).2.1 = (endpointStatus e 0).1.acceptval ∧
    ((endpointStatus e 0).2.1 < 0 ↔ result e = none) ∧ (∀ v, result e = some v → (endpointStatus e 0).2.1 = v) := by
  unfold endpointStatus result
  by_cases h : e.acceptval < 0
  · cases hn : e.now with
    | none => simp [h, hn]
    | some en => cases en <;> simp [h, reap, verdict] <;> omega
  · simp [h]

theorem activeLoop_spec (ts : List Ses) : ∀ n raval,
    (activeLoop ts n raval).1 = n + ((results ts).filter (· = none)).length ∧
    results (activeLoop ts n raval).2.2 = results ts ∧
    raval ≤ (activeLoop ts n raval).2.1 ∧
    (∀ v, some v ∈ results ts → v ≤ (activeLoop ts n raval).2.1) ∧
    ((activeLoop ts n raval).2.1 = raval ∨ some (activeLoop ts n raval).2.1 ∈ results ts) := by
  induction ts with
  | nil => intro n raval; simp [activeLoop, results]
  | cons t ts ih =>
    intro n raval
    cases ht : t.ep with
    | none =>
      have hr : ∀ l, results (t :: l) = results l := fun l => by simp [results, ht]
      rw [activeLoop]; simp only [ht]
      rw [hr, hr]
      exact ih n raval
    | some e =>
      obtain ⟨h1, h2, h3, h4⟩ := endpointStatus_result e
      have hr : results (t :: ts) = result e :: results ts := by simp [results, ht]
      have hr' : ∀ l, results ({ t with ep := some (endpointStatus e 0).1 } :: l) = result e :: results l := by
        intro l; simp [results, h1]
      rw [activeLoop]; simp only [ht]
      rw [hr, hr']
      by_cases hneg : (endpointStatus e 0).2.1 < 0
      · rw [if_pos hneg]
        have hres := h3.1 hneg
        obtain ⟨i1, i2, i3, i4, i5⟩ := ih (n + 1) raval
        refine ⟨?_, by rw [i2], i3, ?_, ?_⟩
        · rw [i1, hres]; simp; omega
        · intro v hv
          rcases List.mem_cons.1 hv with hv | hv
          · rw [hres] at hv; cases hv
          · exact i4 v hv
        · rcases i5 with h | h
          · exact .inl h
          · exact .inr (List.mem_cons_of_mem _ h)
      · rw [if_neg hneg]
        obtain ⟨v, hv⟩ : ∃ v, result e = some v := by
          cases hc : result e with
          | none => exact absurd (h3.2 hc) hneg
          | some v => exact ⟨v, rfl⟩
        have hval := h4 v hv
        obtain ⟨i1, i2, i3, i4, i5⟩ := ih n (max (endpointStatus e 0).2.1 raval)
        refine ⟨?_, by rw [i2], by omega, ?_, ?_⟩
        · rw [i1, hv]; simp
        · intro w hw
          rcases List.mem_cons.1 hw with hw | hw
          · rw [hv] at hw; injection hw with hw; omega
          · exact i4 w hw
        · rcases i5 with h | h
          · by_cases hm : (endpointStatus e 0).2.1 ≤ raval
            · left; rw [h]; omega
            · right; rw [h, hv]
              have : max (endpointStatus e 0).2.1 raval = v := by omega
              rw [this]; simp
          · exact .inr (List.mem_cons_of_mem _ h)

/-- `OWPSessionsActive` returns the number of endpoints that run; the value it reports is 0 or a result of one that is
over, and no result is worse. Asking changes no result. -/
theorem C55_active (ts : List Ses) :
    (sessionsActive ts).1 = ((results ts).filter (· = none)).length ∧
    (∀ v, some v ∈ results ts → v ≤ (sessionsActive ts).2.1) ∧ 0 ≤ (sessionsActive ts).2.1 ∧
    ((sessionsActive ts).2.1 = 0 ∨ some (sessionsActive ts).2.1 ∈ results ts) ∧
    results (sessionsActive ts).2.2 = results ts := by
  obtain ⟨h1, h2, h3, h4, h5⟩ := activeLoop_spec ts 0 0
  exact ⟨by rw [sessionsActive, h1]; omega, h4, h3, h5, h2⟩

/-- What a later look finds: what was over keeps its result. -/
theorem later_result {t t' : Ses} (h : Later t t') :
    (t.ep = none ∧ t'.ep = none) ∨ ∃ e e', t.ep = some e ∧ t'.ep = some e' ∧ (result e = none ∨ result e' = result e) := by
  rcases h with rfl | ⟨e, en, h1, h2, rfl⟩
  · cases h : t'.ep with
    | none => exact .inl ⟨rfl, rfl⟩
    | some e => exact .inr ⟨e, e, rfl, rfl, .inr rfl⟩
  · refine .inr ⟨e, _, h1, rfl, ?_⟩
    unfold result
    by_cases h : e.acceptval < 0
    · left; simp [h, h2]
    · right; simp [h]

theorem allLater_results {ts ts' : List Ses} (h : AllLater ts ts') :
    ((results ts').filter (· = none)).length ≤ ((results ts).filter (· = none)).length ∧
    ∀ v, some v ∈ results ts → some v ∈ results ts' := by
  induction h with
  | nil => simp [results]
  | @cons t t' ts ts' h _ ih =>
    obtain ⟨ih1, ih2⟩ := ih
    rcases later_result h with ⟨h1, h2⟩ | ⟨e, e', h1, h2, h3⟩
    · have e1 : results (t :: ts) = results ts := by simp [results, h1]
      have e2 : results (t' :: ts') = results ts' := by simp [results, h2]
      rw [e1, e2]; exact ⟨ih1, ih2⟩
    · have e1 : results (t :: ts) = result e :: results ts := by simp [results, h1]
      have e2 : results (t' :: ts') = result e' :: results ts' := by simp [results, h2]
      rw [e1, e2]
      constructor
      · rcases h3 with h3 | h3
        · simp only [List.filter_cons, h3, decide_true, if_true, List.length_cons]
          split
          · simp only [List.length_cons]; omega
          · omega
        · rw [h3]
          simp only [List.filter_cons]
          split
          · simp only [List.length_cons]; omega
          · exact ih1
      · intro v hv
        rcases List.mem_cons.1 hv with hv | hv
        · rcases h3 with h3 | h3
          · rw [h3] at hv; cases hv
          · rw [h3]; exact List.mem_cons.2 (.inl hv)
        · exact List.mem_cons_of_mem _ (ih2 v hv)

/-- The numbers and values that repeated questions give: each time some time goes by first. -/
inductive Watched : List Ses → List (Nat × Int) → List Ses → Prop where
  | start (ts) : Watched ts [] ts
  | look {ts log ts' now} : Watched ts log ts' → AllLater ts' now →
      Watched ts (log ++ [((sessionsActive now).1, (sessionsActive now).2.1)]) (sessionsActive now).2.2

/-- However often and whenever one asks: the number of endpoints that run never grows, and the value reported never gets
better. -/
theorem C55_history {ts ts' : List Ses} {log : List (Nat × Int)} (h : Watched ts log ts') :
    log.Pairwise fun a b => b.1 ≤ a.1 ∧ a.2 ≤ b.2 := by
  have key : log.Pairwise (fun a b => b.1 ≤ a.1 ∧ a.2 ≤ b.2) ∧
      ∀ a ∈ log, ((results ts').filter (· = none)).length ≤ a.1 ∧ (a.2 = 0 ∨ some a.2 ∈ results ts') := by
    induction h with
    | start => exact ⟨List.Pairwise.nil, by simp⟩
    | @look log ts' now _ hl ih =>
      obtain ⟨ih1, ih2⟩ := ih
      obtain ⟨g1, g2⟩ := allLater_results hl
      obtain ⟨a1, a2, a3, a4, a5⟩ := C55_active now
      rw [a5]
      refine ⟨?_, ?_⟩
      · refine List.pairwise_append.2 ⟨ih1, List.pairwise_singleton _ _, ?_⟩
        intro a ha b hb
        rw [List.mem_singleton.1 hb]
        obtain ⟨i1, i2⟩ := ih2 a ha
        refine ⟨by rw [a1]; omega, ?_⟩
        rcases i2 with h | h
        · rw [h]; exact a3
        · exact a2 _ (g2 _ h)
      · intro a ha
        rcases List.mem_append.1 ha with ha | ha
        · obtain ⟨i1, i2⟩ := ih2 a ha
          exact ⟨by omega, i2.imp id (g2 _)⟩
        · rw [List.mem_singleton.1 ha]
          exact ⟨by rw [a1]; exact Nat.le_refl _, a4⟩
  exact key.1

/-- An endpoint for demonstrations: it runs, and ends with exit status 0 when told to stop and 2 when interrupted. -/
def demoEp (send : Bool) : Ep := ⟨send, -1, true, none, fun int => .exited (if int then 2#8 else 0#8), true, true, true⟩

/-- A sender that runs, a receiver that has ended with status 2, a sender that a signal has ended, a session without
endpoint and a receiver that was found to have ended with 0. -/
def demoSessions : List Ses :=
  [⟨[1#8], some (demoEp true)⟩, ⟨[2#8], some { demoEp false with now := some (.exited 2#8) }⟩,
   ⟨[3#8], some { demoEp true with now := some .killed }⟩, ⟨[4#8], none⟩, ⟨[5#8], some { demoEp false with acceptval := 0 }⟩]

example : results demoSessions = [none, some 2, some 2, some 0] := by decide
example : (sessionsActive demoSessions).1 = 1 ∧ (sessionsActive demoSessions).2.1 = 2 := by decide

/-- Two looks between which the process of the first session ends with status 3. -/
example : ∃ ts', Watched demoSessions [(1, 2), (0, 3)] ts' := by
  have l : AllLater (sessionsActive demoSessions).2.2
      ({ sid := [1#8], ep := some { demoEp true with now := some (.exited 3#8) } } :: (sessionsActive demoSessions).2.2.tail) := by
    refine .cons (.inr ⟨demoEp true, .exited 3#8, rfl, rfl, rfl⟩) ?_
    exact .cons (.inl rfl) (.cons (.inl rfl) (.cons (.inl rfl) (.cons (.inl rfl) .nil)))
  have r : AllLater demoSessions demoSessions :=
    .cons (.inl rfl) (.cons (.inl rfl) (.cons (.inl rfl) (.cons (.inl rfl) (.cons (.inl rfl) .nil))))
  exact ⟨_, Watched.look (Watched.look (Watched.start demoSessions) r) l⟩

/-- What is asked for one session: with 0 in `*aval`, there is an answer iff the first session with this identifier has an
endpoint, and the answer is the result, or a negative number while it runs. -/
theorem C55_status (sid : Bytes) (ts : List Ses) (t : Ses) (h : ts.find? (fun t => t.sid = sid) = some t) :
    (sessionStatus sid 0 ts).1 = t.ep.isSome ∧
    ∀ e, t.ep = some e →
      (∀ v, result e = some v → (sessionStatus sid 0 ts).2.1 = v) ∧ (result e = none → (sessionStatus sid 0 ts).2.1 < 0) := by
  induction ts with
  | nil => cases h
  | cons a ts ih =>
    rw [List.find?_cons] at h
    rw [sessionStatus]
    by_cases hs : a.sid = sid
    · simp only [hs, decide_true] at h
      injection h with h
      subst h
      rw [if_pos hs]
      cases he : a.ep with
      | none => exact ⟨rfl, by intro e h; cases h⟩
      | some e =>
        refine ⟨rfl, ?_⟩
        intro e' h
        injection h with h
        subst h
        obtain ⟨_, _, h3, h4⟩ := endpointStatus_result e
        exact ⟨h4, h3.2⟩
    · simp only [hs, decide_false] at h
      rw [if_neg hs]
      exact ih h

example : (sessionStatus [3#8] 0 demoSessions).1 = true ∧ (sessionStatus [3#8] 0 demoSessions).2.1 = 2 := by decide

/-- Full statement that fails: "aval contains the actual status" (api.c:563-572). It is only set if it was 0 before the
call, which does not initialise it: a caller whose variable holds something else gets that back. -/
theorem C55_status_stale (sid : Bytes) (ts : List Ses) (aval : Int) (h : aval ≠ 0) :
    (sessionStatus sid aval ts).2.1 = aval := by
  induction ts with
  | nil => rfl
  | cons a ts ih =>
    rw [sessionStatus]
    split
    · cases a.ep with
      | none => rfl
      | some e => simp [endpointStatus, h]
    · exact ih

example : (sessionStatus [3#8] 5 demoSessions).1 = true ∧ (sessionStatus [3#8] 5 demoSessions).2.1 = 5 := by decide

/-! ## C55: stopping -/

/-- What stopping does to an endpoint: nothing, or the end of its process is noticed. If all is well (`g`), the process has
exited by itself. -/
def StoppedEp (g : Prop) (e e' : Ep) : Prop :=
  e' = e ∨ (e.acceptval < 0 ∧ e.child = true ∧ e'.child = true ∧ e'.send = e.send ∧ e'.killOk = e.killOk ∧ e'.skipOk = e.skipOk ∧
    0 ≤ e'.acceptval ∧ ∃ en, e'.now = some en ∧ e'.acceptval = verdict en ∧ (g → ∃ code, en = .exited code))

/-- The same for sessions. -/
def StoppedSes (g : Prop) (t t' : Ses) : Prop :=
  t'.sid = t.sid ∧ ((t.ep = none ∧ t'.ep = none) ∨ ∃ e e', t.ep = some e ∧ t'.ep = some e' ∧ StoppedEp g e e')

/-- The same for lists of sessions. -/
inductive StoppedAll (g : Prop) : List Ses → List Ses → Prop where
  | nil : StoppedAll g [] []
  | cons {t t' ts ts'} : StoppedSes g t t' → StoppedAll g ts ts' → StoppedAll g (t :: ts) (t' :: ts')

theorem StoppedEp.imp {g g' : Prop} (h : g' → g) {e e' : Ep} : StoppedEp g e e' → StoppedEp g' e e'
  | .inl h => .inl h
  | .inr ⟨h1, h2, h3, h4, h5, h6, h7, en, h8, h9, h10⟩ => .inr ⟨h1, h2, h3, h4, h5, h6, h7, en, h8, h9, fun x => h10 (h x)⟩

theorem StoppedEp.trans {g : Prop} {a b c : Ep} (h : StoppedEp g a b) (h' : StoppedEp g b c) : StoppedEp g a c := by
  rcases h with rfl | h
  · exact h'
  · rcases h' with rfl | h'
    · exact .inr h
    · have h1 := h'.1
      have h2 := h.2.2.2.2.2.2.1
      omega

theorem StoppedSes.refl {g : Prop} (t : Ses) : StoppedSes g t t := by
  refine ⟨rfl, ?_⟩
  cases h : t.ep with
  | none => exact .inl ⟨rfl, rfl⟩
  | some e => exact .inr ⟨e, e, rfl, rfl, .inl rfl⟩

theorem StoppedAll.refl {g : Prop} (ts : List Ses) : StoppedAll g ts ts := by
  induction ts with
  | nil => exact .nil
  | cons t ts ih => exact .cons (.refl t) ih

theorem StoppedAll.imp {g g' : Prop} (h : g' → g) {ts ts' : List Ses} (hs : StoppedAll g ts ts') : StoppedAll g' ts ts' := by
  induction hs with
  | nil => exact .nil
  | cons h1 _ ih =>
    refine .cons ⟨h1.1, ?_⟩ ih
    rcases h1.2 with h2 | ⟨e, e', h2, h3, h4⟩
    · exact .inl h2
    · exact .inr ⟨e, e', h2, h3, h4.imp h⟩

theorem StoppedAll.trans {g : Prop} {a b c : List Ses} (h : StoppedAll g a b) (h' : StoppedAll g b c) : StoppedAll g a c := by
  induction h generalizing c with
  | nil => cases h'; exact .nil
  | cons h1 _ ih =>
    cases h' with
    | cons h2 h3 =>
      refine .cons ⟨h2.1.trans h1.1, ?_⟩ (ih h3)
      rcases h1.2 with ⟨x, y⟩ | ⟨e, e', x, y, z⟩
      · rcases h2.2 with ⟨x', y'⟩ | ⟨e, e', x', y', z'⟩
        · exact .inl ⟨x, y'⟩
        · rw [y] at x'; cases x'
      · rcases h2.2 with ⟨x', y'⟩ | ⟨f, f', x', y', z'⟩
        · rw [y] at x'; cases x'
        · rw [y] at x'; injection x' with x'; subst x'
          exact .inr ⟨e, f', x, y', z.trans z'⟩

theorem endpointStop_spec (e : Ep) (aval : Int) :
    StoppedEp ((endpointStop e aval).2.2 = allOk) e (endpointStop e aval).1 ∧
    (endpointStop e aval).2.1 = (if aval = 0 then (endpointStop e aval).1.acceptval else aval) ∧
    (endpointStop e aval).2.2 ≤ allOk ∧
    (e.child = true → (endpointStop e aval).1.acceptval < 0 → e.killOk = false ∧ (endpointStop e aval).2.2 = fatal) := by
  unfold endpointStop
  by_cases h1 : e.acceptval ≥ 0 ∨ e.child = false
  · rw [if_pos h1]
    refine ⟨.inl rfl, rfl, Nat.le_refl _, ?_⟩
    intro h2 h3
    rcases h1 with h1 | h1
    · exact absurd h3 (Int.not_lt.2 h1)
    · rw [h1] at h2; cases h2
  · rw [if_neg h1]
    by_cases h2 : e.killOk = false
    · rw [if_pos h2]
      exact ⟨.inl rfl, rfl, (by decide : fatal ≤ allOk), fun _ _ => ⟨h2, rfl⟩⟩
    · rw [if_neg h2]
      have hneg : e.acceptval < 0 := by
        by_cases h : e.acceptval < 0
        · exact h
        · exact absurd (.inl (by omega)) h1
      have hch : e.child = true := by
        cases h : e.child with
        | true => rfl
        | false => exact absurd (.inr h) h1
      generalize e.now.getD (e.ends (decide (aval ≠ 0))) = en
      unfold endpointStatus
      simp only [hneg, if_true]
      have hv : 0 ≤ verdict en := by cases en <;> simp [verdict]
      have hr : (reap en).1 = verdict en := by cases en <;> rfl
      refine ⟨.inr ⟨hneg, hch, hch, rfl, rfl, rfl, ?_, en, rfl, hr, ?_⟩, trivial, ?_, ?_⟩
      · show 0 ≤ (reap en).1; rw [hr]; exact hv
      · intro h; cases en with
        | exited c => exact ⟨c, rfl⟩
        | killed => exact absurd h (by decide)
        | lost => exact absurd h (by decide)
      · cases en with
        | exited c => exact Nat.le_refl 8
        | killed => exact (by decide : warning ≤ allOk)
        | lost => exact (by decide : warning ≤ allOk)
      · intro _ h
        have h : (reap en).1 < 0 := h
        rw [hr] at h; omega

theorem stoppedSes_mk {g : Prop} {t : Ses} {e e' : Ep} (h : t.ep = some e) (hs : StoppedEp g e e') :
    StoppedSes g t { t with ep := some e' } :=
  ⟨rfl, .inr ⟨e, e', h, rfl, hs⟩⟩

theorem sev : fatal = 3 ∧ warning = 4 ∧ allOk = 8 := ⟨rfl, rfl, rfl⟩

theorem stopSend_spec (twoway : Bool) (ts : List Ses) : ∀ s : Stopping, s.err ≤ allOk →
    (stopSend twoway ts s).1.err ≤ s.err ∧
    StoppedAll ((stopSend twoway ts s).1.err = allOk) ts (stopSend twoway ts s).2 := by
  induction ts with
  | nil => intro s hs; exact ⟨Nat.le_refl _, .nil⟩
  | cons t ts ih =>
    intro s hs
    rw [stopSend]
    cases ht : t.ep with
    | none => exact ⟨Nat.le_refl _, .refl _⟩
    | some e =>
      dsimp only
      split
      · obtain ⟨h1, h2⟩ := ih s hs
        exact ⟨h1, .cons (.refl _) h2⟩
      · obtain ⟨q1, _, q3, _⟩ := endpointStop_spec e s.aval
        generalize endpointStop e s.aval = q at *
        generalize hs' : Stopping.mk _ _ _ = s'
        have he : s'.err ≤ s.err ∧ s'.err ≤ q.2.2 := by
          rw [← hs']; dsimp only; split <;> omega
        obtain ⟨h1, h2⟩ := ih s' (by omega)
        dsimp only
        refine ⟨by omega, .cons (stoppedSes_mk ht (q1.imp ?_)) h2⟩
        intro h; omega

theorem stopRecv_spec (twoway server nowait : Bool) (late : Ses → Bool) (ts : List Ses) : ∀ s : Stopping, s.err ≤ allOk →
    (stopRecv twoway server nowait late ts s).1.err ≤ s.err ∧
    StoppedAll ((stopRecv twoway server nowait late ts s).1.err = allOk) ts (stopRecv twoway server nowait late ts s).2 := by
  induction ts with
  | nil => intro s hs; exact ⟨Nat.le_refl _, .nil⟩
  | cons t ts ih =>
    intro s hs
    rw [stopRecv]
    cases ht : t.ep with
    | none => exact ⟨Nat.le_refl _, .refl _⟩
    | some e =>
      dsimp only
      split
      · obtain ⟨h1, h2⟩ := ih s hs
        exact ⟨h1, .cons (.refl _) h2⟩
      · split
        · exact ⟨Nat.le_refl _, .refl _⟩
        · obtain ⟨q1, _, q3, _⟩ := endpointStop_spec e s.aval
          generalize endpointStop e s.aval = q at *
          obtain ⟨h1, h2⟩ := ih { s with aval := q.2.1, err := min q.2.2 s.err } (by show min _ _ ≤ _; omega)
          dsimp only at h1 ⊢
          refine ⟨by omega, .cons (stoppedSes_mk ht (q1.imp ?_)) h2⟩
          intro h; omega

theorem freeAll_spec (aval : Int) (ts : List Ses) : ∀ err, err ≤ allOk →
    (freeAll aval ts err).1 ≤ err ∧
    StoppedAll ((freeAll aval ts err).1 = allOk) ts (freeAll aval ts err).2 ∧
    ∀ t ∈ (freeAll aval ts err).2, ∀ e, t.ep = some e → e.child = true → e.acceptval < 0 →
      e.killOk = false ∧ (freeAll aval ts err).1 ≤ fatal := by
  induction ts with
  | nil => intro err h; exact ⟨Nat.le_refl _, .nil, by simp [freeAll]⟩
  | cons t ts ih =>
    intro err hs
    rw [freeAll]
    cases ht : t.ep with
    | none =>
      dsimp only
      obtain ⟨h1, h2, h3⟩ := ih err hs
      refine ⟨h1, .cons (.refl _) h2, ?_⟩
      intro t' ht' e he
      rcases List.mem_cons.1 ht' with rfl | ht'
      · rw [ht] at he; cases he
      · exact h3 t' ht' e he
    | some e =>
      dsimp only
      obtain ⟨q1, _, q3, q4⟩ := endpointStop_spec e aval
      generalize endpointStop e aval = q at *
      obtain ⟨h1, h2, h3⟩ := ih (min q.2.2 err) (by omega)
      refine ⟨by omega, .cons (stoppedSes_mk ht (q1.imp (by intro h; omega))) h2, ?_⟩
      intro t' ht' e' he' hc hneg
      rcases List.mem_cons.1 ht' with rfl | ht'
      · injection he' with he'
        subst he'
        have hec : e.child = true ∧ q.1.killOk = e.killOk := by
          rcases q1 with h | h
          · rw [h] at hc; exact ⟨hc, by rw [h]⟩
          · exact ⟨h.2.1, h.2.2.2.2.1⟩
        obtain ⟨k1, k2⟩ := q4 hec.1 hneg
        exact ⟨hec.2.trans k1, by omega⟩
      · exact h3 t' ht' e' he' hc hneg

theorem stopDone_spec (readstop : Bool) (s : Stopping) (hs : s.err ≤ allOk) (ts : List Ses) :
    StoppedAll ((stopDone readstop s ts).rc = allOk) ts (stopDone readstop s ts).sessions ∧
    (∀ t ∈ (stopDone readstop s ts).sessions, ∀ e, t.ep = some e → e.child = true → e.acceptval < 0 →
      e.killOk = false ∧ (stopDone readstop s ts).rc < warning) ∧
    ((stopDone readstop s ts).rc = allOk → readstop = true ∧ s.err = allOk ∧ (stopDone readstop s ts).aval = s.aval) ∧
    (readstop = false → (stopDone readstop s ts).rc < warning) := by
  have sv := sev
  obtain ⟨h1, h2, h3⟩ := freeAll_spec s.aval ts s.err hs
  unfold stopDone
  generalize freeAll s.aval ts s.err = f at *
  dsimp only
  by_cases hw : f.1 < warning
  · rw [if_pos hw]
    refine ⟨h2, fun t ht e he hc hn => ⟨(h3 t ht e he hc hn).1, hw⟩, ?_, fun _ => hw⟩
    intro h; dsimp only at h; omega
  · rw [if_neg hw]
    cases readstop with
    | false =>
      rw [if_pos (by decide)]
      refine ⟨h2.imp (by intro h; dsimp only at h; omega), fun t ht e he hc hn => ?_, fun h => by dsimp only at h; omega,
        fun _ => (by decide : fatal < warning)⟩
      have := h3 t ht e he hc hn
      omega
    | true =>
      refine ⟨h2, fun t ht e he hc hn => ?_, ?_, by intro h; cases h⟩
      · have := h3 t ht e he hc hn
        omega
      · intro h
        have h : f.1 = allOk := h
        exact ⟨rfl, by omega, rfl⟩

theorem stopClean_spec (twoway server readstop : Bool) (p : Peer) (s : Stopping) (hs : s.err ≤ allOk) (ts : List Ses) :
    StoppedAll ((stopClean twoway server readstop p s ts).rc = allOk) ts (stopClean twoway server readstop p s ts).sessions ∧
    (∀ t ∈ (stopClean twoway server readstop p s ts).sessions, ∀ e, t.ep = some e → e.child = true → e.acceptval < 0 →
      e.killOk = false ∧ (stopClean twoway server readstop p s ts).rc < warning) ∧
    ((stopClean twoway server readstop p s ts).rc = allOk →
      readstop = true ∧ s.err = allOk ∧ p.read.1 ≥ allOk ∧ (stopClean twoway server readstop p s ts).aval = p.read.2) ∧
    (readstop = false → (stopClean twoway server readstop p s ts).rc < warning) := by
  have sv := sev
  obtain ⟨h1, h2⟩ := stopRecv_spec twoway server (!readstop) p.late ts s hs
  unfold stopClean
  generalize stopRecv twoway server (!readstop) p.late ts s = r at *
  dsimp only
  by_cases hw : r.1.err < warning
  · rw [if_pos hw]
    obtain ⟨a1, a2, a3, a4⟩ := stopDone_spec readstop r.1 (by omega) r.2
    refine ⟨(h2.imp (fun h => (a3 h).2.1)).trans a1, a2, ?_, a4⟩
    intro h; have := (a3 h).2.1; exfalso; omega
  · rw [if_neg hw]
    cases readstop with
    | true =>
      rw [if_pos rfl]
      obtain ⟨a1, a2, a3, a4⟩ := stopDone_spec true { r.1 with aval := p.read.2, err := min p.read.1 r.1.err }
        (by show min _ _ ≤ _; omega) r.2
      have e3 : ∀ h, _ := fun h => (a3 h).2.1
      refine ⟨(h2.imp (fun h => by have : min p.read.1 r.1.err = allOk := e3 h; omega)).trans a1, a2, ?_, a4⟩
      intro h
      have h3 : min p.read.1 r.1.err = allOk := e3 h
      exact ⟨rfl, by omega, by omega, (a3 h).2.2⟩
    | false =>
      rw [if_neg (by decide)]
      split
      · obtain ⟨a1, a2, a3, a4⟩ := stopDone_spec false { r.1 with aval := 0 } (by show r.1.err ≤ _; omega) r.2
        refine ⟨(h2.imp (fun h => (a3 h).2.1)).trans a1, a2, ?_, a4⟩
        intro h; have := (a3 h).1; cases this
      · obtain ⟨a1, a2, a3, a4⟩ := stopDone_spec false { r.1 with aval := 2, err := fatal } (by decide : fatal ≤ allOk) r.2
        refine ⟨(h2.imp (fun h => ?_)).trans a1, a2, ?_, a4⟩
        · have h : fatal = allOk := (a3 h).2.1
          exact absurd h (by decide)
        · intro h; have := (a3 h).1; cases this

theorem stopSessions_spec (twoway server : Bool) (p : Peer) (aval : Int) (ts : List Ses) :
    StoppedAll ((stopSessions twoway server p aval ts).rc = allOk) ts (stopSessions twoway server p aval ts).sessions ∧
    (∀ t ∈ (stopSessions twoway server p aval ts).sessions, ∀ e, t.ep = some e → e.child = true → e.acceptval < 0 →
      e.killOk = false ∧ (stopSessions twoway server p aval ts).rc < warning) ∧
    ((stopSessions twoway server p aval ts).rc = allOk →
      p.heard = .stop ∧ p.read.1 ≥ allOk ∧ (stopSessions twoway server p aval ts).aval = p.read.2) ∧
    (twoway = true → server = false → (stopSessions twoway server p aval ts).rc < warning) := by
  have sv := sev
  obtain ⟨h1, h2⟩ := stopSend_spec twoway ts ⟨aval, allOk, 0⟩ (Nat.le_refl _)
  unfold stopSessions
  generalize stopSend twoway ts ⟨aval, allOk, 0⟩ = r at *
  have h1 : r.1.err ≤ allOk := h1
  dsimp only
  by_cases hw : r.1.err < warning
  · rw [if_pos hw]
    obtain ⟨a1, a2, a3, a4⟩ := stopDone_spec true r.1 h1 r.2
    have hrc : (stopDone true r.1 r.2).rc < warning := by
      obtain ⟨f1, _, _⟩ := freeAll_spec r.1.aval r.2 r.1.err h1
      unfold stopDone
      dsimp only
      rw [if_pos (by omega)]
      dsimp only; omega
    refine ⟨(h2.imp (fun h => (a3 h).2.1)).trans a1, a2, ?_, fun _ _ => hrc⟩
    intro h; rw [h] at hrc; exact absurd hrc (by decide)
  · rw [if_neg hw]
    have hse : min (p.write r.1.aval r.1.num) r.1.err ≤ allOk := by omega
    by_cases hw2 : min (p.write r.1.aval r.1.num) r.1.err < warning
    · rw [if_pos hw2]
      obtain ⟨a1, a2, a3, a4⟩ := stopClean_spec twoway server false p
        { r.1 with err := min (p.write r.1.aval r.1.num) r.1.err } hse r.2
      refine ⟨(h2.imp (fun h => by have := (a3 h).1; cases this)).trans a1, a2, ?_, fun _ _ => a4 rfl⟩
      intro h; have := (a3 h).1; cases this
    · rw [if_neg hw2]
      by_cases htw : twoway = true ∧ ¬ server = true
      · rw [if_pos htw]
        obtain ⟨a1, a2, a3, a4⟩ := stopClean_spec twoway server false p
          { r.1 with err := min (p.write r.1.aval r.1.num) r.1.err } hse r.2
        refine ⟨(h2.imp (fun h => by have := (a3 h).1; cases this)).trans a1, a2, ?_, fun _ _ => a4 rfl⟩
        intro h; have := (a3 h).1; cases this
      · rw [if_neg htw]
        have hno : twoway = true → server = false → False := by
          intro x y; exact htw ⟨x, by rw [y]; decide⟩
        cases hh : p.heard with
        | stop =>
          dsimp only
          obtain ⟨a1, a2, a3, a4⟩ := stopClean_spec twoway server true p
            { r.1 with err := min (p.write r.1.aval r.1.num) r.1.err } hse r.2
          refine ⟨(h2.imp (fun h => ?_)).trans a1, a2, ?_, fun x y => (hno x y).elim⟩
          · have h : min (p.write r.1.aval r.1.num) r.1.err = allOk := (a3 h).2.1
            omega
          · intro h
            exact ⟨rfl, (a3 h).2.2.1, (a3 h).2.2.2⟩
        | closed =>
          dsimp only
          obtain ⟨a1, a2, a3, a4⟩ := stopClean_spec twoway server false p
            { r.1 with err := min (p.write r.1.aval r.1.num) r.1.err } hse r.2
          refine ⟨(h2.imp (fun h => by have := (a3 h).1; cases this)).trans a1, a2, ?_, fun x y => (hno x y).elim⟩
          intro h; have := (a3 h).1; cases this
        | other =>
          dsimp only
          obtain ⟨a1, a2, a3, a4⟩ := stopDone_spec true { r.1 with err := fatal } (by decide : fatal ≤ allOk) r.2
          have e3 : ∀ h, fatal = allOk := fun h => (a3 h).2.1
          refine ⟨(h2.imp (fun h => absurd (e3 h) (by decide))).trans a1, a2, ?_, fun x y => (hno x y).elim⟩
          intro h; exact absurd (e3 h) (by decide)

/-- After `OWPStopSessions` no child is left: each has been waited for, except one that could not be sent the signal, and
then the return value is `OWPErrFATAL` or worse. -/
theorem C55_nobody_left (twoway server : Bool) (p : Peer) (aval : Int) (ts : List Ses) :
    ∀ t ∈ (stopSessions twoway server p aval ts).sessions, ∀ e, t.ep = some e → e.child = true →
      0 ≤ e.acceptval ∨ (e.killOk = false ∧ (stopSessions twoway server p aval ts).rc < warning) := by
  intro t ht e he hc
  by_cases hn : e.acceptval < 0
  · exact .inr ((stopSessions_spec twoway server p aval ts).2.1 t ht e he hc hn)
  · exact .inl (by omega)

/-- If `OWPStopSessions` returns `OWPErrOK`, then every process that it has stopped has exited by itself, with the status
that its endpoint holds; a stop message was received, and the accept value is the one in that message.

Missing for the full property: a process that exits with an error status is not reported (`C55_failure_forgotten`). -/
theorem C55_stop_partial (twoway server : Bool) (p : Peer) (aval : Int) (ts : List Ses)
    (h : (stopSessions twoway server p aval ts).rc = allOk) :
    StoppedAll True ts (stopSessions twoway server p aval ts).sessions ∧
    p.heard = .stop ∧ p.read.1 ≥ allOk ∧ (stopSessions twoway server p aval ts).aval = p.read.2 := by
  obtain ⟨h1, _, h3, _⟩ := stopSessions_spec twoway server p aval ts
  exact ⟨h1.imp (fun _ => h), h3 h⟩

/-- The other side agrees to everything. -/
def kindPeer : Peer := ⟨fun _ _ => allOk, .stop, (allOk, 0), true, fun _ => false⟩

example : (stopSessions false false kindPeer 0 [⟨[1#8], some (demoEp true)⟩, ⟨[2#8], some (demoEp false)⟩]).rc = allOk := by
  decide

/-- Full statement that fails: stopping all sessions reports an error if any failed. A receiver that has exited with status
2 (a full disk, say), and a sender too: the accept value of the other side's message replaces what the local sessions
reported, and `OWPStopSessions` returns `OWPErrOK` with `OWP_CNTRL_ACCEPT`. -/
theorem C55_failure_forgotten :
    (stopSessions false false kindPeer 0 [⟨[2#8], some { demoEp false with now := some (.exited 2#8) }⟩]).rc = allOk ∧
    (stopSessions false false kindPeer 0 [⟨[2#8], some { demoEp false with now := some (.exited 2#8) }⟩]).aval = 0 ∧
    (stopSessions false false kindPeer 0 [⟨[1#8], some { demoEp true with now := some (.exited 2#8) }⟩]).rc = allOk ∧
    (stopSessions false false kindPeer 0 [⟨[1#8], some { demoEp true with now := some (.exited 2#8) }⟩]).aval = 0 := by
  decide

/-- Full statement that fails: for the client of two-way sessions `OWPStopSessions` never succeeds, whatever happens, since
it waits for no answer and treats that as a connection that was lost. -/
theorem C55_twoway_never_ok (p : Peer) (aval : Int) (ts : List Ses) : (stopSessions true false p aval ts).rc < warning :=
  (stopSessions_spec true false p aval ts).2.2.2 rfl rfl

/-- And the failure of a two-way session is forgotten as well: cleaning up sets the accept value to
`OWP_CNTRL_ACCEPT`. -/
theorem C55_twoway_forgotten :
    (stopSessions true false kindPeer 0 [⟨[1#8], some { demoEp true with now := some (.exited 2#8) }⟩]).aval = 0 := by
  decide

theorem stopSend_aval (ts : List Ses) : ∀ s : Stopping,
    ((stopSend false ts s).1.aval = 0 ↔
      s.aval = 0 ∧ ∀ t ∈ (stopSend false ts s).2, ∃ e, t.ep = some e ∧ (e.send = true → e.acceptval = 0 ∧ e.skipOk = true)) ∧
    ((∀ t ∈ ts, t.ep ≠ none) →
      (stopSend false ts s).1.num = s.num + (ts.filter fun t => t.ep.any Ep.send).length) := by
  induction ts with
  | nil => intro s; simp [stopSend]
  | cons t ts ih =>
    intro s
    rw [stopSend]
    cases ht : t.ep with
    | none =>
      dsimp only
      refine ⟨⟨fun h => absurd h (by decide), ?_⟩, fun h => absurd ht (h t (by simp))⟩
      rintro ⟨_, h⟩
      obtain ⟨e, he, _⟩ := h t (by simp)
      rw [ht] at he; cases he
    | some e =>
      dsimp only
      split
      · rename_i hns
        obtain ⟨i1, i2⟩ := ih s
        have hsend : e.send = false := by simpa using hns.2
        constructor
        · rw [i1]
          constructor
          · rintro ⟨a, b⟩
            refine ⟨a, ?_⟩
            intro t' ht'
            rcases List.mem_cons.1 ht' with rfl | ht'
            · exact ⟨e, ht, fun h => by rw [hsend] at h; cases h⟩
            · exact b t' ht'
          · rintro ⟨a, b⟩
            exact ⟨a, fun t' ht' => b t' (List.mem_cons_of_mem _ ht')⟩
        · intro h
          rw [i2 (fun t' ht' => h t' (List.mem_cons_of_mem _ ht'))]
          simp [ht, hsend]
      · rename_i hns
        have hsend : e.send = true := by
          cases h : e.send with
          | true => rfl
          | false => exact absurd ⟨by simp, by rw [h]; simp⟩ hns
        obtain ⟨q1, q2, q3, _⟩ := endpointStop_spec e s.aval
        generalize endpointStop e s.aval = q at *
        have hq : q.1.send = true ∧ q.1.skipOk = e.skipOk := by
          rcases q1 with h | h
          · rw [h]; exact ⟨hsend, rfl⟩
          · exact ⟨h.2.2.2.1.trans hsend, h.2.2.2.2.2.1⟩
        obtain ⟨i1, i2⟩ := ih ⟨if ¬ false = true ∧ ¬ e.skipOk = true then 2 else q.2.1,
          if ¬ false = true ∧ ¬ e.skipOk = true then min warning (min q.2.2 s.err) else min q.2.2 s.err, s.num + 1⟩
        constructor
        · rw [i1]
          dsimp only
          constructor
          · rintro ⟨a, b⟩
            by_cases hok : e.skipOk = true
            · rw [if_neg (by rintro ⟨_, h⟩; exact h hok)] at a
              rw [q2] at a
              by_cases h0 : s.aval = 0
              · rw [if_pos h0] at a
                refine ⟨h0, ?_⟩
                intro t' ht'
                rcases List.mem_cons.1 ht' with rfl | ht'
                · exact ⟨q.1, rfl, fun _ => ⟨a, hq.2.trans hok⟩⟩
                · exact b t' ht'
              · rw [if_neg h0] at a; exact absurd a h0
            · rw [if_pos ⟨by simp, hok⟩] at a; exact absurd a (by decide)
          · rintro ⟨a, b⟩
            obtain ⟨e', he', h'⟩ := b _ (List.mem_cons_self)
            injection he' with he'
            subst he'
            obtain ⟨c1, c2⟩ := h' hq.1
            refine ⟨?_, fun t' ht' => b t' (List.mem_cons_of_mem _ ht')⟩
            rw [if_neg (by rintro ⟨_, h⟩; exact h (hq.2.symm.trans c2)), q2, if_pos a]
            exact c1
        · intro h
          rw [i2 (fun t' ht' => h t' (List.mem_cons_of_mem _ ht'))]
          simp [ht, hsend]
          omega

theorem stopRecv_aval (server nowait : Bool) (late : Ses → Bool) (ts : List Ses) : ∀ s : Stopping,
    ((stopRecv false server nowait late ts s).1.aval = 0 ↔
      s.aval = 0 ∧ ∀ t ∈ (stopRecv false server nowait late ts s).2, ∃ e, t.ep = some e ∧ (e.send = false → e.acceptval = 0)) ∧
    ((∀ t ∈ (stopRecv false server nowait late ts s).2, ∃ e, t.ep = some e ∧ (e.send = true → e.acceptval = 0 ∧ e.skipOk = true)) ↔
      ∀ t ∈ ts, ∃ e, t.ep = some e ∧ (e.send = true → e.acceptval = 0 ∧ e.skipOk = true)) := by
  induction ts with
  | nil => intro s; simp [stopRecv]
  | cons t ts ih =>
    intro s
    rw [stopRecv]
    cases ht : t.ep with
    | none =>
      dsimp only
      refine ⟨⟨fun h => absurd h (by decide), ?_⟩, Iff.rfl⟩
      rintro ⟨_, h⟩
      obtain ⟨e, he, _⟩ := h t (by simp)
      rw [ht] at he; cases he
    | some e =>
      dsimp only
      split
      · rename_i hns
        obtain ⟨i1, i2⟩ := ih s
        have hsend : e.send = true := hns.2
        constructor
        · rw [i1]
          constructor
          · rintro ⟨a, b⟩
            refine ⟨a, ?_⟩
            intro t' ht'
            rcases List.mem_cons.1 ht' with rfl | ht'
            · exact ⟨e, ht, fun h => by rw [hsend] at h; cases h⟩
            · exact b t' ht'
          · rintro ⟨a, b⟩
            exact ⟨a, fun t' ht' => b t' (List.mem_cons_of_mem _ ht')⟩
        · rw [List.forall_mem_cons, List.forall_mem_cons, i2]
      · rename_i hns
        have hsend : e.send = false := by
          cases h : e.send with
          | false => rfl
          | true => exact absurd ⟨by simp, h⟩ hns
        rw [if_neg (by rintro ⟨h, _⟩; cases h)]
        obtain ⟨q1, q2, q3, _⟩ := endpointStop_spec e s.aval
        generalize endpointStop e s.aval = q at *
        have hq : q.1.send = false := by
          rcases q1 with h | h
          · rw [h]; exact hsend
          · exact h.2.2.2.1.trans hsend
        obtain ⟨i1, i2⟩ := ih { s with aval := q.2.1, err := min q.2.2 s.err }
        constructor
        · rw [i1]
          dsimp only
          rw [q2]
          constructor
          · rintro ⟨a, b⟩
            by_cases h0 : s.aval = 0
            · rw [if_pos h0] at a
              refine ⟨h0, ?_⟩
              intro t' ht'
              rcases List.mem_cons.1 ht' with rfl | ht'
              · exact ⟨q.1, rfl, fun _ => a⟩
              · exact b t' ht'
            · rw [if_neg h0] at a; exact absurd a h0
          · rintro ⟨a, b⟩
            obtain ⟨e', he', h'⟩ := b _ (List.mem_cons_self)
            injection he' with he'
            subst he'
            refine ⟨by rw [if_pos a]; exact h' hq, fun t' ht' => b t' (List.mem_cons_of_mem _ ht')⟩
        · rw [List.forall_mem_cons, List.forall_mem_cons, i2]
          have l1 : ∃ e', some q.1 = some e' ∧ (e'.send = true → e'.acceptval = 0 ∧ e'.skipOk = true) :=
            ⟨q.1, rfl, fun h => by rw [hq] at h; cases h⟩
          have l2 : ∃ e', t.ep = some e' ∧ (e'.send = true → e'.acceptval = 0 ∧ e'.skipOk = true) :=
            ⟨e, ht, fun h => by rw [hsend] at h; cases h⟩
          exact ⟨fun h => ⟨l2, h.2⟩, fun h => ⟨l1, h.2⟩⟩

/-- What `*acceptval` holds for one-way sessions once senders and receivers have been stopped, before the other side's
message replaces it: 0 iff it was 0 before, every session has an endpoint, every process has ended with status 0, and
the file of skipped packets of every sender is sound. The stop message carries the number of senders. -/
theorem C55_local_verdict (server nowait : Bool) (late : Ses → Bool) (aval : Int) (err : Nat) (ts : List Ses) :
    ((stopRecv false server nowait late (stopSend false ts ⟨aval, allOk, 0⟩).2
        { (stopSend false ts ⟨aval, allOk, 0⟩).1 with err := err }).1.aval = 0 ↔
      aval = 0 ∧ ∀ t ∈ (stopRecv false server nowait late (stopSend false ts ⟨aval, allOk, 0⟩).2
          { (stopSend false ts ⟨aval, allOk, 0⟩).1 with err := err }).2,
        ∃ e, t.ep = some e ∧ e.acceptval = 0 ∧ (e.send = true → e.skipOk = true)) ∧
    ((∀ t ∈ ts, t.ep ≠ none) →
      (stopSend false ts ⟨aval, allOk, 0⟩).1.num = (ts.filter fun t => t.ep.any Ep.send).length) := by
  obtain ⟨s1, s2⟩ := stopSend_aval ts ⟨aval, allOk, 0⟩
  obtain ⟨r1, r2⟩ := stopRecv_aval server nowait late (stopSend false ts ⟨aval, allOk, 0⟩).2
    { (stopSend false ts ⟨aval, allOk, 0⟩).1 with err := err }
  refine ⟨?_, fun h => by rw [s2 h]; simp⟩
  rw [r1]
  dsimp only
  rw [s1, ← r2]
  constructor
  · rintro ⟨⟨a, b⟩, c⟩
    refine ⟨a, fun t ht => ?_⟩
    obtain ⟨e, he, h1⟩ := b t ht
    obtain ⟨e', he', h2⟩ := c t ht
    rw [he] at he'; injection he' with he'; subst he'
    refine ⟨e, he, ?_, fun h => (h1 h).2⟩
    cases h : e.send with
    | true => exact (h1 h).1
    | false => exact h2 h
  · rintro ⟨a, b⟩
    refine ⟨⟨a, fun t ht => ?_⟩, fun t ht => ?_⟩
    · obtain ⟨e, he, h1, h2⟩ := b t ht
      exact ⟨e, he, fun h => ⟨h1, h2 h⟩⟩
    · obtain ⟨e, he, h1, h2⟩ := b t ht
      exact ⟨e, he, fun _ => h1⟩

/-! ## C56: starting -/

theorem before_split {α : Type} {a b : α} : ∀ {A B : List α}, b ∉ A → b ≠ a → Before a b (A ++ a :: B)
  | [], B, _, h2 => by
    intro pre post h
    cases pre with
    | nil => injection h with h _; exact absurd h.symm h2
    | cons x pre => injection h with h _; rw [h]; exact List.mem_cons_self
  | x :: A, B, h1, h2 => by
    intro pre post h
    cases pre with
    | nil => injection h with h _; exact absurd (h ▸ List.mem_cons_self) h1
    | cons y pre =>
      injection h with _ h
      exact List.mem_cons_of_mem _ (before_split (fun hm => h1 (List.mem_cons_of_mem _ hm)) h2 pre post h)

theorem before_of_not_mem {α : Type} {a b : α} {l : List α} (h : b ∉ l) : Before a b l := by
  intro pre post hl
  exact absurd (by rw [hl]; simp) h

theorem before_mem {α : Type} {a b : α} {l : List α} (h : Before a b l) (hb : b ∈ l) : a ∈ l := by
  obtain ⟨pre, post, rfl⟩ := List.append_of_mem hb
  exact List.mem_append_left _ (h pre post rfl)

theorem before_trans {α : Type} {a b c : α} {l : List α} (h : Before a b l) (h' : Before b c l) : Before a c l := by
  intro pre post hl
  obtain ⟨p, q, rfl⟩ := List.append_of_mem (h' pre post hl)
  have := h p (q ++ c :: post) (by rw [hl]; simp)
  exact List.mem_append_left _ this

/-- Everything in `A` comes before what is only in `B`. -/
theorem before_append {α : Type} {a b : α} {A B : List α} (ha : a ∈ A) (hb : b ∉ A) : Before a b (A ++ B) := by
  obtain ⟨p, q, rfl⟩ := List.append_of_mem ha
  have : (p ++ a :: q) ++ B = p ++ a :: (q ++ B) := by simp
  rw [this]
  refine before_split (fun h => hb (List.mem_append_left _ h)) ?_
  rintro rfl
  exact hb (by simp)

theorem startLoop_mem (which : Ep → Bool) (ts : List Ses) : ∀ i, ∀ x ∈ (startLoop which ts i).1,
    ∃ j t e, x = .started (i + j) ∧ ts[j]? = some t ∧ t.ep = some e ∧ which e = true := by
  induction ts with
  | nil => intro i x hx; simp [startLoop] at hx
  | cons t ts ih =>
    intro i x hx
    have step : x ∈ (startLoop which ts (i + 1)).1 →
        ∃ j t' e, x = .started (i + j) ∧ (t :: ts)[j]? = some t' ∧ t'.ep = some e ∧ which e = true := by
      intro h
      obtain ⟨j, t', e, h1, h2, h3⟩ := ih (i + 1) x h
      exact ⟨j + 1, t', e, by rw [h1]; congr 1; omega, by simpa using h2, h3⟩
    rw [startLoop] at hx
    cases ht : t.ep with
    | none => rw [ht] at hx; exact step hx
    | some e =>
      rw [ht] at hx
      dsimp only at hx
      split at hx
      · rename_i hw
        split at hx
        · rcases List.mem_cons.1 hx with rfl | hx
          · exact ⟨0, t, e, rfl, rfl, ht, hw⟩
          · exact step hx
        · cases hx
      · exact step hx

theorem startLoop_complete (which : Ep → Bool) (ts : List Ses) : ∀ i, (startLoop which ts i).2 = true →
    ∀ j t e, ts[j]? = some t → t.ep = some e → which e = true → .started (i + j) ∈ (startLoop which ts i).1 := by
  induction ts with
  | nil => intro i _ j t e h; simp at h
  | cons t ts ih =>
    intro i hok j t' e' hj he hw
    have step : (startLoop which ts (i + 1)).2 = true → ∀ k, j = k + 1 → .started (i + j) ∈ (startLoop which ts (i + 1)).1 := by
      intro h k hk
      subst hk
      have := ih (i + 1) h k t' e' (by simpa using hj) he hw
      have e1 : i + (k + 1) = i + 1 + k := by omega
      rw [e1]; exact this
    rw [startLoop] at hok ⊢
    cases j with
    | zero =>
      have : t = t' := by simpa using hj
      subst this
      rw [he] at hok ⊢
      dsimp only at hok ⊢
      rw [if_pos hw] at hok ⊢
      split at hok
      · rename_i hs
        rw [if_pos hs]
        exact List.mem_cons_self
      · cases hok
    | succ k =>
      cases ht : t.ep with
      | none =>
        rw [ht] at hok
        exact step hok k rfl
      | some e =>
        rw [ht] at hok
        dsimp only at hok ⊢
        split at hok
        · rename_i hw'
          rw [if_pos hw']
          split at hok
          · rename_i hs
            rw [if_pos hs]
            exact List.mem_cons_of_mem _ (step hok k rfl)
          · cases hok
        · rename_i hw'
          rw [if_neg hw']
          exact step hok k rfl

theorem startLoop_nodup (which : Ep → Bool) (ts : List Ses) : ∀ i, (startLoop which ts i).1.Nodup := by
  induction ts with
  | nil => intro i; exact List.nodup_nil
  | cons t ts ih =>
    intro i
    rw [startLoop]
    cases ht : t.ep with
    | none => exact ih _
    | some e =>
      dsimp only
      split
      · split
        · refine List.nodup_cons.2 ⟨?_, ih _⟩
          intro h
          obtain ⟨j, _, _, h1, _⟩ := startLoop_mem which ts (i + 1) _ h
          injection h1 with h1
          omega
        · exact List.nodup_nil
      · exact ih _

theorem startLoop_ok (which : Ep → Bool) (ts : List Ses) : ∀ i, ((startLoop which ts i).2 = true ↔
    ∀ t ∈ ts, ∀ e, t.ep = some e → which e = true → startOk e = true) := by
  induction ts with
  | nil => intro i; simp [startLoop]
  | cons t ts ih =>
    intro i
    rw [startLoop, List.forall_mem_cons, ← ih (i + 1)]
    cases ht : t.ep with
    | none => simp
    | some e =>
      dsimp only
      by_cases hw : which e = true
      · rw [if_pos hw]
        by_cases hs : startOk e = true
        · rw [if_pos hs]; simp [hs]
        · rw [if_neg hs]
          constructor
          · intro h; cases h
          · intro h; exact absurd (h.1 e rfl hw) hs
      · rw [if_neg hw]
        simp [hw]

/-- The endpoints that a loop over one side starts are of that side. -/
theorem startLoop_side (which : Ep → Bool) (ts : List Ses) {i : Nat} {send : Bool} (hs : Side ts i send)
    (hw : ∀ e, e.send = send → which e = false) : .started i ∉ (startLoop which ts 0).1 := by
  intro h
  obtain ⟨j, t, e, h1, h2, h3, h4⟩ := startLoop_mem which ts 0 _ h
  injection h1 with h1
  obtain ⟨t', e', h5, h6, h7⟩ := hs
  have : j = i := by omega
  subst this
  rw [h2] at h5; injection h5 with h5; subst h5
  rw [h3] at h6; injection h6 with h6; subst h6
  rw [hw e h7] at h4; cases h4

theorem startLoop_no (which : Ep → Bool) (ts : List Ses) {x : Event} (hx : ∀ i, x ≠ .started i) :
    x ∉ (startLoop which ts 0).1 := by
  intro h
  obtain ⟨j, _, _, h1, _⟩ := startLoop_mem which ts 0 _ h
  exact hx _ h1

/-- `OWPStartSessions`: a local sender is started only after a positive answer of the server; a local receiver is started
after the start message has been sent and before the answer is read. -/
theorem C56_client (write : Nat) (ack : Nat × Int) (ts : List Ses) (i : Nat) :
    (Side ts i true → Before (.ack 0) (.started i) (startSessions write ack ts).1) ∧
    (Side ts i false → Before .request (.started i) (startSessions write ack ts).1 ∧
      ∀ v, Before (.started i) (.ack v) (startSessions write ack ts).1) := by
  unfold startSessions
  by_cases hw : write < allOk
  · rw [if_pos hw]
    exact ⟨fun _ => before_of_not_mem (by simp), fun _ => ⟨before_of_not_mem (by simp), fun _ => before_of_not_mem (by simp)⟩⟩
  · rw [if_neg hw]
    dsimp only
    have hreq : ∀ l : List Event, Before .request (.started i) (.request :: l) :=
      fun l => before_split (A := []) (by simp) (by simp)
    have hsend : Side ts i true → .started i ∉ (startLoop (fun e => !e.send) ts 0).1 :=
      fun h => startLoop_side _ ts h (by intro e he; simp [he])
    have hack : ∀ v, .ack v ∉ (startLoop (fun e => !e.send) ts 0).1 := fun v => startLoop_no _ ts (by simp)
    have hrecv : (startLoop (fun e => !e.send) ts 0).2 = true → Side ts i false →
        .started i ∈ (startLoop (fun e => !e.send) ts 0).1 := by
      rintro h ⟨t, e, h1, h2, h3⟩
      have := startLoop_complete _ ts 0 h i t e h1 h2 (by simp [h3])
      rwa [Nat.zero_add] at this
    generalize startLoop (fun e => !e.send) ts 0 = r at *
    by_cases hr : r.2 = false
    · rw [if_pos hr]
      exact ⟨fun h => before_of_not_mem (by simp [hsend h]), fun h => ⟨hreq _, fun v => before_of_not_mem (by simp [hack v])⟩⟩
    · rw [if_neg hr]
      have hr : r.2 = true := by simpa using hr
      by_cases ha : ack.1 < allOk
      · rw [if_pos ha]
        exact ⟨fun h => before_of_not_mem (by simp [hsend h]), fun h => ⟨hreq _, fun v => before_of_not_mem (by simp [hack v])⟩⟩
      · rw [if_neg ha]
        have hmid : ∀ B, Side ts i false → ∀ v, Before (.started i) (.ack v) (.request :: (r.1 ++ B)) := by
          intro B h v
          have hno : Event.ack v ∉ Event.request :: r.1 := by simp [hack v]
          exact before_append (A := .request :: r.1) (List.mem_cons_of_mem _ (hrecv hr h)) hno
        by_cases hz : ack.2 ≠ 0
        · rw [if_pos hz]
          exact ⟨fun h => before_of_not_mem (by simp [hsend h]), fun h => ⟨hreq _, hmid _ h⟩⟩
        · rw [if_neg hz]
          have hz : ack.2 = 0 := by simpa using hz
          rw [hz]
          refine ⟨fun h => ?_, fun h => ⟨hreq _, hmid _ h⟩⟩
          have hno : Event.started i ∉ Event.request :: r.1 := by simp [hsend h]
          have hne : Event.started i ≠ Event.ack 0 := by simp
          exact before_split (A := .request :: r.1) hno hne

/-- `OWPStartSessions` succeeds iff the start message is sent, the server accepts and every endpoint can be started; then
every endpoint has been started. -/
theorem C56_client_ok (write : Nat) (ack : Nat × Int) (ts : List Ses) :
    ((startSessions write ack ts).2 = allOk ↔
      allOk ≤ write ∧ allOk ≤ ack.1 ∧ ack.2 = 0 ∧ ∀ t ∈ ts, ∀ e, t.ep = some e → startOk e = true) ∧
    ((startSessions write ack ts).2 = allOk → ∀ i send, Side ts i send → .started i ∈ (startSessions write ack ts).1) ∧
    (startSessions write ack ts).1.Nodup := by
  have sv := sev
  have o1 := startLoop_ok (fun e => !e.send) ts 0
  have o2 := startLoop_ok (fun e => e.send) ts 0
  have c1 := startLoop_complete (fun e => !e.send) ts 0
  have c2 := startLoop_complete (fun e => e.send) ts 0
  have n1 := startLoop_nodup (fun e => !e.send) ts 0
  have n2 := startLoop_nodup (fun e => e.send) ts 0
  have m1 := startLoop_mem (fun e => !e.send) ts 0
  have m2 := startLoop_mem (fun e => e.send) ts 0
  unfold startSessions
  generalize startLoop (fun e => !e.send) ts 0 = r at *
  generalize startLoop (fun e => e.send) ts 0 = q at *
  have hreq : .request ∉ r.1 := by
    intro h; obtain ⟨_, _, _, h, _⟩ := m1 _ h; cases h
  have hack : ∀ v, .ack v ∉ r.1 := by
    intro v h; obtain ⟨_, _, _, h, _⟩ := m1 _ h; cases h
  have hreq2 : .request ∉ q.1 := by
    intro h; obtain ⟨_, _, _, h, _⟩ := m2 _ h; cases h
  have hack2 : ∀ v, .ack v ∉ q.1 := by
    intro v h; obtain ⟨_, _, _, h, _⟩ := m2 _ h; cases h
  have hdis : ∀ x ∈ r.1, x ∉ q.1 := by
    intro x h1 h2
    obtain ⟨j, t, e, a1, a2, a3, a4⟩ := m1 x h1
    obtain ⟨j', t', e', b1, b2, b3, b4⟩ := m2 x h2
    rw [a1] at b1; injection b1 with b1
    have : j = j' := by omega
    subst this
    rw [a2] at b2; injection b2 with b2; subst b2
    rw [a3] at b3; injection b3 with b3; subst b3
    rw [show e.send = true from b4] at a4; cases a4
  have hboth : (∀ t ∈ ts, ∀ e, t.ep = some e → startOk e = true) ↔ r.2 = true ∧ q.2 = true := by
    rw [o1, o2]
    constructor
    · exact fun h => ⟨fun t ht e he _ => h t ht e he, fun t ht e he _ => h t ht e he⟩
    · rintro ⟨h1, h2⟩ t ht e he
      cases hs : e.send with
      | true => exact h2 t ht e he hs
      | false => exact h1 t ht e he (by simp [hs])
  rw [hboth]
  by_cases hw : write < allOk
  · rw [if_pos hw]
    refine ⟨⟨fun h => ?_, fun h => ?_⟩, fun h => ?_, List.nodup_nil⟩
    · dsimp only at h; omega
    · omega
    · dsimp only at h; omega
  · rw [if_neg hw]
    dsimp only
    by_cases hr : r.2 = false
    · rw [if_pos hr]
      refine ⟨⟨fun h => ?_, fun h => ?_⟩, fun h => ?_, List.nodup_cons.2 ⟨hreq, n1⟩⟩
      · dsimp only at h; omega
      · rw [hr] at h; exact absurd h.2.2.2.1 (by decide)
      · dsimp only at h; omega
    · rw [if_neg hr]
      have hr : r.2 = true := by simpa using hr
      by_cases ha : ack.1 < allOk
      · rw [if_pos ha]
        refine ⟨⟨fun h => ?_, fun h => ?_⟩, fun h => ?_, List.nodup_cons.2 ⟨hreq, n1⟩⟩
        · dsimp only at h; omega
        · omega
        · dsimp only at h; omega
      · rw [if_neg ha]
        by_cases hz : ack.2 ≠ 0
        · rw [if_pos hz]
          refine ⟨⟨fun h => ?_, fun h => ?_⟩, fun h => ?_, List.nodup_cons.2 ⟨by simp [hreq], ?_⟩⟩
          · dsimp only at h; omega
          · exact absurd h.2.2.1 hz
          · dsimp only at h; omega
          · rw [List.nodup_append]
            refine ⟨n1, by simp, ?_⟩
            intro a ha b hb hab
            have hb : b = .ack ack.2 := by simpa using hb
            subst hb; subst hab
            exact hack _ ha
        · rw [if_neg hz]
          have hz : ack.2 = 0 := by simpa using hz
          refine ⟨?_, ?_, ?_⟩
          · dsimp only
            cases hq : q.2 with
            | true => simp [hz, hr]; omega
            | false => simp [sv]
          · intro h i send hs
            have hq : q.2 = true := by
              cases hq : q.2 with
              | true => rfl
              | false => rw [hq] at h; exact absurd h (by decide : ¬ fatal = allOk)
            obtain ⟨t, e, h1, h2, h3⟩ := hs
            cases send with
            | true =>
              have := c2 hq i t e h1 h2 h3
              rw [Nat.zero_add] at this
              simp [this]
            | false =>
              have := c1 hr i t e h1 h2 (by simp [h3])
              rw [Nat.zero_add] at this
              simp [this]
          · refine List.nodup_cons.2 ⟨by simp [hreq, hreq2], ?_⟩
            rw [List.nodup_append]
            refine ⟨n1, List.nodup_cons.2 ⟨hack2 _, n2⟩, ?_⟩
            intro a ha b hb hab
            subst hab
            rcases List.mem_cons.1 hb with rfl | hb
            · exact hack _ ha
            · exact hdis a ha hb

/-- `OWPProcessStartSessions`: the positive answer is sent only after every endpoint of the session has been started; every
answer follows every start; the return value is `OWPErrOK` iff the positive answer has been sent; none is started twice. -/
theorem C56_server (write : Nat) (ts : List Ses) :
    (∀ i send, Side ts i send → Before (.started i) (.ack 0) (processStart write ts).1) ∧
    ((processStart write ts).2 = allOk ↔ .ack 0 ∈ (processStart write ts).1) ∧
    (.ack 0 ∈ (processStart write ts).1 ↔ allOk ≤ write ∧ ∀ t ∈ ts, ∀ e, t.ep = some e → startOk e = true) ∧
    (processStart write ts).1.Nodup := by
  have sv := sev
  have o1 := startLoop_ok (fun _ => true) ts 0
  have c1 := startLoop_complete (fun _ => true) ts 0
  have n1 := startLoop_nodup (fun _ => true) ts 0
  have m1 := startLoop_mem (fun _ => true) ts 0
  unfold processStart
  generalize startLoop (fun _ => true) ts 0 = r at *
  have hack : ∀ v, .ack v ∉ r.1 := by
    intro v h; obtain ⟨_, _, _, h, _⟩ := m1 _ h; cases h
  have nd : ∀ v, (r.1 ++ [Event.ack v]).Nodup := by
    intro v
    rw [List.nodup_append]
    refine ⟨n1, by simp, ?_⟩
    intro a ha b hb hab
    have hb : b = .ack v := by simpa using hb
    subst hb; subst hab
    exact hack _ ha
  have o1 : r.2 = true ↔ ∀ t ∈ ts, ∀ e, t.ep = some e → startOk e = true :=
    o1.trans ⟨fun h t ht e he => h t ht e he rfl, fun h t ht e he _ => h t ht e he⟩
  rw [← o1]
  dsimp only
  by_cases hr : r.2 = false
  · rw [if_pos hr]
    have hno : Event.ack 0 ∉ r.1 ++ (if write < allOk then [] else [Event.ack 2]) := by
      split <;> simp [hack]
    refine ⟨fun i send _ => before_of_not_mem hno, ⟨fun h => ?_, fun h => absurd h hno⟩, ⟨fun h => absurd h hno, fun h => ?_⟩, ?_⟩
    · dsimp only at h; omega
    · rw [hr] at h; exact absurd h.2 (by decide)
    · show (r.1 ++ _).Nodup
      split
      · simpa using n1
      · exact nd 2
  · rw [if_neg hr]
    have hr : r.2 = true := by simpa using hr
    by_cases hw : write < allOk
    · rw [if_pos hw]
      refine ⟨fun i send _ => before_of_not_mem (hack 0), ⟨fun h => ?_, fun h => absurd h (hack 0)⟩,
        ⟨fun h => absurd h (hack 0), fun h => ?_⟩, n1⟩
      · dsimp only at h; omega
      · omega
    · rw [if_neg hw]
      refine ⟨fun i send hs => ?_, by simp, ?_, nd 0⟩
      · obtain ⟨t, e, h1, h2, h3⟩ := hs
        have := c1 hr i t e h1 h2 rfl
        rw [Nat.zero_add] at this
        exact before_append this (hack 0)
      · simp [hr]; omega

theorem before_lift {α γ : Type} (f : γ → Option α) (g : α → γ) (hg : ∀ x a, f x = some a → x = g a) (hf : ∀ a, f (g a) = some a)
    {a b : α} {tr : List γ} (h : Before a b (tr.filterMap f)) : Before (g a) (g b) tr := by
  intro pre post ht
  have h1 := h (pre.filterMap f) (post.filterMap f) (by rw [ht, List.filterMap_append, List.filterMap_cons, hf])
  obtain ⟨x, hx, hfx⟩ := List.mem_filterMap.1 h1
  rw [← hg x a hfx]; exact hx

/-- Client and server together. `tr` is any history that orders what the two do (`inl` the client, `inr` the server), in which
the client reads an answer only after the server has sent it. In every such history all endpoints of the server, receivers
and senders, have been started before any sender of the client is. -/
theorem C56_both (cw sw : Nat) (ack : Nat × Int) (cs ss : List Ses) (tr : List (Event ⊕ Event))
    (hc : tr.filterMap Sum.getLeft? = (startSessions cw ack cs).1)
    (hs : tr.filterMap Sum.getRight? = (processStart sw ss).1)
    (hread : ∀ v, Before (.inr (.ack v)) (.inl (.ack v)) tr)
    (i j : Nat) (send : Bool) (hi : Side cs i true) (hj : Side ss j send) :
    Before (.inr (.started j)) (.inl (.started i)) tr := by
  have h1 : Before (.inl (.ack 0)) (.inl (.started i)) tr := by
    refine before_lift Sum.getLeft? Sum.inl ?_ (fun _ => rfl) ?_
    · intro x a h; cases x <;> simp_all
    · rw [hc]; exact (C56_client cw ack cs i).1 hi
  have h2 : Before (.inr (.started j)) (.inr (.ack 0)) tr := by
    refine before_lift Sum.getRight? Sum.inr ?_ (fun _ => rfl) ?_
    · intro x a h; cases x <;> simp_all
    · rw [hs]; exact (C56_server sw ss).1 j send hj
  exact before_trans (before_trans h2 (hread 0)) h1

/-- A client with a sender and a receiver. -/
def startDemo : List Ses := [⟨[1#8], some (demoEp true)⟩, ⟨[2#8], some (demoEp false)⟩]

example : (startSessions allOk (allOk, 0) startDemo).1 = [.request, .started 1, .ack 0, .started 0] ∧
    (startSessions allOk (allOk, 0) startDemo).2 = allOk ∧
    (startSessions allOk (allOk, 1) startDemo).1 = [.request, .started 1, .ack 1] ∧
    Side startDemo 0 true ∧ Side startDemo 1 false ∧
    (processStart allOk startDemo) = ([.started 0, .started 1, .ack 0], allOk) := by
  refine ⟨by decide, by decide, by decide, ⟨_, _, rfl, rfl, rfl⟩, ⟨_, _, rfl, rfl, rfl⟩, by decide⟩

/-- A joint history that meets the hypotheses of `C56_both`: the server starts its sender before the client starts its
receiver. -/
def startTrace : List (Event ⊕ Event) :=
  [.inl .request, .inr (.started 0), .inr (.started 1), .inl (.started 1), .inr (.ack 0), .inl (.ack 0), .inl (.started 0)]

example : startTrace.filterMap Sum.getLeft? = (startSessions allOk (allOk, 0) startDemo).1 ∧
    startTrace.filterMap Sum.getRight? = (processStart allOk startDemo).1 ∧
    ∀ v, Before (.inr (.ack v)) (.inl (.ack v)) startTrace := by
  refine ⟨by decide, by decide, fun v => ?_⟩
  by_cases hv : v = 0
  · subst hv
    exact before_split (a := Sum.inr (Event.ack 0)) (b := Sum.inl (Event.ack 0))
      (A := [.inl .request, .inr (.started 0), .inr (.started 1), .inl (.started 1)]) (by simp) (by simp)
  · exact before_of_not_mem (by simp [startTrace, hv])

end Owamp.Props
