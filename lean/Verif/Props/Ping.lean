import Verif.Spec.Ping
/-!
# C91: what the exit status and the output of the ping programs say
-/
namespace Owamp.Props
open Owamp.Ping Owamp.Spec.Ping

theorem there_iff (o : Opts) : (o.there = true ∧ o.twoway = false) ↔ Wanted o .there := by
  cases o with | mk tw t f => simp only [Opts.there, Wanted]; cases tw <;> cases t <;> cases f <;> simp

theorem back_iff (o : Opts) : (o.twoway = true ∨ o.back = true) ↔ Wanted o .back := by
  cases o with | mk tw t f => simp only [Opts.back, Wanted]; cases tw <;> cases t <;> cases f <;> simp

theorem reports_iff (o : Opts) : o.reports = true ↔ Shown o := by
  cases o with | mk tw t f q r => simp only [Opts.reports, Opts.silent, Shown]; cases q <;> cases r <;> simp

/-- What is done before any session is started. -/
def preamble (o : Opts) : List Act :=
  .connect :: ((if o.twoway = false ∧ o.there = true then [.request .there] else []) ++
    (if o.twoway = true ∨ o.back = true then (if o.saveFrom then [.makeSaved] else []) ++ [.request .back] else []))

theorem ping_ready (o : Opts) (w : World) (h : Ready o w) : ping o w = before (preamble o) (run o w) := by
  obtain ⟨h1, h2, h3, h4, h5, h6, h7⟩ := h
  have h8 := h7 .there
  have h9 := h7 .back
  unfold ping requests askBack makeFile ask before preamble
  rw [h1, h2, h3, h4]
  cases htw : o.twoway with
  | true =>
    have hb : Wanted o .back := (back_iff o).1 (Or.inl htw)
    rw [h6 hb, h9 hb]
    simp
  | false =>
    rw [h5 htw]
    cases ht : o.there with
    | false =>
      cases hb : o.back with
      | false => simp
      | true =>
        have hb : Wanted o .back := (back_iff o).1 (Or.inr hb)
        rw [h6 hb, h9 hb]
        simp
    | true =>
      rw [h8 ((there_iff o).1 ⟨ht, htw⟩)]
      cases hb : o.back with
      | false => simp
      | true =>
        have hb : Wanted o .back := (back_iff o).1 (Or.inr hb)
        rw [h6 hb, h9 hb]
        simp

/-- Something that is done before any session is started, or when that does not come about. -/
def Early (a : Act) : Prop := a = .connect ∨ (∃ d, a = .request d) ∨ a = .makeSaved ∨ a = .close

theorem ping_early (o : Opts) (w : World) (h : ¬ Ready o w) :
    (∀ a ∈ (ping o w).1, Early a) ∧ ((ping o w).2 = 1 ∨ ((ping o w).2 = 2 ∧ ∃ i, 0 < w.intr i)) := by
  have key : ∀ k : List Act × Nat, ((∀ a ∈ k.1, Early a) ∧ (k.2 = 1 ∨ (k.2 = 2 ∧ ∃ i, 0 < w.intr i))) → ∀ a, Early a →
      (∀ x ∈ (before [a] k).1, Early x) ∧ ((before [a] k).2 = 1 ∨ ((before [a] k).2 = 2 ∧ ∃ i, 0 < w.intr i)) := by
    rintro k ⟨h1, h2⟩ a ha
    refine ⟨fun x hx => ?_, h2⟩
    simp only [before, List.cons_append, List.nil_append, List.mem_cons] at hx
    rcases hx with rfl | hx
    · exact ha
    · exact h1 x hx
  have bad : ∀ n, n = 1 → (∀ a ∈ (([] : List Act), n).1, Early a) ∧ (n = 1 ∨ (n = 2 ∧ ∃ i, 0 < w.intr i)) := by
    intro n hn; exact ⟨by simp, Or.inl hn⟩
  have two : ∀ i, w.intr i > 0 → (∀ a ∈ (([] : List Act), 2).1, Early a) ∧ ((([] : List Act), 2).2 = 1 ∨ ((([] : List Act), 2).2 = 2 ∧ ∃ i, 0 < w.intr i)) := by
    intro i hi; exact ⟨by simp, Or.inr ⟨rfl, i, hi⟩⟩
  have fail : (∀ a ∈ failSession.1, Early a) ∧ (failSession.2 = 1 ∨ (failSession.2 = 2 ∧ ∃ i, 0 < w.intr i)) :=
    ⟨by simp [failSession, Early], Or.inl rfl⟩
  have ask : ∀ d, w.accepts d = false → ∀ k, (∀ a ∈ (Ping.ask w d k).1, Early a) ∧ ((Ping.ask w d k).2 = 1 ∨ ((Ping.ask w d k).2 = 2 ∧ ∃ i, 0 < w.intr i)) := by
    intro d hd k
    unfold Ping.ask
    rw [hd]
    exact key _ fail _ (Or.inr (Or.inl ⟨d, rfl⟩))
  have file : ∀ k, w.file = false ∨ ((∀ a ∈ k.1, Early a) ∧ (k.2 = 1 ∨ (k.2 = 2 ∧ ∃ i, 0 < w.intr i))) →
      (∀ a ∈ (makeFile o w k).1, Early a) ∧ ((makeFile o w k).2 = 1 ∨ ((makeFile o w k).2 = 2 ∧ ∃ i, 0 < w.intr i)) := by
    intro k hk
    unfold makeFile
    cases hf : w.file with
    | false => exact bad 1 rfl
    | true =>
      rcases hk with hk | hk
      · rw [hf] at hk; cases hk
      · cases o.saveFrom with
        | true => exact key k hk _ (Or.inr (Or.inr (Or.inl rfl)))
        | false => exact hk
  unfold ping
  refine key _ ?_ _ (Or.inl rfl)
  cases h1 : w.connects with
  | false => exact bad 1 rfl
  | true =>
  cases h2 : w.threshold with
  | false => exact bad 1 rfl
  | true =>
  cases h3 : w.clock with
  | false => exact bad 1 rfl
  | true =>
  show (∀ a ∈ (requests o w).1, Early a) ∧ ((requests o w).2 = 1 ∨ ((requests o w).2 = 2 ∧ ∃ i, 0 < w.intr i))
  unfold requests
  by_cases h4 : w.intr 0 > 0
  · rw [if_pos h4]; exact two 0 h4
  rw [if_neg h4]
  have h4' : w.intr 0 = 0 := by omega
  have hback : (o.twoway = false → w.intr 1 = 0) → (∀ d, Wanted o d → d = .there → w.accepts d = true) → Wanted o .back →
      (∀ a ∈ (makeFile o w (Ping.ask w .back (run o w))).1, Early a) ∧ ((makeFile o w (Ping.ask w .back (run o w))).2 = 1 ∨
        ((makeFile o w (Ping.ask w .back (run o w))).2 = 2 ∧ ∃ i, 0 < w.intr i)) := by
    intro hi ht hb
    refine file _ ?_
    cases hf : w.file with
    | false => exact Or.inl rfl
    | true =>
      cases ha : w.accepts .back with
      | false => exact Or.inr (ask .back ha _)
      | true =>
        refine (h ⟨h1, h2, h3, h4', hi, fun _ => hf, fun d hd => ?_⟩).elim
        cases d with
        | there => exact ht _ hd rfl
        | back => exact ha
  cases htw : o.twoway with
  | true =>
    simp only [if_true]
    refine hback (fun hx => by rw [htw] at hx; cases hx) (fun d hd e => ?_) ((back_iff o).1 (Or.inl htw))
    subst e
    have := ((there_iff o).2 hd).2
    rw [htw] at this; cases this
  | false =>
    simp only [if_false, Bool.false_eq_true]
    have haskBack : (∀ d, Wanted o d → d = .there → w.accepts d = true) → (∀ a ∈ (askBack o w).1, Early a) ∧
        ((askBack o w).2 = 1 ∨ ((askBack o w).2 = 2 ∧ ∃ i, 0 < w.intr i)) := by
      intro ht
      unfold askBack
      by_cases h5 : w.intr 1 > 0
      · rw [if_pos h5]; exact two 1 h5
      rw [if_neg h5]
      cases hb : o.back with
      | true =>
        simp only [if_true]
        exact hback (fun _ => by omega) ht ((back_iff o).1 (Or.inr hb))
      | false =>
        have hnb : ¬ Wanted o .back := fun hx => by
          rcases (back_iff o).2 hx with e | e
          · rw [htw] at e; cases e
          · rw [hb] at e; cases e
        refine (h ⟨h1, h2, h3, h4', fun _ => by omega, fun hx => (hnb hx).elim, fun d hd => ?_⟩).elim
        cases d with
        | there => exact ht _ hd rfl
        | back => exact (hnb hd).elim
    cases ht : o.there with
    | true =>
      simp only [if_true]
      cases ha : w.accepts .there with
      | false => exact ask .there ha _
      | true =>
        unfold Ping.ask
        rw [ha]
        exact key _ (haskBack fun d _ e => by rw [e]; exact ha) _ (Or.inr (Or.inl ⟨_, rfl⟩))
    | false =>
      simp only [if_false, Bool.false_eq_true]
      refine haskBack fun d hd e => ?_
      subst e
      have := ((there_iff o).2 hd).1
      rw [ht] at this; cases this

/-- The end of a run, when sessions were started. -/
theorem run_cases (o : Opts) (w : World) :
    ((run o w).2 ≠ 0 ∧ (∀ d a b, .report d a b ∉ (run o w).1) ∧ (¬ Ended w ∨ w.starts = false ∨ (o.silent = false ∧ w.clock2 = false) ∨ 0 < w.intr 2)) ∨
    (Ended w ∧ w.starts = true ∧ (o.silent = true ∨ w.clock2 = true) ∧ w.intr 2 = 0 ∧ (run o w).2 = (finish o w).2 ∧
      ∃ mid, run o w = before mid (finish o w) ∧ (mid = [.start, .wait] ∨ (w.wait = 2 ∧ mid = [.start, .wait, .stop]))) := by
  unfold run
  cases h1 : w.starts with
  | false => left; simp
  | true =>
  simp only [Bool.not_true, Bool.false_eq_true, if_false]
  by_cases h2 : (!o.silent && !w.clock2) = true
  · rw [if_pos h2]
    simp only [Bool.and_eq_true, Bool.not_eq_true'] at h2
    left; simp [h2]
  rw [if_neg h2]
  by_cases h3 : w.intr 2 > 0
  · rw [if_pos h3]; left; simp; omega
  rw [if_neg h3]
  have hd : ∀ d a b, Act.report d a b ∉ dropFile o := by
    intro d a b; unfold dropFile; cases o.saveFrom <;> simp
  by_cases h4 : (w.wait < 0 || !w.waitAccept) = true
  · rw [if_pos h4]
    left
    refine ⟨by simp, fun d a b => by simp [hd], Or.inl fun he => ?_⟩
    simp only [Bool.or_eq_true, decide_eq_true_eq, Bool.not_eq_true'] at h4
    rcases h4 with e | e
    · have := he.1; omega
    · have := he.2.1; rw [e] at this; cases this
  rw [if_neg h4]
  simp only [Bool.or_eq_true, decide_eq_true_eq, Bool.not_eq_true', not_or, Bool.not_eq_false] at h4
  have hs : o.silent = true ∨ w.clock2 = true := by
    simp only [Bool.and_eq_true, Bool.not_eq_true', not_and, Bool.not_eq_false] at h2
    cases hs : o.silent with
    | true => exact Or.inl rfl
    | false => exact Or.inr (h2 hs)
  by_cases h5 : w.wait = 2
  · rw [if_pos h5]
    cases h6 : w.stopAccept with
    | false =>
      left
      refine ⟨by simp, fun d a b => by simp [hd], Or.inl fun he => ?_⟩
      have := he.2.2 h5
      rw [h6] at this; cases this
    | true =>
      right
      exact ⟨⟨by omega, h4.2, fun _ => h6⟩, trivial, hs, by omega, rfl, _, rfl, Or.inr ⟨h5, rfl⟩⟩
  · rw [if_neg h5]
    right
    exact ⟨⟨by omega, h4.2, fun hx => (h5 hx).elim⟩, trivial, hs, by omega, rfl, _, rfl, Or.inl rfl⟩

theorem finish_zero (o : Opts) (w : World) : (finish o w).2 = 0 ↔ w.intr 3 ≤ 1 ∧ w.intr 4 ≤ 1 := by
  unfold finish
  by_cases h1 : w.intr 3 > 1
  · rw [if_pos h1]; constructor
    · intro h; cases h
    · intro h; omega
  · rw [if_neg h1]
    by_cases h2 : w.intr 4 > 1
    · rw [if_pos h2]; constructor
      · intro h; cases h
      · intro h; omega
    · rw [if_neg h2]; exact ⟨fun _ => ⟨by omega, by omega⟩, fun _ => rfl⟩

/-- **C91.** The exit status is 0 if and only if there was a connection, the server accepted all sessions that were asked for, they were started, and came to an end that the server
accepted; and nothing was in the way on this side (the threshold, the clock, the file for the results, more than the one signal that ends a test). -/
theorem C91_status (o : Opts) (w : World) : (ping o w).2 = 0 ↔
    Ready o w ∧ w.starts = true ∧ Ended w ∧ (o.silent = true ∨ w.clock2 = true) ∧ w.intr 2 = 0 ∧ w.intr 3 ≤ 1 ∧ w.intr 4 ≤ 1 := by
  by_cases hr : Ready o w
  · rw [ping_ready o w hr]
    show (run o w).2 = 0 ↔ _
    rcases run_cases o w with ⟨h1, _, h2⟩ | ⟨h1, h2, h3, h4, h5, _⟩
    · constructor
      · intro h; exact (h1 h).elim
      · rintro ⟨_, a, b, c, d, _⟩
        rcases h2 with e | e | e | e
        · exact (e b).elim
        · rw [a] at e; cases e
        · rcases c with c | c
          · rw [e.1] at c; cases c
          · rw [e.2] at c; cases c
        · omega
    · rw [h5, finish_zero]
      exact ⟨fun ⟨a, b⟩ => ⟨hr, h2, h1, h3, h4, a, b⟩, fun ⟨_, _, _, _, _, a, b⟩ => ⟨a, b⟩⟩
  · obtain ⟨_, h⟩ := ping_early o w hr
    constructor
    · intro h0; rcases h with e | e
      · omega
      · omega
    · intro hx; exact (hr hx.1).elim

/-- **C91.** The status is 0, 1 or 2, and 2 only after a signal. -/
theorem C91_interrupted (o : Opts) (w : World) : (ping o w).2 ≤ 2 ∧ ((ping o w).2 = 2 → (∃ i, 0 < w.intr i) ∨ w.wait = 2) := by
  by_cases hr : Ready o w
  · rw [ping_ready o w hr]
    show (run o w).2 ≤ 2 ∧ ((run o w).2 = 2 → _)
    have hf : (finish o w).2 ≤ 2 ∧ ((finish o w).2 = 2 → ∃ i, 0 < w.intr i) := by
      unfold finish
      split
      · exact ⟨Nat.le_refl _, fun _ => ⟨3, by omega⟩⟩
      · split
        · exact ⟨Nat.le_refl _, fun _ => ⟨4, by omega⟩⟩
        · exact ⟨Nat.zero_le _, fun h => by cases h⟩
    unfold run
    split
    · exact ⟨by decide, fun h => by cases h⟩
    split
    · exact ⟨by decide, fun h => by cases h⟩
    split
    · rename_i h; exact ⟨by decide, fun _ => Or.inl ⟨2, h⟩⟩
    split
    · exact ⟨Nat.le_succ 1, fun h => by cases h⟩
    split
    · rename_i h
      split
      · exact ⟨Nat.le_refl 2, fun _ => Or.inr h⟩
      · exact ⟨hf.1, fun h => Or.inl (hf.2 h)⟩
    · exact ⟨hf.1, fun h => Or.inl (hf.2 h)⟩
  · obtain ⟨_, h⟩ := ping_early o w hr
    rcases h with e | ⟨e, i, hi⟩
    · exact ⟨by omega, fun h => by omega⟩
    · exact ⟨by omega, fun _ => Or.inl ⟨i, hi⟩⟩

theorem early_not (a : Act) (h : Early a) : a ≠ .start ∧ a ≠ .wait ∧ a ≠ .stop ∧ a ≠ .fetch ∧ (∀ d x y, a ≠ .report d x y) ∧ a ≠ .removeSaved := by
  rcases h with e | ⟨d, e⟩ | e | e <;> subst e <;> refine ⟨?_, ?_, ?_, ?_, ?_, ?_⟩ <;> intros <;> exact Act.noConfusion

theorem preamble_early (o : Opts) : ∀ a ∈ preamble o, Early a ∧ a ≠ .close := by
  intro a ha
  unfold preamble at ha
  simp only [List.mem_cons, List.mem_append] at ha
  rcases ha with e | e | e
  · exact ⟨Or.inl e, by rw [e]; exact Act.noConfusion⟩
  · split at e
    · simp only [List.mem_singleton] at e; exact ⟨Or.inr (Or.inl ⟨_, e⟩), by rw [e]; exact Act.noConfusion⟩
    · simp at e
  · split at e
    · simp only [List.mem_append, List.mem_singleton] at e
      rcases e with e | e
      · split at e
        · simp only [List.mem_singleton] at e; exact ⟨Or.inr (Or.inr (Or.inl e)), by rw [e]; exact Act.noConfusion⟩
        · simp at e
      · exact ⟨Or.inr (Or.inl ⟨_, e⟩), by rw [e]; exact Act.noConfusion⟩
    · simp at e

theorem preamble_asks (o : Opts) (d : Dir) : .request d ∈ preamble o ↔ Wanted o d := by
  unfold preamble
  cases d with
  | there =>
    rw [← there_iff]
    by_cases h : o.twoway = false ∧ o.there = true
    · rw [if_pos h]; simp [h]
    · rw [if_neg h]
      constructor
      · intro hx
        simp only [List.nil_append, List.mem_cons, reduceCtorEq, false_or] at hx
        split at hx
        · simp only [List.mem_append, List.mem_singleton, Act.request.injEq, reduceCtorEq, or_false] at hx
          split at hx <;> simp at hx
        · simp at hx
      · rintro ⟨a, b⟩; exact (h ⟨b, a⟩).elim
  | back =>
    rw [← back_iff]
    by_cases h : o.twoway = true ∨ o.back = true
    · rw [if_pos h]; simp [h]
    · rw [if_neg h]
      constructor
      · intro hx
        simp only [List.append_nil, List.mem_cons, reduceCtorEq, false_or] at hx
        split at hx <;> simp at hx
      · intro hx; exact (h hx).elim

/-- **C91.** Sessions are only started when the server has accepted all that were asked for, and exactly these were requested before. -/
theorem C91_start (o : Opts) (w : World) (h : .start ∈ (ping o w).1) :
    (∀ d, Wanted o d → w.accepts d = true) ∧ ∃ p q, (ping o w).1 = p ++ .start :: q ∧ .start ∉ p ∧ .start ∉ q ∧ (∀ d, .request d ∈ p ↔ Wanted o d) ∧ ∀ d, .request d ∉ q := by
  by_cases hr : Ready o w
  · refine ⟨hr.accepted, ?_⟩
    rw [ping_ready o w hr]
    have hrun : ∃ q, (run o w).1 = .start :: q ∧ .start ∉ q ∧ ∀ d, .request d ∉ q := by
      have hres : ∀ x ∈ results o w, x = .fetch ∨ ∃ d a b, x = .report d a b := by
        intro x hx
        unfold results at hx
        split at hx
        · simp only [List.mem_cons] at hx
          rcases hx with e | e
          · exact Or.inl e
          · split at e
            · simp at e
            · split at e
              · simp only [List.mem_singleton] at e; exact Or.inr ⟨_, _, _, e⟩
              · simp at e
        · simp at hx
      have hown : ∀ x ∈ ownResults o, ∃ d a b, x = .report d a b := by
        intro x hx
        unfold ownResults at hx
        split at hx
        · simp only [List.mem_singleton] at hx
          split at hx <;> exact ⟨_, _, _, hx⟩
        · simp at hx
      have hfin : ∀ x ∈ (finish o w).1, x = .fetch ∨ ∃ d a b, x = .report d a b := by
        intro x hx
        unfold finish at hx
        split at hx
        · simp at hx
        · split at hx
          · exact hres x hx
          · rcases List.mem_append.1 hx with e | e
            · exact hres x e
            · exact Or.inr (hown x e)
      have hdis : ∀ x ∈ dropFile o, x = .removeSaved := by
        intro x hx; unfold dropFile at hx; split at hx <;> simp at hx; exact hx
      have n1 : Act.start ∉ (finish o w).1 := fun hx => by
        rcases hfin _ hx with e | ⟨d, a, b, e⟩ <;> cases e
      have n2 : ∀ d, Act.request d ∉ (finish o w).1 := fun d hx => by
        rcases hfin _ hx with e | ⟨d, a, b, e⟩ <;> cases e
      have n3 : Act.start ∉ dropFile o := fun hx => by cases hdis _ hx
      have n4 : ∀ d, Act.request d ∉ dropFile o := fun d hx => by cases hdis _ hx
      unfold run
      split
      · exact ⟨_, rfl, by simp, by simp⟩
      split
      · exact ⟨_, rfl, by simp, by simp⟩
      split
      · exact ⟨_, rfl, by simp, by simp⟩
      split
      · exact ⟨_, rfl, by simp [n3], by simp [n4]⟩
      split
      · split
        · exact ⟨_, rfl, by simp [n3], by simp [n4]⟩
        · exact ⟨_, rfl, by simp [n1], by simp [n2]⟩
      · exact ⟨_, rfl, by simp [n1], by simp [n2]⟩
    obtain ⟨q, e1, e2, e3⟩ := hrun
    refine ⟨preamble o, q, by show _ ++ (run o w).1 = _; rw [e1], fun hx => ?_, e2, preamble_asks o, e3⟩
    exact (early_not _ (preamble_early o _ hx).1).1 rfl
  · exact ((early_not _ ((ping_early o w hr).1 _ h)).1 rfl).elim

theorem there_reported (o : Opts) (w : World) : ∃ p, (p = [] ∨ p = [.fetch]) ∧
    results o w = p ++ (if Wanted o .there ∧ Shown o ∧ w.records ≠ 0 then [.report .there .own .remote] else []) := by
  unfold results
  by_cases h1 : Wanted o .there
  · obtain ⟨a, b⟩ := (there_iff o).2 h1
    rw [a, b]
    by_cases h2 : Shown o
    · rw [(reports_iff o).2 h2]
      by_cases h3 : w.records = 0
      · exact ⟨[.fetch], Or.inr rfl, by simp [h3]⟩
      · rw [if_pos (show Wanted o .there ∧ Shown o ∧ w.records ≠ 0 from ⟨h1, h2, h3⟩)]
        exact ⟨[.fetch], Or.inr rfl, by simp [h3]⟩
    · have hr : o.reports = false := by
        cases hx : o.reports with
        | false => rfl
        | true => exact (h2 ((reports_iff o).1 hx)).elim
      rw [hr]
      cases o.saveTo with
      | true => exact ⟨[.fetch], Or.inr rfl, by simp [h2]⟩
      | false => exact ⟨[], Or.inl rfl, by simp [h2]⟩
  · have : (!o.twoway && o.there) = false := by
      cases hx : (!o.twoway && o.there) with
      | false => rfl
      | true =>
        simp only [Bool.and_eq_true, Bool.not_eq_true'] at hx
        exact (h1 ((there_iff o).1 ⟨hx.2, hx.1⟩)).elim
    rw [this]
    exact ⟨[], Or.inl rfl, by simp [h1]⟩

theorem back_reported (o : Opts) :
    ownResults o = if Wanted o .back ∧ Shown o then [if o.twoway then .report .back .own .remote else .report .back .remote .own] else [] := by
  unfold ownResults
  by_cases h : ((o.twoway || o.back) && o.reports) = true
  · rw [if_pos h]
    simp only [Bool.and_eq_true, Bool.or_eq_true] at h
    rw [if_pos (show Wanted o .back ∧ Shown o from ⟨(back_iff o).1 h.1, (reports_iff o).1 h.2⟩)]
  · rw [if_neg h, if_neg]
    rintro ⟨a, b⟩
    exact h (by simp only [Bool.and_eq_true, Bool.or_eq_true]; exact ⟨(back_iff o).2 a, (reports_iff o).2 b⟩)

/-- **C91.** What is reported: nothing of a test that did not come to a good end; and when the status is 0, of each session that was asked for and whose results are here, if the user
wants to see any, in this order, with the right hosts in the title. -/
theorem C91_reports (o : Opts) (w : World) :
    ((∃ d a b, .report d a b ∈ (ping o w).1) → w.starts = true ∧ Ended w) ∧
    ((ping o w).2 = 0 → ∃ p, (∀ d a b, .report d a b ∉ p) ∧ (ping o w).1 = p ++ reportsOf o w) := by
  have hpre : ∀ d a b, Act.report d a b ∉ preamble o := fun d a b hx => (early_not _ (preamble_early o _ hx).1).2.2.2.2.1 d a b rfl
  constructor
  · rintro ⟨d, a, b, h⟩
    by_cases hr : Ready o w
    · rw [ping_ready o w hr] at h
      rcases List.mem_append.1 (show _ ∈ preamble o ++ (run o w).1 from h) with e | e
      · exact (hpre d a b e).elim
      · rcases run_cases o w with ⟨_, h2, _⟩ | ⟨h1, h2, _⟩
        · exact (h2 d a b e).elim
        · exact ⟨h2, h1⟩
    · exact ((early_not _ ((ping_early o w hr).1 _ h)).2.2.2.2.1 d a b rfl).elim
  · intro h0
    obtain ⟨hr, hs, he, hc, h2, h3, h4⟩ := (C91_status o w).1 h0
    rw [ping_ready o w hr]
    rcases run_cases o w with ⟨_, _, e⟩ | ⟨_, _, _, _, _, mid, e, hm⟩
    · exfalso
      rcases e with e | e | e | e
      · exact e he
      · rw [hs] at e; cases e
      · rcases hc with c | c
        · rw [e.1] at c; cases c
        · rw [e.2] at c; cases c
      · omega
    · obtain ⟨p, hp, hres⟩ := there_reported o w
      have hfin : (finish o w).1 = p ++ reportsOf o w := by
        unfold finish reportsOf
        rw [if_neg (by omega), if_neg (by omega), hres, back_reported, List.append_assoc]
      refine ⟨preamble o ++ (mid ++ p), fun d a b hx => ?_, ?_⟩
      · rcases List.mem_append.1 hx with g | g
        · exact hpre d a b g
        · rcases List.mem_append.1 g with g | g
          · rcases hm with hm | ⟨_, hm⟩ <;> rw [hm] at g <;> simp at g
          · rcases hp with hp | hp <;> rw [hp] at g <;> simp at g
      · show preamble o ++ (run o w).1 = _
        rw [e]
        show preamble o ++ (mid ++ (finish o w).1) = _
        rw [hfin]
        simp only [List.append_assoc]

/-- **C91** (partial, see `C91_file_left`). When sessions were started and did not come to a good end, the file that the user named for their results is removed. -/
theorem C91_removed_partial (o : Opts) (w : World) (h : .wait ∈ (ping o w).1) (hs : .makeSaved ∈ (ping o w).1) (he : ¬ Ended w) : .removeSaved ∈ (ping o w).1 := by
  by_cases hr : Ready o w
  · rw [ping_ready o w hr] at h hs ⊢
    have hsf : o.saveFrom = true := by
      cases hx : o.saveFrom with
      | true => rfl
      | false =>
        exfalso
        rcases List.mem_append.1 (show _ ∈ preamble o ++ (run o w).1 from hs) with e | e
        · unfold preamble at e
          rw [hx] at e
          simp only [List.mem_cons, List.mem_append, reduceCtorEq, false_or, Bool.false_eq_true, if_false, List.nil_append] at e
          rcases e with e | e <;> split at e <;> simp at e
        · rcases run_cases o w with ⟨_, _, _⟩ | ⟨e', _⟩
          · unfold run at e
            have hd : dropFile o = [] := by unfold dropFile; rw [hx]; rfl
            rw [hd] at e
            split at e
            · simp at e
            split at e
            · simp at e
            split at e
            · simp at e
            split at e
            · simp at e
            rename_i g1
            simp only [Bool.or_eq_true, decide_eq_true_eq, Bool.not_eq_true', not_or, Bool.not_eq_false] at g1
            split at e
            · split at e
              · simp at e
              · rename_i g2 g3
                refine he ⟨by omega, g1.2, fun _ => ?_⟩
                simpa using g3
            · rename_i g2
              exact he ⟨by omega, g1.2, fun g => (g2 g).elim⟩
          · exact he e'
    refine List.mem_append_right _ ?_
    rcases List.mem_append.1 (show _ ∈ preamble o ++ (run o w).1 from h) with e | e
    · exact ((early_not _ (preamble_early o _ e).1).2.1 rfl).elim
    · have hd : dropFile o = [.removeSaved] := by unfold dropFile; rw [hsf]; rfl
      unfold run at e ⊢
      rw [hd] at e ⊢
      split
      · rename_i g; rw [if_pos g] at e; simp at e
      rename_i g; rw [if_neg g] at e
      split
      · rename_i g; rw [if_pos g] at e; simp at e
      rename_i g; rw [if_neg g] at e
      split
      · rename_i g; rw [if_pos g] at e; simp at e
      split
      · simp
      rename_i g1
      simp only [Bool.or_eq_true, decide_eq_true_eq, Bool.not_eq_true', not_or, Bool.not_eq_false] at g1
      split
      · split
        · simp
        · rename_i g2 g3
          refine (he ⟨by omega, g1.2, fun _ => ?_⟩).elim
          simpa using g3
      · rename_i g2
        exact (he ⟨by omega, g1.2, fun g => (g2 g).elim⟩).elim
  · exact ((early_not _ ((ping_early o w hr).1 _ h)).2.1 rfl).elim

theorem fetches (o : Opts) (w : World) : .fetch ∈ results o w ↔ Wanted o .there ∧ (o.saveTo = true ∨ Shown o) := by
  rw [← there_iff, ← reports_iff]
  unfold results
  by_cases h : (!o.twoway && o.there && (o.saveTo || o.reports)) = true
  · rw [if_pos h]
    simp only [Bool.and_eq_true, Bool.or_eq_true, Bool.not_eq_true'] at h
    exact ⟨fun _ => ⟨⟨h.1.2, h.1.1⟩, h.2⟩, fun _ => List.mem_cons_self⟩
  · rw [if_neg h]
    simp only [Bool.and_eq_true, Bool.or_eq_true, Bool.not_eq_true'] at h
    exact ⟨fun hx => by simp at hx, fun hx => (h ⟨⟨hx.1.2, hx.1.1⟩, hx.2⟩).elim⟩

/-- **C91.** With status 0 the results were fetched if they are to be kept or shown, the file for those of the session from the server was made if one is named, and no file was removed. -/
theorem C91_kept (o : Opts) (w : World) (h0 : (ping o w).2 = 0) :
    (.fetch ∈ (ping o w).1 ↔ Wanted o .there ∧ (o.saveTo = true ∨ Shown o)) ∧ (.makeSaved ∈ (ping o w).1 ↔ Wanted o .back ∧ o.saveFrom = true) ∧ .removeSaved ∉ (ping o w).1 := by
  obtain ⟨hr, hs, he, hc, h2, h3, h4⟩ := (C91_status o w).1 h0
  rw [ping_ready o w hr]
  rcases run_cases o w with ⟨_, _, e⟩ | ⟨_, _, _, _, _, mid, e, hm⟩
  · exfalso
    rcases e with e | e | e | e
    · exact e he
    · rw [hs] at e; cases e
    · rcases hc with c | c
      · rw [e.1] at c; cases c
      · rw [e.2] at c; cases c
    · omega
  · have e1 : (before (preamble o) (run o w)).1 = preamble o ++ (mid ++ (results o w ++ ownResults o)) := by
      show preamble o ++ (run o w).1 = _
      rw [e]
      show preamble o ++ (mid ++ (finish o w).1) = _
      unfold finish
      rw [if_neg (by omega), if_neg (by omega)]
    rw [e1]
    have hmid : ∀ x ∈ mid, x = .start ∨ x = .wait ∨ x = .stop := by
      intro x hx
      rcases hm with hm | ⟨_, hm⟩ <;> rw [hm] at hx <;> simp at hx <;> rcases hx with hx | hx <;> simp [hx]
    have hres : ∀ x ∈ results o w, x = .fetch ∨ ∃ d a b, x = .report d a b := by
      intro x hx
      unfold results at hx
      repeat' split at hx
      all_goals simp at hx
      all_goals first
        | (rcases hx with hx | hx
           · exact Or.inl hx
           · exact Or.inr ⟨_, _, _, hx⟩)
        | exact Or.inl hx
    have hown : ∀ x ∈ ownResults o, ∃ d a b, x = Act.report d a b := by
      intro x hx
      unfold ownResults at hx
      repeat' split at hx
      all_goals simp at hx
      all_goals exact ⟨_, _, _, hx⟩
    refine ⟨?_, ?_, ?_⟩
    · rw [← fetches o w]
      constructor
      · intro h
        rcases List.mem_append.1 h with h | h
        · exact absurd (preamble_early o _ h).1 (by simp [Early])
        · rcases List.mem_append.1 h with h | h
          · rcases hmid _ h with h | h | h <;> cases h
          · rcases List.mem_append.1 h with h | h
            · exact h
            · obtain ⟨_, _, _, h⟩ := hown _ h; cases h
      · intro h
        exact List.mem_append_right _ (List.mem_append_right _ (List.mem_append_left _ h))
    · rw [← back_iff]
      constructor
      · intro h
        rcases List.mem_append.1 h with h | h
        · unfold preamble at h
          rcases List.mem_cons.1 h with h | h
          · cases h
          · rcases List.mem_append.1 h with h | h
            · split at h <;> simp at h
            · split at h
              · rename_i hb
                refine ⟨hb, ?_⟩
                cases hx : o.saveFrom with
                | true => rfl
                | false => rw [hx] at h; simp at h
              · simp at h
        · rcases List.mem_append.1 h with h | h
          · rcases hmid _ h with h | h | h <;> cases h
          · rcases List.mem_append.1 h with h | h
            · rcases hres _ h with h | ⟨_, _, _, h⟩ <;> cases h
            · obtain ⟨_, _, _, h⟩ := hown _ h; cases h
      · rintro ⟨hb, hf⟩
        refine List.mem_append_left _ ?_
        unfold preamble
        rw [if_pos hb, hf]
        exact List.mem_cons_of_mem _ (List.mem_append_right _ (by simp))
    · intro h
      rcases List.mem_append.1 h with h | h
      · exact absurd (preamble_early o _ h).1 (by simp [Early])
      · rcases List.mem_append.1 h with h | h
        · rcases hmid _ h with h | h | h <;> cases h
        · rcases List.mem_append.1 h with h | h
          · rcases hres _ h with h | ⟨_, _, _, h⟩ <;> cases h
          · obtain ⟨_, _, _, h⟩ := hown _ h; cases h

/-! Examples and exceptions. -/

/-- A usual test, in both directions. -/
def pingOpts : Opts := ⟨false, false, false, false, false, false, true⟩

/-- Everything goes well. -/
def pingWorld : World := ⟨true, true, true, true, true, fun _ => true, true, 0, true, true, 100, fun _ => 0⟩

example : ping pingOpts pingWorld = ([.connect, .request .there, .makeSaved, .request .back, .start, .wait, .fetch, .report .there .own .remote, .report .back .remote .own], 0) ∧
    ping { pingOpts with twoway := true } pingWorld = ([.connect, .makeSaved, .request .back, .start, .wait, .report .back .own .remote], 0) ∧
    ping pingOpts { pingWorld with waitAccept := false } = ([.connect, .request .there, .makeSaved, .request .back, .start, .wait, .removeSaved], 1) ∧
    ping pingOpts { pingWorld with wait := 2, intr := fun i => if i < 3 then 0 else 1 } =
      ([.connect, .request .there, .makeSaved, .request .back, .start, .wait, .stop, .fetch, .report .there .own .remote, .report .back .remote .own], 0) := by
  refine ⟨by decide +kernel, by decide +kernel, by decide +kernel, by decide +kernel⟩

/-- C91 does not go further: the status is 0 also when the results of the session to the server, the only one, could not be fetched, or when it has no records, and nothing is
reported. -/
theorem C91_no_results : ∃ (o : Opts) (w : World), Wanted o .there ∧ Shown o ∧ (ping o w).2 = 0 ∧ ∀ d a b, .report d a b ∉ (ping o w).1 := by
  refine ⟨{ pingOpts with t := true }, { pingWorld with records := 0 }, by decide, by decide, by decide +kernel, ?_⟩
  have : (ping { pingOpts with t := true } { pingWorld with records := 0 }).1 = [.connect, .request .there, .start, .wait, .fetch] := by decide +kernel
  rw [this]
  simp

/-- … and the file for the results stays, empty, when the server refuses the session. -/
theorem C91_file_left : ∃ (o : Opts) (w : World), (ping o w).2 = 1 ∧ .makeSaved ∈ (ping o w).1 ∧ .start ∉ (ping o w).1 ∧ .removeSaved ∉ (ping o w).1 :=
  ⟨pingOpts, { pingWorld with accepts := fun d => d == .there }, by decide +kernel, by decide +kernel, by decide +kernel, by decide +kernel⟩

/-! ## owstats and owfetch -/

/-- **C91.** `owstats` has the status 0 if and only if every file was reported, in order. Otherwise it stops with the first that cannot be. -/
theorem C91_owstats (files : List (Bool × Bool)) : ∀ i,
    ((owstats i files).2 = 0 ↔ ∀ f ∈ files, f = (true, true)) ∧ ((owstats i files).2 = 0 → (owstats i files).1 = List.range' i files.length) ∧
    ((owstats i files).2 ≠ 0 → ∃ p f q, files = p ++ f :: q ∧ (∀ g ∈ p, g = (true, true)) ∧ f ≠ (true, true) ∧ (owstats i files).1 = List.range' i p.length) := by
  induction files with
  | nil => intro i; exact ⟨by simp [owstats], fun _ => rfl, fun h => (h rfl).elim⟩
  | cons f r ih =>
    intro i
    obtain ⟨h1, h2, h3⟩ := ih (i + 1)
    rcases f with ⟨a, b⟩
    cases a with
    | false => exact ⟨by simp [owstats], (fun h => by cases h), fun _ => ⟨[], (false, b), r, rfl, by simp, by simp, rfl⟩⟩
    | true =>
      cases b with
      | false => exact ⟨by simp [owstats], (fun h => by cases h), fun _ => ⟨[], (true, false), r, rfl, by simp, by simp, rfl⟩⟩
      | true =>
        have e : owstats i ((true, true) :: r) = (i :: (owstats (i + 1) r).1, (owstats (i + 1) r).2) := rfl
        rw [e]
        refine ⟨?_, fun h => ?_, fun h => ?_⟩
        · rw [h1]; simp
        · show i :: (owstats (i + 1) r).1 = _
          rw [h2 h, List.length_cons, List.range'_succ]
        · obtain ⟨p, g, q, a1, a2, a3, a4⟩ := h3 h
          refine ⟨(true, true) :: p, g, q, by rw [a1]; rfl, by simpa using a2, a3, ?_⟩
          show i :: (owstats (i + 1) r).1 = _
          rw [a4, List.length_cons, List.range'_succ]

/-- **C91.** `owfetch`, unless it is interrupted, asks for every session, and has in the end the files of those that gave records. -/
theorem C91_owfetch (xs : List (Nat × Bool × Nat)) (h : ∀ x ∈ xs, x.2.2 = 0) : ∀ i, (owfetch i xs).2.2 = 0 ∧ (owfetch i xs).1 = List.range' i xs.length ∧
    ∀ k, k ∈ (owfetch i xs).2.1 ↔ ∃ x, xs[k - i]? = some x ∧ i ≤ k ∧ x.1 ≠ 0 := by
  induction xs with
  | nil => intro i; exact ⟨rfl, rfl, fun k => by simp [owfetch]⟩
  | cons x r ih =>
    intro i
    obtain ⟨h1, h2, h3⟩ := ih (fun y hy => h y (List.mem_cons_of_mem _ hy)) (i + 1)
    obtain ⟨n, ok, s⟩ := x
    have hs : s = 0 := h _ List.mem_cons_self
    subst hs
    have e : owfetch i ((n, ok, 0) :: r) = (i :: (owfetch (i + 1) r).1, (if n = 0 then [] else [i]) ++ (owfetch (i + 1) r).2.1, (owfetch (i + 1) r).2.2) := rfl
    rw [e]
    refine ⟨h1, ?_, fun k => ?_⟩
    · show i :: (owfetch (i + 1) r).1 = _
      rw [h2, List.length_cons, List.range'_succ]
    · show k ∈ (if n = 0 then [] else [i]) ++ (owfetch (i + 1) r).2.1 ↔ _
      rw [List.mem_append, h3 k]
      constructor
      · rintro (g | ⟨y, g1, g2, g3⟩)
        · by_cases hn : n = 0
          · rw [if_pos hn] at g; simp at g
          · rw [if_neg hn, List.mem_singleton] at g
            subst g
            exact ⟨(n, ok, 0), by simp, Nat.le_refl _, hn⟩
        · refine ⟨y, ?_, by omega, g3⟩
          rw [show k - i = k - (i + 1) + 1 by omega, List.getElem?_cons_succ]
          exact g1
      · rintro ⟨y, g1, g2, g3⟩
        rcases Nat.eq_or_lt_of_le g2 with e | e
        · left
          subst e
          rw [Nat.sub_self, List.getElem?_cons_zero, Option.some.injEq] at g1
          subst g1
          rw [if_neg g3]; simp
        · right
          refine ⟨y, ?_, by omega, g3⟩
          rw [show k - i = k - (i + 1) + 1 by omega, List.getElem?_cons_succ] at g1
          exact g1

/-- … with status 0 even if it got none of them. -/
theorem C91_owfetch_status : owfetch 0 [(0, true, 0), (0, true, 0)] = ([0, 1], [], 0) := by decide +kernel

example : owstats 0 [(true, true), (true, false), (true, true)] = ([0], 1) ∧ owfetch 0 [(5, true, 0), (0, true, 0), (7, false, 0)] = ([0, 1, 2], [0, 2], 0) := by decide +kernel

end Owamp.Props
