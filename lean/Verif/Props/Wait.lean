import Verif.Model.Wait
import Verif.Props.Sessions
import Verif.Props.Num64
/-!
# C72: waiting for the end of sessions
-/
namespace Owamp.Props
open Owamp.Local Owamp.Spec.Sessions Owamp.Num64 Owamp.Spec

private theorem elapseFrom_later (ends : Nat → Option Ending) (ts : List Ses) : ∀ i, AllLater ts (elapseFrom ends i ts) := by
  induction ts with
  | nil => intro i; exact .nil
  | cons t ts ih =>
    intro i
    refine .cons ?_ (ih _)
    cases he : t.ep with
    | none => exact .inl rfl
    | some e =>
      simp only
      by_cases hn : e.now = none
      · rw [if_pos hn]
        cases hi : ends i with
        | none =>
          left
          have : ({ e with now := none } : Ep) = e := by cases e; simp_all
          rw [this]
          cases t; simp_all
        | some en => exact .inr ⟨e, en, he, hn, rfl⟩
      · rw [if_neg hn]
        exact .inl rfl

theorem elapse_later (ends : Nat → Option Ending) (ts : List Ses) : AllLater ts (elapse ends ts) := elapseFrom_later ends ts 0

private theorem waitDone_left (twoway server readstop : Bool) (p : Peer) (s : Stopping) (hs : s.err ≤ allOk) (ts : List Ses) :
    NobodyLeft (waitDone twoway server readstop p s ts).err (waitDone twoway server readstop p s ts).sessions ∧
    ((waitDone twoway server readstop p s ts).rc = 0 ∨ (waitDone twoway server readstop p s ts).rc = -1) ∧
    ((waitDone twoway server readstop p s ts).rc = 0 → readstop = true ∧ warning ≤ s.err ∧ (waitDone twoway server readstop p s ts).aval = s.aval ∧
      (twoway = true → server = true ∨ warning ≤ p.write s.aval s.num) ∧ (twoway = false → warning ≤ p.write s.aval s.num)) ∧
    ((waitDone twoway server readstop p s ts).err < warning → (waitDone twoway server readstop p s ts).rc = -1 ∧ (waitDone twoway server readstop p s ts).aval = 2) := by
  have sv := sev
  unfold waitDone
  dsimp only
  generalize ha : (if s.err < warning then (2 : Int) else s.aval) = aval
  generalize he : (if readstop && decide (warning ≤ s.err) && !(twoway && server) then min (p.write aval s.num) s.err else s.err) = err
  have hle : err ≤ s.err := by rw [← he]; split <;> omega
  obtain ⟨h1, _, h3⟩ := freeAll_spec aval ts err (by omega)
  generalize freeAll aval ts err = f at *
  have left : NobodyLeft f.1 f.2 := by
    intro t ht e he hc
    by_cases hn : e.acceptval < 0
    · have := h3 t ht e he hc hn
      exact .inr ⟨this.1, by omega⟩
    · exact .inl (by omega)
  by_cases hw : f.1 < warning
  · rw [if_pos hw]
    exact ⟨left, .inr rfl, fun h => by simp at h, fun _ => ⟨rfl, rfl⟩⟩
  · rw [if_neg hw]
    cases readstop with
    | false =>
      rw [if_pos (by decide)]
      exact ⟨left, .inr rfl, fun h => by simp at h, fun h => (hw h).elim⟩
    | true =>
      rw [if_neg (by decide)]
      have hse : warning ≤ s.err := by omega
      have ea : aval = s.aval := by rw [← ha, if_neg (by omega)]
      refine ⟨left, .inl rfl, fun _ => ⟨rfl, hse, ea, ?_, ?_⟩, fun h => (hw h).elim⟩
      · intro ht
        cases server with
        | true => exact .inl rfl
        | false =>
          right
          rw [ht] at he
          simp only [Bool.true_and, Bool.and_false, Bool.not_false, Bool.and_true, decide_eq_true_eq, if_pos hse] at he
          rw [← ea]; omega
      · intro ht
        rw [ht] at he
        simp only [Bool.true_and, Bool.false_and, Bool.not_false, Bool.and_true, decide_eq_true_eq, if_pos hse] at he
        rw [← ea]; omega

/-- What a stop message, or the end of the connection, leads to. -/
private theorem waitStop_left (twoway server readstop : Bool) (p : Peer) (aval : Int) (ts : List Ses) :
    NobodyLeft (waitStop twoway server readstop p aval ts).err (waitStop twoway server readstop p aval ts).sessions ∧
    ((waitStop twoway server readstop p aval ts).rc = 0 ∨ (waitStop twoway server readstop p aval ts).rc = -1) ∧
    ((waitStop twoway server readstop p aval ts).rc = 0 → readstop = true ∧ warning ≤ p.read.1 ∧ (waitStop twoway server readstop p aval ts).aval = p.read.2 ∧
      ∃ n, ((twoway && server) = true ∨ warning ≤ p.write p.read.2 n)) ∧
    ((waitStop twoway server readstop p aval ts).err < warning → (waitStop twoway server readstop p aval ts).rc = -1 ∧ (waitStop twoway server readstop p aval ts).aval = 2) := by
  have sv := sev
  obtain ⟨g1, _⟩ := stopSend_spec twoway ts ⟨aval, allOk, 0⟩ (Nat.le_refl _)
  unfold waitStop
  generalize stopSend twoway ts ⟨aval, allOk, 0⟩ = r at *
  have g1 : r.1.err ≤ allOk := g1
  dsimp only
  by_cases hw : r.1.err < warning
  · rw [if_pos hw]
    obtain ⟨a1, a2, a3, a4⟩ := waitDone_left twoway server readstop p r.1 g1 r.2
    exact ⟨a1, a2, (fun h => by have := (a3 h).2.1; omega), a4⟩
  · rw [if_neg hw]
    obtain ⟨k1, _⟩ := stopRecv_spec twoway server (!readstop) p.late r.2 r.1 g1
    generalize stopRecv twoway server (!readstop) p.late r.2 r.1 = q at *
    by_cases hw2 : q.1.err < warning
    · rw [if_pos hw2]
      obtain ⟨a1, a2, a3, a4⟩ := waitDone_left twoway server readstop p q.1 (by omega) q.2
      exact ⟨a1, a2, (fun h => by have := (a3 h).2.1; omega), a4⟩
    · rw [if_neg hw2]
      cases readstop with
      | true =>
        rw [if_pos rfl]
        obtain ⟨a1, a2, a3, a4⟩ := waitDone_left twoway server true p { q.1 with aval := p.read.2, err := min p.read.1 q.1.err } (by show min _ _ ≤ _; omega) q.2
        refine ⟨a1, a2, fun h => ?_, a4⟩
        obtain ⟨b1, b2, b3, b4, b5⟩ := a3 h
        have b2 : warning ≤ min p.read.1 q.1.err := b2
        refine ⟨b1, by omega, b3, q.1.num, ?_⟩
        cases twoway with
        | false => exact .inr (b5 rfl)
        | true =>
          rcases b4 rfl with h | h
          · left; rw [h]; rfl
          · exact .inr h
      | false =>
        rw [if_neg (by decide)]
        split
        · obtain ⟨a1, a2, a3, a4⟩ := waitDone_left twoway server false p { q.1 with aval := 0 } (by show q.1.err ≤ _; omega) q.2
          exact ⟨a1, a2, (fun h => by have := (a3 h).1; cases this), a4⟩
        · obtain ⟨a1, a2, a3, a4⟩ := waitDone_left twoway server false p { q.1 with err := fatal } (by decide : fatal ≤ allOk) q.2
          exact ⟨a1, a2, (fun h => by have := (a3 h).1; cases this), a4⟩

private theorem waitRead_left (twoway server events : Bool) (p : Peer) (aval : Int) (ts : List Ses) :
    NobodyLeft (waitRead twoway server events p aval ts).err (waitRead twoway server events p aval ts).sessions ∧
    ((waitRead twoway server events p aval ts).rc = 0 ∨ (waitRead twoway server events p aval ts).rc = -1) ∧
    ((waitRead twoway server events p aval ts).rc = 0 →
      p.heard = .stop ∧ warning ≤ p.read.1 ∧ (waitRead twoway server events p aval ts).aval = p.read.2 ∧
      ∃ n, ((twoway && server) = true ∨ warning ≤ p.write p.read.2 n)) ∧
    ((waitRead twoway server events p aval ts).err < warning → (waitRead twoway server events p aval ts).rc = -1 ∧ (waitRead twoway server events p aval ts).aval = 2) := by
  have sv := sev
  have bad : ∀ rs, NobodyLeft (waitDone twoway server rs p ⟨aval, fatal, 0⟩ ts).err (waitDone twoway server rs p ⟨aval, fatal, 0⟩ ts).sessions ∧
    ((waitDone twoway server rs p ⟨aval, fatal, 0⟩ ts).rc = 0 ∨ (waitDone twoway server rs p ⟨aval, fatal, 0⟩ ts).rc = -1) ∧
    ((waitDone twoway server rs p ⟨aval, fatal, 0⟩ ts).rc = 0 →
      p.heard = .stop ∧ warning ≤ p.read.1 ∧ (waitDone twoway server rs p ⟨aval, fatal, 0⟩ ts).aval = p.read.2 ∧
      ∃ n, ((twoway && server) = true ∨ warning ≤ p.write p.read.2 n)) ∧
    ((waitDone twoway server rs p ⟨aval, fatal, 0⟩ ts).err < warning →
      (waitDone twoway server rs p ⟨aval, fatal, 0⟩ ts).rc = -1 ∧ (waitDone twoway server rs p ⟨aval, fatal, 0⟩ ts).aval = 2) := by
    intro rs
    obtain ⟨a1, a2, a3, a4⟩ := waitDone_left twoway server rs p ⟨aval, fatal, 0⟩ (by decide : fatal ≤ allOk) ts
    exact ⟨a1, a2, fun h => absurd (a3 h).2.1 (by decide : ¬ warning ≤ fatal), a4⟩
  unfold waitRead
  dsimp only
  split
  · exact bad _
  · cases hh : p.heard with
    | stop =>
      rw [hh] at bad
      dsimp only
      split
      · exact bad _
      · obtain ⟨a1, a2, a3, a4⟩ := waitStop_left twoway server (!(twoway && !server)) p aval ts
        exact ⟨a1, a2, fun h => ⟨rfl, (a3 h).2⟩, a4⟩
    | closed =>
      dsimp only
      obtain ⟨a1, a2, a3, a4⟩ := waitStop_left twoway server false p aval ts
      exact ⟨a1, a2, (fun h => by have := (a3 h).1; cases this), a4⟩
    | other =>
      rw [hh] at bad
      exact bad _

/-- What is true of every return of the wait. -/
private structure Ret (twoway server wake : Bool) (intr : Prop) (late : Prop) (p : Peer) (ts : List Ses) (w : Waited) : Prop where
  rc : w.rc = 0 ∨ w.rc = 1 ∨ w.rc = 2 ∨ w.rc = -1
  one : w.rc = 1 → late ∧ OnlyWatched ts w.sessions ∧ w.err = allOk
  two : w.rc = 2 → (wake = true ∨ intr) ∧ OnlyWatched ts w.sessions ∧ w.err = allOk
  zero : w.rc = 0 → NobodyLeft w.err w.sessions
  neg : w.rc = -1 → NobodyLeft w.err w.sessions ∨ OnlyWatched ts w.sessions
  ok : w.rc = 0 → w.err = allOk →
    (p.heard = .stop ∧ w.aval = p.read.2 ∧ ((twoway && server) = true ∨ ∃ a n, warning ≤ p.write a n)) ∨
    ((twoway && server) = true ∧ w.aval ≠ 0 ∧ OnlyWatched ts w.sessions)


private theorem stopSessions_written (twoway server : Bool) (p : Peer) (aval : Int) (ts : List Ses)
    (h : (stopSessions twoway server p aval ts).rc = allOk) : ∃ a n, warning ≤ p.write a n := by
  have sv := sev
  obtain ⟨h1, _⟩ := stopSend_spec twoway ts ⟨aval, allOk, 0⟩ (Nat.le_refl _)
  unfold stopSessions at h
  generalize stopSend twoway ts ⟨aval, allOk, 0⟩ = r at *
  have h1 : r.1.err ≤ allOk := h1
  dsimp only at h
  by_cases hw : r.1.err < warning
  · rw [if_pos hw] at h
    have := (stopDone_spec true r.1 h1 r.2).2.2.1 h
    omega
  · rw [if_neg hw] at h
    by_cases hw2 : min (p.write r.1.aval r.1.num) r.1.err < warning
    · rw [if_pos hw2] at h
      have := (stopClean_spec twoway server false p { r.1 with err := min (p.write r.1.aval r.1.num) r.1.err } (by show min _ _ ≤ _; omega) r.2).2.2.2 rfl
      rw [h] at this
      omega
    · exact ⟨r.1.aval, r.1.num, by omega⟩

private theorem own_ret (twoway server wake : Bool) (intr late : Prop) (p : Peer) (aval : Int) (ts ts' : List Ses) :
    Ret twoway server wake intr late p ts (waitOwn twoway server p aval ts') := by
  refine ⟨.inl rfl, (fun h => by cases h), (fun h => by cases h), fun _ => C55_nobody_left twoway server p aval ts', (fun h => by cases h), fun _ he => ?_⟩
  obtain ⟨_, h2, _, h4⟩ := C55_stop_partial twoway server p aval ts' he
  exact .inl ⟨h2, h4, .inr (stopSessions_written twoway server p aval ts' he)⟩

private theorem looked_over (ts : List Ses) (h : (sessionsActive ts).1 = 0) :
    ∀ t ∈ (sessionsActive ts).2.2, ∀ e, t.ep = some e → 0 ≤ e.acceptval := by
  unfold sessionsActive at *
  have key : ∀ n raval, (activeLoop ts n raval).1 = 0 → ∀ t ∈ (activeLoop ts n raval).2.2, ∀ e, t.ep = some e → 0 ≤ e.acceptval := by
    clear h
    have ge : ∀ ts n raval, n ≤ (activeLoop ts n raval).1 := by
      intro ts
      induction ts with
      | nil => intro n raval; exact Nat.le_refl _
      | cons t ts ih =>
        intro n raval
        unfold activeLoop
        cases t.ep with
        | none => exact ih n raval
        | some e =>
          simp only
          split
          · exact Nat.le_trans (Nat.le_succ _) (ih _ _)
          · exact ih _ _
    induction ts with
    | nil => intro n raval _ t ht; simp [activeLoop] at ht
    | cons t ts ih =>
      intro n raval h u hu e he
      unfold activeLoop at h hu
      cases hep : t.ep with
      | none =>
        simp only [hep] at h hu
        rcases List.mem_cons.1 hu with rfl | hu
        · rw [hep] at he; cases he
        · exact ih _ _ h u hu e he
      | some x =>
        simp only [hep] at h hu
        by_cases hneg : (endpointStatus x 0).2.1 < 0
        · rw [if_pos hneg] at h
          have := ge ts (n + 1) raval
          omega
        · rw [if_neg hneg] at h hu
          rcases List.mem_cons.1 hu with rfl | hu
          · simp only [Option.some.injEq] at he
            subst he
            have : (endpointStatus x 0).2.1 = (endpointStatus x 0).1.acceptval := by simp [endpointStatus]
            omega
          · exact ih _ _ h u hu e he
  exact key 0 0 h

private theorem err_ret (twoway server wake : Bool) (intr late : Prop) (p : Peer) (ts ts' : List Ses) (hts : (twoway && server) = true)
    (ho : OnlyWatched ts ts') (h0 : (sessionsActive ts').1 = 0) (h1 : (sessionsActive ts').2.1 ≠ 0) :
    Ret twoway server wake intr late p ts ⟨0, allOk, (sessionsActive ts').2.1, (sessionsActive ts').2.2⟩ :=
  ⟨.inl rfl, (fun h => by cases h), (fun h => by cases h), fun _ t ht e he _ => .inl (looked_over ts' h0 t ht e he), (fun h => by cases h),
    fun _ _ => .inr ⟨hts, h1, ho.look⟩⟩

private theorem loop_ret (twoway server wake : Bool) (timeout : Int) (p : Peer) (ts : List Ses) (intr : Prop) (late : Prop) (turns : List Turn) :
    ∀ aval ts', OnlyWatched ts ts' → (∀ t ∈ turns, t.intr = true → intr) → (∀ t ∈ turns, t.polled timeout = .timeout → late) →
      ∀ w, waitLoop twoway server wake timeout p turns aval ts' = .returned w → Ret twoway server wake intr late p ts w := by
  induction turns with
  | nil => intro aval ts' _ _ _ w h; simp [waitLoop] at h
  | cons t rest ih =>
    intro aval ts' ho hi hl w h
    have ho' := ho.later (elapse_later t.ends ts')
    have hi' : ∀ t ∈ rest, t.intr = true → intr := fun u hu => hi u (by simp [hu])
    have hl' : ∀ t ∈ rest, t.polled timeout = .timeout → late := fun u hu => hl u (by simp [hu])
    rw [waitLoop] at h
    cases hp : t.polled timeout with
    | silence => simp only [hp] at h; exact ih _ _ ho' hi' hl' w h
    | failed =>
      simp only [hp, Outcome.returned.injEq] at h
      subst h
      exact ⟨by simp, (fun h => by cases h), (fun h => by cases h), (fun h => by cases h), fun _ => .inr ho', (fun h => by cases h)⟩
    | timeout =>
      simp only [hp, Outcome.returned.injEq] at h
      subst h
      exact ⟨by simp, fun _ => ⟨hl t (by simp) hp, ho', rfl⟩, (fun h => by cases h), (fun h => by cases h), (fun h => by cases h), (fun h => by cases h)⟩
    | ready events =>
      simp only [hp, Outcome.returned.injEq] at h
      subst h
      obtain ⟨a1, a2, a3, a4⟩ := waitRead_left twoway server events p aval (elapse t.ends ts')
      refine ⟨?_, ?_, ?_, fun _ => a1, fun _ => .inl a1, fun h _ => ?_⟩
      · rcases a2 with h | h <;> rw [h] <;> simp
      · intro h; rcases a2 with h' | h' <;> rw [h'] at h <;> cases h
      · intro h; rcases a2 with h' | h' <;> rw [h'] at h <;> cases h
      · obtain ⟨b1, _, b3, n, b4⟩ := a3 h
        exact .inl ⟨b1, b3, b4.imp id fun h => ⟨_, n, h⟩⟩
    | interrupted =>
      simp only [hp] at h
      split at h
      · rename_i hc
        cases h
        refine ⟨by simp, (fun h => by cases h), fun _ => ⟨?_, ho', rfl⟩, (fun h => by cases h), (fun h => by cases h), (fun h => by cases h)⟩
        rw [Bool.or_eq_true] at hc
        exact hc.imp id (hi t (by simp))
      · split at h
        · exact ih _ _ ho'.look hi' hl' w h
        · split at h
          · rename_i hts
            split at h
            · rename_i hb
              cases h
              exact err_ret _ _ _ _ _ _ _ _ hts (ho'.look.later (elapse_later _ _)) hb.1 hb.2
            · exact ih _ _ (ho'.look.later (elapse_later _ _)).look hi' hl' w h
          · rename_i hts
            cases h
            exact own_ret _ _ _ _ _ _ _ _ _

private theorem wait_ret (twoway server fd : Bool) (wake : Option U64) (intr : Bool) (clock : Option U64) (p : Peer) (turns : List Turn) (ts : List Ses)
    (w : Waited) (h : wait twoway server fd wake intr clock p turns ts = .returned w) :
    Ret twoway server wake.isSome (intr = true ∨ ∃ t ∈ turns, t.intr = true) (∃ t ∈ turns, t.polled (pollTimeout wake (clock.getD 0)) = .timeout) p ts w := by
  unfold wait at h
  split at h
  · cases h
    exact ⟨by simp, (fun h => by cases h), (fun h => by cases h), (fun h => by cases h), fun _ => .inr (.start ts), (fun h => by cases h)⟩
  · simp only at h
    split at h
    · rename_i hc
      cases h
      exact err_ret _ _ _ _ _ _ _ _ hc.1 (.start ts) hc.2.1 hc.2.2
    · split at h
      · rename_i hc
        cases h
        exact own_ret _ _ _ _ _ _ _ _ _
      · split at h
        · rename_i hc
          cases h
          exact ⟨by simp, (fun h => by cases h), fun _ => ⟨.inr (.inl hc), (OnlyWatched.start ts).look, rfl⟩, (fun h => by cases h), (fun h => by cases h), (fun h => by cases h)⟩
        · split at h
          · cases h
            exact ⟨by simp, (fun h => by cases h), (fun h => by cases h), (fun h => by cases h), fun _ => .inr (OnlyWatched.start ts).look, (fun h => by cases h)⟩
          · exact loop_ret _ _ _ _ p ts _ _ turns _ _ (OnlyWatched.start ts).look (fun t ht h => .inr ⟨t, ht, h⟩) (fun t ht h => ⟨t, ht, h⟩) w h

/-! ## C72 -/

/-- **C72**, the return values: 0, 1, 2 or −1. -/
theorem C72_values (twoway server fd : Bool) (wake : Option U64) (intr : Bool) (clock : Option U64) (p : Peer) (turns : List Turn) (ts : List Ses)
    (w : Waited) (h : wait twoway server fd wake intr clock p turns ts = .returned w) : w.rc = 0 ∨ w.rc = 1 ∨ w.rc = 2 ∨ w.rc = -1 :=
  (wait_ret twoway server fd wake intr clock p turns ts w h).rc

/-- **C72**, 1 and 2: nothing was stopped, and the sessions go on as they were. 2 is returned only if a time to wake was given or the caller's flag was set. -/
theorem C72_undisturbed (twoway server fd : Bool) (wake : Option U64) (intr : Bool) (clock : Option U64) (p : Peer) (turns : List Turn) (ts : List Ses)
    (w : Waited) (h : wait twoway server fd wake intr clock p turns ts = .returned w) (hrc : w.rc = 1 ∨ w.rc = 2) :
    OnlyWatched ts w.sessions ∧ w.err = allOk ∧ (w.rc = 2 → wake.isSome ∨ intr = true ∨ ∃ t ∈ turns, t.intr = true) := by
  have r := wait_ret twoway server fd wake intr clock p turns ts w h
  rcases hrc with h | h
  · exact ⟨(r.one h).2.1, (r.one h).2.2, fun h' => by rw [h] at h'; cases h'⟩
  · exact ⟨(r.two h).2.1, (r.two h).2.2, fun _ => (r.two h).1⟩

/-- The millisecond timeout reaches the time to wake, less than a millisecond short. -/
private theorem timeout_near (W now : U64) (h : W.toNat * 1000 < now.toNat * 1000 + 2 ^ 31 * 2 ^ 32) :
    0 ≤ pollTimeout (some W) now ∧ pollTimeout (some W) now * 2 ^ 32 ≤ max 0 (((W.toNat : Int) - now.toNat) * 1000) ∧
    ((W.toNat : Int) - now.toNat) * 1000 < (pollTimeout (some W) now + 1) * 2 ^ 32 := by
  unfold pollTimeout
  dsimp only
  have hW := W.isLt
  have hn := now.isLt
  generalize W.toNat = a at *
  generalize now.toNat = b at *
  by_cases hlt : b < a
  · rw [if_pos hlt]
    have hs : sub a b = a - b := by simp only [sub, u64]; omega
    rw [hs]
    obtain ⟨⟨_, _, t3, t4⟩, t5⟩ := C02_toTimespec_value (a - b) (by omega)
    generalize toTimespec (a - b) = t at *
    simp only [total] at t5
    have hd : t.sub.tdiv 1000000 = t.sub / 1000000 := Int.tdiv_eq_ediv_of_nonneg t3
    rw [hd]
    generalize hms : t.sec * 1000 + t.sub / 1000000 = ms
    have h1 : 0 ≤ ms ∧ ms * 4294967296 ≤ (a - b : Nat) * 1000 ∧ ((a - b : Nat) : Int) * 1000 < (ms + 1) * 4294967296 := by omega
    have h2 : toInt32 ms = ms := by unfold toInt32; omega
    rw [h2]
    omega
  · rw [if_neg hlt]
    have : toInt32 ((0 : Int) * 1000 + (0 : Int).tdiv 1000000) = 0 := by decide
    show 0 ≤ toInt32 ((0 : Int) * 1000 + (0 : Int).tdiv 1000000) ∧ _
    rw [this]
    omega

/-- **C72**, 1 (partial): a time to wake was given and is reached, less than a millisecond early, if `poll` keeps to its timeout and the time to wake is less than 2^31
milliseconds ahead. `stop` is the time of the return. Beyond that it fails: `C72_wake_wraps`. -/
theorem C72_wake_partial (twoway server fd : Bool) (wake : Option U64) (intr : Bool) (now : U64) (p : Peer) (turns : List Turn) (ts : List Ses)
    (w : Waited) (h : wait twoway server fd wake intr (some now) p turns ts = .returned w) (hrc : w.rc = 1) (stop : Nat)
    (hpoll : ∀ t ∈ turns, ∀ n, t.polled n = .timeout → 0 ≤ n ∧ n * 2 ^ 32 ≤ ((stop : Int) - now.toNat) * 1000)
    (hnear : ∀ W, wake = some W → W.toNat * 1000 < now.toNat * 1000 + 2 ^ 31 * 2 ^ 32) :
    ∃ W, wake = some W ∧ W.toNat * 1000 < stop * 1000 + 2 ^ 32 := by
  obtain ⟨⟨t, ht, hp⟩, _⟩ := (wait_ret twoway server fd wake intr (some now) p turns ts w h).one hrc
  obtain ⟨h1, h2⟩ := hpoll t ht _ hp
  cases wake with
  | none => exact absurd h1 (by simp [pollTimeout])
  | some W =>
    refine ⟨W, rfl, ?_⟩
    obtain ⟨_, _, k3⟩ := timeout_near W now (hnear W rfl)
    simp only [Option.getD_some] at h2
    generalize pollTimeout (some W) now = x at *
    omega

/-- **C72**, blocking: without a time to wake and without a flag it returns neither 1 nor 2 (`poll` with a negative timeout does not time out). -/
theorem C72_blocks (twoway server fd : Bool) (clock : Option U64) (p : Peer) (turns : List Turn) (ts : List Ses)
    (hflag : ∀ t ∈ turns, t.intr = false) (hpoll : ∀ t ∈ turns, t.polled (-1) ≠ .timeout)
    (w : Waited) (h : wait twoway server fd none false clock p turns ts = .returned w) : w.rc = 0 ∨ w.rc = -1 := by
  have r := wait_ret twoway server fd none false clock p turns ts w h
  rcases r.rc with h | h | h | h
  · exact .inl h
  · obtain ⟨⟨t, ht, hp⟩, _⟩ := r.one h
    exact (hpoll t ht hp).elim
  · obtain ⟨h | h | ⟨t, ht, h⟩, _⟩ := r.two h
    · cases h
    · cases h
    · rw [hflag t ht] at h; cases h
  · exact .inr h

/-- **C72**, 0: no process of the sessions is left that was not waited for, unless it could not be sent a signal and `*err_ret` tells of a failure. −1: the same, or nothing was
stopped. -/
theorem C72_nobody_left (twoway server fd : Bool) (wake : Option U64) (intr : Bool) (clock : Option U64) (p : Peer) (turns : List Turn) (ts : List Ses)
    (w : Waited) (h : wait twoway server fd wake intr clock p turns ts = .returned w) :
    (w.rc = 0 → NobodyLeft w.err w.sessions) ∧ (w.rc = -1 → NobodyLeft w.err w.sessions ∨ OnlyWatched ts w.sessions) :=
  let r := wait_ret twoway server fd wake intr clock p turns ts w h
  ⟨r.zero, r.neg⟩

/-- **C72**, 0 with `OWPErrOK`: the stop message of the other side was received, its value is the one returned, and one was sent. The server of two-way sessions
sends none, and if all its sessions are over and one failed it does not wait for one. -/
theorem C72_agreed (twoway server fd : Bool) (wake : Option U64) (intr : Bool) (clock : Option U64) (p : Peer) (turns : List Turn) (ts : List Ses)
    (w : Waited) (h : wait twoway server fd wake intr clock p turns ts = .returned w) (hrc : w.rc = 0) (he : w.err = allOk) :
    (p.heard = .stop ∧ w.aval = p.read.2 ∧ ((twoway && server) = true ∨ ∃ a n, warning ≤ p.write a n)) ∨
    ((twoway && server) = true ∧ w.aval ≠ 0 ∧ OnlyWatched ts w.sessions) :=
  (wait_ret twoway server fd wake intr clock p turns ts w h).ok hrc he

private theorem loop_append (twoway server wake : Bool) (timeout : Int) (p : Peer) (a b : List Turn) : ∀ aval ts ts',
    waitLoop twoway server wake timeout p a aval ts = .waiting ts' →
    ∃ aval', waitLoop twoway server wake timeout p (a ++ b) aval ts = waitLoop twoway server wake timeout p b aval' ts' := by
  induction a with
  | nil => intro aval ts ts' h; simp only [waitLoop, Outcome.waiting.injEq] at h; subst h; exact ⟨aval, rfl⟩
  | cons t a ih =>
    intro aval ts ts' h
    rw [List.cons_append]
    rw [waitLoop] at h ⊢
    cases hp : t.polled timeout with
    | silence => simp only [hp] at h ⊢; exact ih _ _ _ h
    | failed => simp [hp] at h
    | timeout => simp [hp] at h
    | ready e => simp [hp] at h
    | interrupted =>
      simp only [hp] at h ⊢
      split at h
      · cases h
      · rename_i h1
        rw [if_neg h1]
        split at h
        · rename_i h2
          rw [if_pos h2]
          exact ih _ _ _ h
        · rename_i h2
          rw [if_neg h2]
          split at h
          · rename_i h3
            rw [if_pos h3]
            split at h
            · cases h
            · rename_i h4
              rw [if_neg h4]
              exact ih _ _ _ h
          · cases h

/-- The end of sessions is noticed: a one-way wait that is interrupted, without flag or time to wake, stops the sessions if none runs any more or one has failed. -/
theorem C72_noticed_partial (server fd : Bool) (clock : Option U64) (p : Peer) (turns : List Turn) (ts ts' : List Ses)
    (h : wait false server fd none false clock p turns ts = .waiting ts') (t : Turn) (hp : t.polled (-1) = .interrupted) (hf : t.intr = false)
    (ho : OverOrFailed (elapse t.ends ts')) :
    ∃ w, wait false server fd none false clock p (turns ++ [t]) ts = .returned w ∧ w.rc = 0 ∧
      ∃ aval ts'', w.err = (stopSessions false server p aval ts'').rc ∧ w.aval = (stopSessions false server p aval ts'').aval ∧ results ts'' = results (elapse t.ends ts') := by
  unfold wait at h ⊢
  split at h
  · cases h
  · rename_i h1
    rw [if_neg h1]
    simp only at h ⊢
    split at h
    · cases h
    · rename_i h2
      rw [if_neg h2]
      split at h
      · cases h
      · rename_i h3
        rw [if_neg h3]
        simp only [Bool.false_eq_true, if_false, Option.isSome_none, Bool.false_and] at h ⊢
        obtain ⟨aval', e⟩ := loop_append false server false _ p turns [t] _ _ _ h
        rw [e, waitLoop]
        simp only [pollTimeout, hp, hf, Bool.or_self, Bool.false_eq_true, if_false, Bool.false_and]
        obtain ⟨a1, a2, a3, a4, a5⟩ := C55_active (elapse t.ends ts')
        have hne : ¬ ((sessionsActive (elapse t.ends ts')).1 ≠ 0 ∧ (sessionsActive (elapse t.ends ts')).2.1 = 0) := by
          rintro ⟨x, y⟩
          rcases ho with ho | ⟨v, hv, hpos⟩
          · apply x
            rw [a1, List.length_eq_zero_iff, List.filter_eq_nil_iff]
            intro r hr
            simpa using ho r hr
          · have := a2 v hv
            omega
        rw [if_neg hne]
        exact ⟨_, rfl, rfl, _, _, rfl, rfl, a5⟩

/-- Sessions that are over before the call, or one of which has failed, are stopped at once, whatever the flag, the time to wake and the clock. (The server of two-way sessions is the exception.) -/
theorem C72_at_once (twoway server : Bool) (wake : Option U64) (intr : Bool) (clock : Option U64) (p : Peer) (turns : List Turn) (ts : List Ses)
    (hts : (twoway && server) = false) (ho : OverOrFailed ts) :
    ∃ w, wait twoway server true wake intr clock p turns ts = .returned w ∧ w.rc = 0 ∧
      ∃ aval ts', w.err = (stopSessions twoway server p aval ts').rc ∧ w.aval = (stopSessions twoway server p aval ts').aval ∧ results ts' = results ts := by
  obtain ⟨a1, a2, a3, a4, a5⟩ := C55_active ts
  have hne : (sessionsActive ts).1 = 0 ∨ (sessionsActive ts).2.1 ≠ 0 := by
    rcases ho with ho | ⟨v, hv, hpos⟩
    · left
      rw [a1, List.length_eq_zero_iff, List.filter_eq_nil_iff]
      intro r hr
      simpa using ho r hr
    · right
      have := a2 v hv
      omega
  unfold wait
  rw [if_neg (by decide)]
  simp only [hts, Bool.false_eq_true, false_and, if_false, not_false_eq_true, true_and]
  rw [if_pos hne]
  exact ⟨_, rfl, rfl, _, _, rfl, rfl, a5⟩

/-! ## Concrete cases -/

def demoTurn (ends : Nat → Option Ending) (polled : Polled) : Turn := ⟨ends, fun n => if n < 0 ∧ polled = .timeout then .silence else polled, false, fun _ => none⟩

/-- Two running sessions, one that sends and one that receives. -/
def demoWait : List Ses := [⟨[1#8], some (demoEp true)⟩, ⟨[2#8], some (demoEp false)⟩]

/-- What is returned, and the results of the sessions. -/
def demoWaited : Outcome → Option (Int × Nat × Int) × List (Option Int)
  | .waiting ts => (none, results ts)
  | .returned w => (some (w.rc, w.err, w.aval), results w.sessions)

/-- Non-vacuity: the sender ends, then the receiver; then the sessions are stopped. A stop message: the same. The time to wake: the sessions run on. -/
theorem C72_example :
    demoWaited (wait false false true none false none kindPeer
      [demoTurn (fun i => if i = 0 then some (.exited 0) else none) .interrupted, demoTurn (fun _ => some (.exited 0)) .interrupted] demoWait) =
      (some (0, allOk, 0), [some 0, some 0]) ∧
    demoWaited (wait false true true none false none kindPeer [demoTurn (fun _ => none) (.ready true)] demoWait) = (some (0, allOk, 0), [some 0, some 0]) ∧
    demoWaited (wait false false true (some 0x500000000#64) false (some 0x400000000#64) kindPeer [demoTurn (fun _ => none) .timeout] demoWait) =
      (some (1, allOk, 0), [none, none]) ∧
    demoWaited (wait false false true none false none kindPeer [{ demoTurn (fun _ => none) .interrupted with intr := true }] demoWait) =
      (some (2, allOk, 0), [none, none]) := by decide +kernel

/-- Non-vacuity of `C72_at_once`: two sessions that are over. -/
example : OverOrFailed (elapse (fun _ => some (.exited 0)) demoWait) ∧
    demoWaited (wait false false true (some 0x500000000#64) true none kindPeer [] (elapse (fun _ => some (.exited 0)) demoWait)) = (some (0, allOk, 0), [some 0, some 0]) :=
  ⟨by left; decide +kernel, by decide +kernel⟩

/-- Non-vacuity for C72_wake_partial: the timeout for a second ahead is 1000 ms. -/
example : pollTimeout (some 0x500000000#64) 0x400000000#64 = 1000 ∧ (0x500000000#64).toNat * 1000 < (0x400000000#64).toNat * 1000 + 2 ^ 31 * 2 ^ 32 := by
  decide +kernel

/-- Non-vacuity for C72_noticed_partial. -/
example : (∃ ts', wait false false true none false none kindPeer [demoTurn (fun i => if i = 0 then some (.exited 0) else none) .interrupted] demoWait = .waiting ts' ∧
    OverOrFailed (elapse (fun _ => some (.exited 0)) ts')) := by
  refine ⟨_, rfl, .inl ?_⟩
  decide +kernel

/-! ### What fails -/

/-- **C72** fails: 0 is returned although stopping the sessions failed (here the stop message cannot be written), which is an error condition. -/
theorem C72_error_as_zero :
    demoWaited (wait false false true none false none { kindPeer with write := fun _ _ => fatal } [demoTurn (fun _ => some (.exited 0)) .interrupted] demoWait) =
      (some (0, fatal, 2), [some 0, some 0]) := by decide +kernel

/-- A process that ends just before `poll` is entered wakes nobody: all sessions are over, and the wait goes on. -/
theorem C72_lost_wakeup :
    demoWaited (wait false false true none false none kindPeer [demoTurn (fun _ => some (.exited 0)) .silence] demoWait) = (none, [some 0, some 0]) := by decide +kernel

/-- The timeout is reduced to 32 bits: a time to wake 4294967.296 s ahead gives a timeout of 0, and 1 is returned at once. -/
theorem C72_wake_wraps :
    pollTimeout (some 20698543887396800#64) 0x8000000000000#64 = 0 ∧ (20698543887396800#64).toNat - (0x8000000000000#64).toNat > 4294967 * 2 ^ 32 := by decide +kernel

/-- If the clock cannot be read −1 is returned with severity `OWPErrOK`. -/
theorem C72_clock_error :
    demoWaited (wait false false true (some 5#64) false none kindPeer [] demoWait) = (some (-1, allOk, 0), [none, none]) := by decide +kernel

end Owamp.Props
