import Verif.Model.Client
import Verif.Lemmas.State
import Verif.Lemmas.Asking
/-!
# What the client's calls do to the state of the connection
-/
namespace Owamp.Client
open Owamp.Ctl

variable {ρ : Type}

/-- Nothing was sent or received. -/
def Still (c c' : Conn) : Prop := c'.out = c.out ∧ c'.inp = c.inp

theorem still_refl (c : Conn) : Still c c := ⟨rfl, rfl⟩
theorem still_fail (c : Conn) : Still c c.fail := ⟨rfl, rfl⟩

/-- Sessions run. -/
abbrev busy : CState := { request := true, test := true }

/-- What a call may leave: the state as it was; or a failed connection. -/
def Kept (c c' : Conn) (failed : Prop) : Prop := c'.state = c.state ∨ (failed ∧ c'.state = .invalid)

/-! ## Asking -/

theorem writeReq_st (H : Mac) (c : Conn) (a : ReqArgs) (c' : Conn) (q : Option Unit) (h : writeTestRequest H c a = (q, c')) :
    (q = none ∧ (c' = c ∨ c'.state = .invalid)) ∨
    (q = some () ∧ c.state.request = true ∧ c.state.isPending = false ∧ c'.twoway = c.twoway ∧ c'.state = { c.state with acceptSession := true }) := by
  have slots : ∀ (ss : List Sched.Slot) (c c' : Conn) (q : Option Unit), writeSlots c ss = (q, c') → (q = none ∧ c'.state = .invalid) ∨ (q = some () ∧ Same c c') := by
    intro ss
    induction ss with
    | nil => intro c c' q h; simp only [writeSlots, Prod.mk.injEq] at h; obtain ⟨rfl, rfl⟩ := h; exact Or.inr ⟨rfl, Same.refl _⟩
    | cons s ss ih =>
      intro c c' q h
      rw [writeSlots] at h
      split at h
      · simp only [Prod.mk.injEq] at h; obtain ⟨rfl, rfl⟩ := h; exact Or.inl ⟨rfl, rfl⟩
      · split at h
        · rename_i c1 e
          have s1 := (sendHmacAdd_same _ _).trans (sendBlocks_st e)
          rcases ih _ _ _ h with k | ⟨k, s2⟩
          · exact Or.inl k
          · exact Or.inr ⟨k, Same.trans s1 s2⟩
        · simp only [Prod.mk.injEq] at h; obtain ⟨rfl, rfl⟩ := h; exact Or.inl ⟨rfl, rfl⟩
  unfold writeTestRequest at h
  split at h
  · simp only [Prod.mk.injEq] at h; obtain ⟨rfl, rfl⟩ := h; exact Or.inl ⟨rfl, Or.inl rfl⟩
  rename_i h0
  have h1 : c.state.request = true ∧ c.state.isPending = false := by simpa using h0
  split at h
  · simp only [Prod.mk.injEq] at h; obtain ⟨rfl, rfl⟩ := h; exact Or.inl ⟨rfl, Or.inl rfl⟩
  split at h
  · rename_i c1 e
    have s1 := sendMsg_st e
    split at h
    · simp only [Prod.mk.injEq] at h; obtain ⟨rfl, rfl⟩ := h
      exact Or.inr ⟨rfl, h1.1, h1.2, s1.2, congrArg (fun s : CState => { s with acceptSession := true }) s1.1⟩
    · split at h
      · rename_i e2
        simp only [Prod.mk.injEq] at h; obtain ⟨rfl, rfl⟩ := h
        rcases slots _ _ _ _ e2 with ⟨_, k⟩ | ⟨k, _⟩
        · exact Or.inl ⟨rfl, Or.inr k⟩
        · cases k
      · rename_i c2 e2
        rcases slots _ _ _ _ e2 with ⟨k, _⟩ | ⟨_, s2⟩
        · cases k
        dsimp only at h
        split at h
        · rename_i c3 e3
          have s3' := sendBlocks_st e3
          have s3 : Same c2 c3 := ⟨s3'.1.trans (sendDigest_same H c2).1, s3'.2.trans (sendDigest_same H c2).2⟩
          simp only [Prod.mk.injEq] at h; obtain ⟨rfl, rfl⟩ := h
          have s4 := (s1.trans s2).trans s3
          exact Or.inr ⟨rfl, h1.1, h1.2, s4.2, congrArg (fun s : CState => { s with acceptSession := true }) s4.1⟩
        · simp only [Prod.mk.injEq] at h; obtain ⟨rfl, rfl⟩ := h; exact Or.inl ⟨rfl, Or.inr rfl⟩
  · simp only [Prod.mk.injEq] at h; obtain ⟨rfl, rfl⟩ := h; exact Or.inl ⟨rfl, Or.inr rfl⟩

theorem readAcc_st (H : Mac) (c : Conn) (hs : c.state.acceptSession = true) (c' : Conn) (q : Option (Accept × U16 × Bytes)) (h : readAcceptSession H c = (q, c')) :
    (q = none ∧ c'.state = .invalid) ∨ (q.isSome ∧ c'.state = { c.state with acceptSession := false }) := by
  unfold readAcceptSession at h
  rw [if_neg (by rw [hs]; simp)] at h
  split at h
  · rename_i c1 e
    have s1 := recvBlocks_st e
    split at h
    · simp only [Prod.mk.injEq] at h; obtain ⟨rfl, rfl⟩ := h; exact Or.inl ⟨rfl, rfl⟩
    · rename_i c2 e2
      have s2 := s1.trans (checkMsg_st e2)
      dsimp only at h
      split at h
      · simp only [Prod.mk.injEq] at h; obtain ⟨rfl, rfl⟩ := h; exact Or.inl ⟨rfl, rfl⟩
      · simp only [Prod.mk.injEq] at h; obtain ⟨rfl, rfl⟩ := h
        exact Or.inr ⟨rfl, congrArg (fun s : CState => { s with acceptSession := false }) s2.1⟩
  · simp only [Prod.mk.injEq] at h; obtain ⟨rfl, rfl⟩ := h; exact Or.inl ⟨rfl, rfl⟩

/-- The other side only sends. -/
def Peer (e : ClientEnv) : Prop := ∀ c, ∃ i, e.peer c = { c with inp := i }

/-- The program's own steps do not report fatal errors. -/
def Mild (e : ClientEnv) : Prop := (∀ d x y, e.policy d x y ≠ some .fatal) ∧ ∀ x y, e.hook x y ≠ some .fatal

theorem askServer_st (H : Mac) (e : ClientEnv) (hp : Peer e) (cs cr : Bool) (snd rcv : SockAddr) (sid : Bytes) (c : Conn) (r : Except Sev (SockAddr × SockAddr × Bytes)) (c' : Conn)
    (h : askServer H e cs cr snd rcv sid c = (r, c')) :
    (r = .error .fatal ∧ (c' = c ∨ c'.state = .invalid)) ∨ (r ≠ .error .fatal ∧ c.state.request = true ∧ c'.state = c.state) := by
  unfold askServer at h
  dsimp only at h
  split at h
  · rename_i c1 e1
    simp only [Prod.mk.injEq] at h; obtain ⟨rfl, rfl⟩ := h
    rcases writeReq_st _ _ _ _ _ e1 with ⟨_, k⟩ | ⟨k, _⟩
    · exact Or.inl ⟨rfl, k⟩
    · cases k
  · rename_i c1 e1
    rcases writeReq_st _ _ _ _ _ e1 with ⟨k, _⟩ | ⟨_, k1, k2, _, k3⟩
    · cases k
    obtain ⟨i, hi⟩ := hp c1
    have h4 : (e.peer c1).state = c1.state := by rw [hi]
    split at h
    · rename_i e2
      simp only [Prod.mk.injEq] at h; obtain ⟨rfl, rfl⟩ := h
      rcases readAcc_st H _ (by rw [h4, k3]) _ _ e2 with ⟨_, k⟩ | ⟨k, _⟩
      · exact Or.inl ⟨rfl, Or.inr k⟩
      · cases k
    · rename_i acc port answer c2 e2
      rcases readAcc_st H _ (by rw [h4, k3]) _ _ e2 with ⟨k, _⟩ | ⟨_, k⟩
      · cases k
      have k5 : c2.state = c.state := by
        rw [k, h4, k3]
        have : c.state.acceptSession = false := by
          simp only [CState.isPending, Bool.or_eq_false_iff] at k2; exact k2.1.1.1
        cases hc : c.state
        rw [hc] at this
        simp only at this
        rw [this]
      split at h
      · simp only [Prod.mk.injEq] at h; obtain ⟨rfl, rfl⟩ := h; exact Or.inr ⟨by simp, k1, k5⟩
      · simp only [Prod.mk.injEq] at h; obtain ⟨rfl, rfl⟩ := h; exact Or.inr ⟨by simp, k1, k5⟩

/-- What asking leaves. -/
def AskSt (c : Conn) (r : Called) : Prop :=
  (r.c.state = .invalid ∧ r.ret = false ∧ r.err = .fatal) ∨
  (r.c.state = c.state ∧ (r.ret = true → c.state.request = true) ∧ (r.ret = false → r.err = .fatal → Still c r.c) ∧ (c.state.request = false → Still c r.c))

theorem askSt_still {c : Conn} {ms : List Mine} {x : Sev} : AskSt c (refuse ms x c) :=
  Or.inr ⟨rfl, (fun h => by cases h), fun _ _ => still_refl _, fun _ => still_refl _⟩

theorem askSt_of {H : Mac} {e : ClientEnv} (hp : Peer e) {cs cr : Bool} {snd rcv : SockAddr} {sid : Bytes} {c : Conn} {ms : List Mine} {x : Sev} {c' : Conn}
    (h : askServer H e cs cr snd rcv sid c = (.error x, c')) : AskSt c (refuse ms x c') := by
  rcases askServer_st H e hp _ _ _ _ _ _ _ _ h with ⟨k1, rfl | k2⟩ | ⟨k1, k2, k3⟩
  · exact askSt_still
  · cases k1; exact Or.inl ⟨k2, rfl, rfl⟩
  · exact Or.inr ⟨k3, (fun h => by cases h), (fun _ h => absurd (congrArg Except.error h) k1), (fun h => by rw [k2] at h; cases h)⟩

theorem askSt_own {H : Mac} {e : ClientEnv} (hp : Peer e) {cs cr : Bool} {snd rcv : SockAddr} {sid : Bytes} {c : Conn} {ms : List Mine} {x : Sev} {c' : Conn}
    {v : SockAddr × SockAddr × Bytes} (h : askServer H e cs cr snd rcv sid c = (.ok v, c')) (hx : x ≠ .fatal) : AskSt c (refuse ms x c') := by
  rcases askServer_st H e hp _ _ _ _ _ _ _ _ h with ⟨k1, _⟩ | ⟨k1, k2, k3⟩
  · cases k1
  · exact Or.inr ⟨k3, (fun h => by cases h), (fun _ h => absurd h hx), (fun h => by rw [k2] at h; cases h)⟩

theorem askSt_keep {H : Mac} {e : ClientEnv} (hp : Peer e) {cs cr : Bool} {snd rcv : SockAddr} {sid : Bytes} {c : Conn} {ms : List Mine} {m : Mine} {c' : Conn}
    {v : SockAddr × SockAddr × Bytes} (h : askServer H e cs cr snd rcv sid c = (.ok v, c')) : AskSt c (keep ms m c') := by
  rcases askServer_st H e hp _ _ _ _ _ _ _ _ h with ⟨k1, _⟩ | ⟨k1, k2, k3⟩
  · cases k1
  · exact Or.inr ⟨k3, (fun _ => k2), (fun h => by cases h), (fun h => by rw [k2] at h; cases h)⟩

theorem request_st (H : Mac) (e : ClientEnv) (hp : Peer e) (hm : Mild e) (ms : List Mine) (c : Conn) : AskSt c (sessionRequest H e ms c) := by
  have pol : ∀ {d x y s}, e.policy d x y = some s → s ≠ .fatal := by
    intro d x y s h hs; rw [hs] at h; exact hm.1 _ _ _ h
  have hook : ∀ {x y s}, e.hook x y = some s → s ≠ .fatal := by
    intro x y s h hs; rw [hs] at h; exact hm.2 _ _ h
  have remote : ∀ snd rcv, AskSt c (requestRemote H e ms snd rcv c) := by
    intro snd rcv
    unfold requestRemote
    split
    · exact askSt_still
    · split
      · rename_i h; exact askSt_of hp h
      · rename_i h
        split
        · exact askSt_own hp h (by simp)
        · split
          · exact askSt_keep hp h
          · split
            · rename_i k; exact askSt_own hp h (pol k)
            · split
              · rename_i k; exact askSt_own hp h (hook k)
              · exact askSt_keep hp h
  have loc : ∀ snd rcv, AskSt c (requestLocal H e ms snd rcv c) := by
    intro snd rcv
    unfold requestLocal
    split
    · exact askSt_still
    · split
      · exact askSt_still
      · split
        · exact askSt_still
        · split
          · exact askSt_still
          · dsimp only
            split
            · exact askSt_still
            · split
              · rename_i h; exact askSt_of hp h
              · rename_i h
                split
                · rename_i k; exact askSt_own hp h (hook k)
                · exact askSt_keep hp h
  unfold sessionRequest
  split
  · exact askSt_still
  · split
    · split
      · exact askSt_still
      · split
        · exact remote _ _
        · exact loc _ _
    · exact askSt_still

/-! ## Starting -/

theorem start_st (H : Mac) (rcv snd : Bool) (c : Conn) :
    ((start H rcv snd c).1 = false ∧ (start H rcv snd c).2.state = .invalid ∧ (c.state.request = false → Still c (start H rcv snd c).2)) ∨
    ((start H rcv snd c).1 = true ∧ c.state.request = true ∧ (start H rcv snd c).2.state = { c.state with startAck := false, test := true }) := by
  have wr : ∀ c' q, writeStartSessions H c = (q, c') → (q = none ∧ (c.state.request = false → c' = c)) ∨
      (q = some () ∧ c.state.request = true ∧ c'.state = { c.state with startAck := true, test := true }) := by
    intro c' q h
    unfold writeStartSessions at h
    split at h
    · simp only [Prod.mk.injEq] at h; obtain ⟨rfl, rfl⟩ := h; exact Or.inl ⟨rfl, fun _ => rfl⟩
    rename_i h0
    have h1 : c.state.request = true ∧ c.state.isPending = false := by simpa using h0
    dsimp only at h
    split at h
    · rename_i e
      simp only [Prod.mk.injEq] at h; obtain ⟨rfl, rfl⟩ := h
      exact Or.inr ⟨rfl, h1.1, congrArg (fun s : CState => { s with startAck := true, test := true }) (sendMsg_st e).1⟩
    · simp only [Prod.mk.injEq] at h; obtain ⟨rfl, rfl⟩ := h
      exact Or.inl ⟨rfl, fun h => by rw [h1.1] at h; cases h⟩
  have rd : ∀ c1 c' : Conn, readStartAck H c1 = (some .accept, c') → c'.state = { c1.state with startAck := false } := by
    intro c1 c' h
    unfold readStartAck at h
    split at h
    · simp at h
    split at h
    · rename_i e
      split at h
      · simp at h
      · rename_i e2
        dsimp only at h
        split at h
        · simp at h
        · simp only [Prod.mk.injEq, Option.some.injEq] at h
          obtain ⟨h1, rfl⟩ := h
          rw [if_neg (by simp [h1])]
          exact congrArg (fun s : CState => { s with startAck := false }) ((recvBlocks_st e).trans (checkMsg_st e2)).1
    · simp at h
  unfold start
  split
  · rename_i c1 e
    rcases wr _ _ e with ⟨_, k⟩ | ⟨k, _⟩
    · exact Or.inl ⟨rfl, rfl, fun h => by rw [k h]; exact still_fail _⟩
    · cases k
  · rename_i c1 e
    rcases wr _ _ e with ⟨k, _⟩ | ⟨_, k1, k2⟩
    · cases k
    have no : c.state.request = false → False := by intro h; rw [k1] at h; cases h
    split
    · exact Or.inl ⟨rfl, rfl, fun h => (no h).elim⟩
    · split
      · rename_i c2 e2
        split
        · exact Or.inr ⟨rfl, k1, by dsimp only; rw [rd _ _ e2, k2]⟩
        · exact Or.inl ⟨rfl, rfl, fun h => (no h).elim⟩
      · exact Or.inl ⟨rfl, rfl, fun h => (no h).elim⟩

/-! ## Stopping -/

theorem writeStop_refused (H : Mac) (c : Conn) (acc : Accept) (num : U32) (ts : List (Sess ρ)) (h : ¬ (c.state.request = true ∧ c.state.test = true)) :
    writeStopSessions H c acc num ts = (none, c, ts) := by
  unfold writeStopSessions
  rw [if_pos h]

theorem stop_quiet (H : Mac) (t : Ends ρ) (c : Conn) (h : ¬ (c.state.request = true ∧ c.state.test = true)) :
    (stop H t c).1 = false ∧ (stop H t c).2 = c.fail := by
  unfold stop
  split
  · exact ⟨rfl, rfl⟩
  · rw [writeStop_refused H c _ _ _ h]
    exact ⟨rfl, rfl⟩

theorem stop_busy (H : Mac) (t : Ends ρ) (c : Conn) (hs : c.state = busy) :
    ((stop H t c).1 = false ∧ (stop H t c).2.state = .invalid) ∨ ((stop H t c).1 = true ∧ (stop H t c).2.state = .requestOnly) := by
  unfold stop
  split
  · exact Or.inl ⟨rfl, rfl⟩
  · split
    · exact Or.inl ⟨rfl, rfl⟩
    · rename_i c1 ts e
      have s1 := writeStop_st H _ _ _ _ _ _ e
      split
      · exact Or.inl ⟨rfl, rfl⟩
      · split
        · rename_i c2 e2
          obtain ⟨-, h2⟩ := request_test c1 (s1.1.trans hs) _ _ e2
          split
          · exact Or.inl ⟨rfl, rfl⟩
          · split
            · exact Or.inl ⟨rfl, rfl⟩
            · rename_i e3
              obtain ⟨-, -, s3, -⟩ := readStop_st H _ _ _ _ _ _ e3
              split
              · refine Or.inr ⟨rfl, ?_⟩
                rcases h2 with ⟨h2, -⟩ | ⟨-, h2⟩
                · simp at h2
                · simp only [Conn.setState, s3, h2]; rfl
              · exact Or.inl ⟨rfl, rfl⟩
        · exact Or.inl ⟨rfl, rfl⟩

theorem type_out (c : Conn) : (readRequestType c).2.out = c.out := by
  unfold readRequestType
  split
  · rfl
  · split
    · rename_i c1 e
      have : c1.out = c.out := by have := recvBlocks_keptOut c 0 1; rw [e] at this; exact this
      dsimp only
      (repeat' split) <;> exact this
    · rename_i c1 e
      have : c1.out = c.out := by have := recvBlocks_keptOut c 0 1; rw [e] at this; exact this
      exact this
    · rename_i e
      have := recvBlocks_keptOut c 0 1
      rw [e] at this
      exact this

/-- Waiting when no sessions run: nothing is sent and it does not succeed. -/
theorem wait_idle (H : Mac) (ev : Event) (t : Ends ρ) (c : Conn) (hs : c.state = .requestOnly) :
    (wait H ev t c).2.out = c.out ∧ (wait H ev t c).1 ≠ .ok ∧ ((wait H ev t c).2 = c ∨ ((wait H ev t c).1 = .failed ∧ (wait H ev t c).2.state = .invalid)) := by
  unfold wait
  split
  · obtain ⟨h1, h2⟩ := stop_quiet H t c (by rw [hs]; decide)
    dsimp only
    rw [h1, h2]
    exact ⟨rfl, (by simp), Or.inr ⟨rfl, rfl⟩⟩
  · exact ⟨rfl, (by simp), Or.inl rfl⟩
  · exact ⟨rfl, (by simp), Or.inl rfl⟩
  · exact ⟨rfl, (by simp), Or.inr ⟨rfl, rfl⟩⟩
  · have ho := type_out c
    split
    · rename_i c1 e
      obtain ⟨-, h⟩ := request_idle c hs _ _ e
      simp at h
    · rename_i e
      rw [e] at ho
      exact ⟨ho, (by simp), Or.inr ⟨rfl, rfl⟩⟩

theorem wait_dead (H : Mac) (ev : Event) (t : Ends ρ) (c : Conn) (hs : c.state = .invalid) :
    Still c (wait H ev t c).2 ∧ (wait H ev t c).1 ≠ .ok ∧ (wait H ev t c).2.state = .invalid := by
  unfold wait
  split
  · obtain ⟨h1, h2⟩ := stop_quiet H t c (by rw [hs]; decide)
    dsimp only
    rw [h1, h2]
    exact ⟨still_fail _, (by simp), rfl⟩
  · exact ⟨still_refl _, (by simp), hs⟩
  · exact ⟨still_refl _, (by simp), hs⟩
  · exact ⟨still_fail _, (by simp), rfl⟩
  · rw [request_shut c (Or.inl (by rw [hs]; rfl))]
    exact ⟨still_fail _, (by simp), rfl⟩

theorem wait_busy (H : Mac) (ev : Event) (t : Ends ρ) (c : Conn) (hs : c.state = busy) :
    (wait H ev t c).2 = c ∧ (wait H ev t c).1 ≠ .ok ∨ ((wait H ev t c).1 = .failed ∧ (wait H ev t c).2.state = .invalid) ∨
    ((wait H ev t c).1 = .ok ∧ (wait H ev t c).2.state = .requestOnly) := by
  unfold wait
  split
  · rcases stop_busy H t c hs with ⟨h1, h2⟩ | ⟨h1, h2⟩ <;> dsimp only <;> rw [h1]
    · exact Or.inr (Or.inl ⟨rfl, h2⟩)
    · exact Or.inr (Or.inr ⟨rfl, h2⟩)
  · exact Or.inl ⟨rfl, by simp⟩
  · exact Or.inl ⟨rfl, by simp⟩
  · exact Or.inr (Or.inl ⟨rfl, rfl⟩)
  · split
    · rename_i c1 e
      obtain ⟨-, h2⟩ := request_test c hs _ _ e
      split
      · exact Or.inr (Or.inl ⟨rfl, rfl⟩)
      · split
        · exact Or.inr (Or.inl ⟨rfl, rfl⟩)
        · split
          · exact Or.inr (Or.inl ⟨rfl, rfl⟩)
          · split
            · exact Or.inr (Or.inl ⟨rfl, rfl⟩)
            · rename_i e3
              obtain ⟨-, -, s3, -⟩ := readStop_st H _ _ _ _ _ _ e3
              split
              · exact Or.inr (Or.inl ⟨rfl, rfl⟩)
              · rename_i e5
                have s5 := writeStop_st H _ _ _ _ _ _ e5
                split
                · refine Or.inr (Or.inr ⟨rfl, ?_⟩)
                  rcases h2 with ⟨h2, -⟩ | ⟨-, h2⟩
                  · simp at h2
                  · simp only [Conn.setState, s5.1, s3, h2]; rfl
                · exact Or.inr (Or.inl ⟨rfl, rfl⟩)
    · exact Or.inr (Or.inl ⟨rfl, rfl⟩)

/-! ## Fetching -/

open Owamp.Fetch in
theorem skipBytes_st (n : Nat) : ∀ (toff : Nat), toff ≤ n → ∀ (c c' : Conn) (q : Option Bytes), readSkipBytes c toff = (q, c') →
    (q = none ∧ c'.state = .invalid) ∨ (q.isSome ∧ Same c c') := by
  induction n with
  | zero =>
    intro toff h c c' q e
    have : toff = 0 := by omega
    subst this
    unfold readSkipBytes at e
    simp only [Nat.not_lt_zero, if_false, ne_eq, not_true_eq_false, Prod.mk.injEq] at e
    obtain ⟨rfl, rfl⟩ := e
    exact Or.inr ⟨rfl, Same.refl _⟩
  | succ n ih =>
    intro toff h c c' q e
    unfold readSkipBytes at e
    split at e
    · split at e
      · rename_i c1 e1
        have s1 := recvBlocks_st e1
        split at e
        · rename_i e2
          simp only [Prod.mk.injEq] at e; obtain ⟨rfl, rfl⟩ := e
          rcases ih _ (by omega) _ _ _ e2 with ⟨_, k⟩ | ⟨k, _⟩
          · exact Or.inl ⟨rfl, k⟩
          · cases k
        · rename_i e2
          simp only [Prod.mk.injEq] at e; obtain ⟨rfl, rfl⟩ := e
          rcases ih _ (by omega) _ _ _ e2 with ⟨k, _⟩ | ⟨_, k⟩
          · cases k
          · exact Or.inr ⟨rfl, s1.trans ((recvHmacAdd_same _ _).trans k)⟩
      · simp only [Prod.mk.injEq] at e; obtain ⟨rfl, rfl⟩ := e; exact Or.inl ⟨rfl, rfl⟩
    · split at e
      · split at e
        · rename_i c1 e1
          simp only [Prod.mk.injEq] at e; obtain ⟨rfl, rfl⟩ := e
          exact Or.inr ⟨rfl, (recvBlocks_st e1).trans (recvHmacAdd_same _ _)⟩
        · simp only [Prod.mk.injEq] at e; obtain ⟨rfl, rfl⟩ := e; exact Or.inl ⟨rfl, rfl⟩
      · simp only [Prod.mk.injEq] at e; obtain ⟨rfl, rfl⟩ := e; exact Or.inr ⟨rfl, Same.refl _⟩

open Owamp.Fetch in
theorem records_st (n : Nat) : ∀ (m : Nat), m ≤ n → ∀ (c c' : Conn) (q : Option Bytes), readRecords c m = (q, c') →
    (q = none ∧ c'.state = .invalid) ∨ (q.isSome ∧ Same c c') := by
  induction n with
  | zero =>
    intro m h c c' q e
    have : m = 0 := by omega
    subst this
    unfold readRecords at e
    rw [if_neg (by omega), if_neg (by omega)] at e
    simp only [Prod.mk.injEq] at e
    obtain ⟨rfl, rfl⟩ := e
    exact Or.inr ⟨rfl, Same.refl _⟩
  | succ n ih =>
    intro m h c c' q e
    unfold readRecords at e
    split at e
    · split at e
      · rename_i c1 e1
        have s1 := recvBlocks_st e1
        split at e
        · rename_i e2
          simp only [Prod.mk.injEq] at e; obtain ⟨rfl, rfl⟩ := e
          rcases ih _ (by omega) _ _ _ e2 with ⟨_, k⟩ | ⟨k, _⟩
          · exact Or.inl ⟨rfl, k⟩
          · cases k
        · rename_i e2
          simp only [Prod.mk.injEq] at e; obtain ⟨rfl, rfl⟩ := e
          rcases ih _ (by omega) _ _ _ e2 with ⟨k, _⟩ | ⟨_, k⟩
          · cases k
          · exact Or.inr ⟨rfl, s1.trans ((recvHmacAdd_same _ _).trans k)⟩
      · simp only [Prod.mk.injEq] at e; obtain ⟨rfl, rfl⟩ := e; exact Or.inl ⟨rfl, rfl⟩
    · split at e
      · split at e
        · rename_i c1 e1
          simp only [Prod.mk.injEq] at e; obtain ⟨rfl, rfl⟩ := e
          exact Or.inr ⟨rfl, (recvBlocks_st e1).trans (recvHmacAdd_same _ _)⟩
        · simp only [Prod.mk.injEq] at e; obtain ⟨rfl, rfl⟩ := e; exact Or.inl ⟨rfl, rfl⟩
      · simp only [Prod.mk.injEq] at e; obtain ⟨rfl, rfl⟩ := e; exact Or.inr ⟨rfl, Same.refl _⟩

open Owamp.Fetch in
theorem readTag_st (H : Mac) (c c' : Conn) (q : Option Unit) (e : readTag H c = (q, c')) : (q = none ∧ c'.state = .invalid) ∨ (q.isSome ∧ Same c c') := by
  unfold readTag at e
  split at e
  · rename_i e1
    split at e
    · rename_i e2
      simp only [Prod.mk.injEq] at e; obtain ⟨rfl, rfl⟩ := e
      exact Or.inr ⟨rfl, (recvBlocks_st e1).trans (recvCheck_st e2)⟩
    · simp only [Prod.mk.injEq] at e; obtain ⟨rfl, rfl⟩ := e; exact Or.inl ⟨rfl, rfl⟩
  · simp only [Prod.mk.injEq] at e; obtain ⟨rfl, rfl⟩ := e; exact Or.inl ⟨rfl, rfl⟩

open Owamp.Fetch in
theorem readBody_st (H : Mac) (junk : Bytes) (c : Conn) (a : FetchAck) (r : TestReq) :
    ((readBody H junk c a r).1 = .failed ∧ (readBody H junk c a r).2.state = .invalid) ∨
    ((readBody H junk c a r).1 ≠ .failed ∧ (readBody H junk c a r).2.state = { c.state with fetching := false, request := true }) := by
  unfold readBody
  split
  · rename_i e
    rcases skipBytes_st _ _ (Nat.le_refl _) _ _ _ e with ⟨_, k⟩ | ⟨k, _⟩
    · exact Or.inl ⟨rfl, k⟩
    · cases k
  · rename_i e
    rcases skipBytes_st _ _ (Nat.le_refl _) _ _ _ e with ⟨k, _⟩ | ⟨_, s1⟩
    · cases k
    split
    · rename_i e
      rcases readTag_st _ _ _ _ e with ⟨_, k⟩ | ⟨k, _⟩
      · exact Or.inl ⟨rfl, k⟩
      · cases k
    · rename_i e
      rcases readTag_st _ _ _ _ e with ⟨k, _⟩ | ⟨_, s2⟩
      · cases k
      split
      · rename_i e
        rcases records_st _ _ (Nat.le_refl _) _ _ _ e with ⟨_, k⟩ | ⟨k, _⟩
        · exact Or.inl ⟨rfl, k⟩
        · cases k
      · rename_i e
        rcases records_st _ _ (Nat.le_refl _) _ _ _ e with ⟨k, _⟩ | ⟨_, s3⟩
        · cases k
        split
        · rename_i e
          rcases readTag_st _ _ _ _ e with ⟨_, k⟩ | ⟨k, _⟩
          · exact Or.inl ⟨rfl, k⟩
          · cases k
        · rename_i e
          rcases readTag_st _ _ _ _ e with ⟨k, _⟩ | ⟨_, s4⟩
          · cases k
          refine Or.inr ⟨?_, congrArg (fun s : CState => { s with fetching := false, request := true }) (s1.trans (s2.trans (s3.trans s4))).1⟩
          dsimp only
          split <;> simp

/-- Reading the test request of a fetched session. -/
theorem fetchedRequest_st (H : Mac) (remote loc : SockAddr) (c : Conn) (tw : c.twoway = false) (hs : c.state = { testRequest := true }) (q : TestReq) (acc : Accept) (c' : Conn)
    (h : readTestRequest H false remote loc c = (some q, acc, c')) : c'.state = { fetching := true } := by
  unfold readTestRequest at h
  simp only [tw, hs, Bool.false_eq_true, if_false, not_true_eq_false] at h
  split at h
  · rename_i c0 e0
    split at h
    · rename_i c1 e
      have s1 := (recvBlocks_st e0).trans (recvBlocks_st e)
      split at h
      · simp at h
      · rename_i c2 e2
        have s2 := s1.trans (checkMsg_st e2)
        have tw2 : c2.twoway = false := s2.2.trans tw
        have hs2 : c2.state = { testRequest := true } := s2.1.trans hs
        split at h
        · simp at h
        · split at h
          · simp at h
          · split at h
            · simp at h
            · simp only [Conn.setState, tw2, Bool.false_eq_true, if_false] at h
              split at h
              · simp at h
              · rename_i e3
                simp only [Prod.mk.injEq] at h; obtain ⟨-, -, rfl⟩ := h
                have s3 := readSlots_st _ _ _ _ _ e3
                exact (congrArg (fun s : CState => { s with fetching := true }) s3.1).trans (by rw [hs2])
    · simp at h
  · simp at h

open Owamp.Fetch in
theorem fetch_idle (H : Mac) (remote loc : SockAddr) (junk : Bytes) (first last : U32) (sid : Bytes) (c : Conn) (hs : c.state = .requestOnly) :
    ((fetch H remote loc junk first last sid c).1 = .failed ∧
      ((fetch H remote loc junk first last sid c).2 = c ∨ (fetch H remote loc junk first last sid c).2.state = .invalid)) ∨
    ((fetch H remote loc junk first last sid c).1 ≠ .failed ∧ (fetch H remote loc junk first last sid c).2.state = .requestOnly) := by
  unfold fetch
  split
  · exact Or.inl ⟨rfl, Or.inl rfl⟩
  rename_i tw
  have tw : c.twoway = false := by simpa using tw
  split
  · exact Or.inl ⟨rfl, Or.inr rfl⟩
  · rename_i c1 e1
    have s1 : c1.twoway = false ∧ c1.state = { fetchAck := true, fetchSession := true } := by
      unfold writeFetchSession at e1
      rw [if_neg (by rw [hs]; decide), if_neg (by rw [tw]; decide)] at e1
      dsimp only at e1
      split at e1
      · rename_i e2
        simp only [Prod.mk.injEq] at e1; obtain ⟨-, rfl⟩ := e1
        have s := sendMsg_st e2
        refine ⟨s.2.trans tw, ?_⟩
        exact (congrArg (fun s : CState => { s with fetchAck := true, fetchSession := true, request := false }) (s.1.trans hs)).trans rfl
      · simp at e1
    unfold readAnswer
    split
    · exact Or.inl ⟨rfl, Or.inr rfl⟩
    · rename_i a c2 e2
      have s2 : c2.twoway = false ∧ c2.state = if a.accept ≠ .accept then CState.requestOnly else { testRequest := true } := by
        unfold readFetchAck at e2
        rw [if_neg (by rw [s1.2]; decide)] at e2
        split at e2
        · rename_i e3
          split at e2
          · simp at e2
          · rename_i c4 e4
            have s := (recvBlocks_st e3).trans (checkMsg_st e4)
            have k1 : c4.twoway = false := s.2.trans s1.1
            have k2 : c4.state = { fetchAck := true, fetchSession := true } := s.1.trans s1.2
            dsimp only at e2
            split at e2
            · simp at e2
            · simp only [Prod.mk.injEq, Option.some.injEq] at e2
              obtain ⟨h1, rfl⟩ := e2
              rw [← h1]
              dsimp only
              split
              · exact ⟨k1, by simp only [Conn.setState, k2]; rfl⟩
              · simp only [Conn.setState, k1, k2, Bool.false_eq_true, if_false]
                exact ⟨trivial, trivial⟩
        · simp at e2
      split
      · rename_i ha
        rw [if_pos ha] at s2
        exact Or.inr ⟨by simp, s2.2⟩
      · rename_i ha
        rw [if_neg ha] at s2
        split
        · exact Or.inl ⟨rfl, Or.inr rfl⟩
        · rename_i e3
          have s3 := fetchedRequest_st H remote loc _ s2.1 s2.2 _ _ _ e3
          rcases readBody_st H junk _ a _ with ⟨k1, k2⟩ | ⟨k1, k2⟩
          · exact Or.inl ⟨k1, Or.inr k2⟩
          · exact Or.inr ⟨k1, by rw [k2, s3]; rfl⟩

open Owamp.Fetch in
theorem fetch_refused (H : Mac) (remote loc : SockAddr) (junk : Bytes) (first last : U32) (sid : Bytes) (c : Conn) (hs : c.state.request = false ∨ c.state.test = true) :
    (fetch H remote loc junk first last sid c).1 = .failed ∧
      ((fetch H remote loc junk first last sid c).2 = c ∨ (fetch H remote loc junk first last sid c).2 = c.fail) := by
  unfold fetch
  split
  · exact ⟨rfl, Or.inl rfl⟩
  · have : writeFetchSession H c first last sid = (none, c) := by
      unfold writeFetchSession
      rw [if_pos]
      rcases hs with h | h
      · left; rw [h]; simp
      · exact Or.inr h
    rw [this]
    exact ⟨rfl, Or.inr rfl⟩

end Owamp.Client
