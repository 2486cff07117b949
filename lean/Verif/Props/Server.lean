import Verif.Model.Server
import Verif.Lemmas.State
import Verif.Spec.Phases
/-!
# C15: requests are only honoured in the protocol state that allows them
-/
namespace Owamp.Props
open Owamp.Ctl Owamp.Spec.Phases

variable {ρ : Type}

/-- The code that sends fetched data does not touch the protocol state. -/
def QuietFetch (t : Turn ρ) : Prop :=
  ∀ q ack send, t.onFetch q = .serve ack send → ∀ c, (send c).2.2.state = c.state ∧ (send c).2.2.twoway = c.twoway

/-- What one pass over an idle one-way connection can do. -/
def PassOk (from_ : Phase) (p : Pass) : Prop :=
  ∃ ph, after from_ p.heard = some ph ∧
    (p.rc = .fatal ∨ (p.c.twoway = false ∧
      (Shut p.c ∨ (ph = .idle ∧ p.c.state = .requestOnly ∧ p.bad = false))))

theorem PassOk.fatal {f : Phase} {p : Pass} {ph : Phase} (h : after f p.heard = some ph) (hr : p.rc = .fatal) : PassOk f p :=
  ⟨ph, h, Or.inl hr⟩
theorem PassOk.shut {f : Phase} {p : Pass} {ph : Phase} (h : after f p.heard = some ph) (tw : p.c.twoway = false) (hr : Shut p.c) : PassOk f p :=
  ⟨ph, h, Or.inr ⟨tw, Or.inl hr⟩⟩
theorem PassOk.idle {f : Phase} {p : Pass} (h : after f p.heard = some .idle) (tw : p.c.twoway = false)
    (hs : p.c.state = .requestOnly) (hb : p.bad = false) : PassOk f p :=
  ⟨.idle, h, Or.inr ⟨tw, Or.inr ⟨rfl, hs, hb⟩⟩⟩

theorem test_pass (H : Mac) (t : Turn ρ) (c : Conn) (tw : c.twoway = false)
    (hs : c.state = { request := true, testRequest := true }) : PassOk .idle (processTestRequest H t c) := by
  unfold processTestRequest
  simp only [tw, Bool.false_eq_true, if_false]
  split
  · rename_i acc c1 e
    obtain ⟨tw1, h⟩ := testRequest_st H _ _ c tw hs _ _ _ e
    split
    · exact PassOk.fatal (ph := .idle) rfl rfl
    · rename_i ha
      rcases h with ⟨h, -⟩ | ⟨-, h⟩ | ⟨-, h⟩
      · simp at h
      · exact absurd h ha
      · simp only [tw1, Bool.false_eq_true, if_false]
        exact PassOk.shut (ph := .idle) rfl tw1 h
  · rename_i r acc c1 e
    obtain ⟨tw1, h⟩ := testRequest_st H _ _ c tw hs _ _ _ e
    rcases h with ⟨-, h⟩ | ⟨h, -⟩ | ⟨h, -⟩
    · split
      · exact PassOk.fatal (ph := .idle) rfl rfl
      · split
        · rename_i e2
          obtain ⟨tw2, h2⟩ := writeAccept_st H c1 _ _ _ (by rw [h]) _ _ e2
          rcases h2 with ⟨-, h2⟩ | ⟨h2, -⟩
          · exact PassOk.idle rfl (tw2.trans tw1) (by rw [h2, h]; rfl) rfl
          · simp at h2
        · rename_i e2
          obtain ⟨tw2, h2⟩ := writeAccept_st H c1 _ _ _ (by rw [h]) _ _ e2
          rcases h2 with ⟨h2, -⟩ | ⟨-, h2⟩
          · simp at h2
          · exact PassOk.shut (ph := .idle) rfl (tw2.trans tw1) (Or.inl (by dsimp only; rw [h2]; rfl))
    · simp at h
    · simp at h

theorem fetch_pass (H : Mac) (t : Turn ρ) (hq : QuietFetch t) (c : Conn) (tw : c.twoway = false)
    (hs : c.state = { request := true, fetchSession := true }) : PassOk .idle (processFetchSession H t c) := by
  unfold processFetchSession
  split
  · exact PassOk.fatal (ph := .idle) rfl rfl
  · rename_i q c1 e
    obtain ⟨-, s1, tw1⟩ := readFetch_st H _ _ _ e
    rw [hs] at s1; rw [tw] at tw1
    split
    · exact PassOk.fatal (ph := .idle) rfl rfl
    · split
      · exact PassOk.fatal (ph := .idle) rfl rfl
      · rename_i acc _ _ c2 e2
        obtain ⟨tw2, h2⟩ := writeFetchAck_st H _ _ _ e2
        rw [tw1] at tw2
        rcases h2 with ⟨-, h2⟩ | ⟨-, h2⟩
        · exact PassOk.shut (ph := .idle) rfl tw2 (Or.inl (by dsimp only; rw [h2, s1]))
        · exact PassOk.idle rfl tw2 (by dsimp only; rw [h2, s1]; rfl) rfl
    · rename_i ack send hp
      split
      · exact PassOk.fatal (ph := .idle) rfl rfl
      · rename_i c2 e2
        obtain ⟨tw2, h2⟩ := writeFetchAck_st H _ _ _ e2
        rw [tw1] at tw2
        obtain ⟨q1, q2⟩ := hq _ _ _ hp c2
        split
        · rename_i f c3 e3
          rw [e3] at q1 q2
          exact PassOk.shut (ph := .idle) rfl (q2.trans tw2) (shut_fail _)
        · rename_i f c3 e3
          rw [e3] at q1 q2
          refine PassOk.idle rfl (q2.trans tw2) ?_ rfl
          dsimp only at q1
          rcases h2 with ⟨-, h2⟩ | ⟨-, h2⟩
          · simp only [Conn.setState, q1, h2, s1]; rfl
          · simp only [Conn.setState, q1, h2, s1]; rfl

theorem stop_pass (H : Mac) (t : Turn ρ) (c : Conn) (tw : c.twoway = false)
    (hs : c.state = { request := true, test := true }) : PassOk .testing (stopSessions H t c) := by
  unfold stopSessions
  split
  · exact PassOk.fatal (ph := .testing) rfl rfl
  · split
    · exact PassOk.fatal (ph := .testing) rfl rfl
    · rename_i c1 ts e
      have s1 := writeStop_st H _ _ _ _ _ _ e
      split
      · rename_i c2 e2
        obtain ⟨tw2, h2⟩ := request_test c1 (s1.1.trans hs) _ _ e2
        split
        · exact PassOk.fatal (ph := .testing) rfl rfl
        · split
          · exact PassOk.fatal (ph := .testing) rfl rfl
          · rename_i e3
            obtain ⟨-, -, s3, tw3⟩ := readStop_st H _ _ _ _ _ _ e3
            refine PassOk.idle rfl (tw3.trans (tw2.trans (s1.2.trans tw))) ?_ rfl
            rcases h2 with ⟨h2, -⟩ | ⟨-, h2⟩
            · simp at h2
            · simp only [Conn.setState, s3, h2]; rfl
      · exact PassOk.fatal (ph := .testing) rfl rfl

theorem wait_pass (H : Mac) (t : Turn ρ) (c : Conn) (tw : c.twoway = false)
    (hs : c.state = { request := true, test := true }) : PassOk .testing (stopSessionsWait H t c) := by
  unfold stopSessionsWait
  split
  · simp only [tw, Bool.false_eq_true, if_false]; exact stop_pass H t c tw hs
  · simp only [tw, Bool.false_eq_true, if_false]; exact stop_pass H t c tw hs
  · exact PassOk.fatal (ph := .testing) rfl rfl
  · split
    · rename_i c2 e2
      obtain ⟨tw2, h2⟩ := request_test c hs _ _ e2
      split
      · exact PassOk.fatal (ph := .testing) rfl rfl
      · split
        · exact PassOk.fatal (ph := .testing) rfl rfl
        · split
          · exact PassOk.fatal (ph := .testing) rfl rfl
          · rename_i e3
            obtain ⟨-, -, s3, tw3⟩ := readStop_st H _ _ _ _ _ _ e3
            have tw4 := tw3.trans (tw2.trans tw)
            simp only [tw4, Bool.false_eq_true, if_false]
            split
            · exact PassOk.fatal (ph := .idle) rfl rfl
            · rename_i e5
              have s5 := writeStop_st H _ _ _ _ _ _ e5
              refine PassOk.idle rfl (s5.2.trans tw4) ?_ rfl
              rcases h2 with ⟨h2, -⟩ | ⟨-, h2⟩
              · simp at h2
              · simp only [Conn.setState, s5.1, s3, h2]; rfl
    · rename_i e2
      exact PassOk.shut (ph := .testing) rfl ((request_test c hs _ _ e2).1.trans tw) (shut_fail _)
    · rename_i e2
      exact PassOk.shut (ph := .testing) rfl ((request_test c hs _ _ e2).1.trans tw) (shut_fail _)
    · exact PassOk.fatal (ph := .testing) rfl rfl

theorem start_pass (H : Mac) (t : Turn ρ) (c : Conn) (tw : c.twoway = false)
    (hs : c.state = { request := true, startSessions := true }) : PassOk .idle (processStartSessions H t c) := by
  unfold processStartSessions
  split
  · exact PassOk.fatal (ph := .idle) rfl rfl
  · rename_i c1 e
    obtain ⟨-, s1, tw1⟩ := readStart_st H _ _ e
    rw [hs] at s1; rw [tw] at tw1
    split
    · exact PassOk.fatal (ph := .testing) rfl rfl
    · split
      · exact PassOk.fatal (ph := .testing) rfl rfl
      · rename_i c2 e2
        obtain ⟨s2, tw2⟩ := writeStartAck_st H _ _ e2
        rw [s1] at s2; rw [tw1] at tw2
        obtain ⟨ph, h1, h2⟩ := wait_pass H t c2 tw2 s2
        exact ⟨ph, h1, h2⟩

theorem once_ok (H : Mac) (t : Turn ρ) (hq : QuietFetch t) (c : Conn) (tw : c.twoway = false)
    (hs : c.state = .requestOnly) : PassOk .idle (serveOnce H t c) := by
  have unexp : ∀ c : Conn, c.twoway = false → PassOk .idle (unexpectedRequestType H c) := by
    intro c tw
    unfold unexpectedRequestType
    rw [if_pos (by simp [tw])]
    exact PassOk.fatal (ph := .idle) rfl rfl
  unfold serveOnce
  split <;> rename_i c1 e <;> obtain ⟨tw1, h⟩ := request_idle c hs _ _ e <;> rw [tw] at tw1 <;>
    simp only [tw1, Bool.false_eq_true, if_false, reduceCtorEq, or_true, false_or, or_false, true_or, false_and, true_and, or_self] at h ⊢
  · exact test_pass H t c1 tw1 h
  · exact unexp c1 tw1
  · exact start_pass H t c1 tw1 h
  · exact fetch_pass H t hq c1 tw1 h
  · exact PassOk.shut (ph := .idle) rfl tw1 (Or.inl (by dsimp only; rw [h]; rfl))
  · exact PassOk.fatal (ph := .idle) rfl rfl
  · exact unexp c1 tw1

theorem once_shut (H : Mac) (t : Turn ρ) (c : Conn) (tw : c.twoway = false) (hs : Shut c) :
    serveOnce H t c = ⟨[], true, .fatal, c⟩ := by
  unfold serveOnce
  rw [request_shut c hs]
  dsimp only
  unfold unexpectedRequestType
  rw [if_pos (by simp [tw])]

/-- C15. On a one-way server, whatever bytes arrive, whatever reads and writes fail and whatever the
server's policy, files and processes do, the requests honoured over the whole life of the connection
come in an order that the protocol allows. -/
theorem C15_requests_in_order (H : Mac) (turns : List (Turn ρ)) (hq : ∀ t ∈ turns, QuietFetch t) (c : Conn)
    (tw : c.twoway = false) (hs : c.state = .requestOnly) :
    (after .idle ((serve H turns c).flatMap Pass.heard)).isSome := by
  induction turns generalizing c with
  | nil => rfl
  | cons t ts ih =>
    obtain ⟨ph, h1, h2⟩ := once_ok H t (hq t (by simp)) c tw hs
    rw [serve]
    rw [List.flatMap_cons, after_append, h1, Option.bind_some]
    split
    · rfl
    · rename_i hr
      rcases h2 with h2 | ⟨h2, h3 | ⟨rfl, h4, -⟩⟩
      · exact absurd h2 hr
      · cases ts with
        | nil => rfl
        | cons t2 ts =>
          rw [serve, once_shut H t2 _ h2 h3]
          simp [after]
      · exact ih (fun t ht => hq t (by simp [ht])) _ h2 h4

/-- C15. On a one-way server, after a pass in which a request was refused or could not be read, no later
pass honours anything. -/
theorem C15_dead_after_refusal_partial (H : Mac) (turns : List (Turn ρ)) (hq : ∀ t ∈ turns, QuietFetch t) (c : Conn)
    (tw : c.twoway = false) (hs : c.state = .requestOnly) (earlier later : List Pass) (p : Pass)
    (h : serve H turns c = earlier ++ p :: later) (hb : p.bad = true) :
    ∀ q ∈ later, q.heard = [] := by
  induction turns generalizing c earlier with
  | nil => simp [serve] at h
  | cons t ts ih =>
    obtain ⟨ph, h1, h2⟩ := once_ok H t (hq t (by simp)) c tw hs
    rw [serve] at h
    have shut : ∀ c1 : Conn, c1.twoway = false → Shut c1 → ∀ q ∈ serve H ts c1, q.heard = [] ∧ q.rc = .fatal := by
      intro c1 tw1 s1 q hq
      cases ts with
      | nil => simp [serve] at hq
      | cons t2 ts =>
        rw [serve, once_shut H t2 _ tw1 s1] at hq
        simp only [if_true, List.mem_cons, List.not_mem_nil, or_false] at hq
        rw [hq]; exact ⟨rfl, rfl⟩
    cases earlier with
    | nil =>
      simp only [List.nil_append, List.cons.injEq] at h
      obtain ⟨rfl, h⟩ := h
      rw [← h]
      split
      · simp
      · rename_i hr
        rcases h2 with h2 | ⟨h2, h3 | ⟨-, -, h4⟩⟩
        · exact absurd h2 hr
        · exact fun q hq => (shut _ h2 h3 q hq).1
        · rw [h4] at hb; exact absurd hb (by simp)
    | cons e es =>
      simp only [List.cons_append, List.cons.injEq] at h
      obtain ⟨rfl, h⟩ := h
      split at h
      · simp at h
      · rename_i hr
        rcases h2 with h2 | ⟨h2, h3 | ⟨-, h4, -⟩⟩
        · exact absurd h2 hr
        · intro q hq
          exact (shut _ h2 h3 q (by rw [h]; simp [hq])).1
        · exact ih (fun t ht => hq t (by simp [ht])) _ h2 h4 _ h

/-- C15. On any server and in any state, a request type is handed on only if the connection is waiting
for a request, is not in the middle of another, and (while sessions run) only to stop them. -/
theorem C15_type_allowed (c c' : Conn) (r : ReqType) (h : readRequestType c = (r, c'))
    (hr : r ≠ .invalid ∧ r ≠ .sockIntr ∧ r ≠ .sockClose) :
    c.state.request = true ∧ c.state.isReading = false ∧ (c.state.test = true ↔ r = .stopSessions) := by
  unfold readRequestType at h
  split at h
  · simp only [Prod.mk.injEq] at h; exact absurd h.1.symm hr.1
  rename_i h0
  have h1 : c.state.request = true ∧ c.state.isReading = false := by simpa using h0
  refine ⟨h1.1, h1.2, ?_⟩
  split at h
  · rename_i c1 e
    rw [← (recvBlocks_st e).1]
    dsimp only at h
    (repeat' split at h) <;> simp only [Prod.mk.injEq] at h <;> obtain ⟨rfl, -⟩ := h <;> simp_all
  · simp only [Prod.mk.injEq] at h; exact absurd h.1.symm hr.2.1
  · simp only [Prod.mk.injEq] at h; exact absurd h.1.symm hr.2.2

/-- C15. Where no request type is handed on, no request can be read afterwards. -/
theorem C15_bad_type_shuts (c c' : Conn) (r : ReqType) (h : readRequestType c = (r, c'))
    (hr : r = .invalid ∨ r = .sockIntr ∨ r = .sockClose) : readRequestType c' = (.invalid, c') := by
  apply request_shut
  unfold readRequestType at h
  split at h
  · rename_i h0
    simp only [Prod.mk.injEq] at h
    rw [← h.2]
    rcases h0 with h0 | h0
    · exact Or.inl (by simpa using h0)
    · exact Or.inr h0
  split at h
  · dsimp only at h
    (repeat' split at h) <;> simp only [Prod.mk.injEq] at h <;> obtain ⟨rfl, rfl⟩ := h <;> first | exact shut_fail _ | simp at hr
  · simp only [Prod.mk.injEq] at h; rw [← h.2]; exact shut_fail _
  · simp only [Prod.mk.injEq] at h; rw [← h.2]; exact shut_fail _

/-- A server that grants everything and whose sessions end at once. -/
def openTurn : Turn Unit where
  remote := .unspec
  localAddr := .unspec
  onTest := fun _ => some (.accept, 0#16, none)
  started := true
  wait := .theirs
  stopSend := some (.accept, 0#32)
  stopRecv := true
  tests := []
  file := ⟨fun _ _ _ => some (), fun _ _ => some (), fun _ _ _ => some ()⟩
  onFetch := fun _ => .refuse .failure

example : QuietFetch openTurn := by intro q a s h; simp [openTurn] at h

/-- An idle connection in open mode. -/
def openConn (twoway : Bool) (inp : Bytes) : Conn where
  state := .requestOnly
  mode := 1#32
  twoway := twoway
  userid := []
  aesKey := []
  hmacKey := []
  readIV := []
  writeIV := []
  sendAcc := []
  recvAcc := []
  msg := zeros 400
  inp := inp
  out := []
  faults := []

def startMsg : Bytes := 2#8 :: zeros 31
def stopMsg : Bytes := 3#8 :: zeros 31
def fetchMsg : Bytes := 4#8 :: zeros 47

/-- C15. While a connection is set up, the messages of the setting up are handled only between the greeting and the start, and the greeting only before them: where a greeting was handled,
none was before; where another was, the greeting was before and no request could be yet. -/
theorem C15_setup_order (c : Conn) :
    (∀ g c', writeServerGreeting c g = (some (), c') → c.state.setup = false ∧ c.state.request = false ∧ c'.state.setup = true ∧ c'.state.request = false) ∧
    (∀ g c', readServerGreeting c = (some g, c') → c.state.setup = false ∧ c.state.request = false ∧ c'.state.setup = true ∧ c'.state.request = false) ∧
    (c.state.setup = false ∨ c.state.request = true → (∀ token, writeSetupResponse c token = (none, c)) ∧ readSetupResponse c = (none, c) ∧
      (∀ code up, writeServerStart c code up = (none, c)) ∧ readServerStart c = (none, c)) := by
  have inv : ∀ st : CState, ¬ st ≠ .invalid → st.setup = false ∧ st.request = false := by
    intro st h
    rw [Decidable.not_not.1 h]; exact ⟨rfl, rfl⟩
  refine ⟨fun g c' h => ?_, fun g c' h => ?_, fun hn => ?_⟩
  · unfold writeServerGreeting at h
    split at h
    · cases h
    · rename_i h0
      obtain ⟨i1, i2⟩ := inv _ h0
      dsimp only at h
      split at h
      · cases h; exact ⟨i1, i2, rfl, rfl⟩
      · cases h
  · unfold readServerGreeting at h
    split at h
    · cases h
    · rename_i h0
      obtain ⟨i1, i2⟩ := inv _ h0
      split at h
      · cases h; exact ⟨i1, i2, rfl, rfl⟩
      · cases h
  · have hne : c.state ≠ .setupOnly := by
      intro e
      rw [e] at hn
      exact absurd hn (by decide)
    unfold writeSetupResponse readSetupResponse writeServerStart readServerStart
    exact ⟨fun _ => if_pos hne, if_pos hne, fun _ _ => if_pos hne, if_pos hne⟩

/-- In open mode the keyed hash is not used. -/
def anyMac : Mac := ⟨fun _ _ => zeros 20, fun _ _ => by simp⟩

/-- A conversation with all phases in it, on a one-way server. -/
theorem C15_example : (serve anyMac [openTurn, openTurn, openTurn] (openConn false (startMsg ++ stopMsg ++ fetchMsg ++ fetchMsg))).map
    (fun p => (p.heard, p.bad)) = [([.startSessions, .stopSessions], false), ([.fetchSession], false), ([.fetchSession], false)] := by
  decide +kernel

/-- A greeting is handled on a new connection, and no set-up response is before it. -/
example : (writeServerGreeting { openConn false [] with state := .invalid } ⟨1#32, zeros 16, zeros 16, 1024#32⟩).1 = some () ∧
    (readSetupResponse { openConn false (zeros 164) with state := .invalid }).1 = none ∧
    (readSetupResponse { openConn false (zeros 164) with state := .setupOnly }).1.isSome := by decide +kernel

/-- C15 is false of the two-way server: a request to stop sessions while none run is refused, and the
same connection then honours a request to start sessions. -/
theorem C15_twoway_survives_refusal : (serve anyMac [openTurn, openTurn] (openConn true (3#8 :: zeros 15 ++ startMsg ++ stopMsg))).map
    (fun p => (p.heard, p.bad)) = [([], true), ([.startSessions, .stopSessions], false)] := by
  decide +kernel

end Owamp.Props
