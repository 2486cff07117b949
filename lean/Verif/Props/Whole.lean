import Verif.Lemmas.MoreClient
import Verif.Lemmas.Asking
import Verif.Props.Protocol
import Verif.Props.Request
import Verif.Props.Stop
import Verif.Props.Server
import Verif.Props.Setup
import Verif.Props.Asking
/-!
# C111: part of a control message is never taken for one
-/
namespace Owamp.Props
open Owamp.Ctl Owamp.Codec Owamp.Spec.Channel Owamp.Spec.Stop Owamp.Spec.Whole Owamp.More

variable {ρ : Type}

/-- C111, set-up: a greeting, a set-up response or a server start that ends early is not accepted, and what follows one
stays to be read. -/
theorem C111_setup : (NeedsAll readServerGreeting ∧ LeavesRest readServerGreeting) ∧
    (NeedsAll readSetupResponse ∧ LeavesRest readSetupResponse) ∧ (NeedsAll readServerStart ∧ LeavesRest readServerStart) :=
  ⟨⟨stable_needs greeting_stable, stable_leaves greeting_stable⟩, ⟨stable_needs setup_stable, stable_leaves setup_stable⟩,
    ⟨stable_needs serverStart_stable, stable_leaves serverStart_stable⟩⟩

/-- C111, answers read by a client. -/
theorem C111_answers (H : Mac) : (NeedsAll (readAcceptSession H) ∧ LeavesRest (readAcceptSession H)) ∧
    (NeedsAll (readStartAck H) ∧ LeavesRest (readStartAck H)) ∧ (NeedsAll (readFetchAck H) ∧ LeavesRest (readFetchAck H)) ∧
    ∀ remote loc, NeedsAll (testRequest H false remote loc) ∧ LeavesRest (testRequest H false remote loc) :=
  ⟨⟨stable_needs (acceptSession_stable H), stable_leaves (acceptSession_stable H)⟩,
    ⟨stable_needs (startAck_stable H), stable_leaves (startAck_stable H)⟩,
    ⟨stable_needs (fetchAck_stable H), stable_leaves (fetchAck_stable H)⟩,
    fun remote loc => ⟨stable_needs (testRequest_stable H false remote loc), stable_leaves (testRequest_stable H false remote loc)⟩⟩

/-- C111, requests read by a server, with the block that has their type: test requests of any number of slots (one-way and
two-way), start-sessions, fetch-session. -/
theorem C111_requests (H : Mac) (remote loc : SockAddr) :
    (∀ t, t = .test ∨ t = .testTW → NeedsAll (afterType t (testRequest H true remote loc)) ∧ LeavesRest (afterType t (testRequest H true remote loc))) ∧
    (NeedsAll (afterType .startSessions (readStartSessions H)) ∧ LeavesRest (afterType .startSessions (readStartSessions H))) ∧
    (NeedsAll (afterType .fetchSession (readFetchSession H)) ∧ LeavesRest (afterType .fetchSession (readFetchSession H))) := by
  refine ⟨?_, ?_, ?_⟩
  · intro t ht
    have hs : Stable (afterType t (testRequest H true remote loc)) :=
      after_stable (testRequest_stable H true remote loc) t (by rcases ht with rfl | rfl <;> decide)
        (by rcases ht with rfl | rfl <;> decide) (by rcases ht with rfl | rfl <;> decide)
    exact ⟨stable_needs hs, stable_leaves hs⟩
  · have hs : Stable (afterType .startSessions (readStartSessions H)) :=
      after_stable (startSessions_stable H) _ (by decide) (by decide) (by decide)
    exact ⟨stable_needs hs, stable_leaves hs⟩
  · have hs : Stable (afterType .fetchSession (readFetchSession H)) :=
      after_stable (fetchSession_stable H) _ (by decide) (by decide) (by decide)
    exact ⟨stable_needs hs, stable_leaves hs⟩

/-- C111, stop-sessions: of any number of sessions with any number of skip ranges, and whatever the files they are recorded
in do. -/
theorem C111_stop (H : Mac) (F : RecvFile ρ) (tests : List (Sess ρ)) :
    NeedsAll (afterType .stopSessions (stopMessage H F tests)) ∧ LeavesRest (afterType .stopSessions (stopMessage H F tests)) := by
  have hs : Stable (afterType .stopSessions (stopMessage H F tests)) :=
    after_stable (stopSessions_stable H F tests) _ (by decide) (by decide) (by decide)
  exact ⟨stable_needs hs, stable_leaves hs⟩

/-- C111, what is sent and cut on its way: if a message that `A` sends is understood by `B`, then no proper part of it is. -/
theorem C111_sent {β : Type} (A B : Conn) (wr : Conn → Option Unit × Conn) (rd : Conn → Option β × Conn) (wire : Bytes) (v : β)
    (sA sB : CState) (hd : Delivers A { B with inp := wire } wr rd wire v sA sB) (hn : NeedsAll rd) (n : Nat) (hl : n < wire.length) :
    (rd { B with inp := wire.take n }).1 = none := by
  obtain ⟨A', _, _, _, _, _, h⟩ := hd
  obtain ⟨B', h1, h2, _⟩ := h [] (List.append_nil _).symm
  exact hn B B' wire v h1 h2 n hl

/-- C111, the stop-sessions message that one side sends about its sessions: cut anywhere, the other side does not take it for
the account of any set of sessions. -/
theorem C111_stop_sent (H : Mac) (A B : Conn) (rA : Ready A) (rB : Ready B) (L : Linked A B)
    (hA : A.state.request = true ∧ A.state.test = true) (tA : A.twoway = false)
    (hB : B.state.request = true ∧ B.state.test = true) (hBr : B.state.isReading = false) (tB : B.twoway = false)
    (acc : Accept) (hv : acc ≠ .invalid) (acct : Sess ρ → Account) (tsA : List (Sess ρ)) (tsB : List Session)
    (hS : Speaks acct tsA) (hn : (accounts acct tsA).length < 2 ^ 32) (hep : ∀ t ∈ tsB, t.ep.isSome)
    (hp : ((tsB.filter receiving).map Sess.sid).Perm ((accounts acct tsA).map Prod.fst)) :
    let body := stopLayout acc (accounts acct tsA)
    let wire := sealed A (body ++ tag H A body)
    ∀ n, n < wire.length → (afterType .stopSessions (stopMessage H goodFile tsB) { B with inp := wire.take n }).1 = none := by
  intro body wire n hl
  obtain ⟨A', tsA', _, _, _, _, _, h⟩ := C10_stop_sessions H A { B with inp := wire } rA rB L hA tA hB hBr tB acc hv acct tsA tsB hS hn hep hp
  obtain ⟨B1, B', claims, h1, h2, _, _, h3, _⟩ := h [] (List.append_nil _).symm
  refine (C111_stop H goodFile tsB).1 B B' wire (acc, (claims.map record).reverse ++ tsB.filter sending) ?_ h3 n hl
  unfold afterType
  rw [h1]
  dsimp only
  rw [if_pos rfl]
  unfold stopMessage
  rw [h2]
  rfl

namespace Whole

/-- The type read from part of a request is that of the request, or none. -/
theorem type_of_part {β : Type} (R : Conn → Option β × Conn) (hR : Stable R) (ty : ReqType) (h1 : ty ≠ .invalid) (h2 : ty ≠ .sockClose)
    (h3 : ty ≠ .sockIntr) (B B' : Conn) (x : Bytes) (v : β) (h : afterType ty R { B with inp := x } = (some v, B')) (hall : B'.inp = [])
    (n : Nat) (hn : n < x.length) (t' : ReqType) (c : Conn) (ht : readRequestType { B with inp := x.take n } = (t', c)) :
    t' = .invalid ∨ t' = .sockClose ∨ t' = .sockIntr ∨ (t' = ty ∧ (R c).1 = none) := by
  by_cases e1 : t' = .invalid
  · exact .inl e1
  by_cases e2 : t' = .sockClose
  · exact .inr (.inl e2)
  by_cases e3 : t' = .sockIntr
  · exact .inr (.inr (.inl e3))
  refine .inr (.inr (.inr ?_))
  have hm := requestType_more (x.drop n) _ c t' e1 e2 e3 ht
  have hi : more (x.drop n) { B with inp := x.take n } = { B with inp := x } := by
    unfold more
    dsimp only
    rw [List.take_append_drop]
  rw [hi] at hm
  have hty : t' = ty := by
    unfold afterType at h
    rw [hm] at h
    dsimp only at h
    by_cases e : t' = ty
    · exact e
    · rw [if_neg e] at h; cases h
  refine ⟨hty, ?_⟩
  have hnone := stable_needs (after_stable hR ty h1 h2 h3) B B' x v h hall n hn
  unfold afterType at hnone
  rw [ht] at hnone
  dsimp only at hnone
  rwa [if_pos hty] at hnone

theorem unexpected_heard (H : Mac) (c : Conn) : (unexpectedRequestType H c).heard = [] := by
  unfold unexpectedRequestType
  split <;> rfl

end Whole
open Whole

/-- C111, the server: of a request that arrives in part nothing is carried out, wherever the connection ends. -/
theorem C111_server (H : Mac) (t : Turn ρ) (B : Conn) (x : Bytes) (h : WholeRequest H t B x) (n : Nat) (hn : n < x.length) :
    (serveOnce H t { B with inp := x.take n }).heard = [] := by
  unfold serveOnce
  cases e : readRequestType { B with inp := x.take n } with
  | mk ty c =>
    have hw : c.twoway = B.twoway := by
      have hk := (readRequestType_kind { B with inp := x.take n }).1
      rw [e] at hk
      exact hk
    have ends : ty = .invalid ∨ ty = .sockClose ∨ ty = .sockIntr → (match (ty, c) with
        | (.test, c) => if c.twoway then unexpectedRequestType H c else processTestRequest H t c
        | (.testTW, c) => if c.twoway then processTestRequest H t c else unexpectedRequestType H c
        | (.startSessions, c) => processStartSessions H t c
        | (.fetchSession, c) => if c.twoway then unexpectedRequestType H c else processFetchSession H t c
        | (.sockIntr, c) => ⟨[], true, .ok, c⟩
        | (.sockClose, c) => ⟨[], true, .fatal, c⟩
        | (.stopSessions, c) => unexpectedRequestType H c
        | (.invalid, c) => unexpectedRequestType H c : Pass).heard = [] := by
      intro h
      rcases h with rfl | rfl | rfl
      · exact unexpected_heard H c
      · rfl
      · rfl
    have test : (testRequest H true t.remote t.localAddr c).1 = none → (processTestRequest H t c).heard = [] := by
      intro hnone
      unfold testRequest at hnone
      unfold processTestRequest
      cases e : readTestRequest H true t.remote t.localAddr c with
      | mk r p =>
        obtain ⟨acc, c1⟩ := p
        rw [e] at hnone
        cases r with
        | some r => cases hnone
        | none =>
          dsimp only
          split
          · rfl
          · split <;> rfl
    rcases h with ⟨v, B', h, hall⟩ | ⟨v, B', h, hall⟩ | ⟨v, B', h, hall⟩
    · cases hb : B.twoway with
      | true =>
        rw [hb] at hw
        rw [if_pos hb] at h
        rcases type_of_part _ (testRequest_stable H true t.remote t.localAddr) .testTW (by decide) (by decide) (by decide) B B' x v h hall n hn ty c e with
          h | h | h | ⟨h, h2⟩
        · exact ends (.inl h)
        · exact ends (.inr (.inl h))
        · exact ends (.inr (.inr h))
        · subst h
          dsimp only
          rw [if_pos hw]
          exact test h2
      | false =>
        rw [hb] at hw
        rw [if_neg (by rw [hb]; decide)] at h
        rcases type_of_part _ (testRequest_stable H true t.remote t.localAddr) .test (by decide) (by decide) (by decide) B B' x v h hall n hn ty c e with
          h | h | h | ⟨h, h2⟩
        · exact ends (.inl h)
        · exact ends (.inr (.inl h))
        · exact ends (.inr (.inr h))
        · subst h
          dsimp only
          rw [if_neg (by rw [hw]; decide)]
          exact test h2
    · rcases type_of_part _ (startSessions_stable H) .startSessions (by decide) (by decide) (by decide) B B' x v h hall n hn ty c e with
          h | h | h | ⟨h, h2⟩
      · exact ends (.inl h)
      · exact ends (.inr (.inl h))
      · exact ends (.inr (.inr h))
      · subst h
        dsimp only
        unfold processStartSessions
        cases e2 : readStartSessions H c with
        | mk r c1 =>
          rw [e2] at h2
          cases r with
          | some r => cases h2
          | none => rfl
    · rcases type_of_part _ (fetchSession_stable H) .fetchSession (by decide) (by decide) (by decide) B B' x v h hall n hn ty c e with
          h | h | h | ⟨h, h2⟩
      · exact ends (.inl h)
      · exact ends (.inr (.inl h))
      · exact ends (.inr (.inr h))
      · subst h
        dsimp only
        split
        · exact unexpected_heard H c
        · unfold processFetchSession
          cases e2 : readFetchSession H c with
          | mk r c1 =>
            rw [e2] at h2
            cases r with
            | some r => cases h2
            | none => rfl

/-- C111, a whole connection: whatever a client sends, if the connection ends at any earlier byte then what the server carries
out is the beginning of what it would have carried out; the turns, in which the rest of the server decides, are any. -/
theorem C111_connection (H : Mac) (ts : List (Turn ρ)) (hs : ∀ t ∈ ts, Silent t) (c : Conn) (n : Nat) :
    (serve H ts { c with inp := c.inp.take n }).flatMap (·.heard) <+: (serve H ts c).flatMap (·.heard) := by
  have h := serve_goes (c.inp.drop n) H ts { c with inp := c.inp.take n } hs
  have e : more (c.inp.drop n) { c with inp := c.inp.take n } = c := by
    unfold more
    dsimp only
    rw [List.take_append_drop]
  rwa [e] at h

/-- C111, the calls of a client: a connection is not open, sessions are not started and sessions are not stopped for a client
that got only part of what the server sent, in any of the ways to call these, and what the server sends behind it stays to
be read. -/
theorem C111_client (K : Cbc.Kdf) (o : OpenEnv) (H : Mac) (rcv snd : Bool) (t : Client.Ends ρ) :
    (NeedsAll (succeeds (controlOpen K o)) ∧ LeavesRest (succeeds (controlOpen K o))) ∧
    (NeedsAll (succeeds (Client.start H rcv snd)) ∧ LeavesRest (succeeds (Client.start H rcv snd))) ∧
    (NeedsAll (succeeds (Client.stop H t)) ∧ LeavesRest (succeeds (Client.stop H t))) ∧
    (NeedsAll (succeeds fun c => ((Client.wait H .message t c).1 = .ok, (Client.wait H .message t c).2)) ∧
      LeavesRest (succeeds fun c => ((Client.wait H .message t c).1 = .ok, (Client.wait H .message t c).2))) := by
  have h1 := succeeds_stable (controlOpen K o) fun q c c' h => controlOpen_more q K o c c' h
  have h2 := succeeds_stable (Client.start H rcv snd) fun q c c' h => start_more q H rcv snd c c' h
  have h3 := succeeds_stable (Client.stop H t) fun q c c' h => stop_more q H t c c' h
  have h4 : Stable (succeeds fun c => (decide ((Client.wait H .message t c).1 = .ok), (Client.wait H .message t c).2)) := by
    apply succeeds_stable
    intro q c c' h
    have e1 : (Client.wait H .message t c).1 = .ok := of_decide_eq_true (congrArg Prod.fst h)
    have e2 : (Client.wait H .message t c).2 = c' := congrArg Prod.snd h
    have e : Client.wait H .message t c = (.ok, c') := by rw [← e1, ← e2]
    rw [wait_more q H t c c' e]
    rfl
  exact ⟨⟨stable_needs h1, stable_leaves h1⟩, ⟨stable_needs h2, stable_leaves h2⟩, ⟨stable_needs h3, stable_leaves h3⟩,
    ⟨stable_needs h4, stable_leaves h4⟩⟩

/-- C111, a session asked for: `y` is what the server sends as its answer. If the client reads all of
`y`, then with less of `y` the session is not granted. -/
theorem C111_asked (H : Mac) (e : ClientEnv) (tests : List Mine) (c : Conn) (y : Bytes)
    (hall : (sessionRequest H { e with peer := fun d => { d with inp := y } } tests c).c.inp = []) (n : Nat) (hn : n < y.length) :
    (sessionRequest H { e with peer := fun d => { d with inp := y.take n } } tests c).ret = false := by
  cases hr : (sessionRequest H { e with peer := fun d => { d with inp := y.take n } } tests c).ret with
  | false => rfl
  | true =>
    have h := sessionRequest_more (y.drop n) H { e with peer := fun d => { d with inp := y.take n } } (fun d => { d with inp := y })
      (by
        intro d
        unfold more
        dsimp only
        rw [List.take_append_drop]) tests c hr
    dsimp only at h
    rw [h] at hall
    have h5 := congrArg List.length (List.append_eq_nil_iff.1 hall).2
    rw [List.length_drop, List.length_nil] at h5
    omega

/-! ### The hypotheses can be met -/

/-- A session that the server is to receive is granted by an answer of 48 bytes, all read. -/
example : (sessionRequest anyMac { demoAsk false true false with peer := fun d => { d with inp := zeros 48 } } [] (askConn false)).ret = true ∧
    (sessionRequest anyMac { demoAsk false true false with peer := fun d => { d with inp := zeros 48 } } [] (askConn false)).c.inp = [] := by decide +kernel

/-- A client that opens a connection in open mode, reading all of a greeting and of a server start. -/
example : let x := greetingLayout 1#32 (zeros 16) (zeros 16) 1024#32 ++ zeros 48
    (succeeds (controlOpen anyKdf (demoOpen [])) { newConn false [] with inp := x }).1 = some () ∧
    (succeeds (controlOpen anyKdf (demoOpen [])) { newConn false [] with inp := x }).2.inp = [] ∧ x.length = 112 := by decide +kernel

/-- A client that starts sessions on an answer that it has read all of. -/
example : (succeeds (Client.start anyMac true true) { openConn false [] with inp := zeros 32 }).1 = some () ∧
    (succeeds (Client.start anyMac true true) { openConn false [] with inp := zeros 32 }).2.inp = [] := by decide +kernel

/-- A server that sends the file of a session as an answer to a fetch reads nothing. -/
example (t : Turn ρ) (b : Bytes) (ack : FetchAck) (h : t.onFetch = fun _ => .serve ack fun c =>
    ((if (sendBlocks c b).1 = .done then some () else none), true, (sendBlocks c b).2)) : Silent t := by
  intro f a send hf c y
  rw [h] at hf
  cases hf
  have e := sendBlocks_more y c b
  unfold more at e
  dsimp only
  rw [e]

/-- A connection on which two requests are carried out, and one of them when it ends within the second. -/
example : ((serve anyMac [openTurn, openTurn] (openConn false (startMsg ++ stopMsg))).flatMap (·.heard)) = [.startSessions, .stopSessions] ∧
    ((serve anyMac [openTurn, openTurn] { openConn false (startMsg ++ stopMsg) with inp := (startMsg ++ stopMsg).take 47 }).flatMap (·.heard)) = [.startSessions] := by
  decide +kernel

/-- A test request with two slots on the wire, as `C11_request` says it is sent. -/
def Whole.demoWire (H : Mac) : Bytes :=
  let body := requestLayout false demoReq (List.replicate 16 3#8)
  let slots := Spec.Request.slotsText demoReq.spec.slots
  sealed demoA (body ++ tag H demoA body ++ (slots ++ tag H { demoA with sendAcc := [] } slots))

/-- It is one whole request to the server, and cut at any byte it is none. -/
example (H : Mac) (remote loc : SockAddr) (n : Nat) (hn : n < (demoWire H).length) :
    (afterType .test (serverReads H remote loc) { demoB with inp := (demoWire H).take n }).1 = none :=
  C111_sent demoA demoB _ _ (demoWire H) _ _ _ (C11_request H remote loc demoA { demoB with inp := demoWire H } demo_linked.1 demo_linked.2.1
  demo_linked.2.2.1 demoReq trivial (fun _ h => by cases h; rfl) (Or.inr rfl) (by decide) (by simp [demoReq])
  (by decide) (by intro s hs; simp [demoReq] at hs; rcases hs with rfl | rfl <;> trivial) trivial trivial rfl rfl rfl rfl
  rfl rfl rfl) ((C111_requests H remote loc).1 .test (.inl rfl)).1 n hn

/-- A request to start the sessions is a whole request to the server. -/
example (H : Mac) (t : Turn ρ) : ∃ x, x.length ≠ 0 ∧ WholeRequest H t demoB x := by
  obtain ⟨A', _, _, _, _, _, h⟩ := C10_start_sessions H demoA { demoB with inp := sealed demoA (startSessionsLayout ++ tag H demoA startSessionsLayout) }
    demo_linked.1 demo_linked.2.1 demo_linked.2.2.1 rfl rfl rfl rfl rfl
  obtain ⟨B', h1, h2, _⟩ := h [] (List.append_nil _).symm
  refine ⟨_, ?_, .inr (.inl ⟨_, B', h1, h2⟩)⟩
  intro h0
  have hx := List.eq_nil_of_length_eq_zero h0
  rw [hx] at h1
  cases h1

/-- A greeting on a new connection, cut at any byte. -/
example (n : Nat) (hn : n < 64) : (readServerGreeting { demoB with state := .invalid, inp :=
    (greetingLayout 7#32 (List.replicate 16 1#8) (List.replicate 16 2#8) 1024#32).take n }).1 = none :=
  C111_sent { demoA with state := .invalid } { demoB with state := .invalid } _ _ _ _ _ _
    (C10_greeting { demoA with state := .invalid } { demoB with state := .invalid, inp := greetingLayout 7#32 (List.replicate 16 1#8) (List.replicate 16 2#8) 1024#32 } (demo_states .invalid .invalid).1
      (demo_states .invalid .invalid).2.1 (demo_states .invalid .invalid).2.2.1 rfl rfl 7#32 1024#32 (List.replicate 16 1#8)
      (List.replicate 16 2#8) rfl rfl) C111_setup.1.1 n hn

/-- Two sessions sent by `A`, both received by `B` beside one that `B` sends: the message cut at any byte. -/
example (H : Mac) := C111_stop_sent H { demoA with state := { request := true, test := true } }
  { demoB with state := { request := true, test := true } } (demo_states _ .invalid).1
  (demo_states .invalid _).2.1 (demo_states _ _).2.2.1 ⟨rfl, rfl⟩ rfl ⟨rfl, rfl⟩ rfl rfl .accept (by decide) demoAcct
  [demoSess (zeros 16) ⟨9#32, [⟨1#32, 2#32⟩, ⟨4#32, 4#32⟩]⟩, demoSess (List.replicate 16 5#8) ⟨5#32, []⟩]
  [rsess 5#8, ⟨List.replicate 16 1#8, some ⟨true, [], 0, []⟩⟩, rsess 0#8]
  (by
    intro t ht e he _
    simp only [List.mem_cons, List.not_mem_nil, or_false] at ht
    rcases ht with rfl | rfl
    · simp only [demoSess, Option.some.injEq] at he
      subst he
      exact ⟨rfl, rfl, rfl, by decide, by decide⟩
    · simp only [demoSess, Option.some.injEq] at he
      subst he
      exact ⟨rfl, rfl, rfl, by decide, by decide⟩)
  (by decide) (by decide) (by decide)

end Owamp.Props
