import Verif.Lemmas.MoreServe
/-!
# The calls of a client, with more to be read
-/
namespace Owamp.More
open Owamp.Ctl Owamp.Codec Owamp.Spec.Whole Owamp.Spec.Channel

variable {ρ : Type}

/-- A call that succeeds does so with more behind what it has read. -/
theorem succeeds_stable (r : Conn → Bool × Conn) (h : ∀ q c c', r c = (true, c') → r (more q c) = (true, more q c')) : Stable (succeeds r) := by
  intro q c c' v e
  unfold succeeds at e ⊢
  cases hr : r c with
  | mk b c1 =>
    rw [hr] at e
    cases b with
    | false => cases e
    | true => rw [h q c c1 hr]; cases e; rfl

theorem writeSetupResponse_more (q : Bytes) (c : Conn) (token : Bytes) :
    writeSetupResponse (more q c) token = ((writeSetupResponse c token).1, more q (writeSetupResponse c token).2) := by
  unfold writeSetupResponse
  by_cases h0 : c.state ≠ .setupOnly
  · rw [if_pos h0, if_pos (show (more q c).state ≠ .setupOnly from h0)]
  · rw [if_neg h0, if_neg (show ¬ (more q c).state ≠ .setupOnly from h0)]
    have hm : (more q c).msg = c.msg := rfl
    have hc : (more q c).cipher = c.cipher := rfl
    have ho : (more q c).mode = c.mode := rfl
    have hu : (more q c).userid = c.userid := rfl
    have hi : (more q c).writeIV = c.writeIV := rfl
    dsimp only
    simp only [hm, hc, ho, hu, hi]
    generalize (if c.cipher = true then put (put (put (put32 (put c.msg 0 (zeros 164)) 0 c.mode) 4 c.userid) 84 token) 148 c.writeIV
      else put32 (put c.msg 0 (zeros 164)) 0 c.mode) = m
    have hw := writeN_more q { c with msg := m } (get m 0 164)
    unfold more at hw ⊢
    dsimp only at hw ⊢
    rw [hw]
    generalize writeN { c with msg := m } (get m 0 164) = p
    obtain ⟨r, c1⟩ := p
    cases r <;> rfl

theorem finishOpen_more (q : Bytes) (c c' : Conn) (token : Bytes) (h : finishOpen c token = (true, c')) :
    finishOpen (more q c) token = (true, more q c') := by
  unfold finishOpen at h ⊢
  rw [writeSetupResponse_more]
  generalize writeSetupResponse c token = p at h ⊢
  obtain ⟨r, c1⟩ := p
  cases r with
  | none => cases h
  | some _ =>
    dsimp only at h ⊢
    cases e : readServerStart c1 with
    | mk r c2 =>
      rw [e] at h
      cases r with
      | none => cases h
      | some v =>
        rw [serverStart_stable q c1 c2 v e]
        obtain ⟨a, u⟩ := v
        dsimp only at h ⊢
        have h1 := congrArg Prod.fst h
        have h2 : c2 = c' := congrArg Prod.snd h
        dsimp only at h1
        rw [h1, h2]

theorem openIn_more (q : Bytes) (K : Cbc.Kdf) (e : OpenEnv) (g : Greeting) (pf : Bytes) (c c' : Conn) (x : Choice)
    (h : openIn K e g pf c x = (true, c')) : openIn K e g pf (more q c) x = (true, more q c') := by
  cases x with
  | mode m =>
    unfold openIn at h ⊢
    dsimp only at h ⊢
    have hm : makeToken K e g pf { more q c with mode := m } =
        ((makeToken K e g pf { c with mode := m }).1, more q (makeToken K e g pf { c with mode := m }).2) := by
      unfold makeToken
      have hc : Conn.cipher { more q c with mode := m } = Conn.cipher { c with mode := m } := rfl
      rw [hc]
      split <;> rfl
    rw [hm]
    exact finishOpen_more q _ _ _ h
  | _ => cases h

theorem controlOpen_more (q : Bytes) (K : Cbc.Kdf) (e : OpenEnv) (c c' : Conn) (h : controlOpen K e c = (true, c')) :
    controlOpen K e (more q c) = (true, more q c') := by
  unfold controlOpen at h ⊢
  cases eg : readServerGreeting c with
  | mk r c1 =>
    rw [eg] at h
    cases r with
    | none => cases h
    | some g =>
      rw [greeting_stable q c c1 g eg]
      dsimp only at h ⊢
      unfold answerGreeting at h ⊢
      dsimp only at h ⊢
      have hu : (e.userid.elim (more q c1) fun u => if g.modes &&& e.requested &&& 14#32 ≠ 0 then { more q c1 with userid := useridBuf u } else more q c1) =
          more q (e.userid.elim c1 fun u => if g.modes &&& e.requested &&& 14#32 ≠ 0 then { c1 with userid := useridBuf u } else c1) := by
        cases e.userid with
        | none => rfl
        | some u => dsimp only [Option.elim]; split <;> rfl
      rw [hu]
      generalize (e.userid.elim c1 fun u => if g.modes &&& e.requested &&& 14#32 ≠ 0 then { c1 with userid := useridBuf u } else c1) = c2 at h ⊢
      cases ea : askPF e (g.modes &&& e.requested) with
      | error => rw [ea] at h; cases h
      | unknown => rw [ea] at h; exact openIn_more q K e g [] c2 c' _ h
      | known pf => rw [ea] at h; exact openIn_more q K e g pf c2 c' _ h

theorem writeStartSessions_more (q : Bytes) (H : Mac) (c : Conn) :
    writeStartSessions H (more q c) = ((writeStartSessions H c).1, more q (writeStartSessions H c).2) := by
  unfold writeStartSessions
  have hs : (more q c).state = c.state := rfl
  have hm : (more q c).msg = c.msg := rfl
  rw [hs, hm]
  split
  · rfl
  · dsimp only
    rw [sendMsg_more]
    generalize sendMsg H c _ 1 = p
    obtain ⟨r, c1⟩ := p
    cases r <;> rfl

theorem start_more (q : Bytes) (H : Mac) (rcv snd : Bool) (c c' : Conn) (h : Client.start H rcv snd c = (true, c')) :
    Client.start H rcv snd (more q c) = (true, more q c') := by
  unfold Client.start at h ⊢
  rw [writeStartSessions_more]
  generalize writeStartSessions H c = p at h ⊢
  obtain ⟨r, c1⟩ := p
  cases r with
  | none => cases h
  | some _ =>
    dsimp only at h ⊢
    cases rcv with
    | false => cases h
    | true =>
      rw [if_neg (by decide)] at h ⊢
      cases e : readStartAck H c1 with
      | mk r c2 =>
        rw [e] at h
        cases r with
        | none => cases h
        | some a =>
          rw [startAck_stable H q c1 c2 a e]
          cases a with
          | accept =>
            dsimp only at h ⊢
            cases snd with
            | false => cases h
            | true => cases h; rfl
          | _ => cases h

theorem stop_more (q : Bytes) (H : Mac) (t : Client.Ends ρ) (c c' : Conn) (h : Client.stop H t c = (true, c')) :
    Client.stop H t (more q c) = (true, more q c') := by
  unfold Client.stop at h ⊢
  cases es : t.stopSend with
  | none => rw [es] at h; cases h
  | some p =>
    obtain ⟨acc, num⟩ := p
    rw [es] at h
    dsimp only at h ⊢
    rw [writeStopSessions_more]
    generalize writeStopSessions H c acc num t.tests = p at h ⊢
    obtain ⟨r, c1, ts⟩ := p
    cases r with
    | none => cases h
    | some _ =>
      dsimp only at h ⊢
      have hw : (more q c1).twoway = c1.twoway := rfl
      rw [hw]
      by_cases h1 : c1.twoway = true
      · rw [if_pos h1] at h; cases h
      · rw [if_neg h1] at h ⊢
        cases e : readRequestType c1 with
        | mk ty c2 =>
          rw [e] at h
          cases ty with
          | stopSessions =>
            rw [requestType_more q c1 c2 _ (by decide) (by decide) (by decide) e]
            dsimp only at h ⊢
            by_cases hr : (!t.stopRecv) = true
            · rw [if_pos hr] at h; cases h
            · rw [if_neg hr] at h ⊢
              cases e2 : readStopSessions H t.file c2 ts with
              | mk r p =>
                obtain ⟨c3, ts3⟩ := p
                rw [e2] at h
                cases r with
                | none => cases h
                | some a =>
                  rw [readStopSessions_more q H t.file c2 c3 ts ts3 a e2]
                  dsimp only at h ⊢
                  by_cases hf : t.freed = true
                  · rw [if_pos hf] at h ⊢; cases h; rfl
                  · rw [if_neg hf] at h; cases h
          | _ => cases h

theorem wait_more (q : Bytes) (H : Mac) (t : Client.Ends ρ) (c c' : Conn) (h : Client.wait H .message t c = (.ok, c')) :
    Client.wait H .message t (more q c) = (.ok, more q c') := by
  unfold Client.wait at h ⊢
  dsimp only at h ⊢
  cases e : readRequestType c with
  | mk ty c2 =>
    rw [e] at h
    cases ty with
    | stopSessions =>
      rw [requestType_more q c c2 _ (by decide) (by decide) (by decide) e]
      dsimp only at h ⊢
      have hw : (more q c2).twoway = c2.twoway := rfl
      rw [hw]
      by_cases h1 : c2.twoway = true
      · rw [if_pos h1] at h; cases h
      · rw [if_neg h1] at h ⊢
        cases es : t.stopSend with
        | none => rw [es] at h; cases h
        | some p =>
          obtain ⟨acc, num⟩ := p
          rw [es] at h
          dsimp only at h ⊢
          by_cases hr : (!t.stopRecv) = true
          · rw [if_pos hr] at h; cases h
          · rw [if_neg hr] at h ⊢
            cases e2 : readStopSessions H t.file c2 t.tests with
            | mk r p =>
              obtain ⟨c3, ts3⟩ := p
              rw [e2] at h
              cases r with
              | none => cases h
              | some a =>
                rw [readStopSessions_more q H t.file c2 c3 t.tests ts3 a e2]
                dsimp only at h ⊢
                rw [writeStopSessions_more]
                generalize writeStopSessions H c3 a num ts3 = p at h ⊢
                obtain ⟨r, c4, ts4⟩ := p
                cases r with
                | none => cases h
                | some _ =>
                  dsimp only at h ⊢
                  by_cases hf : t.freed = true
                  · rw [if_pos hf] at h ⊢; cases h; rfl
                  · rw [if_neg hf] at h; cases h
    | _ => cases h

end Owamp.More

namespace Owamp.More
open Owamp.Ctl Owamp.Codec Owamp.Spec.Whole Owamp.Spec.Channel

/-- The server's answer with more behind it. -/
theorem askServer_more (q : Bytes) (H : Mac) (e : ClientEnv) (p' : Conn → Conn) (hp : ∀ c, p' c = more q (e.peer c)) (cs cr : Bool)
    (snd rcv : SockAddr) (sid : Bytes) (c c' : Conn) (v : SockAddr × SockAddr × Bytes) (h : askServer H e cs cr snd rcv sid c = (.ok v, c')) :
    askServer H { e with peer := p' } cs cr snd rcv sid c = (.ok v, more q c') := by
  unfold askServer at h ⊢
  dsimp only at h ⊢
  generalize writeTestRequest H c _ = p at h ⊢
  obtain ⟨r, c1⟩ := p
  cases r with
  | none => cases h
  | some _ =>
    dsimp only at h ⊢
    rw [hp]
    cases e2 : readAcceptSession H (e.peer c1) with
    | mk r c2 =>
      rw [e2] at h
      cases r with
      | none => cases h
      | some a =>
        rw [acceptSession_stable H q _ c2 a e2]
        obtain ⟨acc, port, answer⟩ := a
        dsimp only at h ⊢
        by_cases ha : acc = .accept
        · rw [if_pos ha] at h ⊢; cases h; rfl
        · rw [if_neg ha] at h; cases h

/-- A session that is granted is granted with more behind the answer. -/
theorem sessionRequest_more (q : Bytes) (H : Mac) (e : ClientEnv) (p' : Conn → Conn) (hp : ∀ c, p' c = more q (e.peer c)) (tests : List Mine)
    (c : Conn) (h : (sessionRequest H e tests c).ret = true) :
    sessionRequest H { e with peer := p' } tests c = { sessionRequest H e tests c with c := more q (sessionRequest H e tests c).c } := by
  have remote : ∀ (tests : List Mine) (snd rcv : SockAddr) (c : Conn), (requestRemote H e tests snd rcv c).ret = true →
      requestRemote H { e with peer := p' } tests snd rcv c =
        { requestRemote H e tests snd rcv c with c := more q (requestRemote H e tests snd rcv c).c } := by
    intro tests snd rcv c h
    unfold requestRemote at h ⊢
    dsimp only at h ⊢
    generalize (if e.confSender = true then Except.ok snd else (e.endpoint snd).map fun p => snd.setPort p) = x at h ⊢
    cases x with
    | error x => cases h
    | ok snd =>
      dsimp only at h ⊢
      cases ea : askServer H e (!c.twoway && e.confSender) (!c.twoway && e.confReceiver) snd rcv (zeros 16) c with
      | mk r c1 =>
        rw [ea] at h
        cases r with
        | error x => cases h
        | ok v =>
          rw [askServer_more q H e p' hp _ _ _ _ _ c c1 v ea]
          obtain ⟨s, r, sid⟩ := v
          dsimp only at h ⊢
          repeat' split at h
          all_goals first | (cases h; done) | skip
          all_goals simp_all [keep]
  have loc : ∀ (tests : List Mine) (snd rcv : SockAddr) (c : Conn), (requestLocal H e tests snd rcv c).ret = true →
      requestLocal H { e with peer := p' } tests snd rcv c =
        { requestLocal H e tests snd rcv c with c := more q (requestLocal H e tests snd rcv c).c } := by
    intro tests snd rcv c h
    unfold requestLocal at h ⊢
    dsimp only at h ⊢
    cases en : e.newSid with
    | none => rw [en] at h; cases h
    | some sid =>
      rw [en] at h
      dsimp only at h ⊢
      by_cases h1 : (!e.sched sid) = true
      · rw [if_pos h1] at h; cases h
      · rw [if_neg h1] at h
        rw [if_neg h1, if_neg h1]
        cases ep : e.policy false rcv snd with
        | some x => rw [ep] at h; cases h
        | none =>
          rw [ep] at h
          dsimp only at h ⊢
          cases ee : e.endpoint rcv with
          | error x => rw [ee] at h; cases h
          | ok p =>
            rw [ee] at h
            dsimp only at h ⊢
            by_cases h2 : (!e.confSender) = true
            · rw [if_pos h2] at h; cases h
            · rw [if_neg h2] at h
              rw [if_neg h2, if_neg h2]
              cases ea : askServer H e e.confSender e.confReceiver snd (rcv.setPort p) sid c with
              | mk r c1 =>
                rw [ea] at h
                cases r with
                | error x => cases h
                | ok v =>
                  have hk := askServer_more q H e p' hp _ _ _ _ _ c c1 v ea
                  rw [en] at hk
                  rw [hk]
                  obtain ⟨s, r, sid⟩ := v
                  dsimp only at h ⊢
                  cases eh : e.hook r s with
                  | some x => rw [eh] at h; cases h
                  | none => rfl
  unfold sessionRequest at h ⊢
  by_cases h0 : (!c.state.request) = true
  · rw [if_pos h0] at h; cases h
  · rw [if_neg h0] at h
    rw [if_neg h0, if_neg h0]
    dsimp only at h ⊢
    generalize given e.receiver e.confReceiver e.localAddr = g1 at h ⊢
    generalize given e.sender e.confSender e.localAddr = g2 at h ⊢
    cases g1 with
    | none => cases h
    | some rs =>
      cases g2 with
      | none => cases h
      | some ss =>
        dsimp only at h ⊢
        cases epp : pickPair e.v4only e.v6only rs ss with
        | none => rw [epp] at h; cases h
        | some p =>
          rw [epp] at h
          obtain ⟨r, s⟩ := p
          dsimp only at h ⊢
          by_cases h1 : (c.twoway || e.confReceiver) = true
          · rw [if_pos h1] at h
            rw [if_pos h1, if_pos h1]
            exact remote tests _ _ c h
          · rw [if_neg h1] at h
            rw [if_neg h1, if_neg h1]
            exact loc tests _ _ c h

end Owamp.More
