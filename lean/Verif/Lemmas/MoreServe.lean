import Verif.Lemmas.MoreAll
/-!
# The server's loop, with more to be read
-/
namespace Owamp.More
open Owamp.Ctl Owamp.Codec Owamp.Spec.Whole Owamp.Spec.Channel

variable {ρ : Type}

theorem sendHmacAdd_more (q : Bytes) (c : Conn) (t : Bytes) : sendHmacAdd (more q c) t = more q (sendHmacAdd c t) := by
  unfold sendHmacAdd
  have hc : (more q c).cipher = c.cipher := rfl
  rw [hc]
  split <;> rfl

theorem sendDigest_more (q : Bytes) (H : Mac) (c : Conn) : sendDigest H (more q c) = ((sendDigest H c).1, more q (sendDigest H c).2) := by
  unfold sendDigest
  have hc : (more q c).cipher = c.cipher := rfl
  rw [hc]
  split <;> rfl

theorem sendBuf_more (q : Bytes) (c : Conn) (bs : Bytes) :
    sendBuf (more q c) bs = ((sendBuf c bs).1, (sendBuf c bs).2.1, more q (sendBuf c bs).2.2) := by
  unfold sendBuf
  have hc : (more q c).cipher = c.cipher := rfl
  rw [hc]
  split
  · dsimp only
    have := writeN_more q { c with writeIV := (Cbc.blockEncrypt c.aesKey c.writeIV bs).2 } (Cbc.blockEncrypt c.aesKey c.writeIV bs).1
    unfold more at this ⊢
    dsimp only at this ⊢
    rw [this]
  · dsimp only
    rw [writeN_more]

theorem sendSkips_more (q : Bytes) : ∀ (size : Nat) (c : Conn) (data : Bytes),
    Ctl.sendSkips (more q c) data size = ((Ctl.sendSkips c data size).1, more q (Ctl.sendSkips c data size).2) := by
  intro size
  induction size using Nat.strongRecOn with
  | _ size ih =>
    intro c data
    rw [Ctl.sendSkips, Ctl.sendSkips]
    by_cases h1 : 16 ≤ size
    · rw [if_pos h1, if_pos h1]
      by_cases h2 : data.length < 16
      · rw [if_pos h2, if_pos h2]; rfl
      · rw [if_neg h2, if_neg h2]
        dsimp only
        rw [show sendHmacAdd { more q c with msg := put (more q c).msg 0 (data.take 16) } (data.take 16)
          = more q (sendHmacAdd { c with msg := put c.msg 0 (data.take 16) } (data.take 16)) from
            sendHmacAdd_more q { c with msg := put c.msg 0 (data.take 16) } _, sendBlocks_more]
        generalize sendBlocks (sendHmacAdd { c with msg := put c.msg 0 (data.take 16) } (data.take 16)) (data.take 16) = p
        obtain ⟨r, c1⟩ := p
        cases r with
        | done => exact ih (size - 16) (by omega) c1 _
        | _ => rfl
    · rw [if_neg h1, if_neg h1]
      by_cases h2 : size = 8
      · rw [if_pos h2, if_pos h2]
        by_cases h3 : data.length < 8
        · rw [if_pos h3, if_pos h3]; rfl
        · rw [if_neg h3, if_neg h3]
          dsimp only
          rw [show sendHmacAdd { more q c with msg := put (more q c).msg 0 (data.take 8 ++ zeros 8) } (data.take 8 ++ zeros 8)
            = more q (sendHmacAdd { c with msg := put c.msg 0 (data.take 8 ++ zeros 8) } (data.take 8 ++ zeros 8)) from
              sendHmacAdd_more q { c with msg := put c.msg 0 (data.take 8 ++ zeros 8) } _, sendBlocks_more]
          generalize sendBlocks (sendHmacAdd { c with msg := put c.msg 0 (data.take 8 ++ zeros 8) } (data.take 8 ++ zeros 8)) (data.take 8 ++ zeros 8) = p
          obtain ⟨r, c1⟩ := p
          cases r <;> rfl
      · rw [if_neg h2, if_neg h2]
        by_cases h3 : size ≠ 0
        · rw [if_pos h3, if_pos h3]; rfl
        · rw [if_neg h3, if_neg h3]

theorem writeStopLoop_more (q : Bytes) : ∀ (ts : List (Sess ρ)) (c : Conn), writeStopLoop (more q c) ts =
    ((writeStopLoop c ts).1, more q (writeStopLoop c ts).2.1, (writeStopLoop c ts).2.2) := by
  intro ts
  induction ts with
  | nil => intro c; rfl
  | cons t ts ih =>
    intro c
    unfold writeStopLoop
    cases t.ep with
    | none => dsimp only; rw [ih]
    | some e =>
      dsimp only
      by_cases h1 : ¬ e.send = true
      · rw [if_pos h1, if_pos h1, ih]
      · rw [if_neg h1, if_neg h1, sendHmacAdd_more, sendBuf_more]
        generalize sendBuf (sendHmacAdd c t.sid) t.sid = p
        obtain ⟨r, b, c1⟩ := p
        cases r with
        | done =>
          dsimp only
          rw [sendSkips_more]
          generalize Ctl.sendSkips c1 e.skipData e.skipSize = p
          obtain ⟨r, c2⟩ := p
          cases r with
          | none => rfl
          | some _ => dsimp only; rw [ih]
        | _ => rfl

theorem writeStopSessions_more (q : Bytes) (H : Mac) (c : Conn) (acc : Accept) (num : U32) (ts : List (Sess ρ)) :
    writeStopSessions H (more q c) acc num ts = ((writeStopSessions H c acc num ts).1, more q (writeStopSessions H c acc num ts).2.1,
      (writeStopSessions H c acc num ts).2.2) := by
  unfold writeStopSessions
  have hs : (more q c).state = c.state := rfl
  have hw : (more q c).twoway = c.twoway := rfl
  have hm : (more q c).msg = c.msg := rfl
  rw [hs, hw, hm]
  by_cases h0 : ¬ (c.state.request = true ∧ c.state.test = true)
  · rw [if_pos h0, if_pos h0]
  · rw [if_neg h0, if_neg h0]
    dsimp only
    generalize put32 (put8 (put8 (put c.msg 0 (zeros 16)) 0 3#8) 1 acc.code) 4 num = m
    by_cases h1 : c.twoway = true
    · rw [if_pos h1, if_pos h1, sendMsg_more]
      generalize sendMsg H c m 1 = p
      obtain ⟨r, c1⟩ := p
      cases r <;> rfl
    · rw [if_neg h1, if_neg h1]
      rw [show sendHmacAdd { more q c with state := c.state, twoway := c.twoway, msg := m } (get m 0 16) = more q (sendHmacAdd { c with msg := m } (get m 0 16)) from
        sendHmacAdd_more q { c with msg := m } _, sendBlocks_more]
      generalize sendBlocks (sendHmacAdd { c with msg := m } (get m 0 16)) (get m 0 16) = p
      obtain ⟨r, c1⟩ := p
      cases r with
      | done =>
        dsimp only
        rw [writeStopLoop_more]
        generalize writeStopLoop c1 ts = p
        obtain ⟨r, c2, ts2⟩ := p
        cases r with
        | none => rfl
        | some _ =>
          dsimp only
          rw [sendDigest_more]
          generalize sendDigest H c2 = p
          obtain ⟨d, c3⟩ := p
          dsimp only
          rw [show ({ more q c3 with msg := put (more q c3).msg 0 d } : Conn) = more q { c3 with msg := put c3.msg 0 d } from rfl, sendBlocks_more]
          generalize sendBlocks { c3 with msg := put c3.msg 0 d } d = p
          obtain ⟨r, c4⟩ := p
          cases r <;> rfl
      | _ => rfl

theorem writeAcceptSession_more (q : Bytes) (H : Mac) (c : Conn) (acc : Accept) (port : U16) (sid : Option Bytes) :
    writeAcceptSession H (more q c) acc port sid = ((writeAcceptSession H c acc port sid).1, more q (writeAcceptSession H c acc port sid).2) := by
  unfold writeAcceptSession
  have hs : (more q c).state = c.state := rfl
  rw [hs]
  by_cases h0 : ¬ c.state.acceptSession = true
  · rw [if_pos h0, if_pos h0]
  · rw [if_neg h0, if_neg h0]
    dsimp only
    rw [sendMsg_more]
    generalize sendMsg H c _ 2 = p
    obtain ⟨r, c1⟩ := p
    cases r <;> rfl

theorem writeStartAck_more (q : Bytes) (H : Mac) (c : Conn) (acc : Accept) :
    writeStartAck H (more q c) acc = ((writeStartAck H c acc).1, more q (writeStartAck H c acc).2) := by
  unfold writeStartAck
  have hs : (more q c).state = c.state := rfl
  have hm : (more q c).msg = c.msg := rfl
  rw [hs, hm]
  by_cases h0 : ¬ c.state.startAck = true
  · rw [if_pos h0, if_pos h0]
  · rw [if_neg h0, if_neg h0]
    dsimp only
    rw [sendMsg_more]
    generalize sendMsg H c _ 1 = p
    obtain ⟨r, c1⟩ := p
    cases r with
    | done => dsimp only; congr 1; split <;> rfl
    | _ => rfl

theorem writeFetchAck_more (q : Bytes) (H : Mac) (c : Conn) (a : FetchAck) :
    writeFetchAck H (more q c) a = ((writeFetchAck H c a).1, more q (writeFetchAck H c a).2) := by
  unfold writeFetchAck
  have hs : (more q c).state = c.state := rfl
  have hm : (more q c).msg = c.msg := rfl
  rw [hs, hm]
  by_cases h0 : ¬ c.state.fetchAck = true
  · rw [if_pos h0, if_pos h0]
  · rw [if_neg h0, if_neg h0]
    dsimp only
    rw [sendMsg_more]
    generalize sendMsg H c _ 1 = p
    obtain ⟨r, c1⟩ := p
    cases r with
    | done => dsimp only; congr 1; split <;> rfl
    | _ => rfl

theorem writeN_inp (c : Conn) (bs : Bytes) : (writeN c bs).2.inp = c.inp := by
  unfold writeN
  split <;> rfl

theorem sendBlocks_inp (c : Conn) (bs : Bytes) : (sendBlocks c bs).2.inp = c.inp := by
  unfold sendBlocks sendBuf
  split
  · exact writeN_inp _ _
  · exact writeN_inp _ _

theorem sendMsg_inp (H : Mac) (c : Conn) (m : Bytes) (k : Nat) : (sendMsg H c m k).2.inp = c.inp := by
  have e : sendMsg H c m k =
      sendBlocks { (sendDigest H (sendHmacAdd { c with msg := m } (get m 0 (16 * k)))).2 with
        msg := put m (16 * k) (sendDigest H (sendHmacAdd { c with msg := m } (get m 0 (16 * k)))).1 }
        (get (put m (16 * k) (sendDigest H (sendHmacAdd { c with msg := m } (get m 0 (16 * k)))).1) 0 (16 * (k + 1))) := rfl
  rw [e, sendBlocks_inp]
  show (sendDigest H (sendHmacAdd { c with msg := m } (get m 0 (16 * k)))).2.inp = c.inp
  unfold sendDigest sendHmacAdd
  repeat' split
  all_goals rfl

theorem writeAcceptSession_inp (H : Mac) (c : Conn) (acc : Accept) (port : U16) (sid : Option Bytes) :
    (writeAcceptSession H c acc port sid).2.inp = c.inp := by
  unfold writeAcceptSession
  by_cases h0 : ¬ c.state.acceptSession = true
  · rw [if_pos h0]
  · rw [if_neg h0]
    dsimp only
    have h := sendMsg_inp H c (match sid with
      | some s => put (put16 (put8 (zeros 400) 0 acc.code) 2 port) 4 s
      | none => put16 (put8 (zeros 400) 0 acc.code) 2 port) 2
    generalize sendMsg H c _ 2 = p at h ⊢
    obtain ⟨r, c1⟩ := p
    cases r <;> exact h

/-- Reading the type of a request with more behind it: the same, or all has been read and there is no request. -/
theorem requestType_ends (q : Bytes) (c : Conn) : readRequestType (more q c) = ((readRequestType c).1, more q (readRequestType c).2) ∨
    (((readRequestType c).1 = .sockClose ∨ (readRequestType c).1 = .sockIntr) ∧ (readRequestType c).2.inp = []) := by
  unfold readRequestType
  have hs : (more q c).state = c.state := rfl
  rw [hs]
  by_cases h0 : ¬ c.state.request = true ∨ c.state.isReading = true
  · rw [if_pos h0, if_pos h0]; exact .inl rfl
  · rw [if_neg h0, if_neg h0]
    have hd : recvBlocks (more q c) 0 1 = ((recvBlocks c 0 1).1, more q (recvBlocks c 0 1).2) ∨
        ((recvBlocks c 0 1).1 ≠ .done ∧ (recvBlocks c 0 1).2.inp = []) := by
      have hr : readN (more q c) (1 * 16) = ((readN c (1 * 16)).1, more q (readN c (1 * 16)).2) ∨
          ((∀ bs, (readN c (1 * 16)).1 ≠ .full bs) ∧ (readN c (1 * 16)).2.inp = []) := by
        unfold readN
        have hf : (more q c).faults = c.faults := rfl
        have hi : (more q c).inp = c.inp ++ q := rfl
        rw [hf, hi]
        split
        · rename_i k fs _
          by_cases hk : k ≤ c.inp.length
          · exact .inl (by rw [List.drop_append_of_le_length hk]; rfl)
          · exact .inr ⟨(fun bs h => by cases h), List.drop_eq_nil_of_le (by omega)⟩
        · rename_i k fs _
          by_cases hk : k ≤ c.inp.length
          · exact .inl (by rw [List.drop_append_of_le_length hk]; rfl)
          · exact .inr ⟨(fun bs h => by cases h), List.drop_eq_nil_of_le (by omega)⟩
        · by_cases hn : 1 * 16 ≤ c.inp.length
          · rw [if_pos (show 1 * 16 ≤ (c.inp ++ q).length by rw [List.length_append]; omega), if_pos hn, List.take_append_of_le_length hn,
              List.drop_append_of_le_length hn]
            exact .inl rfl
          · rw [if_neg hn]
            exact .inr ⟨(fun bs h => by cases h), rfl⟩
      unfold recvBlocks
      rcases hr with hr | ⟨h1, h2⟩
      · rw [hr]
        left
        generalize readN c (1 * 16) = p
        obtain ⟨r, c1⟩ := p
        cases r with
        | full bs =>
          dsimp only
          have hc : (more q c1).cipher = c1.cipher := rfl
          rw [hc]
          split <;> rfl
        | _ => rfl
      · right
        generalize readN c (1 * 16) = p at h1 h2 ⊢
        obtain ⟨r, c1⟩ := p
        cases r with
        | full bs => exact absurd rfl (h1 bs)
        | short bs => exact ⟨(fun h => by cases h), h2⟩
        | intr => exact ⟨(fun h => by cases h), h2⟩
        | err => exact ⟨(fun h => by cases h), h2⟩
    rcases hd with hd | ⟨h1, h2⟩
    · rw [hd]
      left
      generalize recvBlocks c 0 1 = p
      obtain ⟨r, c1⟩ := p
      cases r with
      | done =>
        dsimp only
        have hm : (more q c1).msg = c1.msg := rfl
        have hs1 : (more q c1).state = c1.state := rfl
        rw [hm, hs1]
        repeat' split
        all_goals rfl
      | _ => rfl
    · right
      generalize recvBlocks c 0 1 = p at h1 h2 ⊢
      obtain ⟨r, c1⟩ := p
      cases r with
      | done => exact absurd rfl h1
      | closed => exact ⟨.inl rfl, h2⟩
      | intr => exact ⟨.inr rfl, h2⟩
      | err => exact ⟨.inl rfl, h2⟩

/-- A test request that is refused because of what it says is refused with more behind it, too. -/
theorem testRequest_refused_more (q : Bytes) (H : Mac) (remote loc : SockAddr) (c c' : Conn) (a : Accept) (ha : a ≠ .invalid)
    (h : readTestRequest H true remote loc c = (none, a, c')) :
    readTestRequest H true remote loc (more q c) = (none, a, more q c') := by
  unfold readTestRequest at h ⊢
  have hs : (more q c).state = c.state := rfl
  have hw : (more q c).twoway = c.twoway := rfl
  rw [hs, hw]
  by_cases h0 : ¬ (if c.twoway then c.state.testRequestTW else c.state.testRequest) = true
  · rw [if_pos h0] at h; cases h; exact absurd rfl ha
  · rw [if_neg h0] at h ⊢
    simp only [if_true] at h ⊢
    cases e1 : recvBlocks c 16 6 with
    | mk t c2 =>
      rw [e1] at h
      cases t with
      | done =>
        rw [recvBlocks_more q _ _ _ _ e1]
        dsimp only at h ⊢
        rw [checkMsg_more]
        cases e2 : checkMsg H c2 6 with
        | mk b c3 =>
          rw [e2] at h
          cases b with
          | false => cases h; exact absurd rfl ha
          | true =>
            dsimp only at h ⊢
            have hm : (more q c3).msg = c3.msg := rfl
            have hw3 : (more q c3).twoway = c3.twoway := rfl
            rw [hm, hw3]
            by_cases hd : ¬ (decodePreamble true c3.msg c3.twoway).1 = true ∧ True
            · replace h := (if_pos hd).symm.trans h
              refine (if_pos hd).trans ?_
              cases h
              rfl
            · replace h := (if_neg hd).symm.trans h
              refine (if_neg hd).trans ?_
              split at h
              · cases h; rfl
              · split at h
                · cases h; rfl
                · by_cases ht : c3.twoway = true
                  · replace h := (if_pos ht).symm.trans h
                    cases h
                  · replace h := (if_neg ht).symm.trans h
                    split at h
                    · cases h; exact absurd rfl ha
                    · cases h
      | closed => cases h; exact absurd rfl ha
      | intr => cases h; exact absurd rfl ha
      | err => cases h; exact absurd rfl ha

/-- A pass of the loop and the same with more to be read: they are the same, or what the first did is the beginning of what
the second did and the first is at the end of the loop or of its input. -/
def Goes (q : Bytes) (P Q : Pass) : Prop :=
  (Q.heard = P.heard ∧ Q.rc = P.rc ∧ Q.c = more q P.c) ∨ (P.heard <+: Q.heard ∧ (P.rc = .fatal ∨ P.c.inp = []))

theorem Goes.same (q : Bytes) (h : List ReqType) (b b' : Bool) (rc : Rc) (c : Conn) : Goes q ⟨h, b, rc, c⟩ ⟨h, b', rc, more q c⟩ := .inl ⟨rfl, rfl, rfl⟩

theorem Goes.fatal (q : Bytes) (b : Bool) (c : Conn) (Q : Pass) : Goes q ⟨[], b, .fatal, c⟩ Q := .inr ⟨List.nil_prefix, .inl rfl⟩

theorem unexpected_goes (q : Bytes) (H : Mac) (c : Conn) : Goes q (unexpectedRequestType H c) (unexpectedRequestType H (more q c)) := by
  unfold unexpectedRequestType
  have hw : (more q c).twoway = c.twoway := rfl
  rw [hw]
  by_cases h : ¬ c.twoway = true
  · rw [if_pos h, if_pos h]; exact Goes.same ..
  · rw [if_neg h, if_neg h]
    dsimp only
    rw [show (more q c).setState { (more q c).state with acceptSession := true } = more q (c.setState { c.state with acceptSession := true }) from rfl,
      writeAcceptSession_more]
    exact .inl ⟨rfl, rfl, rfl⟩

theorem test_goes (q : Bytes) (H : Mac) (t : Turn ρ) (c : Conn) : Goes q (processTestRequest H t c) (processTestRequest H t (more q c)) := by
  unfold processTestRequest
  have hw : (more q c).twoway = c.twoway := rfl
  rw [hw]
  cases e : readTestRequest H true t.remote t.localAddr c with
  | mk r p =>
    obtain ⟨a, c1⟩ := p
    cases r with
    | none =>
      by_cases ha : a = .invalid
      · dsimp only
        rw [if_pos ha]
        exact Goes.fatal ..
      · rw [testRequest_refused_more q H _ _ c c1 a ha e]
        dsimp only
        rw [if_neg ha, if_neg ha]
        have hw1 : (more q c1).twoway = c1.twoway := rfl
        rw [hw1]
        by_cases h2 : c1.twoway = true
        · rw [if_pos h2, if_pos h2, writeAcceptSession_more]; exact Goes.same ..
        · rw [if_neg h2, if_neg h2]; exact Goes.same ..
    | some r =>
      rw [readTestRequest_server_more q H _ _ c c1 r a e]
      dsimp only
      cases t.onTest r with
      | none => exact Goes.same ..
      | some p =>
        obtain ⟨acc, port, sid⟩ := p
        dsimp only
        rw [writeAcceptSession_more]
        generalize writeAcceptSession H c1 acc port sid = p
        obtain ⟨r, c2⟩ := p
        cases r <;> exact Goes.same ..

theorem fetch_goes (q : Bytes) (H : Mac) (t : Turn ρ) (ht : Silent t) (c : Conn) :
    Goes q (processFetchSession H t c) (processFetchSession H t (more q c)) := by
  unfold processFetchSession
  cases e : readFetchSession H c with
  | mk r c1 =>
    cases r with
    | none => exact Goes.fatal ..
    | some f =>
      rw [fetchSession_stable H q c c1 f e]
      dsimp only
      cases ef : t.onFetch f with
      | fatal => exact Goes.same ..
      | refuse acc =>
        dsimp only
        rw [writeFetchAck_more]
        generalize writeFetchAck H c1 _ = p
        obtain ⟨r, c2⟩ := p
        cases r <;> exact Goes.same ..
      | serve ack send =>
        dsimp only
        rw [writeFetchAck_more]
        generalize writeFetchAck H c1 _ = p
        obtain ⟨r, c2⟩ := p
        cases r with
        | none => exact Goes.same ..
        | some _ =>
          dsimp only
          rw [show send (more q c2) = ((send c2).1, (send c2).2.1, more q (send c2).2.2) from ht f ack send ef c2 q]
          generalize send c2 = p
          obtain ⟨r, b, c3⟩ := p
          cases r <;> exact Goes.same ..

theorem stop_goes (q : Bytes) (H : Mac) (t : Turn ρ) (c : Conn) : Goes q (Ctl.stopSessions H t c) (Ctl.stopSessions H t (more q c)) := by
  unfold Ctl.stopSessions
  cases t.stopSend with
  | none => exact Goes.fatal ..
  | some p =>
    obtain ⟨acc, num⟩ := p
    dsimp only
    rw [writeStopSessions_more]
    generalize writeStopSessions H c acc num t.tests = p
    obtain ⟨r, c1, ts⟩ := p
    cases r with
    | none => exact Goes.fatal ..
    | some _ =>
      dsimp only
      cases e : readRequestType c1 with
      | mk ty c2 =>
        cases ty with
        | stopSessions =>
          rw [requestType_more q c1 c2 _ (by decide) (by decide) (by decide) e]
          dsimp only
          by_cases hr : ¬ t.stopRecv = true
          · rw [if_pos hr]; exact Goes.fatal ..
          · rw [if_neg hr, if_neg hr]
            cases e2 : readStopSessions H t.file c2 ts with
            | mk r p =>
              obtain ⟨c3, ts3⟩ := p
              cases r with
              | none => exact Goes.fatal ..
              | some a => rw [readStopSessions_more q H t.file c2 c3 ts ts3 a e2]; exact Goes.same ..
        | _ => exact Goes.fatal ..

theorem wait_goes (q : Bytes) (H : Mac) (t : Turn ρ) (c : Conn) : Goes q (stopSessionsWait H t c) (stopSessionsWait H t (more q c)) := by
  unfold stopSessionsWait
  have hw : (more q c).twoway = c.twoway := rfl
  rw [hw]
  cases t.wait with
  | ours =>
    dsimp only
    by_cases h : c.twoway = true
    · rw [if_pos h, if_pos h]; exact Goes.same ..
    · rw [if_neg h, if_neg h]; exact stop_goes q H t c
  | failedTW =>
    dsimp only
    by_cases h : c.twoway = true
    · rw [if_pos h, if_pos h]; exact Goes.same ..
    · rw [if_neg h, if_neg h]; exact stop_goes q H t c
  | pollError => exact Goes.fatal ..
  | theirs =>
    dsimp only
    rcases requestType_ends q c with h | ⟨h1, h2⟩
    · rw [h]
      cases e : readRequestType c with
      | mk ty c1 =>
        cases ty with
        | stopSessions =>
          dsimp only
          cases t.stopSend with
          | none => exact Goes.fatal ..
          | some p =>
            obtain ⟨acc, num⟩ := p
            dsimp only
            by_cases hr : ¬ t.stopRecv = true
            · rw [if_pos hr]; exact Goes.fatal ..
            · rw [if_neg hr, if_neg hr]
              cases e2 : readStopSessions H t.file c1 t.tests with
              | mk r p =>
                obtain ⟨c3, ts3⟩ := p
                cases r with
                | none => exact Goes.fatal ..
                | some a =>
                  rw [readStopSessions_more q H t.file c1 c3 t.tests ts3 a e2]
                  dsimp only
                  have hw3 : (more q c3).twoway = c3.twoway := rfl
                  rw [hw3]
                  by_cases h3 : c3.twoway = true
                  · rw [if_pos h3, if_pos h3]; exact Goes.same ..
                  · rw [if_neg h3, if_neg h3, writeStopSessions_more]
                    generalize writeStopSessions H c3 a num ts3 = p
                    obtain ⟨r, c4, ts4⟩ := p
                    cases r <;> exact Goes.same ..
        | _ => exact Goes.same ..
    · right
      generalize readRequestType c = p at h1 h2 ⊢
      obtain ⟨ty, c1⟩ := p
      dsimp only at h1 h2
      rcases h1 with rfl | rfl
      · exact ⟨List.nil_prefix, .inr h2⟩
      · exact ⟨List.nil_prefix, .inr h2⟩

theorem start_goes (q : Bytes) (H : Mac) (t : Turn ρ) (c : Conn) : Goes q (processStartSessions H t c) (processStartSessions H t (more q c)) := by
  unfold processStartSessions
  cases e : readStartSessions H c with
  | mk r c1 =>
    cases r with
    | none => exact Goes.fatal ..
    | some u =>
      rw [startSessions_stable H q c c1 u e]
      dsimp only
      rw [writeStartAck_more, writeStartAck_more]
      by_cases h : ¬ t.started = true
      · rw [if_pos h, if_pos h]; exact Goes.same ..
      · rw [if_neg h, if_neg h]
        generalize writeStartAck H c1 .accept = p
        obtain ⟨r, c2⟩ := p
        cases r with
        | none => exact Goes.same ..
        | some _ =>
          dsimp only
          rcases wait_goes q H t c2 with ⟨g1, g2, g3⟩ | ⟨g1, g2⟩
          · exact .inl ⟨congrArg (ReqType.startSessions :: ·) g1, g2, g3⟩
          · exact .inr ⟨(List.prefix_cons_inj _).2 g1, g2⟩

theorem once_goes (q : Bytes) (H : Mac) (t : Turn ρ) (ht : Silent t) (c : Conn) : Goes q (serveOnce H t c) (serveOnce H t (more q c)) := by
  unfold serveOnce
  rcases requestType_ends q c with h | ⟨h1, h2⟩
  · rw [h]
    generalize readRequestType c = p
    obtain ⟨ty, c1⟩ := p
    have hw : (more q c1).twoway = c1.twoway := rfl
    cases ty with
    | test =>
      dsimp only
      rw [hw]
      by_cases h : c1.twoway = true
      · rw [if_pos h, if_pos h]; exact unexpected_goes q H c1
      · rw [if_neg h, if_neg h]; exact test_goes q H t c1
    | testTW =>
      dsimp only
      rw [hw]
      by_cases h : c1.twoway = true
      · rw [if_pos h, if_pos h]; exact test_goes q H t c1
      · rw [if_neg h, if_neg h]; exact unexpected_goes q H c1
    | startSessions => exact start_goes q H t c1
    | fetchSession =>
      dsimp only
      rw [hw]
      by_cases h : c1.twoway = true
      · rw [if_pos h, if_pos h]; exact unexpected_goes q H c1
      · rw [if_neg h, if_neg h]; exact fetch_goes q H t ht c1
    | sockIntr => exact Goes.same ..
    | sockClose => exact Goes.same ..
    | stopSessions => exact unexpected_goes q H c1
    | invalid => exact unexpected_goes q H c1
  · right
    generalize readRequestType c = p at h1 h2 ⊢
    obtain ⟨ty, c1⟩ := p
    dsimp only at h1 h2
    rcases h1 with rfl | rfl
    · exact ⟨List.nil_prefix, .inl rfl⟩
    · exact ⟨List.nil_prefix, .inr h2⟩

theorem unexpected_empty (H : Mac) (c : Conn) (hi : c.inp = []) : (unexpectedRequestType H c).heard = [] ∧ (unexpectedRequestType H c).c.inp = [] := by
  unfold unexpectedRequestType
  by_cases h : ¬ c.twoway = true
  · rw [if_pos h]; exact ⟨rfl, hi⟩
  · rw [if_neg h]; exact ⟨rfl, (writeAcceptSession_inp H _ _ _ _).trans hi⟩

/-- Nothing is heard when nothing is left to be read. -/
theorem once_empty (H : Mac) (t : Turn ρ) (c : Conn) (hi : c.inp = []) : (serveOnce H t c).heard = [] ∧ (serveOnce H t c).c.inp = [] := by
  have hr : ((readRequestType c).1 = .sockClose ∨ (readRequestType c).1 = .sockIntr ∨ (readRequestType c).1 = .invalid) ∧ (readRequestType c).2.inp = [] := by
    unfold readRequestType
    by_cases h0 : ¬ c.state.request = true ∨ c.state.isReading = true
    · rw [if_pos h0]; exact ⟨.inr (.inr rfl), hi⟩
    · rw [if_neg h0]
      unfold recvBlocks readN
      rw [hi]
      split
      · rename_i heq
        split at heq
        · rename_i heq2
          split at heq2
          · cases heq2
          · cases heq2
          · rw [if_neg (by decide)] at heq2; cases heq2
        all_goals cases heq
      · rename_i heq
        split at heq
        · split at heq <;> cases heq
        all_goals first | (cases heq; done) | skip
        all_goals (rename_i heq2; split at heq2)
        all_goals first
          | (cases heq2; cases heq; exact ⟨.inr (.inl rfl), List.drop_nil⟩)
          | (cases heq2; done)
          | (rw [if_neg (by decide)] at heq2; cases heq2; done)
      · rename_i heq
        split at heq
        · rename_i heq2
          split at heq2
          · cases heq2
          · cases heq2
          · rw [if_neg (by decide)] at heq2; cases heq2
        all_goals (rename_i heq2; split at heq2)
        all_goals first
          | (cases heq2; done)
          | (cases heq2; cases heq; exact ⟨.inl rfl, List.drop_nil⟩)
          | (rw [if_neg (by decide)] at heq2; cases heq2; cases heq; exact ⟨.inl rfl, rfl⟩)
          | (rw [if_neg (by decide)] at heq2; cases heq2; done)
  unfold serveOnce
  generalize readRequestType c = p at hr ⊢
  obtain ⟨ty, c1⟩ := p
  dsimp only at hr
  obtain ⟨h1, h2⟩ := hr
  rcases h1 with rfl | rfl | rfl
  · exact ⟨rfl, h2⟩
  · exact ⟨rfl, h2⟩
  · exact unexpected_empty H c1 h2

theorem serve_empty (H : Mac) : ∀ (ts : List (Turn ρ)) (c : Conn), c.inp = [] → (serve H ts c).flatMap Pass.heard = [] := by
  intro ts
  induction ts with
  | nil => intro c _; rfl
  | cons t ts ih =>
    intro c hi
    obtain ⟨h1, h2⟩ := once_empty H t c hi
    unfold serve
    rw [List.flatMap_cons, h1, List.nil_append]
    split
    · rfl
    · exact ih _ h2

theorem serve_goes (q : Bytes) (H : Mac) : ∀ (ts : List (Turn ρ)) (c : Conn), (∀ t ∈ ts, Silent t) →
    (serve H ts c).flatMap Pass.heard <+: (serve H ts (more q c)).flatMap Pass.heard := by
  intro ts
  induction ts with
  | nil => intro c _; exact List.prefix_rfl
  | cons t ts ih =>
    intro c ht
    unfold serve
    dsimp only
    rw [List.flatMap_cons, List.flatMap_cons]
    rcases once_goes q H t (ht t (List.mem_cons_self ..)) c with ⟨g1, g2, g3⟩ | ⟨g1, g2⟩
    · rw [g1, g2, g3, List.prefix_append_right_inj]
      split
      · exact List.prefix_rfl
      · exact ih _ fun t h => ht t (List.mem_cons_of_mem _ h)
    · have he : (if (serveOnce H t c).rc = .fatal then [] else serve H ts (serveOnce H t c).c).flatMap Pass.heard = [] := by
        rcases g2 with g2 | g2
        · rw [if_pos g2]; rfl
        · split
          · rfl
          · exact serve_empty H ts _ g2
      rw [he, List.append_nil]
      exact g1.trans (List.prefix_append _ _)

end Owamp.More
