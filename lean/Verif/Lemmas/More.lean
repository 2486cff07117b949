import Verif.Model.Fetch
/-!
# What a client has read from a connection does not depend on what comes after it
-/
namespace Owamp.More
open Owamp.Ctl Owamp.Codec Owamp.Fetch Owamp.File

/-- The same connection with more to be read. -/
def more (q : Bytes) (c : Conn) : Conn := { c with inp := c.inp ++ q }

theorem readN_more (q : Bytes) (c c' : Conn) (n : Nat) (bs : Bytes) (h : readN c n = (.full bs, c')) :
    readN (more q c) n = (.full bs, more q c') := by
  unfold readN at h ⊢
  have hf : (more q c).faults = c.faults := rfl
  have hi : (more q c).inp = c.inp ++ q := rfl
  rw [hf, hi]
  split at h
  · cases h
  · cases h
  · rename_i h1 h2
    split at h
    · rename_i hn
      rw [if_pos (by rw [List.length_append]; omega), List.take_append_of_le_length hn, List.drop_append_of_le_length hn]
      cases h
      rfl
    · cases h

theorem recvBlocks_more (q : Bytes) (c c' : Conn) (off n : Nat) (h : recvBlocks c off n = (.done, c')) :
    recvBlocks (more q c) off n = (.done, more q c') := by
  unfold recvBlocks at h ⊢
  cases e : readN c (n * 16) with
  | mk r c1 =>
    rw [e] at h
    cases r with
    | full bs =>
      rw [readN_more q c c1 _ bs e]
      dsimp only at h ⊢
      have hc : (more q c1).cipher = c1.cipher := rfl
      rw [hc]
      split at h
      · rename_i hh; rw [if_pos hh]; cases h; rfl
      · rename_i hh; rw [if_neg hh]; cases h; rfl
    | short bs => cases h
    | intr => cases h
    | err => cases h

theorem recvHmacAdd_more (q : Bytes) (c : Conn) (t : Bytes) : recvHmacAdd (more q c) t = more q (recvHmacAdd c t) := by
  unfold recvHmacAdd
  have hc : (more q c).cipher = c.cipher := rfl
  rw [hc]
  split <;> rfl

theorem recvCheck_more (q : Bytes) (H : Mac) (c : Conn) (t : Bytes) :
    recvCheck H (more q c) t = ((recvCheck H c t).1, more q (recvCheck H c t).2) := by
  unfold recvCheck
  have hc : (more q c).cipher = c.cipher := rfl
  rw [hc]
  split <;> rfl

theorem checkMsg_more (q : Bytes) (H : Mac) (c : Conn) (k : Nat) :
    checkMsg H (more q c) k = ((checkMsg H c k).1, more q (checkMsg H c k).2) := by
  unfold checkMsg
  rw [recvHmacAdd_more]
  exact recvCheck_more q H _ _

theorem setState_more (q : Bytes) (c : Conn) (s : CState) : (more q c).setState s = more q (c.setState s) := rfl

theorem writeN_more (q : Bytes) (c : Conn) (bs : Bytes) : writeN (more q c) bs = ((writeN c bs).1, more q (writeN c bs).2) := by
  unfold writeN
  have hf : (more q c).faults = c.faults := rfl
  rw [hf]
  split <;> rfl

theorem sendBlocks_more (q : Bytes) (c : Conn) (bs : Bytes) :
    sendBlocks (more q c) bs = ((sendBlocks c bs).1, more q (sendBlocks c bs).2) := by
  unfold sendBlocks sendBuf
  have hc : (more q c).cipher = c.cipher := rfl
  rw [hc]
  split
  · dsimp only
    have := writeN_more q { c with writeIV := (Cbc.blockEncrypt c.aesKey c.writeIV bs).2 } (Cbc.blockEncrypt c.aesKey c.writeIV bs).1
    unfold more at this ⊢
    dsimp only at this ⊢
    rw [this]
  · dsimp only
    rw [writeN_more]
    rfl

theorem sendMsg_more (q : Bytes) (H : Mac) (c : Conn) (m : Bytes) (k : Nat) :
    sendMsg H (more q c) m k = ((sendMsg H c m k).1, more q (sendMsg H c m k).2) := by
  have e : ∀ c : Conn, sendMsg H c m k =
      sendBlocks { (sendDigest H (sendHmacAdd { c with msg := m } (get m 0 (16 * k)))).2 with
        msg := put m (16 * k) (sendDigest H (sendHmacAdd { c with msg := m } (get m 0 (16 * k)))).1 }
        (get (put m (16 * k) (sendDigest H (sendHmacAdd { c with msg := m } (get m 0 (16 * k)))).1) 0 (16 * (k + 1))) := fun _ => rfl
  rw [e, e]
  have h1 : sendHmacAdd { more q c with msg := m } (get m 0 (16 * k)) = more q (sendHmacAdd { c with msg := m } (get m 0 (16 * k))) := by
    unfold sendHmacAdd
    have hc : ({ more q c with msg := m } : Conn).cipher = ({ c with msg := m } : Conn).cipher := rfl
    rw [hc]
    split <;> rfl
  rw [h1]
  generalize sendHmacAdd { c with msg := m } (get m 0 (16 * k)) = d
  have h2 : sendDigest H (more q d) = ((sendDigest H d).1, more q (sendDigest H d).2) := by
    unfold sendDigest
    have hc : (more q d).cipher = d.cipher := rfl
    rw [hc]
    split <;> rfl
  rw [h2]
  exact sendBlocks_more q { (sendDigest H d).2 with msg := put m (16 * k) (sendDigest H d).1 }
    (get (put m (16 * k) (sendDigest H d).1) 0 (16 * (k + 1)))

theorem writeFetchSession_more (q : Bytes) (H : Mac) (c : Conn) (first last : U32) (sid : Bytes) :
    writeFetchSession H (more q c) first last sid =
      ((writeFetchSession H c first last sid).1, more q (writeFetchSession H c first last sid).2) := by
  unfold writeFetchSession
  have hs : (more q c).state = c.state := rfl
  have hw : (more q c).twoway = c.twoway := rfl
  have hm : (more q c).msg = c.msg := rfl
  rw [hs, hw, hm]
  split
  · rfl
  · split
    · rfl
    · dsimp only
      rw [sendMsg_more]
      generalize sendMsg H c _ 2 = r
      obtain ⟨r, c1⟩ := r
      cases r <;> rfl

theorem readFetchAck_more (q : Bytes) (H : Mac) (c c' : Conn) (a : FetchAck) (h : readFetchAck H c = (some a, c')) :
    readFetchAck H (more q c) = (some a, more q c') := by
  unfold readFetchAck at h ⊢
  have hs : (more q c).state = c.state := rfl
  rw [hs]
  split at h
  · cases h
  · rename_i h0
    rw [if_neg h0]
    cases e : recvBlocks c 0 2 with
    | mk r c1 =>
      rw [e] at h
      cases r with
      | done =>
        rw [recvBlocks_more q c c1 0 2 e]
        dsimp only at h ⊢
        rw [checkMsg_more]
        cases e2 : checkMsg H c1 1 with
        | mk b c2 =>
          rw [e2] at h
          cases b with
          | false => cases h
          | true =>
            dsimp only at h ⊢
            have hm : (more q c2).msg = c2.msg := rfl
            rw [hm]
            split at h
            · cases h
            · rename_i h3
              rw [if_neg h3]
              cases h
              congr 1
              split
              · rfl
              · have hw : ((more q c2).setState { (more q c2).state with fetchAck := false, fetchSession := false }).twoway =
                  (c2.setState { c2.state with fetchAck := false, fetchSession := false }).twoway := rfl
                rw [hw]
                split <;> rfl
      | closed => cases h
      | intr => cases h
      | err => cases h

theorem readSlotLoop_more (q : Bytes) : ∀ (n : Nat) (c c' : Conn) (ss : List Sched.Slot), readSlotLoop c n = (some ss, c') →
    readSlotLoop (more q c) n = (some ss, more q c') := by
  intro n
  induction n with
  | zero => intro c c' ss h; cases h; rfl
  | succ n ih =>
    intro c c' ss h
    unfold readSlotLoop at h ⊢
    cases e : recvBlocks c 0 1 with
    | mk r c1 =>
      rw [e] at h
      cases r with
      | done =>
        rw [recvBlocks_more q c c1 0 1 e]
        dsimp only at h ⊢
        have hm : (more q c1).msg = c1.msg := rfl
        rw [hm, recvHmacAdd_more]
        have hm2 : (more q (recvHmacAdd c1 (get c1.msg 0 16))).msg = (recvHmacAdd c1 (get c1.msg 0 16)).msg := rfl
        rw [hm2]
        split at h
        · cases h
        · rename_i s es
          cases e3 : readSlotLoop (recvHmacAdd c1 (get c1.msg 0 16)) n with
          | mk t c3 =>
            rw [e3] at h
            cases t with
            | none => cases h
            | some t =>
              rw [ih _ _ _ e3]
              cases h
              rfl
      | closed => cases h
      | intr => cases h
      | err => cases h

theorem readSlots_more (q : Bytes) (H : Mac) (c c' : Conn) (n : U32) (ss : List Sched.Slot) (h : Ctl.readSlots H c n = (some ss, c')) :
    Ctl.readSlots H (more q c) n = (some ss, more q c') := by
  unfold Ctl.readSlots at h ⊢
  have hs : (more q c).state = c.state := rfl
  rw [hs]
  split at h
  · cases h
  · rename_i h0
    rw [if_neg h0]
    cases e0 : readSlotLoop c n.toNat with
    | mk t c0 =>
      rw [e0] at h
      cases t with
      | none => cases h
      | some t =>
        rw [readSlotLoop_more q _ _ _ _ e0]
        dsimp only at h ⊢
        cases e : recvBlocks c0 0 1 with
        | mk r c1 =>
          rw [e] at h
          cases r with
          | done =>
            rw [recvBlocks_more q _ _ _ _ e]
            dsimp only at h ⊢
            have hm : (more q c1).msg = c1.msg := rfl
            rw [hm, recvCheck_more]
            cases e2 : recvCheck H c1 (get c1.msg 0 16) with
            | mk b c2 =>
              rw [e2] at h
              cases b with
              | false => cases h
              | true => cases h; rfl
          | closed => cases h
          | intr => cases h
          | err => cases h

theorem readTestRequest_more (q : Bytes) (H : Mac) (remote loc : SockAddr) (c c' : Conn) (r : TestReq) (a : Accept)
    (h : readTestRequest H false remote loc c = (some r, a, c')) :
    readTestRequest H false remote loc (more q c) = (some r, a, more q c') := by
  unfold readTestRequest at h ⊢
  have hs : (more q c).state = c.state := rfl
  have hw : (more q c).twoway = c.twoway := rfl
  rw [hs, hw]
  by_cases h0 : ¬ (if c.twoway then c.state.testRequestTW else c.state.testRequest) = true
  · rw [if_pos h0] at h; cases h
  · rw [if_neg h0] at h ⊢
    simp only [Bool.false_eq_true, if_false] at h ⊢
    cases e : recvBlocks c 0 1 with
    | mk t c1 =>
      rw [e] at h
      cases t with
      | done =>
        rw [recvBlocks_more q _ _ _ _ e]
        dsimp only at h ⊢
        cases e1 : recvBlocks c1 16 6 with
        | mk t c2 =>
          rw [e1] at h
          cases t with
          | done =>
            rw [recvBlocks_more q _ _ _ _ e1]
            dsimp only at h ⊢
            rw [checkMsg_more]
            cases e2 : checkMsg H c2 6 with
            | mk b c3 =>
              rw [e2] at h
              cases b with
              | false => cases h
              | true =>
                dsimp only at h ⊢
                have hm : (more q c3).msg = c3.msg := rfl
                have hw3 : (more q c3).twoway = c3.twoway := rfl
                rw [hm, hw3]
                simp only [and_false, if_false] at h ⊢
                split at h
                · cases h
                · split at h
                  · cases h
                  · by_cases ht : c3.twoway = true
                    · replace h := (if_pos ht).symm.trans h
                      refine (if_pos ht).trans ?_
                      cases h
                      rfl
                    · replace h := (if_neg ht).symm.trans h
                      refine (if_neg ht).trans ?_
                      cases e5 : Ctl.readSlots H (c3.setState { c3.state with testRequest := false, testRequestSlots := true })
                          (decodePreamble false c3.msg c3.twoway).2.nslots with
                      | mk t c5 =>
                        rw [e5] at h
                        cases t with
                        | none => cases h
                        | some ss =>
                          rw [show Ctl.readSlots H ((more q c3).setState { (more q c3).state with testRequest := false, testRequestSlots := true })
                            (decodePreamble false c3.msg c3.twoway).2.nslots = (some ss, more q c5) from
                              readSlots_more q H _ c5 _ ss e5]
                          cases h
                          rfl
          | closed => cases h
          | intr => cases h
          | err => cases h
      | closed => cases h
      | intr => cases h
      | err => cases h

theorem readSkipBytes_more (q : Bytes) : ∀ (toff : Nat) (c c' : Conn) (bs : Bytes), readSkipBytes c toff = (some bs, c') →
    readSkipBytes (more q c) toff = (some bs, more q c') := by
  intro toff
  induction toff using Nat.strongRecOn with
  | _ toff ih =>
    intro c c' bs h
    rw [readSkipBytes] at h ⊢
    split at h
    · rename_i h0
      rw [if_pos h0]
      cases e : recvBlocks c 0 1 with
      | mk r c1 =>
        rw [e] at h
        cases r with
        | done =>
          rw [recvBlocks_more q _ _ _ _ e]
          dsimp only at h ⊢
          have hm : (more q c1).msg = c1.msg := rfl
          rw [hm, recvHmacAdd_more]
          cases e3 : readSkipBytes (recvHmacAdd c1 (get c1.msg 0 16)) (toff - 16) with
          | mk t c3 =>
            rw [e3] at h
            cases t with
            | none => cases h
            | some t =>
              rw [ih (toff - 16) (by omega) _ _ _ e3]
              cases h
              rfl
        | closed => cases h
        | intr => cases h
        | err => cases h
    · rename_i h0
      rw [if_neg h0]
      split at h
      · rename_i h1
        rw [if_pos h1]
        cases e : recvBlocks c 0 1 with
        | mk r c1 =>
          rw [e] at h
          cases r with
          | done =>
            rw [recvBlocks_more q _ _ _ _ e]
            dsimp only at h ⊢
            have hm : (more q c1).msg = c1.msg := rfl
            rw [hm, recvHmacAdd_more]
            cases h
            rfl
          | closed => cases h
          | intr => cases h
          | err => cases h
      · rename_i h1
        rw [if_neg h1]
        cases h
        rfl

theorem readRecords_more (q : Bytes) : ∀ (n : Nat) (c c' : Conn) (bs : Bytes), readRecords c n = (some bs, c') →
    readRecords (more q c) n = (some bs, more q c') := by
  intro n
  induction n using Nat.strongRecOn with
  | _ n ih =>
    intro c c' bs h
    rw [readRecords] at h ⊢
    split at h
    · rename_i h0
      rw [if_pos h0]
      cases e : recvBlocks c 0 25 with
      | mk r c1 =>
        rw [e] at h
        cases r with
        | done =>
          rw [recvBlocks_more q _ _ _ _ e]
          dsimp only at h ⊢
          have hm : (more q c1).msg = c1.msg := rfl
          rw [hm, recvHmacAdd_more]
          cases e3 : readRecords (recvHmacAdd c1 (get c1.msg 0 400)) (n - 16) with
          | mk t c3 =>
            rw [e3] at h
            cases t with
            | none => cases h
            | some t =>
              rw [ih (n - 16) (by omega) _ _ _ e3]
              cases h
              rfl
        | closed => cases h
        | intr => cases h
        | err => cases h
    · rename_i h0
      rw [if_neg h0]
      split at h
      · rename_i h1
        rw [if_pos h1]
        cases e : recvBlocks c 0 (n * 25 / 16 + 1) with
        | mk r c1 =>
          rw [e] at h
          cases r with
          | done =>
            rw [recvBlocks_more q _ _ _ _ e]
            dsimp only at h ⊢
            have hm : (more q c1).msg = c1.msg := rfl
            rw [hm, recvHmacAdd_more]
            cases h
            rfl
          | closed => cases h
          | intr => cases h
          | err => cases h
      · rename_i h1
        rw [if_neg h1]
        cases h
        rfl

theorem readTag_more (q : Bytes) (H : Mac) (c c' : Conn) (u : Unit) (h : readTag H c = (some u, c')) :
    readTag H (more q c) = (some u, more q c') := by
  unfold readTag at h ⊢
  cases e : recvBlocks c 0 1 with
  | mk r c1 =>
    rw [e] at h
    cases r with
    | done =>
      rw [recvBlocks_more q _ _ _ _ e]
      dsimp only at h ⊢
      have hm : (more q c1).msg = c1.msg := rfl
      rw [hm, recvCheck_more]
      cases e2 : recvCheck H c1 (get c1.msg 0 16) with
      | mk b c2 =>
        rw [e2] at h
        cases b with
        | false => cases h
        | true => cases h; rfl
    | closed => cases h
    | intr => cases h
    | err => cases h

theorem readBody_more (q : Bytes) (H : Mac) (junk : Bytes) (c c' : Conn) (a : FetchAck) (r : TestReq) (res : Result) (hr : res ≠ .failed)
    (h : readBody H junk c a r = (res, c')) : readBody H junk (more q c) a r = (res, more q c') := by
  unfold readBody at h ⊢
  cases e1 : readSkipBytes c ((a.nskips.toNat * 8) % 2 ^ 32) with
  | mk t c1 =>
    rw [e1] at h
    cases t with
    | none => cases h; exact absurd rfl hr
    | some sk =>
      rw [readSkipBytes_more q _ _ _ _ e1]
      dsimp only at h ⊢
      cases e2 : readTag H c1 with
      | mk t c2 =>
        rw [e2] at h
        cases t with
        | none => cases h; exact absurd rfl hr
        | some u =>
          rw [readTag_more q _ _ _ _ e2]
          dsimp only at h ⊢
          cases e3 : readRecords c2 a.nrecs.toNat with
          | mk t c3 =>
            rw [e3] at h
            cases t with
            | none => cases h; exact absurd rfl hr
            | some rs =>
              rw [readRecords_more q _ _ _ _ e3]
              dsimp only at h ⊢
              cases e4 : readTag H c3 with
              | mk t c4 =>
                rw [e4] at h
                cases t with
                | none => cases h; exact absurd rfl hr
                | some u =>
                  rw [readTag_more q _ _ _ _ e4]
                  dsimp only at h ⊢
                  cases h
                  rfl

theorem readAnswer_more (q : Bytes) (H : Mac) (remote loc : SockAddr) (junk : Bytes) (c c' : Conn) (res : Result) (hr : res ≠ .failed)
    (h : readAnswer H remote loc junk c = (res, c')) : readAnswer H remote loc junk (more q c) = (res, more q c') := by
  unfold readAnswer at h ⊢
  cases e1 : readFetchAck H c with
  | mk t c1 =>
    rw [e1] at h
    cases t with
    | none => cases h; exact absurd rfl hr
    | some a =>
      rw [readFetchAck_more q _ _ _ _ e1]
      dsimp only at h ⊢
      split at h
      · rename_i h0; rw [if_pos h0]; cases h; rfl
      · rename_i h0
        rw [if_neg h0]
        cases e2 : readTestRequest H false remote loc c1 with
        | mk t c2 =>
          obtain ⟨b, c2⟩ := c2
          rw [e2] at h
          cases t with
          | none => cases h; exact absurd rfl hr
          | some r =>
            rw [readTestRequest_more q _ _ _ _ _ _ _ e2]
            exact readBody_more q H junk _ _ a r res hr h

/-- A fetch that did not fail is not changed by what comes after its answer. -/
theorem fetch_more (q : Bytes) (H : Mac) (remote loc : SockAddr) (junk : Bytes) (first last : U32) (sid : Bytes) (c c' : Conn) (res : Result)
    (hr : res ≠ .failed) (h : fetch H remote loc junk first last sid c = (res, c')) :
    fetch H remote loc junk first last sid (more q c) = (res, more q c') := by
  unfold fetch at h ⊢
  have hw : (more q c).twoway = c.twoway := rfl
  rw [hw]
  split at h
  · cases h; exact absurd rfl hr
  · rename_i h0
    rw [if_neg h0, writeFetchSession_more]
    cases e : writeFetchSession H c first last sid with
    | mk t c1 =>
      rw [e] at h
      cases t with
      | none => cases h; exact absurd rfl hr
      | some u => exact readAnswer_more q H remote loc junk _ _ res hr h

end Owamp.More
