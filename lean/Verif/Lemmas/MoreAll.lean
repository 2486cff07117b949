import Verif.Lemmas.More
import Verif.Spec.Whole
/-!
# The readers of all messages, with more to be read
-/
namespace Owamp.More
open Owamp.Ctl Owamp.Codec Owamp.Spec.Whole Owamp.Spec.Channel

/-- A message is the same with more behind it. -/
def Stable {β : Type} (R : Conn → Option β × Conn) : Prop :=
  ∀ (q : Bytes) (c c' : Conn) (v : β), R c = (some v, c') → R (more q c) = (some v, more q c')

theorem stable_leaves {β : Type} {R : Conn → Option β × Conn} (h : Stable R) : LeavesRest R :=
  fun c c' x y v e => h y { c with inp := x } c' v e

theorem stable_needs {β : Type} {R : Conn → Option β × Conn} (h : Stable R) : NeedsAll R := by
  intro c c' x v e hall n hn
  cases hf : R { c with inp := x.take n } with
  | mk r c3 =>
    cases r with
    | none => rfl
    | some w =>
      have hm := h (x.drop n) _ _ _ hf
      have hi : more (x.drop n) { c with inp := x.take n } = { c with inp := x } := by
        unfold more
        dsimp only
        rw [List.take_append_drop]
      rw [hi, e] at hm
      have h2 : c' = more (x.drop n) c3 := congrArg Prod.snd hm
      have h3 : c3.inp ++ x.drop n = [] := by rw [← hall, h2]; rfl
      have h5 := congrArg List.length (List.append_eq_nil_iff.1 h3).2
      rw [List.length_drop, List.length_nil] at h5
      omega

theorem greeting_stable : Stable readServerGreeting := by
  intro q c c' v h
  unfold readServerGreeting at h ⊢
  have hs : (more q c).state = c.state := rfl
  rw [hs]
  by_cases h0 : c.state ≠ .invalid
  · rw [if_pos h0] at h; cases h
  · rw [if_neg h0] at h ⊢
    cases e : readN c 64 with
    | mk r c1 =>
      rw [e] at h
      cases r with
      | full bs => rw [readN_more q c c1 _ bs e]; cases h; rfl
      | short bs => cases h
      | intr => cases h
      | err => cases h

theorem setup_stable : Stable readSetupResponse := by
  intro q c c' v h
  unfold readSetupResponse at h ⊢
  have hs : (more q c).state = c.state := rfl
  rw [hs]
  by_cases h0 : c.state ≠ .setupOnly
  · rw [if_pos h0] at h; cases h
  · rw [if_neg h0] at h ⊢
    cases e : readN c 164 with
    | mk r c1 =>
      rw [e] at h
      cases r with
      | full bs => rw [readN_more q c c1 _ bs e]; cases h; rfl
      | short bs => cases h
      | intr => cases h
      | err => cases h

theorem serverStart_stable : Stable readServerStart := by
  intro q c c' v h
  unfold readServerStart at h ⊢
  have hs : (more q c).state = c.state := rfl
  rw [hs]
  by_cases h0 : c.state ≠ .setupOnly
  · rw [if_pos h0] at h; cases h
  · rw [if_neg h0] at h ⊢
    cases e : readN c 32 with
    | mk r c1 =>
      rw [e] at h
      cases r with
      | full bs =>
        rw [readN_more q c c1 _ bs e]
        dsimp only at h ⊢
        have hm : (more q c1).msg = c1.msg := rfl
        rw [hm]
        by_cases h1 : getAcceptType (get8 (put c1.msg 0 bs) 15) = .invalid
        · rw [if_pos h1] at h; cases h
        · rw [if_neg h1] at h ⊢
          generalize hd : (if getAcceptType (get8 (put c1.msg 0 bs) 15) ≠ .accept then
            { { { c1 with msg := put c1.msg 0 bs } with readIV := get (put c1.msg 0 bs) 16 16 } with mode := 1#32 }
            else { { c1 with msg := put c1.msg 0 bs } with readIV := get (put c1.msg 0 bs) 16 16 } : Conn) = d at h
          have hd' : (if getAcceptType (get8 (put c1.msg 0 bs) 15) ≠ .accept then
            { { { more q c1 with msg := put c1.msg 0 bs } with readIV := get (put c1.msg 0 bs) 16 16 } with mode := 1#32 }
            else { { more q c1 with msg := put c1.msg 0 bs } with readIV := get (put c1.msg 0 bs) 16 16 } : Conn) = more q d := by
            rw [← hd]
            split <;> rfl
          rw [hd']
          cases e2 : recvBlocks d 0 1 with
          | mk r c2 =>
            rw [e2] at h
            cases r with
            | done =>
              rw [recvBlocks_more q _ _ _ _ e2]
              dsimp only at h ⊢
              have hm : (more q c2).msg = c2.msg := rfl
              rw [hm, recvHmacAdd_more]
              cases h
              rfl
            | closed => cases h
            | intr => cases h
            | err => cases h
      | short bs => cases h
      | intr => cases h
      | err => cases h

/-- A request type other than the ends of a connection. -/
theorem requestType_more (q : Bytes) (c c' : Conn) (t : ReqType) (h1 : t ≠ .invalid) (h2 : t ≠ .sockClose) (h3 : t ≠ .sockIntr)
    (h : readRequestType c = (t, c')) : readRequestType (more q c) = (t, more q c') := by
  unfold readRequestType at h ⊢
  have hs : (more q c).state = c.state := rfl
  rw [hs]
  by_cases h0 : ¬ c.state.request = true ∨ c.state.isReading = true
  · rw [if_pos h0] at h; cases h; exact absurd rfl h1
  · rw [if_neg h0] at h ⊢
    cases e : recvBlocks c 0 1 with
    | mk r c1 =>
      rw [e] at h
      cases r with
      | done =>
        rw [recvBlocks_more q c c1 0 1 e]
        dsimp only at h ⊢
        have hm : (more q c1).msg = c1.msg := rfl
        have hs1 : (more q c1).state = c1.state := rfl
        rw [hm, hs1]
        repeat' split at h
        all_goals first
          | (cases h; exact absurd rfl h1)
          | (cases h; simp_all [more, Conn.setState]; done)
      | closed => cases h; exact absurd rfl h2
      | intr => cases h; exact absurd rfl h3
      | err => cases h; exact absurd rfl h2

theorem after_stable {β : Type} {R : Conn → Option β × Conn} (h : Stable R) (t : ReqType) (h1 : t ≠ .invalid) (h2 : t ≠ .sockClose)
    (h3 : t ≠ .sockIntr) : Stable (afterType t R) := by
  intro q c c' v e
  unfold afterType at e ⊢
  cases hr : readRequestType c with
  | mk t' c1 =>
    rw [hr] at e
    dsimp only at e
    by_cases ht : t' = t
    · subst ht
      rw [if_pos rfl] at e
      rw [requestType_more q c c1 t' h1 h2 h3 hr]
      dsimp only
      rw [if_pos rfl]
      exact h q c1 c' v e
    · rw [if_neg ht] at e; cases e

theorem acceptSession_stable (H : Mac) : Stable (readAcceptSession H) := by
  intro q c c' v h
  unfold readAcceptSession at h ⊢
  have hs : (more q c).state = c.state := rfl
  rw [hs]
  by_cases h0 : ¬ c.state.acceptSession = true
  · rw [if_pos h0] at h; cases h
  · rw [if_neg h0] at h ⊢
    cases e : recvBlocks c 0 3 with
    | mk r c1 =>
      rw [e] at h
      cases r with
      | done =>
        rw [recvBlocks_more q _ _ _ _ e]
        dsimp only at h ⊢
        rw [checkMsg_more]
        cases e2 : checkMsg H c1 2 with
        | mk b c2 =>
          rw [e2] at h
          cases b with
          | false => cases h
          | true =>
            dsimp only at h ⊢
            have hm : (more q c2).msg = c2.msg := rfl
            rw [hm]
            by_cases h3 : getAcceptType (get8 c2.msg 0) = .invalid
            · rw [if_pos h3] at h; cases h
            · rw [if_neg h3] at h ⊢; cases h; rfl
      | closed => cases h
      | intr => cases h
      | err => cases h

theorem startSessions_stable (H : Mac) : Stable (readStartSessions H) := by
  intro q c c' v h
  unfold readStartSessions at h ⊢
  have hs : (more q c).state = c.state := rfl
  rw [hs]
  by_cases h0 : ¬ c.state.startSessions = true
  · rw [if_pos h0] at h; cases h
  · rw [if_neg h0] at h ⊢
    cases e : recvBlocks c 16 1 with
    | mk r c1 =>
      rw [e] at h
      cases r with
      | done =>
        rw [recvBlocks_more q _ _ _ _ e]
        dsimp only at h ⊢
        rw [checkMsg_more]
        cases e2 : checkMsg H c1 1 with
        | mk b c2 =>
          rw [e2] at h
          cases b with
          | false => cases h
          | true =>
            dsimp only at h ⊢
            have hm : (more q c2).msg = c2.msg := rfl
            rw [hm]
            by_cases h3 : get8 c2.msg 0 ≠ 2#8
            · rw [if_pos h3] at h; cases h
            · rw [if_neg h3] at h ⊢; cases h; rfl
      | closed => cases h
      | intr => cases h
      | err => cases h

theorem startAck_stable (H : Mac) : Stable (readStartAck H) := by
  intro q c c' v h
  unfold readStartAck at h ⊢
  have hs : (more q c).state = c.state := rfl
  rw [hs]
  by_cases h0 : ¬ c.state.startAck = true
  · rw [if_pos h0] at h; cases h
  · rw [if_neg h0] at h ⊢
    cases e : recvBlocks c 0 2 with
    | mk r c1 =>
      rw [e] at h
      cases r with
      | done =>
        rw [recvBlocks_more q _ _ _ _ e]
        dsimp only at h ⊢
        rw [checkMsg_more]
        cases e2 : checkMsg H c1 1 with
        | mk b c2 =>
          rw [e2] at h
          cases b with
          | false => cases h
          | true =>
            dsimp only at h ⊢
            have hm : (more q c2).msg = c2.msg := rfl
            rw [hm]
            by_cases h3 : getAcceptType (get8 c2.msg 0) = .invalid
            · rw [if_pos h3] at h; cases h
            · rw [if_neg h3] at h ⊢
              cases h
              congr 1
              split <;> rfl
      | closed => cases h
      | intr => cases h
      | err => cases h

theorem fetchSession_stable (H : Mac) : Stable (readFetchSession H) := by
  intro q c c' v h
  unfold readFetchSession at h ⊢
  have hs : (more q c).state = c.state := rfl
  have hw : (more q c).twoway = c.twoway := rfl
  rw [hs, hw]
  by_cases h0 : ¬ c.state.fetchSession = true
  · rw [if_pos h0] at h; cases h
  · rw [if_neg h0] at h ⊢
    by_cases h1 : c.twoway = true
    · rw [if_pos h1] at h; cases h
    · rw [if_neg h1] at h ⊢
      cases e : recvBlocks c 16 2 with
      | mk r c1 =>
        rw [e] at h
        cases r with
        | done =>
          rw [recvBlocks_more q _ _ _ _ e]
          dsimp only at h ⊢
          rw [checkMsg_more]
          cases e2 : checkMsg H c1 2 with
          | mk b c2 =>
            rw [e2] at h
            cases b with
            | false => cases h
            | true =>
              dsimp only at h ⊢
              have hm : (more q c2).msg = c2.msg := rfl
              rw [hm]
              by_cases h3 : get8 c2.msg 0 ≠ 4#8
              · rw [if_pos h3] at h; cases h
              · rw [if_neg h3] at h ⊢; cases h; rfl
        | closed => cases h
        | intr => cases h
        | err => cases h

theorem fetchAck_stable (H : Mac) : Stable (readFetchAck H) := fun q c c' a h => readFetchAck_more q H c c' a h

/-- `readTestRequest` of a server, which has read the first block. -/
theorem readTestRequest_server_more (q : Bytes) (H : Mac) (remote loc : SockAddr) (c c' : Conn) (r : TestReq) (a : Accept)
    (h : readTestRequest H true remote loc c = (some r, a, c')) :
    readTestRequest H true remote loc (more q c) = (some r, a, more q c') := by
  unfold readTestRequest at h ⊢
  have hs : (more q c).state = c.state := rfl
  have hw : (more q c).twoway = c.twoway := rfl
  rw [hs, hw]
  by_cases h0 : ¬ (if c.twoway then c.state.testRequestTW else c.state.testRequest) = true
  · rw [if_pos h0] at h; cases h
  · rw [if_neg h0] at h ⊢
    simp only [if_true] at h ⊢
    cases e1 : recvBlocks c 16 6 with
    | mk t c2 =>
      rw [e1] at h
      cases t with
      | done =>
        rw [recvBlocks_more q _ _ _ _ e1]
        dsimp only at h ⊢
        rw [checkMsg_more]
        cases e2 : checkMsg H c2 6 with
        | mk b c3 =>
          rw [e2] at h
          cases b with
          | false => cases h
          | true =>
            dsimp only at h ⊢
            have hm : (more q c3).msg = c3.msg := rfl
            have hw3 : (more q c3).twoway = c3.twoway := rfl
            rw [hm, hw3]
            by_cases hd : ¬ (decodePreamble true c3.msg c3.twoway).1 = true ∧ True
            · replace h := (if_pos hd).symm.trans h
              cases h
            · replace h := (if_neg hd).symm.trans h
              refine (if_neg hd).trans ?_
              split at h
              · cases h
              · split at h
                · cases h
                · by_cases ht : c3.twoway = true
                  · replace h := (if_pos ht).symm.trans h
                    refine (if_pos ht).trans ?_
                    cases h
                    rfl
                  · replace h := (if_neg ht).symm.trans h
                    refine (if_neg ht).trans ?_
                    cases e5 : Ctl.readSlots H (c3.setState { c3.state with testRequest := false, testRequestSlots := true })
                        (decodePreamble true c3.msg c3.twoway).2.nslots with
                    | mk t c5 =>
                      rw [e5] at h
                      cases t with
                      | none => cases h
                      | some ss =>
                        rw [show Ctl.readSlots H ((more q c3).setState { (more q c3).state with testRequest := false, testRequestSlots := true })
                          (decodePreamble true c3.msg c3.twoway).2.nslots = (some ss, more q c5) from
                            readSlots_more q H _ c5 _ ss e5]
                        cases h
                        rfl
      | closed => cases h
      | intr => cases h
      | err => cases h

theorem testRequest_stable (H : Mac) (server : Bool) (remote loc : SockAddr) : Stable (testRequest H server remote loc) := by
  intro q c c' v h
  unfold testRequest at h ⊢
  cases e : readTestRequest H server remote loc c with
  | mk t p =>
    obtain ⟨a, c1⟩ := p
    rw [e] at h
    cases t with
    | none => cases h
    | some r =>
      cases h
      cases server with
      | true => rw [readTestRequest_server_more q H remote loc c c' r a e]; rfl
      | false => rw [readTestRequest_more q H remote loc c c' r a e]; rfl

variable {ρ : Type}

theorem readSkipLoop_more (q : Bytes) (F : RecvFile ρ) (prev : Skip) : ∀ (n j : Nat) (c c' : Conn) (f g g' : ρ),
    readSkipLoop F c f prev j n = (some g, c', g') → readSkipLoop F (more q c) f prev j n = (some g, more q c', g') := by
  intro n
  induction n with
  | zero => intro j c c' f g g' h; cases h; rfl
  | succ n ih =>
    intro j c c' f g g' h
    have key : ∀ c1 : Conn, (if (decodeSkip (get c1.msg ((j + 1) % 2 * 8) 8)).last.toNat < (decodeSkip (get c1.msg ((j + 1) % 2 * 8) 8)).first.toNat then (none, c1, f) else
        if prev.last ≠ 0#32 ∧ (decodeSkip (get c1.msg ((j + 1) % 2 * 8) 8)).first.toNat < prev.last.toNat then (none, c1, f) else
        match F.skip f (get c1.msg ((j + 1) % 2 * 8) 8) with
        | none => (none, c1, f)
        | some f => readSkipLoop F c1 f prev (j + 1) n) = (some g, c', g') →
        (if (decodeSkip (get (more q c1).msg ((j + 1) % 2 * 8) 8)).last.toNat < (decodeSkip (get (more q c1).msg ((j + 1) % 2 * 8) 8)).first.toNat then (none, more q c1, f) else
        if prev.last ≠ 0#32 ∧ (decodeSkip (get (more q c1).msg ((j + 1) % 2 * 8) 8)).first.toNat < prev.last.toNat then (none, more q c1, f) else
        match F.skip f (get (more q c1).msg ((j + 1) % 2 * 8) 8) with
        | none => (none, more q c1, f)
        | some f => readSkipLoop F (more q c1) f prev (j + 1) n) = (some g, more q c', g') := by
      intro c1 h
      have hm : (more q c1).msg = c1.msg := rfl
      rw [hm]
      by_cases h1 : (decodeSkip (get c1.msg ((j + 1) % 2 * 8) 8)).last.toNat < (decodeSkip (get c1.msg ((j + 1) % 2 * 8) 8)).first.toNat
      · rw [if_pos h1] at h; cases h
      · rw [if_neg h1] at h ⊢
        by_cases h2 : prev.last ≠ 0#32 ∧ (decodeSkip (get c1.msg ((j + 1) % 2 * 8) 8)).first.toNat < prev.last.toNat
        · rw [if_pos h2] at h; cases h
        · rw [if_neg h2] at h ⊢
          cases e : F.skip f (get c1.msg ((j + 1) % 2 * 8) 8) with
          | none => rw [e] at h; cases h
          | some f1 => rw [e] at h; exact ih (j + 1) c1 c' f1 g g' h
    unfold readSkipLoop at h ⊢
    dsimp only at h ⊢
    by_cases hb : (j + 1) % 2 * 8 = 0
    · simp only [if_pos hb] at h ⊢
      cases e : recvBlocks c 0 1 with
      | mk r c1 =>
        rw [e] at h
        cases r with
        | done =>
          rw [recvBlocks_more q _ _ _ _ e]
          dsimp only at h ⊢
          have hm : (more q c1).msg = c1.msg := rfl
          rw [hm, recvHmacAdd_more]
          exact key _ h
        | closed => cases h
        | intr => cases h
        | err => cases h
    · simp only [if_neg hb] at h ⊢
      exact key c h

theorem readStopRecord_more (q : Bytes) (F : RecvFile ρ) (c c' : Conn) (f g g' : ρ) (h : readStopRecord F c f = (some g, c', g')) :
    readStopRecord F (more q c) f = (some g, more q c', g') := by
  unfold readStopRecord at h ⊢
  cases e : recvBlocks c 0 1 with
  | mk r c1 =>
    rw [e] at h
    cases r with
    | done =>
      rw [recvBlocks_more q _ _ _ _ e]
      dsimp only at h ⊢
      have hm : (more q c1).msg = c1.msg := rfl
      rw [hm, recvHmacAdd_more]
      generalize recvHmacAdd c1 (get c1.msg 0 16) = c2 at h ⊢
      have hm2 : (more q c2).msg = c2.msg := rfl
      rw [hm2]
      cases e2 : F.start f (get32 c2.msg 0) (get32 c2.msg 4) with
      | none => rw [e2] at h; cases h
      | some f1 =>
        rw [e2] at h
        dsimp only at h ⊢
        cases e3 : readSkipLoop F c2 f1 ⟨0#32, 0#32⟩ 0 (get32 c2.msg 4).toNat with
        | mk t p =>
          obtain ⟨c3, f3⟩ := p
          rw [e3] at h
          cases t with
          | none => cases h
          | some f2 =>
            rw [readSkipLoop_more q F _ _ _ _ _ _ _ _ e3]
            dsimp only at h ⊢
            have hm3 : (more q c3).msg = c3.msg := rfl
            rw [hm3]
            by_cases h4 : (get32 c2.msg 4).toNat % 2 = 0 ∧ get c3.msg 8 8 ≠ zeros 8
            · rw [if_pos h4] at h; cases h
            · rw [if_neg h4] at h ⊢
              cases e5 : F.finish f2 (get32 c2.msg 4) (get32 c2.msg 0) with
              | none => rw [e5] at h; cases h
              | some f5 => rw [e5] at h; cases h; rfl
    | closed => cases h
    | intr => cases h
    | err => cases h

theorem readStopLoop_more (q : Bytes) (F : RecvFile ρ) : ∀ (n : Nat) (s s' : StopAt ρ), readStopLoop F s n = (true, s') →
    readStopLoop F { s with c := more q s.c } n = (true, { s' with c := more q s'.c }) := by
  intro n
  induction n with
  | zero => intro s s' h; cases h; rfl
  | succ n ih =>
    intro s s' h
    unfold readStopLoop at h ⊢
    cases e : recvBlocks s.c 0 1 with
    | mk r c1 =>
      rw [e] at h
      dsimp only
      cases r with
      | done =>
        rw [recvBlocks_more q _ _ _ _ e]
        dsimp only at h ⊢
        have hm : (more q c1).msg = c1.msg := rfl
        rw [hm, recvHmacAdd_more]
        generalize recvHmacAdd c1 (get c1.msg 0 16) = c2 at h ⊢
        have hm2 : (more q c2).msg = c2.msg := rfl
        rw [hm2]
        cases e2 : findReceiver (get c2.msg 0 16) s.receivers with
        | none => rw [e2] at h; cases h
        | some p =>
          obtain ⟨before, t, after⟩ := p
          rw [e2] at h
          dsimp only at h ⊢
          cases e3 : t.ep with
          | none => rw [e3] at h; cases h
          | some ep =>
            rw [e3] at h
            dsimp only at h ⊢
            cases e4 : readStopRecord F c2 ep.file with
            | mk g p =>
              obtain ⟨c4, f4⟩ := p
              rw [e4] at h
              cases g with
              | none => cases h
              | some g =>
                rw [readStopRecord_more q F _ _ _ _ _ e4]
                exact ih _ _ h
      | closed => cases h
      | intr => cases h
      | err => cases h

theorem readStopEnd_more (q : Bytes) (H : Mac) (acc a : Accept) (s : StopAt ρ) (c' : Conn) (ts : List (Sess ρ))
    (h : readStopEnd H acc s = (some a, c', ts)) : readStopEnd H acc { s with c := more q s.c } = (some a, more q c', ts) := by
  unfold readStopEnd at h ⊢
  cases e : recvBlocks s.c 0 1 with
  | mk r c1 =>
    rw [e] at h
    dsimp only
    cases r with
    | done =>
      rw [recvBlocks_more q _ _ _ _ e]
      dsimp only at h ⊢
      have hm : (more q c1).msg = c1.msg := rfl
      rw [hm, recvCheck_more]
      cases e2 : recvCheck H c1 (get c1.msg 0 16) with
      | mk b c2 =>
        rw [e2] at h
        cases b with
        | false => cases h
        | true => cases h; rfl
    | closed => cases h
    | intr => cases h
    | err => cases h

theorem readStopSessions_more (q : Bytes) (H : Mac) (F : RecvFile ρ) (c c' : Conn) (tests ts : List (Sess ρ)) (a : Accept)
    (h : readStopSessions H F c tests = (some a, c', ts)) : readStopSessions H F (more q c) tests = (some a, more q c', ts) := by
  unfold readStopSessions at h ⊢
  have hs : (more q c).state = c.state := rfl
  have hm : (more q c).msg = c.msg := rfl
  rw [hs, hm]
  by_cases h0 : ¬ (c.state.request = true ∧ c.state.test = true)
  · rw [if_pos h0] at h; cases h
  · rw [if_neg h0] at h ⊢
    dsimp only at h ⊢
    by_cases h1 : getAcceptType (get8 c.msg 1) = .invalid
    · rw [if_pos h1] at h; cases h
    · rw [if_neg h1] at h ⊢
      rw [recvHmacAdd_more]
      generalize recvHmacAdd c (get c.msg 0 16) = c1 at h ⊢
      have hw : (more q c1).twoway = c1.twoway := rfl
      rw [hw]
      by_cases h2 : c1.twoway = true
      · rw [if_pos h2] at h ⊢
        by_cases h3 : (get32 c.msg 4).toNat ≠ tests.length
        · rw [if_pos h3] at h; cases h
        · rw [if_neg h3] at h ⊢
          exact readStopEnd_more q H _ a ⟨c1, [], tests, []⟩ c' ts h
      · rw [if_neg h2] at h ⊢
        cases e : pullReceivers tests [] with
        | mk b p =>
          obtain ⟨t, r⟩ := p
          rw [e] at h
          cases b with
          | false => cases h
          | true =>
            dsimp only at h ⊢
            cases e2 : readStopLoop F ⟨c1, r, t, []⟩ (get32 c.msg 4).toNat with
            | mk b s =>
              rw [e2] at h
              cases b with
              | false => cases h
              | true =>
                rw [readStopLoop_more q F _ ⟨c1, r, t, []⟩ s e2]
                dsimp only at h ⊢
                by_cases h3 : s.after ≠ []
                · rw [if_pos h3] at h; cases h
                · rw [if_neg h3] at h ⊢
                  exact readStopEnd_more q H _ a s c' ts h

theorem stopSessions_stable (H : Mac) (F : RecvFile ρ) (tests : List (Sess ρ)) : Stable (stopMessage H F tests) := by
  intro q c c' v h
  unfold stopMessage at h ⊢
  cases e : readStopSessions H F c tests with
  | mk t p =>
    obtain ⟨c1, ts⟩ := p
    rw [e] at h
    cases t with
    | none => cases h
    | some a =>
      rw [readStopSessions_more q H F c c1 tests ts a e]
      dsimp only at h ⊢
      cases h
      rfl

end Owamp.More
