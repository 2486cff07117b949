import Verif.Model.Server
/-!
# How the message functions move the state of a connection
-/
namespace Owamp.Ctl
open Owamp.Codec

variable {ρ : Type}

/-- Same state and same kind of connection. -/
def Same (c c' : Conn) : Prop := c'.state = c.state ∧ c'.twoway = c.twoway

theorem Same.refl (c : Conn) : Same c c := ⟨rfl, rfl⟩
theorem Same.trans {a b c : Conn} (h : Same a b) (k : Same b c) : Same a c := ⟨k.1.trans h.1, k.2.trans h.2⟩

theorem readN_same (c : Conn) (n : Nat) : Same c (readN c n).2 := by
  unfold readN
  split
  · exact ⟨rfl, rfl⟩
  · exact ⟨rfl, rfl⟩
  · split <;> exact ⟨rfl, rfl⟩

theorem writeN_same (c : Conn) (b : Bytes) : Same c (writeN c b).2 := by
  unfold writeN
  split <;> exact ⟨rfl, rfl⟩

theorem recvBlocks_same (c : Conn) (o n : Nat) : Same c (recvBlocks c o n).2 := by
  have h := readN_same c (n * 16)
  unfold recvBlocks
  split <;> rename_i c1 e <;> rw [e] at h
  · split <;> exact h
  · exact h
  · exact h
  · exact h

theorem sendBuf_same (c : Conn) (b : Bytes) : Same c (sendBuf c b).2.2 := by
  unfold sendBuf
  split
  · exact writeN_same _ _
  · exact writeN_same _ _

theorem sendBlocks_same (c : Conn) (b : Bytes) : Same c (sendBlocks c b).2 := sendBuf_same c b

theorem sendHmacAdd_same (c : Conn) (b : Bytes) : Same c (sendHmacAdd c b) := by
  unfold sendHmacAdd; split <;> exact ⟨rfl, rfl⟩
theorem sendDigest_same (H : Mac) (c : Conn) : Same c (sendDigest H c).2 := by
  unfold sendDigest; split <;> exact ⟨rfl, rfl⟩
theorem recvHmacAdd_same (c : Conn) (b : Bytes) : Same c (recvHmacAdd c b) := by
  unfold recvHmacAdd; split <;> exact ⟨rfl, rfl⟩
theorem recvCheck_same (H : Mac) (c : Conn) (d : Bytes) : Same c (recvCheck H c d).2 := by
  unfold recvCheck; split <;> exact ⟨rfl, rfl⟩

theorem sendMsg_same (H : Mac) (c : Conn) (m : Bytes) (k : Nat) : Same c (sendMsg H c m k).2 := by
  unfold sendMsg
  refine Same.trans ?_ (sendBlocks_same _ _)
  have h1 : Same c (sendHmacAdd { c with msg := m } (get m 0 (16 * k))) := sendHmacAdd_same { c with msg := m } _
  exact h1.trans (sendDigest_same H _)

theorem checkMsg_same (H : Mac) (c : Conn) (k : Nat) : Same c (checkMsg H c k).2 := by
  unfold checkMsg
  exact (recvHmacAdd_same _ _).trans (recvCheck_same _ _ _)

theorem recvBlocks_st {c c1 : Conn} {o n : Nat} {x : RdBlk} (h : recvBlocks c o n = (x, c1)) : Same c c1 := by
  have := recvBlocks_same c o n; rw [h] at this; exact this
theorem sendMsg_st {H : Mac} {c c1 : Conn} {m : Bytes} {k : Nat} {x : Wr} (h : sendMsg H c m k = (x, c1)) : Same c c1 := by
  have := sendMsg_same H c m k; rw [h] at this; exact this
theorem checkMsg_st {H : Mac} {c c1 : Conn} {k : Nat} {x : Bool} (h : checkMsg H c k = (x, c1)) : Same c c1 := by
  have := checkMsg_same H c k; rw [h] at this; exact this
theorem recvCheck_st {H : Mac} {c c1 : Conn} {d : Bytes} {x : Bool} (h : recvCheck H c d = (x, c1)) : Same c c1 := by
  have := recvCheck_same H c d; rw [h] at this; exact this
theorem sendBlocks_st {c c1 : Conn} {b : Bytes} {x : Wr} (h : sendBlocks c b = (x, c1)) : Same c c1 := by
  have := sendBlocks_same c b; rw [h] at this; exact this
theorem sendBuf_st {c c1 : Conn} {b d : Bytes} {x : Wr} (h : sendBuf c b = (x, d, c1)) : Same c c1 := by
  have := sendBuf_same c b; rw [h] at this; exact this

theorem readSlotLoop_st (n : Nat) : ∀ (c c' : Conn) (ss : List Sched.Slot), readSlotLoop c n = (some ss, c') → Same c c' := by
  induction n with
  | zero => intro c c' ss h; simp only [readSlotLoop, Prod.mk.injEq] at h; rw [← h.2]; exact Same.refl c
  | succ n ih =>
    intro c c' ss h
    rw [readSlotLoop] at h
    split at h
    · rename_i c1 e
      have h2 := (recvBlocks_st e).trans (recvHmacAdd_same c1 (get c1.msg 0 16))
      dsimp only at h
      split at h
      · simp at h
      · split at h
        · simp at h
        · rename_i e3
          have h3 := h2.trans (ih _ _ _ e3)
          simp only [Prod.mk.injEq] at h; rw [← h.2]; exact h3
    · simp at h

theorem readSlotLoop_tw (n : Nat) : ∀ (c : Conn), (readSlotLoop c n).2.twoway = c.twoway := by
  induction n with
  | zero => intro c; rfl
  | succ n ih =>
    intro c
    rw [readSlotLoop]
    split
    · rename_i c1 e
      have h2 := (recvBlocks_st e).trans (recvHmacAdd_same c1 (get c1.msg 0 16))
      dsimp only
      split
      · exact h2.2
      · have := ih (recvHmacAdd c1 (get c1.msg 0 16))
        split <;> rename_i e3 <;> rw [e3] at this <;> exact this.trans h2.2
    · rename_i e
      exact (recvBlocks_st e).2

/-- A connection on which no request can be read any more. -/
def Shut (c : Conn) : Prop := c.state.request = false ∨ c.state.isReading = true

theorem shut_fail (c : Conn) : Shut c.fail := Or.inl rfl

theorem request_shut (c : Conn) (h : Shut c) : readRequestType c = (.invalid, c) := by
  unfold readRequestType
  rw [if_pos]
  rcases h with h | h
  · left; rw [h]; simp
  · exact Or.inr h

/-- Reading a request type on an idle connection. -/
theorem request_idle (c : Conn) (hs : c.state = .requestOnly) : ∀ t c', readRequestType c = (t, c') →
    c'.twoway = c.twoway ∧
    (((t = .invalid ∨ t = .sockIntr ∨ t = .sockClose) ∧ c'.state = .invalid) ∨
      (t = .test ∧ c'.state = { request := true, testRequest := true }) ∨
      (t = .startSessions ∧ c'.state = { request := true, startSessions := true }) ∨
      (t = .fetchSession ∧ c'.state = { request := true, fetchSession := true }) ∨
      (t = .testTW ∧ c'.state = { request := true, testRequestTW := true })) := by
  intro t c' h
  unfold readRequestType at h
  rw [if_neg (by rw [hs]; decide)] at h
  split at h
  · rename_i c1 e
    obtain ⟨e1, e2⟩ := recvBlocks_st e
    have e1 := e1.trans hs
    have ht : c1.state.test = false := by rw [e1]; rfl
    simp only [ht, Bool.false_eq_true, false_and, not_false_eq_true, true_and, false_or] at h
    (repeat' split at h) <;> simp only [Prod.mk.injEq] at h <;> obtain ⟨rfl, rfl⟩ := h <;>
      refine ⟨e2, ?_⟩ <;> simp_all [Conn.setState, Conn.fail, CState.invalid, CState.requestOnly]
  · rename_i c1 e
    obtain ⟨e1, e2⟩ := recvBlocks_st e
    simp only [Prod.mk.injEq] at h; obtain ⟨rfl, rfl⟩ := h
    exact ⟨e2, Or.inl ⟨by simp, rfl⟩⟩
  · rename_i c1 _ _ e
    obtain ⟨e1, e2⟩ := recvBlocks_st e
    simp only [Prod.mk.injEq] at h; obtain ⟨rfl, rfl⟩ := h
    exact ⟨e2, Or.inl ⟨by simp, rfl⟩⟩

/-- Reading a request type while sessions run. -/
theorem request_test (c : Conn) (hs : c.state = { request := true, test := true }) : ∀ t c', readRequestType c = (t, c') →
    c'.twoway = c.twoway ∧
    (((t = .invalid ∨ t = .sockIntr ∨ t = .sockClose) ∧ c'.state = .invalid) ∨
      (t = .stopSessions ∧ c'.state = { request := true, test := true, stopSessions := true })) := by
  intro t c' h
  unfold readRequestType at h
  rw [if_neg (by rw [hs]; decide)] at h
  split at h
  · rename_i c1 e
    obtain ⟨e1, e2⟩ := recvBlocks_st e
    have e1 := e1.trans hs
    have ht : c1.state.test = true := by rw [e1]
    simp only [ht, true_and, not_true_eq_false, false_and, or_false] at h
    (repeat' split at h) <;> simp only [Prod.mk.injEq] at h <;> obtain ⟨rfl, rfl⟩ := h <;>
      refine ⟨e2, ?_⟩ <;> simp_all [Conn.setState, Conn.fail, CState.invalid]
  · rename_i c1 e
    obtain ⟨e1, e2⟩ := recvBlocks_st e
    simp only [Prod.mk.injEq] at h; obtain ⟨rfl, rfl⟩ := h
    exact ⟨e2, Or.inl ⟨by simp, rfl⟩⟩
  · rename_i c1 _ _ e
    obtain ⟨e1, e2⟩ := recvBlocks_st e
    simp only [Prod.mk.injEq] at h; obtain ⟨rfl, rfl⟩ := h
    exact ⟨e2, Or.inl ⟨by simp, rfl⟩⟩

theorem readSlots_st (H : Mac) (c c' : Conn) (n : U32) (ss : List Sched.Slot) (h : readSlots H c n = (some ss, c')) :
    c'.state = { c.state with testRequestSlots := false } ∧ c'.twoway = c.twoway := by
  unfold readSlots at h
  split at h
  · simp at h
  split at h
  · simp at h
  · rename_i e
    have s1 := readSlotLoop_st _ _ _ _ e
    split at h
    · rename_i e2
      have s2 := s1.trans (recvBlocks_st e2)
      split at h
      · rename_i e3
        have s3 := s2.trans (recvCheck_st e3)
        simp only [Prod.mk.injEq] at h
        rw [← h.2]
        exact ⟨congrArg (fun s : CState => { s with testRequestSlots := false }) s3.1, s3.2⟩
      · simp at h
    · simp at h

theorem readSlots_tw (H : Mac) (c : Conn) (n : U32) : (readSlots H c n).2.twoway = c.twoway := by
  unfold readSlots
  split
  · rfl
  have t := readSlotLoop_tw n.toNat c
  split
  · rename_i e; rw [e] at t; exact t
  · rename_i c1 e
    rw [e] at t
    split
    · rename_i c2 e2
      have s2 := recvBlocks_st e2
      split
      · rename_i e3; exact (recvCheck_st e3).2.trans (s2.2.trans t)
      · rename_i e3; exact (recvCheck_st e3).2.trans (s2.2.trans t)
    · rename_i e2; exact (recvBlocks_st e2).2.trans t

/-- Reading a one-way test request on the server. -/
theorem testRequest_st (H : Mac) (remote loc : SockAddr) (c : Conn) (tw : c.twoway = false)
    (hs : c.state = { request := true, testRequest := true }) (q : Option TestReq) (acc : Accept) (c' : Conn)
    (h : readTestRequest H true remote loc c = (q, acc, c')) :
    c'.twoway = false ∧
    ((q.isSome ∧ c'.state = { request := true, acceptSession := true }) ∨
      (q = none ∧ acc = .invalid) ∨ (q = none ∧ Shut c')) := by
  unfold readTestRequest at h
  simp only [tw, hs, Bool.false_eq_true, if_false, not_true_eq_false, if_true] at h
  split at h
  · rename_i c1 e
    have s1 := recvBlocks_st e
    split at h
    · rename_i c2 e2
      simp only [Prod.mk.injEq] at h; obtain ⟨rfl, rfl, rfl⟩ := h
      exact ⟨((checkMsg_st e2).2.trans s1.2).trans tw, Or.inr (Or.inl ⟨rfl, rfl⟩)⟩
    · rename_i c2 e2
      have s2 := s1.trans (checkMsg_st e2)
      have tw2 : c2.twoway = false := s2.2.trans tw
      have hs2 : c2.state = { request := true, testRequest := true } := s2.1.trans hs
      have sh : Shut c2 := Or.inr (by rw [hs2]; rfl)
      split at h
      · simp only [Prod.mk.injEq] at h; obtain ⟨rfl, rfl, rfl⟩ := h
        exact ⟨tw2, Or.inr (Or.inr ⟨rfl, sh⟩)⟩
      · split at h
        · simp only [Prod.mk.injEq] at h; obtain ⟨rfl, rfl, rfl⟩ := h
          exact ⟨tw2, Or.inr (Or.inr ⟨rfl, sh⟩)⟩
        · split at h
          · simp only [Prod.mk.injEq] at h; obtain ⟨rfl, rfl, rfl⟩ := h
            exact ⟨tw2, Or.inr (Or.inr ⟨rfl, sh⟩)⟩
          · simp only [Conn.setState, tw2, Bool.false_eq_true, if_false] at h
            split at h
            · rename_i e3
              simp only [Prod.mk.injEq] at h; obtain ⟨rfl, rfl, rfl⟩ := h
              have := readSlots_tw H { c2 with state := { c2.state with testRequest := false, testRequestSlots := true }, twoway := false } (decodePreamble true c2.msg false).2.nslots
              rw [e3] at this
              exact ⟨this, Or.inr (Or.inl ⟨rfl, rfl⟩)⟩
            · rename_i e3
              simp only [Prod.mk.injEq] at h; obtain ⟨rfl, rfl, rfl⟩ := h
              have s3 := readSlots_st _ _ _ _ _ e3
              refine ⟨s3.2, Or.inl ⟨rfl, ?_⟩⟩
              exact (congrArg (fun s : CState => { s with acceptSession := true }) s3.1).trans (by rw [hs2])
  · rename_i e
    simp only [Prod.mk.injEq] at h; obtain ⟨rfl, rfl, rfl⟩ := h
    exact ⟨(recvBlocks_st e).2.trans tw, Or.inr (Or.inl ⟨rfl, rfl⟩)⟩

theorem writeAccept_st (H : Mac) (c : Conn) (acc : Accept) (port : U16) (sid : Option Bytes)
    (hs : c.state.acceptSession = true) (r : Option Unit) (c' : Conn) (h : writeAcceptSession H c acc port sid = (r, c')) :
    c'.twoway = c.twoway ∧ ((r.isSome ∧ c'.state = { c.state with acceptSession := false }) ∨ (r = none ∧ c'.state = .invalid)) := by
  unfold writeAcceptSession at h
  rw [if_neg (by rw [hs]; simp)] at h
  dsimp only at h
  split at h
  · rename_i e
    have s := sendMsg_st e
    simp only [Prod.mk.injEq] at h; obtain ⟨rfl, rfl⟩ := h
    exact ⟨s.2, Or.inl ⟨rfl, congrArg (fun s : CState => { s with acceptSession := false }) s.1⟩⟩
  · rename_i e
    have s := sendMsg_st e
    simp only [Prod.mk.injEq] at h; obtain ⟨rfl, rfl⟩ := h
    exact ⟨s.2, Or.inr ⟨rfl, rfl⟩⟩

theorem readStart_st (H : Mac) (c c' : Conn) (h : readStartSessions H c = (some (), c')) :
    c.state.startSessions = true ∧ c'.state = { c.state with startSessions := false, startAck := true, test := true } ∧
    c'.twoway = c.twoway := by
  unfold readStartSessions at h
  split at h
  · simp at h
  rename_i hst
  split at h
  · simp at h
  · rename_i e
    have s1 := recvBlocks_st e
    split at h
    · simp at h
    · rename_i e2
      have s2 := s1.trans (checkMsg_st e2)
      split at h
      · simp at h
      · simp only [Prod.mk.injEq, true_and] at h
        subst h
        exact ⟨by simpa using hst, congrArg (fun s : CState => { s with startSessions := false, startAck := true, test := true }) s2.1, s2.2⟩
  · simp at h

theorem writeStartAck_st (H : Mac) (c c' : Conn) (h : writeStartAck H c .accept = (some (), c')) :
    c'.state = { c.state with startAck := false } ∧ c'.twoway = c.twoway := by
  unfold writeStartAck at h
  split at h
  · simp at h
  dsimp only at h
  split at h
  · simp at h
  · rename_i e
    have s := sendMsg_st e
    rw [if_neg (by simp)] at h
    simp only [Prod.mk.injEq, true_and] at h
    subst h
    exact ⟨congrArg (fun s : CState => { s with startAck := false }) s.1, s.2⟩
  · simp at h

theorem readFetch_st (H : Mac) (c c' : Conn) (q : U32 × U32 × Bytes) (h : readFetchSession H c = (some q, c')) :
    c.state.fetchSession = true ∧
    c'.state = { c.state with fetchSession := false, request := false, fetchAck := true, fetching := true } ∧
    c'.twoway = c.twoway := by
  unfold readFetchSession at h
  split at h
  · simp at h
  rename_i hst
  split at h
  · simp at h
  split at h
  · simp at h
  · rename_i e
    have s1 := recvBlocks_st e
    split at h
    · simp at h
    · rename_i e2
      have s2 := s1.trans (checkMsg_st e2)
      split at h
      · simp at h
      · simp only [Prod.mk.injEq] at h
        obtain ⟨-, rfl⟩ := h
        exact ⟨by simpa using hst, congrArg (fun s : CState => { s with fetchSession := false, request := false, fetchAck := true, fetching := true }) s2.1, s2.2⟩
  · simp at h

theorem writeFetchAck_st (H : Mac) (c c' : Conn) (a : FetchAck) (h : writeFetchAck H c a = (some (), c')) :
    c'.twoway = c.twoway ∧
    ((a.accept = .accept ∧ c'.state = { c.state with fetchAck := false }) ∨
      (a.accept ≠ .accept ∧ c'.state = { c.state with fetchAck := false, fetching := false, request := true })) := by
  unfold writeFetchAck at h
  split at h
  · simp at h
  dsimp only at h
  split at h
  · simp at h
  · rename_i e
    have s := sendMsg_st e
    simp only [Prod.mk.injEq, true_and] at h
    subst h
    split
    · rename_i ha
      refine ⟨s.2, Or.inr ⟨ha, ?_⟩⟩
      exact congrArg (fun s : CState => { s with fetchAck := false, fetching := false, request := true }) s.1
    · rename_i ha
      refine ⟨s.2, Or.inl ⟨by simpa using ha, ?_⟩⟩
      exact congrArg (fun s : CState => { s with fetchAck := false }) s.1
  · simp at h

theorem sendSkips_st (n : Nat) : ∀ (size : Nat), size ≤ n → ∀ (c c' : Conn) (d : Bytes), sendSkips c d size = (some (), c') → Same c c' := by
  induction n with
  | zero =>
    intro size hn c c' d h
    have : size = 0 := by omega
    subst this
    unfold sendSkips at h
    simp at h; subst h; exact Same.refl c
  | succ n ih =>
    intro size hn c c' d h
    have pr : ∀ b : Bytes, Same c (sendHmacAdd { c with msg := put c.msg 0 b } b) :=
      fun b => sendHmacAdd_same { c with msg := put c.msg 0 b } b
    unfold sendSkips at h
    split at h
    · split at h
      · simp at h
      dsimp only at h
      split at h
      · rename_i e
        exact ((pr _).trans (sendBlocks_st e)).trans (ih _ (by omega) _ _ _ h)
      · simp at h
    · split at h
      · split at h
        · simp at h
        dsimp only at h
        split at h
        · rename_i e
          simp only [Prod.mk.injEq, true_and] at h
          subst h
          exact (pr _).trans (sendBlocks_st e)
        · simp at h
      · split at h
        · simp at h
        · simp only [Prod.mk.injEq, true_and] at h
          subst h
          exact Same.refl c

theorem writeStopLoop_st (ts : List (Sess ρ)) : ∀ (c c' : Conn) (ts' : List (Sess ρ)),
    writeStopLoop c ts = (some (), c', ts') → Same c c' := by
  induction ts with
  | nil => intro c c' ts' h; simp only [writeStopLoop, Prod.mk.injEq] at h; rw [← h.2.1]; exact Same.refl c
  | cons t ts ih =>
    intro c c' ts' h
    have rest : ∀ c1 t1, (((writeStopLoop c1 ts).1, (writeStopLoop c1 ts).2.1, t1 :: (writeStopLoop c1 ts).2.2) :
        Option Unit × Conn × List (Sess ρ)) = (some (), c', ts') → Same c1 c' := by
      intro c1 t1 h
      simp only [Prod.mk.injEq] at h
      refine ih c1 c' (writeStopLoop c1 ts).2.2 ?_
      rw [← h.1, ← h.2.1]
    rw [writeStopLoop] at h
    split at h
    · exact rest _ _ h
    · split at h
      · exact rest _ _ h
      · split at h
        · rename_i e
          have s1 := (sendHmacAdd_same c t.sid).trans (sendBuf_st e)
          dsimp only at h
          split at h
          · rename_i e2
            exact (s1.trans (sendSkips_st _ _ (Nat.le_refl _) _ _ _ e2)).trans (rest _ _ h)
          · simp at h
        · simp at h

theorem writeStop_st (H : Mac) (c c' : Conn) (acc : Accept) (num : U32) (ts ts' : List (Sess ρ))
    (h : writeStopSessions H c acc num ts = (some (), c', ts')) : Same c c' := by
  unfold writeStopSessions at h
  split at h
  · simp at h
  dsimp only at h
  split at h
  · split at h
    · rename_i e
      simp only [Prod.mk.injEq, true_and] at h
      rw [← h.1]; exact sendMsg_st e
    · simp at h
  · split at h
    · rename_i e
      have s0 : ∀ m : Bytes, ∀ b, Same c (sendHmacAdd { c with msg := m } b) := fun m b => sendHmacAdd_same { c with msg := m } b
      have s1 := (s0 _ _).trans (sendBlocks_st e)
      split at h
      · simp at h
      · rename_i c2 _ e2
        have s2 := s1.trans (writeStopLoop_st _ _ _ _ e2)
        split at h
        · rename_i e3
          simp only [Prod.mk.injEq, true_and] at h
          rw [← h.1]
          refine s2.trans ?_
          have := sendBlocks_st e3
          exact Same.trans (sendDigest_same H c2) this
        · simp at h
    · simp at h

theorem readSkipLoop_st (F : RecvFile ρ) (prev : Skip) (n : Nat) : ∀ (c c' : Conn) (f f' : ρ) (o : Option ρ) (j : Nat),
    readSkipLoop F c f prev j n = (o, c', f') → Same c c' := by
  induction n with
  | zero => intro c c' f f' o j h; simp only [readSkipLoop, Prod.mk.injEq] at h; rw [← h.2.1]; exact Same.refl c
  | succ n ih =>
    intro c c' f f' o j h
    rw [readSkipLoop] at h
    dsimp only at h
    have hrd : ∀ x c1, (if (j + 1) % 2 * 8 = 0 then
        match recvBlocks c 0 1 with
        | (.done, c) => (RdBlk.done, recvHmacAdd c (get c.msg 0 16))
        | r => r
      else (.done, c)) = (x, c1) → Same c c1 := by
      intro x c1 e
      split at e
      · split at e
        · rename_i c2 e2
          simp only [Prod.mk.injEq] at e
          rw [← e.2]
          exact (recvBlocks_st e2).trans (recvHmacAdd_same _ _)
        · exact recvBlocks_st e
      · simp only [Prod.mk.injEq] at e; rw [← e.2]; exact Same.refl c
    split at h
    · rename_i c1 e
      have s1 := hrd _ _ e
      split at h
      · simp only [Prod.mk.injEq] at h; rw [← h.2.1]; exact s1
      split at h
      · simp only [Prod.mk.injEq] at h; rw [← h.2.1]; exact s1
      split at h
      · simp only [Prod.mk.injEq] at h; rw [← h.2.1]; exact s1
      · exact s1.trans (ih _ _ _ _ _ _ h)
    · rename_i c1 _ e
      have s1 := hrd _ _ e
      simp only [Prod.mk.injEq] at h; rw [← h.2.1]; exact s1

theorem readStopRecord_st (F : RecvFile ρ) (c c' : Conn) (f f' : ρ) (o : Option ρ)
    (h : readStopRecord F c f = (o, c', f')) : Same c c' := by
  unfold readStopRecord at h
  split at h
  · rename_i c1 e
    have s1 := (recvBlocks_st e).trans (recvHmacAdd_same c1 (get c1.msg 0 16))
    dsimp only at h
    split at h
    · simp only [Prod.mk.injEq] at h; rw [← h.2.1]; exact s1
    · split at h
      · rename_i e2
        simp only [Prod.mk.injEq] at h; rw [← h.2.1]
        exact s1.trans (readSkipLoop_st F _ _ _ _ _ _ _ _ e2)
      · rename_i e2
        have s2 := s1.trans (readSkipLoop_st F _ _ _ _ _ _ _ _ e2)
        split at h
        · simp only [Prod.mk.injEq] at h; rw [← h.2.1]; exact s2
        split at h
        · simp only [Prod.mk.injEq] at h; rw [← h.2.1]; exact s2
        · simp only [Prod.mk.injEq] at h; rw [← h.2.1]; exact s2
  · rename_i e
    simp only [Prod.mk.injEq] at h; rw [← h.2.1]; exact recvBlocks_st e

theorem readStopLoop_st (F : RecvFile ρ) (n : Nat) : ∀ (s s' : StopAt ρ) (b : Bool), readStopLoop F s n = (b, s') → Same s.c s'.c := by
  induction n with
  | zero => intro s s' b h; simp only [readStopLoop, Prod.mk.injEq] at h; rw [← h.2]; exact Same.refl _
  | succ n ih =>
    intro s s' b h
    rw [readStopLoop] at h
    split at h
    · rename_i c1 e
      have s1 := (recvBlocks_st e).trans (recvHmacAdd_same c1 (get c1.msg 0 16))
      dsimp only at h
      split at h
      · simp only [Prod.mk.injEq] at h; rw [← h.2]; exact s1
      · split at h
        · simp only [Prod.mk.injEq] at h; rw [← h.2]; exact s1
        · split at h
          · rename_i e2
            simp only [Prod.mk.injEq] at h; rw [← h.2]
            exact s1.trans (readStopRecord_st F _ _ _ _ _ e2)
          · rename_i e2
            exact (s1.trans (readStopRecord_st F _ _ _ _ _ e2)).trans (ih _ _ _ h)
    · rename_i e
      simp only [Prod.mk.injEq] at h; rw [← h.2]; exact recvBlocks_st e

theorem readStopEnd_st (H : Mac) (acc a : Accept) (s : StopAt ρ) (c' : Conn) (ts' : List (Sess ρ))
    (h : readStopEnd H acc s = (some a, c', ts')) :
    c'.state = { s.c.state with stopSessions := false, request := true } ∧ c'.twoway = s.c.twoway := by
  unfold readStopEnd at h
  split at h
  · rename_i e
    have s1 := recvBlocks_st e
    split at h
    · rename_i e2
      have s2 := s1.trans (recvCheck_st e2)
      simp only [Prod.mk.injEq] at h
      obtain ⟨-, rfl, -⟩ := h
      exact ⟨congrArg (fun s : CState => { s with stopSessions := false, request := true }) s2.1, s2.2⟩
    · simp at h
  · simp at h

theorem readStop_st (H : Mac) (F : RecvFile ρ) (c c' : Conn) (a : Accept) (ts ts' : List (Sess ρ))
    (h : readStopSessions H F c ts = (some a, c', ts')) :
    c.state.request = true ∧ c.state.test = true ∧
    c'.state = { c.state with stopSessions := false, request := true } ∧ c'.twoway = c.twoway := by
  unfold readStopSessions at h
  split at h
  · simp at h
  rename_i hst
  have hst : c.state.request = true ∧ c.state.test = true := by simpa using hst
  refine ⟨hst.1, hst.2, ?_⟩
  dsimp only at h
  split at h
  · simp at h
  have s0 := recvHmacAdd_same c (get c.msg 0 16)
  split at h
  · split at h
    · simp at h
    · have := readStopEnd_st H _ _ _ _ _ h
      dsimp only at this
      rw [s0.1, s0.2] at this; exact this
  · split at h
    · simp at h
    · split at h
      · simp at h
      · rename_i e
        have s1 := s0.trans (readStopLoop_st F _ _ _ _ e)
        split at h
        · simp at h
        · have := readStopEnd_st H _ _ _ _ _ h
          rw [s1.1, s1.2] at this; exact this

end Owamp.Ctl
