import Verif.Props.Stop
import Verif.Lemmas.Client
import Verif.Spec.Exchange
/-! Lemmas for two programs at the two ends of a connection. -/
namespace Owamp.Ctl
open Owamp.Spec.Channel Owamp.Spec.Stop Owamp.Codec Owamp.Props

variable {ρ : Type}

/-- `A` has said `p` and is now `A'`. -/
structure Wrote (A A' : Conn) (p : Bytes) : Prop where
  mode : A'.mode = A.mode
  twoway : A'.twoway = A.twoway
  aesKey : A'.aesKey = A.aesKey
  hmacKey : A'.hmacKey = A.hmacKey
  readIV : A'.readIV = A.readIV
  recvAcc : A'.recvAcc = A.recvAcc
  writeIV : A'.writeIV = wireIV A.cipher A.aesKey A.writeIV p
  sendAcc : A'.sendAcc = if A.cipher then [] else A.sendAcc
  ready : Ready A'
  inp : A'.inp = A.inp
  out : A'.out = A.out ++ sealed A p

/-- `B` has heard `p`, with `rest` still to come, and is now `B'`. -/
structure Heard (B B' : Conn) (p rest : Bytes) : Prop where
  cipher : B'.cipher = B.cipher
  twoway : B'.twoway = B.twoway
  sec : B.cipher = true → B'.aesKey = B.aesKey ∧ B'.hmacKey = B.hmacKey ∧ B'.writeIV = B.writeIV ∧ B'.sendAcc = B.sendAcc ∧
    B'.readIV = wireIV true B.aesKey B.readIV p ∧ B'.recvAcc = []
  ready : Ready B'
  inp : B'.inp = rest
  out : B'.out = B.out

/-- `A` with a reading side that fits the writing side of `B`. -/
def twin (A B : Conn) : Conn := { A with readIV := B.writeIV, recvAcc := B.sendAcc }

theorem twin_linked {A B : Conn} (h : InStep A B) : Linked (twin A B) B :=
  ⟨⟨h.1, h.2⟩, ⟨h.1.symm, fun hc => ⟨(h.2 (h.1.trans hc)).1.symm, (h.2 (h.1.trans hc)).2.1.symm, rfl, rfl⟩⟩⟩

theorem heard_of {A B T' B' : Conn} {p rest : Bytes} (h : InStep A B) (w : Wrote (twin A B) T' p) (l : Linked T' B') (tw : B'.twoway = B.twoway)
    (r : Ready B') (hi : B'.inp = rest) (ho : B'.out = B.out) : Heard B B' p rest := by
  have hT : T'.cipher = A.cipher := by unfold Conn.cipher; rw [w.mode]; rfl
  have hc : B'.cipher = B.cipher := l.1.1.symm.trans (hT.trans h.1)
  refine ⟨hc, tw, fun hb => ?_, r, hi, ho⟩
  have ha : A.cipher = true := h.1.trans hb
  obtain ⟨k1, k2, k3, k4⟩ := h.2 ha
  obtain ⟨a1, a2, a3, a4⟩ := l.1.2 (hT.trans ha)
  obtain ⟨-, -, b3, b4⟩ := l.2.2 (hc.trans hb)
  have hw := w.writeIV
  have hs := w.sendAcc
  rw [show (twin A B).cipher = true from ha] at hw hs
  refine ⟨?_, ?_, ?_, ?_, ?_, ?_⟩
  · rw [← a1, w.aesKey]; exact k1
  · rw [← a2, w.hmacKey]; exact k2
  · rw [b3, w.readIV]; rfl
  · rw [b4, w.recvAcc]; rfl
  · rw [← a3, hw]
    show wireIV true A.aesKey A.writeIV p = _
    rw [k1, k3]
  · rw [← a4, hs]; rfl

/-- What `c` says in a message with this text. -/
def spoken (H : Mac) (c : Conn) (body : Bytes) : Bytes := sealed c (body ++ tag H c body)

/-- `c` after saying `p`, as far as what it says next is concerned. -/
def after (c : Conn) (p : Bytes) : Conn := { c with writeIV := wireIV c.cipher c.aesKey c.writeIV p, sendAcc := if c.cipher then [] else c.sendAcc }

theorem sealed_congr {c d : Conn} (h : d.cipher = c.cipher) (k : c.cipher = true → d.aesKey = c.aesKey ∧ d.writeIV = c.writeIV) (p : Bytes) :
    sealed d p = sealed c p := by
  unfold sealed
  rw [h]
  split
  · rename_i hc; obtain ⟨a, b⟩ := k hc; rw [a, b]
  · rfl

theorem tag_congr (H : Mac) {c d : Conn} (h : d.cipher = c.cipher) (k : c.cipher = true → d.hmacKey = c.hmacKey ∧ d.sendAcc = c.sendAcc) (p : Bytes) :
    tag H d p = tag H c p := by
  unfold tag
  rw [h]
  split
  · rename_i hc; obtain ⟨a, b⟩ := k hc; rw [a, b]
  · rfl

/-- Hearing something does not change what is said. -/
theorem Heard.tag_eq {B B' : Conn} {p rest : Bytes} (h : Heard B B' p rest) (H : Mac) (q : Bytes) : tag H B' q = tag H B q :=
  tag_congr H h.cipher (fun hc => ⟨(h.sec hc).2.1, (h.sec hc).2.2.2.1⟩) q
theorem Heard.sealed_eq {B B' : Conn} {p rest : Bytes} (h : Heard B B' p rest) (q : Bytes) : sealed B' q = sealed B q :=
  sealed_congr h.cipher (fun hc => ⟨(h.sec hc).1, (h.sec hc).2.2.1⟩) q
theorem Heard.spoken_eq {B B' : Conn} {p rest : Bytes} (h : Heard B B' p rest) (H : Mac) (q : Bytes) : spoken H B' q = spoken H B q := by
  unfold spoken; rw [h.tag_eq, h.sealed_eq]

theorem Wrote.cipher {A A' : Conn} {p : Bytes} (w : Wrote A A' p) : A'.cipher = A.cipher := by unfold Conn.cipher; rw [w.mode]
theorem Wrote.tag_eq {A A' : Conn} {p : Bytes} (w : Wrote A A' p) (H : Mac) (q : Bytes) : tag H A' q = tag H (after A p) q :=
  tag_congr (c := after A p) H w.cipher (fun _ => ⟨w.hmacKey, w.sendAcc⟩) q
theorem Wrote.sealed_eq {A A' : Conn} {p : Bytes} (w : Wrote A A' p) (q : Bytes) : sealed A' q = sealed (after A p) q :=
  sealed_congr (c := after A p) w.cipher (fun _ => ⟨w.aesKey, w.writeIV⟩) q
theorem Wrote.spoken_eq {A A' : Conn} {p : Bytes} (w : Wrote A A' p) (H : Mac) (q : Bytes) : spoken H A' q = spoken H (after A p) q := by
  unfold spoken; rw [w.tag_eq, w.sealed_eq]

/-- What the writing side of `A` and the reading side of `B` are to each other after the one has said `p` and the other heard it. -/
theorem instep_said {A A' B B' : Conn} {p rest : Bytes} (h : InStep A B) (w : Wrote A A' p) (r : Heard B B' p rest) : InStep A' B' := by
  refine ⟨w.cipher.trans (h.1.trans r.cipher.symm), fun hc => ?_⟩
  have ha : A.cipher = true := w.cipher.symm.trans hc
  obtain ⟨k1, k2, k3, k4⟩ := h.2 ha
  obtain ⟨b1, b2, -, -, b5, b6⟩ := r.sec (h.1.symm.trans ha)
  refine ⟨by rw [w.aesKey, b1, k1], by rw [w.hmacKey, b2, k2], ?_, ?_⟩
  · rw [w.writeIV, b5, ha, k1, k3]
  · rw [w.sendAcc, b6, ha]; rfl

/-- A change of the other side of either end does not matter. -/
theorem instep_heard {A A' B : Conn} {p rest : Bytes} (h : InStep A B) (r : Heard A A' p rest) : InStep A' B := by
  refine ⟨r.cipher.trans h.1, fun hc => ?_⟩
  have ha : A.cipher = true := r.cipher.symm.trans hc
  obtain ⟨k1, k2, k3, k4⟩ := h.2 ha
  obtain ⟨b1, b2, b3, b4, -, -⟩ := r.sec ha
  exact ⟨by rw [b1, k1], by rw [b2, k2], by rw [b3, k3], by rw [b4, k4]⟩
theorem instep_wrote {A B B' : Conn} {p : Bytes} (h : InStep A B) (w : Wrote B B' p) : InStep A B' := by
  refine ⟨h.1.trans w.cipher.symm, fun hc => ?_⟩
  obtain ⟨k1, k2, k3, k4⟩ := h.2 hc
  exact ⟨by rw [w.aesKey, k1], by rw [w.hmacKey, k2], by rw [w.readIV, k3], by rw [w.recvAcc, k4]⟩

/-! ## The messages -/

theorem wrote_msg {H : Mac} {A : Conn} {m body : Bytes} {k : Nat} (rA : Ready A) (hk : 16 * (k + 1) ≤ 400) (hm : m.length = 400) (hb : get m 0 (16 * k) = body) (s : CState) :
    Wrote A ((A.sentMsg H m k).setState s) (body ++ tag H A body) := by
  obtain ⟨-, h2, h3⟩ := send_msg H A rA m body k hk hm hb
  subst hb
  exact ⟨rfl, rfl, rfl, rfl, rfl, rfl, rfl, rfl, h3, rfl, h2⟩

/-- The client asks to start the sessions. -/
theorem start_said (H : Mac) (A : Conn) (rA : Ready A) (hA : A.state.request = true) (hAp : A.state.isPending = false) :
    ∃ A', writeStartSessions H A = (some (), A') ∧ Wrote A A' (startSessionsLayout ++ tag H A startSessionsLayout) ∧
      A'.state = { A.state with startAck := true, test := true } := by
  have hm := rA.2.1
  let m := put (put8 A.msg 0 2#8) 1 (zeros 31)
  have hml : m.length = 400 := by
    simp (disch := blen) only [m, put8, put_length]; exact hm
  have e : get m 0 (16 * (0 + 1)) = startSessionsLayout := by
    simp only [m]
    rw [get_pieces _ 0 [1, 15] (16 * (0 + 1)) rfl]
    fields
    simp [startSessionsLayout, enc8_eq]
  obtain ⟨h1, -, -⟩ := send_msg H A rA m startSessionsLayout 1 (by omega) hml e
  refine ⟨(A.sentMsg H m 1).setState { A.state with startAck := true, test := true }, ?_, wrote_msg rA (by omega) hml e _, rfl⟩
  unfold writeStartSessions
  simp only [hA, hAp, not_true_eq_false, Bool.false_eq_true, or_self, if_false]
  rw [show sendMsg H A _ 1 = _ from h1]
  simp [Conn.setState, Conn.sentMsg, Conn.sent, hA]

theorem ack_said (H : Mac) (A : Conn) (rA : Ready A) (hA : A.state.startAck = true) :
    ∃ A', writeStartAck H A .accept = (some (), A') ∧ Wrote A A' (startAckLayout .accept ++ tag H A (startAckLayout .accept)) ∧
      A'.state = { A.state with startAck := false } := by
  have hm := rA.2.1
  let m := put (put8 A.msg 0 Accept.accept.code) 1 (zeros 15)
  have hml : m.length = 400 := by
    simp (disch := blen) only [m, put8, put_length]; exact hm
  have e : get m 0 (16 * 1) = startAckLayout .accept := by
    simp only [m]
    rw [get_pieces _ 0 [1, 15] (16 * 1) rfl]
    fields
    simp [startAckLayout, enc8_eq]
  obtain ⟨h1, -, -⟩ := send_msg H A rA m (startAckLayout .accept) 1 (by omega) hml e
  refine ⟨(A.sentMsg H m 1).setState { A.state with startAck := false }, ?_, wrote_msg rA (by omega) hml e _, rfl⟩
  unfold writeStartAck
  simp only [hA, not_true_eq_false, if_false]
  rw [show sendMsg H A _ 1 = _ from h1]
  simp [Conn.setState, Conn.sentMsg, Conn.sent]

theorem start_heard (H : Mac) (A B : Conn) (rA : Ready A) (rB : Ready B) (h : InStep A B)
    (hB : B.state = .requestOnly) (rest : Bytes) (hi : B.inp = spoken H A startSessionsLayout ++ rest) :
    ∃ B1 B', readRequestType B = (.startSessions, B1) ∧ readStartSessions H B1 = (some (), B') ∧
      Heard B B' (startSessionsLayout ++ tag H A startSessionsLayout) rest ∧ B'.state = { request := true, startAck := true, test := true } := by
  let T : Conn := { twin A B with state := .requestOnly }
  have rT : Ready T := rA
  have hT : Linked T B := twin_linked h
  obtain ⟨T', w1, w2, w3⟩ := start_said H T rT rfl rfl
  obtain ⟨T2, d1, -, -, -, -, d6⟩ := C10_start_sessions H T B rT rB hT rfl rfl (by rw [hB]; rfl) (by rw [hB]; rfl) (by rw [hB]; rfl)
  rw [w1] at d1; cases d1
  obtain ⟨B', e1, e2, e3, e4, e5, e6⟩ := d6 rest hi
  unfold afterType at e1
  cases hr : readRequestType B with
  | mk ty B1 =>
    rw [hr] at e1
    dsimp only at e1
    split at e1
    · rename_i ht
      subst ht
      obtain ⟨t1, t2⟩ := request_idle B hB _ _ hr
      obtain ⟨-, -, s3⟩ := readStart_st H B1 B' e1
      refine ⟨B1, B', rfl, e1, heard_of h ⟨w2.mode, w2.twoway, w2.aesKey, w2.hmacKey, w2.readIV, w2.recvAcc, w2.writeIV, w2.sendAcc, w2.ready, w2.inp, w2.out⟩ e6 (s3.trans t1) e4 e2 e3, by rw [e5, hB]; rfl⟩
    · cases e1

theorem ack_heard (H : Mac) (A B : Conn) (rA : Ready A) (rB : Ready B) (h : InStep A B) (hB : B.state.startAck = true)
    (rest : Bytes) (hi : B.inp = spoken H A (startAckLayout .accept) ++ rest) :
    ∃ B', readStartAck H B = (some .accept, B') ∧ Heard B B' (startAckLayout .accept ++ tag H A (startAckLayout .accept)) rest ∧
      B'.state = { B.state with startAck := false } := by
  let T : Conn := { twin A B with state := { startAck := true } }
  have rT : Ready T := rA
  have hT : Linked T B := twin_linked h
  obtain ⟨T', w1, w2, w3⟩ := ack_said H T rT rfl
  obtain ⟨T2, d1, -, -, -, -, d6⟩ := C10_start_ack H T B rT rB hT .accept (by decide) rfl hB
  have d1 : writeStartAck H T .accept = (some (), T2) := d1
  rw [w1] at d1; cases d1
  obtain ⟨B', e1, e2, e3, e4, e5, e6⟩ := d6 rest hi
  refine ⟨B', e1, heard_of h ⟨w2.mode, w2.twoway, w2.aesKey, w2.hmacKey, w2.readIV, w2.recvAcc, w2.writeIV, w2.sendAcc, w2.ready, w2.inp, w2.out⟩ e6 ?_ e4 e2 e3, by rw [e5]; simp⟩
  unfold readStartAck at e1
  rw [if_neg (by simp [hB])] at e1
  split at e1
  · rename_i c1 g1
    split at e1
    · cases e1
    · rename_i c2 g2
      dsimp only at e1
      split at e1
      · cases e1
      · simp only [Prod.mk.injEq, Option.some.injEq] at e1
        obtain ⟨a1, a2⟩ := e1
        rw [a1, if_neg (by simp)] at a2
        subst a2
        exact (checkMsg_st g2).2.trans (recvBlocks_st g1).2
  · cases e1

theorem writeStopLoop_recv (ts : List (Sess ρ)) : ∀ c : Conn,
    (writeStopLoop c ts).2.2.filter receiving = ts.filter receiving ∧ (writeStopLoop c ts).2.2.map (·.ep) = ts.map (·.ep) := by
  induction ts with
  | nil => intro c; exact ⟨rfl, rfl⟩
  | cons t ts ih =>
    intro c
    have keep : ∀ (l : List (Sess ρ)) (u : Sess ρ), l.filter receiving = ts.filter receiving ∧ l.map (·.ep) = ts.map (·.ep) → u.ep = t.ep → (receiving t = true → u = t) →
        (u :: l).filter receiving = (t :: ts).filter receiving ∧ (u :: l).map (·.ep) = (t :: ts).map (·.ep) := by
      intro l u h hu hr
      refine ⟨?_, by simp only [List.map_cons, hu, h.2]⟩
      have : receiving u = receiving t := by unfold receiving; rw [hu]
      rw [List.filter_cons, List.filter_cons, this, h.1]
      by_cases ht : receiving t = true
      · rw [if_pos ht, if_pos ht, hr ht]
      · rw [if_neg ht, if_neg ht]
    rw [writeStopLoop]
    split
    · exact keep _ t (ih _) rfl (fun _ => rfl)
    · rename_i e he
      split
      · exact keep _ t (ih _) rfl (fun _ => rfl)
      · rename_i hs
        have hr : receiving t = true → False := by
          intro h; unfold receiving at h; rw [he] at h; simp at hs; simp [hs] at h
        split
        · rename_i b c1 _
          split
          · exact keep _ _ (ih _) (by simp [he]) (fun h => (hr h).elim)
          · exact keep _ _ ⟨rfl, rfl⟩ (by simp [he]) (fun h => (hr h).elim)
        · exact keep _ _ ⟨rfl, rfl⟩ (by simp [he]) (fun h => (hr h).elim)

theorem writeStop_recv (H : Mac) (c : Conn) (acc : Accept) (num : U32) (ts : List (Sess ρ)) :
    (writeStopSessions H c acc num ts).2.2.filter receiving = ts.filter receiving ∧ (writeStopSessions H c acc num ts).2.2.map (·.ep) = ts.map (·.ep) := by
  unfold writeStopSessions
  split
  · exact ⟨rfl, rfl⟩
  dsimp only
  split
  · split <;> exact ⟨rfl, rfl⟩
  · split
    · rename_i c1 _
      have := writeStopLoop_recv ts c1
      split
      · rename_i e; rw [e] at this; exact this
      · rename_i e; rw [e] at this
        split <;> exact this
    · exact ⟨rfl, rfl⟩

/-- One side says that its sessions are over. -/
theorem stop_said (H : Mac) (A : Conn) (rA : Ready A) (hA : A.state.request = true ∧ A.state.test = true) (tA : A.twoway = false)
    (acc : Accept) (acct : Sess ρ → Account) (tsA : List (Sess ρ)) (hS : Speaks acct tsA) :
    ∃ A' tsA', writeStopSessions H A acc (BitVec.ofNat 32 (accounts acct tsA).length) tsA = (some (), A', tsA') ∧
      Wrote A A' (stopLayout acc (accounts acct tsA) ++ tag H A (stopLayout acc (accounts acct tsA))) ∧ A'.state = A.state ∧
      tsA'.filter receiving = tsA.filter receiving ∧ tsA'.map (·.ep) = tsA.map (·.ep) := by
  have hmA := rA.2.1
  obtain ⟨is, his⟩ : ∃ is, is = accounts acct tsA := ⟨_, rfl⟩
  rw [← his]
  have hia : is = itemsOf acct tsA := his
  let body := stopLayout acc is
  have hsid : ∀ i ∈ is, i.1.length = 16 := by
    intro i hi
    simp only [his, accounts, List.mem_map, List.mem_filter] at hi
    obtain ⟨x, ⟨hx, hsx⟩, rfl⟩ := hi
    cases hex : x.ep with
    | none => simp [sending, hex] at hsx
    | some ex => exact (hS x hx ex hex (by simpa [sending, hex] using hsx)).1
  obtain ⟨k, hk⟩ := items_length is hsid
  let head := headText acc (BitVec.ofNat 32 is.length)
  have hhl : head.length = 16 := by simp [head, headText]
  let T := (is.map itemText).flatten
  have hbody : body = head ++ T := rfl
  have hbl : body.length = 16 * (1 + k) := by rw [hbody, List.length_append, hhl, hk]; omega
  let m0 := put32 (put8 (put8 (put A.msg 0 (zeros 16)) 0 3#8) 1 acc.code) 4 (BitVec.ofNat 32 is.length)
  have hm0 : m0.length = 400 := by
    simp (disch := blen) only [m0, put8, put32, put_length]; exact hmA
  have hhead : get m0 0 16 = head := by
    simp only [m0]
    rw [get_pieces _ 0 [1, 1, 2, 4, 8] 16 rfl]
    have z1 : get (zeros 16) 2 2 = zeros 2 := rfl
    have z2 : get (zeros 16) 8 8 = zeros 8 := rfl
    fields
    simp [head, headText, enc8_eq]
  let m1 := put m0 0 (A.wr head)
  have hm1 : m1.length = 400 := by
    have := wr_length A head 1 hhl
    simp only [m1]; rw [put_length _ _ _ (by omega)]; exact hm0
  have rA1 := ready_sentText A rA head m1 hm1
  obtain ⟨m2, tsA', hm2, hw⟩ := write_stop_loop acct tsA (A.sentText head m1) rA1
    (fun t ht e he hs => ⟨(hS t ht e he hs).1, (hS t ht e he hs).2.1, (hS t ht e he hs).2.2.1⟩)
  rw [← hia, sentText_append A _ _ _ _ 1 k hhl hk, ← hbody] at hw
  let A2 := A.sentText body m2
  have rA2 : Ready A2 := ready_sentText A rA body m2 hm2
  have htag : tag H A2 [] = tag H A body := by
    unfold tag
    show (if A.cipher = true then (H.hash A.hmacKey ((if A.cipher then A.sendAcc ++ body else A.sendAcc) ++ [])).take 16 else _) = _
    cases A.cipher <;> simp
  have htl := tag_length H A body
  let m3 := put (put m2 0 (tag H A body)) 0 (A2.wr (tag H A body))
  have hm3 : m3.length = 400 := by
    have := wr_length A2 (tag H A body) 1 htl
    simp (disch := blen) only [m3, put_length]; exact hm2
  let A3 := A2.sentTag (tag H A body) m3
  have rA3 : Ready A3 := ready_sentTag A2 rA2 _ _ hm3
  have hsealed : sealed A (body ++ tag H A body) = A.wr body ++ A2.wr (tag H A body) := by
    rw [sealed_eq A _ (1 + k + 1) (by rw [List.length_append, hbl, htl]; omega)]
    exact wr_append A body _ m2 (1 + k) 1 hbl htl
  have hrun : writeStopSessions H A acc (BitVec.ofNat 32 is.length) tsA = (some (), A3, tsA') := by
    unfold writeStopSessions
    rw [if_neg (by simp [hA]), if_neg (by rw [tA]; simp)]
    dsimp only
    rw [show put32 (put8 (put8 (put A.msg 0 (zeros 16)) 0 3#8) 1 acc.code) 4 (BitVec.ofNat 32 is.length) = m0 from rfl, hhead]
    have h1 : sendBlocks (sendHmacAdd { A with msg := m0 } head) head = (.done, A.sentText head m1) := by
      rw [sendText_ok _ (by exact rA.1)]; rfl
    rw [h1]
    dsimp only
    rw [hw]
    dsimp only
    have h2 := sendTag_ok H A2 rA2.1 (put (sendDigest H A2).2.msg 0 (sendDigest H A2).1)
    have hd1 : (sendDigest H A2).1 = tag H A body := by
      rw [← htag]; unfold sendDigest tag
      split <;> simp
    have hd2 : (sendDigest H A2).2.msg = m2 := by unfold sendDigest; split <;> rfl
    rw [hd2, hd1, htag] at h2
    show (match sendBlocks { (sendDigest H A2).2 with msg := put (sendDigest H A2).2.msg 0 (sendDigest H A2).1 } (sendDigest H A2).1 with
      | (.done, c) => ((some (), c, tsA') : Option Unit × Conn × List (Sess ρ))
      | (_, c) => (none, c.fail, tsA')) = _
    rw [hd2, hd1, h2]
  have hr := writeStop_recv H A acc (BitVec.ofNat 32 is.length) tsA
  rw [hrun] at hr
  refine ⟨A3, tsA', hrun, ⟨rfl, rfl, rfl, rfl, rfl, rfl, ?_, ?_, rA3, rfl, ?_⟩, rfl, hr.1, hr.2⟩
  · exact (wireIV_append A.cipher A.aesKey A.writeIV body _ (1 + k) 1 hbl htl).symm
  · show (if A.cipher then [] else if A.cipher then A.sendAcc ++ body else A.sendAcc) = _
    cases A.cipher <;> simp
  · show A.out ++ A.wr body ++ A2.wr (tag H A body) = _
    rw [hsealed, List.append_assoc]

/-- The other side hears it and records it. -/
theorem stop_heard (H : Mac) (A B : Conn) (rA : Ready A) (rB : Ready B) (h : InStep A B) (hB : B.state = { request := true, test := true }) (tB : B.twoway = false)
    (acc : Accept) (hv : acc ≠ .invalid) (acct : Sess ρ → Account) (tsA : List (Sess ρ)) (tsB : List (Sess (List FileOp)))
    (hS : Speaks acct tsA) (hn : (accounts acct tsA).length < 2 ^ 32) (hep : ∀ t ∈ tsB, t.ep.isSome)
    (hp : ((tsB.filter receiving).map Sess.sid).Perm ((accounts acct tsA).map Prod.fst)) (rest : Bytes)
    (hi : B.inp = spoken H A (stopLayout acc (accounts acct tsA)) ++ rest) :
    ∃ (B1 B' : Conn) (claims : List (Sess (List FileOp) × Account)), readRequestType B = (.stopSessions, B1) ∧
      readStopSessions H goodFile B1 tsB = (some acc, B', (claims.map record).reverse ++ tsB.filter sending) ∧
      claims.map (fun k => (k.1.sid, k.2)) = accounts acct tsA ∧ (tsB.filter receiving).Perm (claims.map Prod.fst) ∧
      Heard B B' (stopLayout acc (accounts acct tsA) ++ tag H A (stopLayout acc (accounts acct tsA))) rest ∧ B'.state = { request := true, test := true } := by
  let T : Conn := { twin A B with state := { request := true, test := true }, twoway := false }
  have rT : Ready T := rA
  have hT : Linked T B := twin_linked h
  obtain ⟨T', ts', w1, w2, w3, -, -⟩ := stop_said H T rT ⟨rfl, rfl⟩ rfl acc acct tsA hS
  obtain ⟨T2, ts2, d1, -, -, -, -, d6⟩ := C10_stop_sessions H T B rT rB hT ⟨rfl, rfl⟩ rfl (by rw [hB]; exact ⟨rfl, rfl⟩) (by rw [hB]; rfl) tB acc hv acct tsA tsB hS hn hep hp
  rw [w1] at d1; cases d1
  obtain ⟨B1, B', claims, e1, e2, e3, e4, e5, e6, e7, e8, e9⟩ := d6 rest hi
  obtain ⟨t1, -⟩ := request_test B hB _ _ e1
  obtain ⟨-, -, -, s4⟩ := readStop_st H _ _ _ _ _ _ e2
  have w : Wrote (twin A B) { T' with twoway := A.twoway } (stopLayout acc (accounts acct tsA) ++ tag H A (stopLayout acc (accounts acct tsA))) :=
    ⟨w2.mode, rfl, w2.aesKey, w2.hmacKey, w2.readIV, w2.recvAcc, w2.writeIV, w2.sendAcc, w2.ready, w2.inp, w2.out⟩
  exact ⟨B1, B', claims, e1, e2, e3, e4, heard_of h w e9 (s4.trans t1) e7 e5 e6, by rw [e8, hB]⟩

end Owamp.Ctl
