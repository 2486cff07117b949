import Verif.Lemmas.Exchange
import Verif.Props.Fetch
import Verif.Props.Turns
import Verif.Props.Setup
import Verif.Lemmas.FetchState
/-!
# C100: an honest client and server understand each other for as long as the connection lasts
-/
namespace Owamp.Props
open Owamp.Ctl Owamp.Client Owamp.Spec.Channel Owamp.Spec.Stop Owamp.Spec.Asking Owamp.Spec.Exchange

/-- The sessions of a connection with the operations on their files recorded. -/
abbrev Tests := List (Sess (List FileOp))

/-- A round of sessions on the client: it starts them and, when it has seen `ending`, ends them. -/
def clientRound (H : Mac) (ending : Call (List FileOp)) (c : Conn) : (Res × Res) × Conn :=
  let a := act H (.start true true : Call (List FileOp)) c
  let b := act H ending a.2
  ((a.1, b.1), b.2)

/-- One pass of the server's loop. -/
def serverPass (H : Mac) (t : Turn (List FileOp)) (c : Conn) : Pass × Conn :=
  let p := serveOnce H t c
  (p, p.c)

/-- Whose turn it is to end the sessions: each side notices that they are over, or waits for the other's message, but not both wait. -/
def SomeoneSpeaks (ending : Call (List FileOp)) (t : Ends (List FileOp)) (w : WaitPlan) : Prop :=
  ((ending = .stop t ∨ ending = .wait .over t) ∧ (w = .ours ∨ w = .theirs)) ∨ (ending = .wait .message t ∧ w = .ours)

/-- The sessions of the client and those of the server belong together, nothing fails on either side, and the files of the sending sides hold the accounts `acctA` and `acctB`. -/
structure Together (t : Ends (List FileOp)) (u : Turn (List FileOp)) (acctA acctB : Sess (List FileOp) → Account) : Prop where
  started : u.started = true
  stopsA : ∃ acc, acc ≠ .invalid ∧ t.stopSend = some (acc, BitVec.ofNat 32 (t.tests.filter sending).length)
  stopsB : ∃ acc, acc ≠ .invalid ∧ u.stopSend = some (acc, BitVec.ofNat 32 (u.tests.filter sending).length)
  recvs : t.stopRecv = true ∧ u.stopRecv = true ∧ t.freed = true
  files : t.file = goodFile ∧ u.file = goodFile
  accounts : Speaks acctA t.tests ∧ Speaks acctB u.tests
  count : (t.tests.filter sending).length < 2 ^ 32 ∧ (u.tests.filter sending).length < 2 ^ 32
  set : (∀ s ∈ t.tests, s.ep.isSome) ∧ ∀ s ∈ u.tests, s.ep.isSome
  there : ((u.tests.filter receiving).map Sess.sid).Perm ((t.tests.filter sending).map Sess.sid)
  back : ((t.tests.filter receiving).map Sess.sid).Perm ((u.tests.filter sending).map Sess.sid)

/-! ## Lists of sessions -/

theorem accounts_sids (acct : Sess (List FileOp) → Account) (ts : Tests) : (accounts acct ts).map Prod.fst = (ts.filter sending).map Sess.sid := by
  unfold accounts; rw [List.map_map]; rfl
theorem accounts_len (acct : Sess (List FileOp) → Account) (ts : Tests) : (accounts acct ts).length = (ts.filter sending).length := by
  unfold accounts; rw [List.length_map]

theorem after_read {claims : List (Sess (List FileOp) × Account)} {ts : Tests} (h : (ts.filter receiving).Perm (claims.map Prod.fst)) :
    ((claims.map record).reverse ++ ts.filter sending).filter sending = ts.filter sending := by
  rw [List.filter_append, List.filter_filter]
  have : (claims.map record).reverse.filter sending = [] := by
    rw [List.filter_eq_nil_iff]
    intro s hs
    rw [List.mem_reverse, List.mem_map] at hs
    obtain ⟨k, hk, rfl⟩ := hs
    have : k.1 ∈ ts.filter receiving := h.symm.subset (List.mem_map.2 ⟨k, hk, rfl⟩)
    have := (List.mem_filter.1 this).2
    unfold receiving at this
    unfold sending record
    cases he : k.1.ep with
    | none => simp
    | some e => rw [he] at this; simpa using this
  rw [this]
  simp

theorem after_read_accounts {claims : List (Sess (List FileOp) × Account)} {ts : Tests} (acct : Sess (List FileOp) → Account) (h : (ts.filter receiving).Perm (claims.map Prod.fst)) :
    accounts acct ((claims.map record).reverse ++ ts.filter sending) = accounts acct ts := by
  unfold accounts; rw [after_read h]

theorem after_read_speaks {claims : List (Sess (List FileOp) × Account)} {ts : Tests} {acct : Sess (List FileOp) → Account} (h : (ts.filter receiving).Perm (claims.map Prod.fst))
    (hS : Speaks acct ts) : Speaks acct ((claims.map record).reverse ++ ts.filter sending) := by
  intro s hs e he hsend
  have : s ∈ ((claims.map record).reverse ++ ts.filter sending).filter sending := List.mem_filter.2 ⟨hs, by unfold sending; rw [he]; exact hsend⟩
  rw [after_read h] at this
  exact hS s (List.mem_filter.1 this).1 e he hsend

/-! ## The bytes that travel -/

/-- The client's first message, the server's answer. -/
def bytesStart (H : Mac) (A : Conn) : Bytes := startSessionsLayout ++ tag H A startSessionsLayout
def bytesAck (H : Mac) (B : Conn) : Bytes := startAckLayout .accept ++ tag H B (startAckLayout .accept)
/-- The end of the sessions, after `p` was said. -/
def bytesStop (H : Mac) (A : Conn) (p : Bytes) (body : Bytes) : Bytes := body ++ tag H (after A p) body

theorem ready_after {A : Conn} (h : Ready A) (p : Bytes) : Ready (after A p) := ⟨h.1, h.2.1, wireIV_length _ _ _ _ h.2.2⟩

theorem instep_after {A B B' : Conn} {p rest : Bytes} (h : InStep A B) (r : Heard B B' p rest) : InStep (after A p) B' := by
  refine ⟨h.1.trans r.cipher.symm, fun hc => ?_⟩
  have ha : A.cipher = true := hc
  obtain ⟨k1, k2, k3, k4⟩ := h.2 ha
  obtain ⟨b1, b2, -, -, b5, b6⟩ := r.sec (h.1.symm.trans ha)
  refine ⟨by show A.aesKey = _; rw [b1, k1], by show A.hmacKey = _; rw [b2, k2], ?_, ?_⟩
  · show wireIV A.cipher A.aesKey A.writeIV p = _
    rw [b5, ha, k1, k3]
  · show (if A.cipher then [] else A.sendAcc) = _
    rw [b6, ha]; rfl

/-- Nothing comes in any more. -/
theorem type_none (c : Conn) (hf : c.faults = []) (hi : c.inp = []) : ∃ ty c', readRequestType c = (ty, c') ∧ ty ≠ .stopSessions ∧ ty ≠ .startSessions ∧ c'.out = c.out := by
  refine ⟨_, _, rfl, readRequestType_empty c hf hi _ (by decide) (by decide), readRequestType_empty c hf hi _ (by decide) (by decide), type_out c⟩

theorem ack_none (H : Mac) (c : Conn) (hf : c.faults = []) (hi : c.inp = []) : ∃ c', readStartAck H c = (none, c') ∧ c'.out = c.out := by
  unfold readStartAck
  split
  · exact ⟨_, rfl, rfl⟩
  have : (recvBlocks c 0 2).1 = .closed := by
    unfold recvBlocks readN
    rw [hf, hi]
    rfl
  have ho := recvBlocks_keptOut c 0 2
  split
  · rename_i e; rw [e] at this; cases this
  · rename_i e; rw [e] at ho; exact ⟨_, rfl, ho⟩

/-! ## The client -/

theorem Heard.set {B B' : Conn} {p rest : Bytes} (h : Heard B B' p rest) (s : CState) : Heard B (B'.setState s) p rest :=
  ⟨h.cipher, h.twoway, h.sec, h.ready, h.inp, h.out⟩
theorem Wrote.set {A A' : Conn} {p : Bytes} (w : Wrote A A' p) (s : CState) : Wrote A (A'.setState s) p :=
  ⟨w.mode, w.twoway, w.aesKey, w.hmacKey, w.readIV, w.recvAcc, w.writeIV, w.sendAcc, w.ready, w.inp, w.out⟩

/-- The client's start with the server's answer in view. -/
theorem client_start (H : Mac) (A B : Conn) (rA : Ready A) (rB : Ready B) (sA : A.state = .requestOnly) (hBA : InStep B A) (rest : Bytes)
    (hi : A.inp = spoken H B (startAckLayout .accept) ++ rest) :
    ∃ A1 A2, start H true true A = (true, A2) ∧ Wrote A A1 (bytesStart H A) ∧ Heard A1 A2 (bytesAck H B) rest ∧ A2.state = busy := by
  obtain ⟨A1, h1, w1, s1⟩ := start_said H A rA (by rw [sA]; rfl) (by rw [sA]; rfl)
  obtain ⟨A2, h2, r2, s2⟩ := ack_heard H B A1 rB w1.ready (instep_wrote hBA w1) (by rw [s1]) rest (w1.inp.trans hi)
  refine ⟨A1, A2, ?_, w1, r2, by rw [s2, s1, sA]; rfl⟩
  unfold start
  rw [h1]
  dsimp only
  rw [h2]
  rfl

/-- What the ending of the sessions leaves of the sessions themselves. -/
theorem still_set {ts ts' : Tests} (h : ts'.map (·.ep) = ts.map (·.ep)) (k : ∀ s ∈ ts, s.ep.isSome) : ∀ s ∈ ts', s.ep.isSome := by
  intro s hs
  have : s.ep ∈ ts'.map (·.ep) := List.mem_map.2 ⟨s, hs, rfl⟩
  rw [h, List.mem_map] at this
  obtain ⟨x, hx, e⟩ := this
  rw [← e]; exact k x hx

/-- A side that ends the sessions itself: it says so, and hears the other side's message. `P`: what it has said before, `O`: the other side as it is when it speaks. -/
theorem own_end (H : Mac) (A O : Conn) (rA : Ready A) (rO : Ready O) (sA : A.state = busy) (wA : A.twoway = false) (h : InStep O A)
    (ts us : Tests) (acct acct' : Sess (List FileOp) → Account) (acc acc' : Accept) (hv : acc' ≠ .invalid)
    (hS : Speaks acct ts) (hS' : Speaks acct' us) (hn : (us.filter sending).length < 2 ^ 32) (hset : ∀ s ∈ ts, s.ep.isSome)
    (hp : ((ts.filter receiving).map Sess.sid).Perm ((us.filter sending).map Sess.sid)) (rest : Bytes)
    (hi : A.inp = spoken H O (stopLayout acc' (accounts acct' us)) ++ rest) :
    ∃ A1 ts1 A2 A3 ts3, writeStopSessions H A acc (BitVec.ofNat 32 (ts.filter sending).length) ts = (some (), A1, ts1) ∧
      Wrote A A1 (stopLayout acc (accounts acct ts) ++ tag H A (stopLayout acc (accounts acct ts))) ∧
      readRequestType A1 = (.stopSessions, A2) ∧ readStopSessions H goodFile A2 ts1 = (some acc', A3, ts3) ∧
      Heard A1 A3 (stopLayout acc' (accounts acct' us) ++ tag H O (stopLayout acc' (accounts acct' us))) rest ∧ A3.state = busy := by
  obtain ⟨A1, ts1, h1, w1, s1, f1, e1⟩ := stop_said H A rA (by rw [sA]; exact ⟨rfl, rfl⟩) wA acc acct ts hS
  rw [accounts_len] at h1
  obtain ⟨A2, A3, claims, h2, h3, -, -, r3, s3⟩ := stop_heard H O A1 rO w1.ready (instep_wrote h w1) (s1.trans sA) (w1.twoway.trans wA) acc' hv acct' us ts1 hS'
    (by rw [accounts_len]; exact hn) (still_set e1 hset) (by rw [f1, accounts_sids]; exact hp) rest (w1.inp.trans hi)
  exact ⟨A1, ts1, A2, A3, _, h1, w1, h2, h3, r3, s3⟩

/-- A side that waits for the other's message and answers it. -/
theorem other_end (H : Mac) (A O : Conn) (rA : Ready A) (rO : Ready O) (sA : A.state = busy) (wA : A.twoway = false) (h : InStep O A)
    (ts us : Tests) (acct acct' : Sess (List FileOp) → Account) (acc' : Accept) (hv : acc' ≠ .invalid)
    (hS : Speaks acct ts) (hS' : Speaks acct' us) (hn : (us.filter sending).length < 2 ^ 32) (hset : ∀ s ∈ ts, s.ep.isSome)
    (hp : ((ts.filter receiving).map Sess.sid).Perm ((us.filter sending).map Sess.sid)) (rest : Bytes)
    (hi : A.inp = spoken H O (stopLayout acc' (accounts acct' us)) ++ rest) :
    ∃ A1 A2 ts2 A3 ts3, readRequestType A = (.stopSessions, A1) ∧ readStopSessions H goodFile A1 ts = (some acc', A2, ts2) ∧
      Heard A A2 (stopLayout acc' (accounts acct' us) ++ tag H O (stopLayout acc' (accounts acct' us))) rest ∧
      writeStopSessions H A2 acc' (BitVec.ofNat 32 (ts.filter sending).length) ts2 = (some (), A3, ts3) ∧
      Wrote A2 A3 (stopLayout acc' (accounts acct ts) ++ tag H A (stopLayout acc' (accounts acct ts))) ∧ A3.state = busy := by
  obtain ⟨A1, A2, claims, h1, h2, -, h4, r2, s2⟩ := stop_heard H O A rO rA h sA wA acc' hv acct' us ts hS' (by rw [accounts_len]; exact hn) hset (by rw [accounts_sids]; exact hp) rest hi
  obtain ⟨A3, ts3, h5, w3, s3, -, -⟩ := stop_said H A2 r2.ready (by rw [s2]; exact ⟨rfl, rfl⟩) (r2.twoway.trans wA) acc' acct _ (after_read_speaks h4 hS)
  rw [after_read_accounts acct h4] at h5 w3
  rw [accounts_len] at h5
  rw [r2.tag_eq] at w3
  exact ⟨A1, A2, _, A3, ts3, h1, h2, r2, h5, w3, s3.trans s2⟩

/-! ## Complete runs -/

/-- What the client does in a round: it says `p1`, hears `q1`, and then says `p2` and hears `q2`, in some order. -/
def Round (A A' : Conn) (p1 p2 q1 q2 : Bytes) : Prop :=
  ∃ A1 A2 A3 r1 r2, Wrote A A1 p1 ∧ Heard A1 A2 q1 r1 ∧
    ((Wrote A2 A3 p2 ∧ Heard A3 A' q2 r2) ∨ (Heard A2 A3 q2 r2 ∧ Wrote A3 A' p2)) ∧ A'.inp = []

/-- What the server does: it hears `p1`, says `q1`, and then hears `p2` and says `q2`, in some order. -/
def Answer (B B' : Conn) (p1 p2 q1 q2 : Bytes) : Prop :=
  ∃ B1 B2 B3 r1 r2, Heard B B1 p1 r1 ∧ Wrote B1 B2 q1 ∧
    ((Heard B2 B3 p2 r2 ∧ Wrote B3 B' q2) ∨ (Wrote B2 B3 q2 ∧ Heard B3 B' p2 r2)) ∧ B'.inp = []

theorem round_out {A A' : Conn} {p1 p2 q1 q2 : Bytes} (h : Round A A' p1 p2 q1 q2) : A'.out = A.out ++ (sealed A p1 ++ sealed (after A p1) p2) := by
  obtain ⟨A1, A2, A3, r1, r2, w1, h1, h2, -⟩ := h
  have e2 : ∀ p, sealed A2 p = sealed (after A p1) p := fun p => by rw [h1.sealed_eq, w1.sealed_eq]
  rcases h2 with ⟨w, r⟩ | ⟨r, w⟩
  · rw [r.out, w.out, h1.out, w1.out, e2, List.append_assoc]
  · rw [w.out, r.out, h1.out, w1.out, r.sealed_eq, e2, List.append_assoc]

theorem answer_out {B B' : Conn} {p1 p2 q1 q2 : Bytes} (h : Answer B B' p1 p2 q1 q2) : B'.out = B.out ++ (sealed B q1 ++ sealed (after B q1) q2) := by
  obtain ⟨B1, B2, B3, r1, r2, h1, w1, h2, -⟩ := h
  have e2 : ∀ p, sealed B2 p = sealed (after B q1) p := by
    intro p
    rw [w1.sealed_eq]
    refine sealed_congr (c := after B q1) (d := after B1 q1) h1.cipher (fun hc => ?_) p
    obtain ⟨a, -, c, -, -, -⟩ := h1.sec hc
    refine ⟨a, ?_⟩
    show wireIV B1.cipher B1.aesKey B1.writeIV q1 = wireIV B.cipher B.aesKey B.writeIV q1
    rw [h1.cipher, a, c]
  rcases h2 with ⟨r, w⟩ | ⟨w, r⟩
  · rw [w.out, r.out, r.sealed_eq, w1.out, h1.out, h1.sealed_eq, e2, List.append_assoc]
  · rw [r.out, w.out, w1.out, h1.out, h1.sealed_eq, e2, List.append_assoc]

/-- Both sides are in step afterwards, whoever spoke first. -/
theorem round_linked {A A' B B' : Conn} {p1 p2 q1 q2 : Bytes} (L : Linked A B) (h : Round A A' p1 p2 q1 q2) (k : Answer B B' p1 p2 q1 q2) :
    Linked A' B' ∧ Ready A' ∧ Ready B' ∧ A'.twoway = A.twoway ∧ B'.twoway = B.twoway := by
  obtain ⟨A1, A2, A3, r1, r2, w1, h1, h2, -⟩ := h
  obtain ⟨B1, B2, B3, s1, s2, k1, v1, k2, -⟩ := k
  have i1 : InStep A2 B2 := instep_wrote (instep_heard (instep_said L.1 w1 k1) h1) v1
  have j1 : InStep B2 A2 := instep_said (instep_wrote (instep_heard L.2 k1) w1) v1 h1
  have ta : A2.twoway = A.twoway := h1.twoway.trans w1.twoway
  have tb : B2.twoway = B.twoway := v1.twoway.trans k1.twoway
  rcases h2 with ⟨w, r⟩ | ⟨r, w⟩ <;> rcases k2 with ⟨r', w'⟩ | ⟨w', r'⟩
  · exact ⟨⟨instep_wrote (instep_heard (instep_said i1 w r') r) w', instep_said (instep_wrote (instep_heard j1 r') w) w' r⟩, r.ready, w'.ready,
      r.twoway.trans (w.twoway.trans ta), w'.twoway.trans (r'.twoway.trans tb)⟩
  · exact ⟨⟨instep_heard (instep_said (instep_wrote i1 w') w r') r, instep_heard (instep_said (instep_wrote j1 w) w' r) r'⟩, r.ready, r'.ready,
      r.twoway.trans (w.twoway.trans ta), r'.twoway.trans (w'.twoway.trans tb)⟩
  · exact ⟨⟨instep_wrote (instep_said (instep_heard i1 r) w r') w', instep_wrote (instep_said (instep_heard j1 r') w' r) w⟩, w.ready, w'.ready,
      w.twoway.trans (r.twoway.trans ta), w'.twoway.trans (r'.twoway.trans tb)⟩
  · exact ⟨⟨instep_said (instep_wrote (instep_heard i1 r) w') w r', instep_heard (instep_wrote (instep_said j1 w' r) w) r'⟩, w.ready, r'.ready,
      w.twoway.trans (r.twoway.trans ta), r'.twoway.trans (w'.twoway.trans tb)⟩

section runs
variable (H : Mac) (A B : Conn) (rA : Ready A) (rB : Ready B) (sA : A.state = .requestOnly) (sB : B.state = .requestOnly) (wA : A.twoway = false) (wB : B.twoway = false)
variable {t : Ends (List FileOp)} {u : Turn (List FileOp)} {acctA acctB : Sess (List FileOp) → Account}
include rA rB sA wA

/-- The client ends the sessions itself. -/
theorem client_stops (hBA : InStep B A) (T : Together t u acctA acctB) (acc acc' : Accept) (hv : acc' ≠ .invalid)
    (hs : t.stopSend = some (acc, BitVec.ofNat 32 (t.tests.filter sending).length))
    (hi : A.inp = spoken H B (startAckLayout .accept) ++ sealed (after B (bytesAck H B)) (bytesStop H B (bytesAck H B) (stopLayout acc' (accounts acctB u.tests)))) :
    ∃ A', clientRound H (.stop t) A = ((.ok, .ok), A') ∧ A'.state = .requestOnly ∧
      Round A A' (bytesStart H A) (bytesStop H A (bytesStart H A) (stopLayout acc (accounts acctA t.tests))) (bytesAck H B)
        (bytesStop H B (bytesAck H B) (stopLayout acc' (accounts acctB u.tests))) := by
  obtain ⟨A1, A2, h1, w1, r1, s1⟩ := client_start H A B rA rB sA hBA _ hi
  obtain ⟨A3, ts3, A4, A5, ts5, g1, g2, g3, g4, g5, g6⟩ := own_end H A2 (after B (bytesAck H B)) r1.ready (ready_after rB _) s1 (r1.twoway.trans (w1.twoway.trans wA))
    (instep_after (instep_wrote hBA w1) r1) t.tests u.tests acctA acctB acc acc' hv T.accounts.1 T.accounts.2 T.count.2 T.set.1 T.back [] (by rw [r1.inp, List.append_nil]; rfl)
  rw [r1.tag_eq, w1.tag_eq] at g2
  refine ⟨A5.setState { A5.state with test := false }, ?_, by rw [g6]; rfl, A1, A2, A3, _, _, w1, r1, Or.inl ⟨g2, Heard.set g5 _⟩, g5.inp⟩
  unfold clientRound
  simp only [act, h1, if_true]
  have : stop H t A2 = (true, A5.setState { A5.state with test := false }) := by
    unfold stop
    rw [hs]
    dsimp only
    rw [g1]
    dsimp only
    rw [if_neg (by rw [g2.twoway, r1.twoway, w1.twoway, wA]; simp), g3]
    dsimp only
    rw [T.recvs.1, T.files.1, g4, T.recvs.2.2]
    rfl
  rw [this]
  rfl

/-- The client waits for the server's message. -/
theorem client_waits (hBA : InStep B A) (T : Together t u acctA acctB) (acc acc' : Accept) (hv : acc' ≠ .invalid)
    (hs : t.stopSend = some (acc, BitVec.ofNat 32 (t.tests.filter sending).length))
    (hi : A.inp = spoken H B (startAckLayout .accept) ++ sealed (after B (bytesAck H B)) (bytesStop H B (bytesAck H B) (stopLayout acc' (accounts acctB u.tests)))) :
    ∃ A', clientRound H (.wait .message t) A = ((.ok, .ok), A') ∧ A'.state = .requestOnly ∧
      Round A A' (bytesStart H A) (bytesStop H A (bytesStart H A) (stopLayout acc' (accounts acctA t.tests))) (bytesAck H B)
        (bytesStop H B (bytesAck H B) (stopLayout acc' (accounts acctB u.tests))) := by
  obtain ⟨A1, A2, h1, w1, r1, s1⟩ := client_start H A B rA rB sA hBA _ hi
  obtain ⟨A3, A4, ts4, A5, ts5, g1, g2, g3, g4, g5, g6⟩ := other_end H A2 (after B (bytesAck H B)) r1.ready (ready_after rB _) s1 (r1.twoway.trans (w1.twoway.trans wA))
    (instep_after (instep_wrote hBA w1) r1) t.tests u.tests acctA acctB acc' hv T.accounts.1 T.accounts.2 T.count.2 T.set.1 T.back [] (by rw [r1.inp, List.append_nil]; rfl)
  rw [r1.tag_eq, w1.tag_eq] at g5
  refine ⟨A5.setState { A5.state with test := false }, ?_, by rw [g6]; rfl, A1, A2, A4, _, _, w1, r1, Or.inr ⟨g3, Wrote.set g5 _⟩, g5.inp.trans g3.inp⟩
  unfold clientRound
  simp only [act, h1, if_true]
  have : wait H .message t A2 = (.ok, A5.setState { A5.state with test := false }) := by
    unfold wait
    dsimp only
    rw [g1]
    dsimp only
    have tw : A3.twoway = false := (request_test A2 s1 _ _ g1).1.trans (r1.twoway.trans (w1.twoway.trans wA))
    rw [if_neg (by rw [tw]; simp), hs]
    dsimp only
    rw [T.recvs.1, T.files.1, g2]
    dsimp only
    rw [g4, T.recvs.2.2]
    rfl
  rw [this]

end runs

section server
variable (H : Mac) (A B : Conn) (rA : Ready A) (rB : Ready B) (sB : B.state = .requestOnly) (wB : B.twoway = false)
variable {t : Ends (List FileOp)} {u : Turn (List FileOp)} {acctA acctB : Sess (List FileOp) → Account}
include rA rB sB wB

/-- The server starts the sessions. -/
theorem server_start (hAB : InStep A B) (hu : u.started = true) (rest : Bytes) (hi : B.inp = spoken H A startSessionsLayout ++ rest) :
    ∃ B1 B2, Heard B B1 (bytesStart H A) rest ∧ Wrote B1 B2 (bytesAck H B) ∧ B2.state = busy ∧ B2.inp = rest ∧ B2.twoway = false ∧
      serveOnce H u B = { stopSessionsWait H u B2 with heard := .startSessions :: (stopSessionsWait H u B2).heard } := by
  obtain ⟨B0, B1, h0, h1, r1, s1⟩ := start_heard H A B rA rB hAB sB rest hi
  obtain ⟨B2, h2, w2, s2⟩ := ack_said H B1 r1.ready (by rw [s1])
  rw [r1.tag_eq] at w2
  refine ⟨B1, B2, r1, w2, by rw [s2, s1], w2.inp.trans r1.inp, w2.twoway.trans (r1.twoway.trans wB), ?_⟩
  unfold serveOnce
  rw [h0]
  dsimp only
  unfold processStartSessions
  rw [h1]
  dsimp only
  rw [if_neg (by simp [hu]), h2]

omit rA rB sB wB in
/-- The server after its answer, as far as its voice is concerned. -/
theorem server_voice {B1 B2 : Conn} {p rest : Bytes} (r1 : Heard B B1 p rest) (w2 : Wrote B1 B2 (bytesAck H B)) (q : Bytes) :
    tag H B2 q = tag H (after B (bytesAck H B)) q := by
  rw [w2.tag_eq]
  refine tag_congr (c := after B (bytesAck H B)) (d := after B1 (bytesAck H B)) H r1.cipher (fun hc => ?_) q
  obtain ⟨-, b, -, d, -, -⟩ := r1.sec hc
  refine ⟨b, ?_⟩
  show (if B1.cipher then [] else B1.sendAcc) = if B.cipher then [] else B.sendAcc
  rw [r1.cipher, d]

/-- The server ends the sessions itself. -/
theorem server_ours (hAB : InStep A B) (T : Together t u acctA acctB) (hw : u.wait = .ours) (acc acc' : Accept) (hv : acc ≠ .invalid)
    (hs : u.stopSend = some (acc', BitVec.ofNat 32 (u.tests.filter sending).length))
    (hi : B.inp = spoken H A startSessionsLayout ++ sealed (after A (bytesStart H A)) (bytesStop H A (bytesStart H A) (stopLayout acc (accounts acctA t.tests)))) :
    ∃ B', serveOnce H u B = ⟨[.startSessions, .stopSessions], false, .ok, B'⟩ ∧ B'.state = .requestOnly ∧
      Answer B B' (bytesStart H A) (bytesStop H A (bytesStart H A) (stopLayout acc (accounts acctA t.tests))) (bytesAck H B)
        (bytesStop H B (bytesAck H B) (stopLayout acc' (accounts acctB u.tests))) := by
  obtain ⟨B1, B2, r1, w2, s2, i2, t2, hrun⟩ := server_start H A B rA rB sB wB hAB T.started _ hi
  obtain ⟨B3, ts3, B4, B5, ts5, g1, g2, g3, g4, g5, g6⟩ := own_end H B2 (after A (bytesStart H A)) w2.ready (ready_after rA _) s2 t2
    (instep_wrote (instep_after hAB r1) w2) u.tests t.tests acctB acctA acc' acc hv T.accounts.2 T.accounts.1 T.count.1 T.set.2 T.there [] (by rw [i2, List.append_nil]; rfl)
  rw [server_voice H B r1 w2] at g2
  refine ⟨B5.setState { B5.state with test := false }, ?_, by rw [g6]; rfl, B1, B2, B3, _, _, r1, w2, Or.inr ⟨g2, Heard.set g5 _⟩, g5.inp⟩
  have : stopSessionsWait H u B2 = ⟨[.stopSessions], false, .ok, B5.setState { B5.state with test := false }⟩ := by
    unfold stopSessionsWait
    rw [hw]
    dsimp only
    rw [if_neg (by simp [t2])]
    unfold stopSessions
    rw [hs]
    dsimp only
    rw [g1]
    dsimp only
    rw [g3]
    dsimp only
    rw [T.recvs.2.1, T.files.2, if_neg (by simp), g4]
  rw [hrun, this]

/-- The server waits for the client's message. -/
theorem server_theirs (hAB : InStep A B) (T : Together t u acctA acctB) (hw : u.wait = .theirs) (acc acc' : Accept) (hv : acc ≠ .invalid)
    (hs : u.stopSend = some (acc', BitVec.ofNat 32 (u.tests.filter sending).length))
    (hi : B.inp = spoken H A startSessionsLayout ++ sealed (after A (bytesStart H A)) (bytesStop H A (bytesStart H A) (stopLayout acc (accounts acctA t.tests)))) :
    ∃ B', serveOnce H u B = ⟨[.startSessions, .stopSessions], false, .ok, B'⟩ ∧ B'.state = .requestOnly ∧
      Answer B B' (bytesStart H A) (bytesStop H A (bytesStart H A) (stopLayout acc (accounts acctA t.tests))) (bytesAck H B)
        (bytesStop H B (bytesAck H B) (stopLayout acc (accounts acctB u.tests))) := by
  obtain ⟨B1, B2, r1, w2, s2, i2, t2, hrun⟩ := server_start H A B rA rB sB wB hAB T.started _ hi
  obtain ⟨B3, B4, ts4, B5, ts5, g1, g2, g3, g4, g5, g6⟩ := other_end H B2 (after A (bytesStart H A)) w2.ready (ready_after rA _) s2 t2
    (instep_wrote (instep_after hAB r1) w2) u.tests t.tests acctB acctA acc hv T.accounts.2 T.accounts.1 T.count.1 T.set.2 T.there [] (by rw [i2, List.append_nil]; rfl)
  rw [server_voice H B r1 w2] at g5
  refine ⟨B5.setState { B5.state with test := false }, ?_, by rw [g6]; rfl, B1, B2, B4, _, _, r1, w2, Or.inl ⟨g3, Wrote.set g5 _⟩, g5.inp.trans g3.inp⟩
  have : stopSessionsWait H u B2 = ⟨[.stopSessions], false, .ok, B5.setState { B5.state with test := false }⟩ := by
    unfold stopSessionsWait
    rw [hw]
    dsimp only
    rw [g1]
    dsimp only
    rw [hs]
    dsimp only
    rw [T.recvs.2.1, T.files.2, if_neg (by simp), g2]
    dsimp only
    rw [if_neg (by rw [g3.twoway, t2]; simp), g4]
  rw [hrun, this]

end server

/-! ## Runs on part of what will come -/

theorem act_dead (H : Mac) (c : Conn) (hs : c.state = .invalid) (ending : Call (List FileOp)) (t : Ends (List FileOp))
    (he : ending = .stop t ∨ ending = .wait .over t ∨ ending = .wait .message t) : (act H ending c).2.out = c.out := by
  have hq : ¬ (c.state.request = true ∧ c.state.test = true) := by rw [hs]; decide
  rcases he with rfl | rfl | rfl
  · show (stop H t c).2.out = _; rw [(stop_quiet H t c hq).2]; rfl
  · show (stop H t c).2.out = _; rw [(stop_quiet H t c hq).2]; rfl
  · show (wait H .message t c).2.out = _
    unfold wait
    dsimp only
    have : readRequestType c = (.invalid, c) := by
      unfold readRequestType
      rw [if_pos (by rw [hs]; decide)]
    rw [this]
    rfl

/-- The client before the server has said anything. -/
theorem client_alone (H : Mac) (A : Conn) (rA : Ready A) (sA : A.state = .requestOnly) (hi : A.inp = []) (ending : Call (List FileOp)) (t : Ends (List FileOp))
    (he : ending = .stop t ∨ ending = .wait .over t ∨ ending = .wait .message t) :
    (clientRound H ending A).2.out = A.out ++ spoken H A startSessionsLayout := by
  obtain ⟨A1, h1, w1, s1⟩ := start_said H A rA (by rw [sA]; rfl) (by rw [sA]; rfl)
  obtain ⟨A2, h2, o2⟩ := ack_none H A1 w1.ready.1 (w1.inp.trans hi)
  have hst : start H true true A = (false, A2.fail) := by
    unfold start
    rw [h1]
    dsimp only
    rw [h2]
    rfl
  show (act H ending (act H (.start true true : Call (List FileOp)) A).2).2.out = _
  rw [show (act H (.start true true : Call (List FileOp)) A).2 = A2.fail by simp only [act, hst], act_dead H A2.fail rfl ending t he]
  show A2.out = _
  rw [o2, w1.out]
  rfl

/-- The client that ends the sessions itself, before the server has ended them. -/
theorem client_ends (H : Mac) (A B : Conn) (rA : Ready A) (rB : Ready B) (sA : A.state = .requestOnly) (wA : A.twoway = false) (hBA : InStep B A)
    {t : Ends (List FileOp)} {acctA : Sess (List FileOp) → Account} (acc : Accept)
    (hs : t.stopSend = some (acc, BitVec.ofNat 32 (t.tests.filter sending).length)) (hS : Speaks acctA t.tests) (hi : A.inp = spoken H B (startAckLayout .accept)) :
    (clientRound H (.stop t) A).2.out = A.out ++ (spoken H A startSessionsLayout ++
      sealed (after A (bytesStart H A)) (bytesStop H A (bytesStart H A) (stopLayout acc (accounts acctA t.tests)))) := by
  obtain ⟨A1, A2, h1, w1, r1, s1⟩ := client_start H A B rA rB sA hBA [] (by rw [hi, List.append_nil])
  obtain ⟨A3, ts3, h3, w3, s3, -, -⟩ := stop_said H A2 r1.ready (by rw [s1]; exact ⟨rfl, rfl⟩) (r1.twoway.trans (w1.twoway.trans wA)) acc acctA t.tests hS
  obtain ⟨ty, A4, h4, n4, -, o4⟩ := type_none A3 w3.ready.1 (w3.inp.trans r1.inp)
  rw [accounts_len] at h3
  have : stop H t A2 = (false, A4.fail) := by
    unfold stop
    rw [hs]
    dsimp only
    rw [h3]
    dsimp only
    rw [if_neg (by rw [w3.twoway, r1.twoway, w1.twoway, wA]; simp), h4]
    cases ty <;> first | rfl | exact absurd rfl n4
  show (act H (.stop t) (act H (.start true true : Call (List FileOp)) A).2).2.out = _
  rw [show (act H (.start true true : Call (List FileOp)) A).2 = A2 by simp only [act, h1], show (act H (.stop t) A2).2 = A4.fail by simp only [act, this]]
  show A4.out = _
  rw [o4, w3.out, r1.out, w1.out, r1.tag_eq, w1.tag_eq, r1.sealed_eq, w1.sealed_eq, List.append_assoc]
  rfl

/-- The server before the client has ended the sessions. -/
theorem server_alone (H : Mac) (A B : Conn) (rA : Ready A) (rB : Ready B) (sB : B.state = .requestOnly) (wB : B.twoway = false) (hAB : InStep A B)
    {t : Ends (List FileOp)} {u : Turn (List FileOp)} {acctA acctB : Sess (List FileOp) → Account} (T : Together t u acctA acctB) (acc' : Accept)
    (hs : u.stopSend = some (acc', BitVec.ofNat 32 (u.tests.filter sending).length)) (hi : B.inp = spoken H A startSessionsLayout) :
    (u.wait = .theirs → (serveOnce H u B).c.out = B.out ++ spoken H B (startAckLayout .accept)) ∧
    (u.wait = .ours → (serveOnce H u B).c.out = B.out ++ (spoken H B (startAckLayout .accept) ++
      sealed (after B (bytesAck H B)) (bytesStop H B (bytesAck H B) (stopLayout acc' (accounts acctB u.tests))))) := by
  obtain ⟨B1, B2, r1, w2, s2, i2, t2, hrun⟩ := server_start H A B rA rB sB wB hAB T.started [] (by rw [hi, List.append_nil])
  have o2 : B2.out = B.out ++ spoken H B (startAckLayout .accept) := by rw [w2.out, r1.out, r1.sealed_eq]; rfl
  refine ⟨fun hw => ?_, fun hw => ?_⟩
  · rw [hrun]
    show (stopSessionsWait H u B2).c.out = _
    obtain ⟨ty, B3, h3, n3, -, o3⟩ := type_none B2 w2.ready.1 i2
    unfold stopSessionsWait
    rw [hw]
    dsimp only
    rw [h3, ← o2, ← o3]
    cases ty <;> first | rfl | exact absurd rfl n3
  · rw [hrun]
    show (stopSessionsWait H u B2).c.out = _
    obtain ⟨B3, ts3, h3, w3, s3, -, -⟩ := stop_said H B2 w2.ready (by rw [s2]; exact ⟨rfl, rfl⟩) t2 acc' acctB u.tests T.accounts.2
    obtain ⟨ty, B4, h4, n4, -, o4⟩ := type_none B3 w3.ready.1 (w3.inp.trans i2)
    rw [accounts_len] at h3
    have hout : B4.out = B.out ++ (spoken H B (startAckLayout .accept) ++
        sealed (after B (bytesAck H B)) (bytesStop H B (bytesAck H B) (stopLayout acc' (accounts acctB u.tests)))) := by
      rw [o4, w3.out, o2, server_voice H B r1 w2, w2.sealed_eq, List.append_assoc]
      congr 2
      refine sealed_congr (c := after B (bytesAck H B)) (d := after B1 (bytesAck H B)) r1.cipher (fun hc => ?_) _
      obtain ⟨a, -, c, -, -, -⟩ := r1.sec hc
      refine ⟨a, ?_⟩
      show wireIV B1.cipher B1.aesKey B1.writeIV _ = wireIV B.cipher B.aesKey B.writeIV _
      rw [r1.cipher, a, c]
    unfold stopSessionsWait
    rw [hw]
    dsimp only
    rw [if_neg (by simp [t2])]
    unfold stopSessions
    rw [hs]
    dsimp only
    rw [h3]
    dsimp only
    rw [h4, ← hout]
    cases ty <;> first | rfl | exact absurd rfl n4

/-! ## The two together -/

/-- Three rounds are enough. -/
theorem settles {α β : Type} {client : Conn → α × Conn} {server : Conn → β × Conn} {A B : Conn} {P : α → Conn → β → Conn → Prop} {x1 y1 x y : Bytes}
    (c0 : (client { A with inp := [] }).2.out = A.out ++ x1) (s1 : (server { B with inp := x1 }).2.out = B.out ++ y1)
    (c1 : (client { A with inp := y1 }).2.out = A.out ++ x) (s2 : (server { B with inp := x }).2.out = B.out ++ y)
    (c2 : (client { A with inp := y }).2.out = A.out ++ x)
    (h : P (client { A with inp := y }).1 (client { A with inp := y }).2 (server { B with inp := x }).1 (server { B with inp := x }).2) :
    Settles client server A B P := by
  have e1 : exchange client server A B 1 = (x1, y1) := by
    simp only [exchange, c0, s1, List.drop_left]
  have e2 : exchange client server A B 2 = (x, y) := by
    rw [exchange, e1]
    simp only [c1, s2, List.drop_left]
  have e : ∀ k, exchange client server A B (2 + k) = (x, y) := by
    intro k
    induction k with
    | zero => exact e2
    | succ k ih =>
      show exchange client server A B ((2 + k) + 1) = _
      rw [exchange, ih]
      simp only [c2, s2, List.drop_left]
  refine ⟨2, fun m hm => ?_, ?_⟩
  · obtain ⟨k, rfl⟩ := Nat.exists_eq_add_of_le hm
    rw [e, e2]
  · rw [e2]; exact h

/-- C100, sessions: on a connection on which nothing is under way, an honest client starts the sessions that both sides hold, and they are ended, by the client, by the server or by both at
once. Every call succeeds, the server hears the two requests and nothing else, and both sides are ready for the next request and in step. -/
theorem C100_sessions (H : Mac) (A B : Conn) (C : Calm A B) (t : Ends (List FileOp)) (u : Turn (List FileOp)) (acctA acctB : Sess (List FileOp) → Account)
    (T : Together t u acctA acctB) (ending : Call (List FileOp)) (hw : SomeoneSpeaks ending t u.wait) :
    Settles (clientRound H ending) (serverPass H u) A B fun r A' p B' =>
      r = (.ok, .ok) ∧ p.heard = [.startSessions, .stopSessions] ∧ p.bad = false ∧ p.rc = .ok ∧ Calm A' B' := by
  obtain ⟨⟨⟨rA, rB⟩, L, iA, iB⟩, ⟨sA, sB⟩, wA, wB⟩ := C
  obtain ⟨accA, vA, hsA⟩ := T.stopsA
  obtain ⟨accB, vB, hsB⟩ := T.stopsB
  -- the end of the proof is the same in all cases
  have finish : ∀ (A' B' : Conn) (p : Pass) (x y q1 q2 p1 p2 : Bytes), A'.state = .requestOnly → B'.state = .requestOnly →
      p = ⟨[.startSessions, .stopSessions], false, .ok, B'⟩ → Round { A with inp := y } A' p1 p2 q1 q2 → Answer { B with inp := x } B' p1 p2 q1 q2 →
      ((Res.ok, Res.ok) = (Res.ok, Res.ok) ∧ p.heard = [.startSessions, .stopSessions] ∧ p.bad = false ∧ p.rc = .ok ∧ Calm A' B') := by
    intro A' B' p x y q1 q2 p1 p2 h1 h2 hp hr ha
    obtain ⟨l, r1, r2, t1, t2⟩ := round_linked (A := { A with inp := y }) (B := { B with inp := x }) L hr ha
    subst hp
    refine ⟨rfl, rfl, rfl, rfl, ⟨⟨⟨r1, r2⟩, l, ?_, ?_⟩, ⟨h1, h2⟩, t1.trans wA, t2.trans wB⟩⟩
    · obtain ⟨_, _, _, _, _, _, _, _, h⟩ := hr; exact h
    · obtain ⟨_, _, _, _, _, _, _, _, h⟩ := ha; exact h
  let x1 := spoken H A startSessionsLayout
  let y1 := spoken H B (startAckLayout .accept)
  let X := fun acc => sealed (after A (bytesStart H A)) (bytesStop H A (bytesStart H A) (stopLayout acc (accounts acctA t.tests)))
  let Y := fun acc => sealed (after B (bytesAck H B)) (bytesStop H B (bytesAck H B) (stopLayout acc (accounts acctB u.tests)))
  have c0 : ∀ ending, (ending = .stop t ∨ ending = .wait .over t ∨ ending = .wait .message t) → (clientRound H ending { A with inp := [] }).2.out = A.out ++ x1 :=
    fun e he => client_alone H { A with inp := [] } rA sA rfl e t he
  have s1 := server_alone H A { B with inp := x1 } rA rB sB wB L.1 T accB hsB rfl
  rcases hw with ⟨he, hw | hw⟩ | ⟨he, hw⟩
  · -- both
    obtain ⟨A', a1, a2, a3⟩ := client_stops H { A with inp := y1 ++ Y accB } B rA rB sA wA L.2 T accA accB vB hsA rfl
    obtain ⟨B', b1, b2, b3⟩ := server_ours H A { B with inp := x1 ++ X accA } rA rB sB wB L.1 T hw accA accB vA hsB rfl
    have hce : clientRound H ending = clientRound H (.stop t) := by rcases he with rfl | rfl <;> rfl
    have hco : (clientRound H (.stop t) { A with inp := y1 ++ Y accB }).2.out = A.out ++ (x1 ++ X accA) := by
      have h := round_out a3
      rw [a1]; exact h
    rw [hce]
    refine settles (c0 _ (Or.inl rfl)) (show (serveOnce H u { B with inp := x1 }).c.out = _ from s1.2 hw) hco (y := y1 ++ Y accB) ?_ hco ?_
    · have h := answer_out b3
      show (serveOnce H u _).c.out = _
      rw [b1]; exact h
    · have h := finish A' B' _ _ _ _ _ _ _ a2 b2 b1 a3 b3
      show _ ∧ _ ∧ _ ∧ _ ∧ Calm (clientRound H _ _).2 (serveOnce H u _).c
      rw [a1, show (serveOnce H u _).c = B' from congrArg Pass.c b1]
      exact h
  · -- the client
    obtain ⟨A', a1, a2, a3⟩ := client_stops H { A with inp := y1 ++ Y accA } B rA rB sA wA L.2 T accA accA vA hsA rfl
    obtain ⟨B', b1, b2, b3⟩ := server_theirs H A { B with inp := x1 ++ X accA } rA rB sB wB L.1 T hw accA accB vA hsB rfl
    have hce : clientRound H ending = clientRound H (.stop t) := by rcases he with rfl | rfl <;> rfl
    have hco : (clientRound H (.stop t) { A with inp := y1 ++ Y accA }).2.out = A.out ++ (x1 ++ X accA) := by
      have h := round_out a3
      rw [a1]; exact h
    have hc1 : (clientRound H (.stop t) { A with inp := y1 }).2.out = A.out ++ (x1 ++ X accA) := client_ends H { A with inp := y1 } B rA rB sA wA L.2 accA hsA T.accounts.1 rfl
    rw [hce]
    refine settles (c0 _ (Or.inl rfl)) (show (serveOnce H u { B with inp := x1 }).c.out = _ from s1.1 hw) hc1 (y := y1 ++ Y accA) ?_ hco ?_
    · have h := answer_out b3
      show (serveOnce H u _).c.out = _
      rw [b1]; exact h
    · have h := finish A' B' _ _ _ _ _ _ _ a2 b2 b1 a3 b3
      show _ ∧ _ ∧ _ ∧ _ ∧ Calm (clientRound H _ _).2 (serveOnce H u _).c
      rw [a1, show (serveOnce H u _).c = B' from congrArg Pass.c b1]
      exact h
  · -- the server
    obtain ⟨A', a1, a2, a3⟩ := client_waits H { A with inp := y1 ++ Y accB } B rA rB sA wA L.2 T accA accB vB hsA rfl
    obtain ⟨B', b1, b2, b3⟩ := server_ours H A { B with inp := x1 ++ X accB } rA rB sB wB L.1 T hw accB accB vB hsB rfl
    have hco : (clientRound H (.wait .message t) { A with inp := y1 ++ Y accB }).2.out = A.out ++ (x1 ++ X accB) := by
      have h := round_out a3
      rw [a1]; exact h
    rw [he]
    refine settles (c0 _ (Or.inr (Or.inr rfl))) (show (serveOnce H u { B with inp := x1 }).c.out = _ from s1.2 hw) hco (y := y1 ++ Y accB) ?_ hco ?_
    · have h := answer_out b3
      show (serveOnce H u _).c.out = _
      rw [b1]; exact h
    · have h := finish A' B' _ _ _ _ _ _ _ a2 b2 b1 a3 b3
      show _ ∧ _ ∧ _ ∧ _ ∧ Calm (clientRound H _ _).2 (serveOnce H u _).c
      rw [a1, show (serveOnce H u _).c = B' from congrArg Pass.c b1]
      exact h

/-! ## Fetching -/

open Owamp.Codec Owamp.Fetch Owamp.Spec.Fetch Owamp.File Owamp.Spec.DataFile

theorem fetchAck_none (H : Mac) (c : Conn) (hf : c.faults = []) (hi : c.inp = []) : ∃ c', readFetchAck H c = (none, c') ∧ c'.out = c.out := by
  unfold readFetchAck
  split
  · exact ⟨_, rfl, rfl⟩
  have : (recvBlocks c 0 2).1 = .closed := by
    unfold recvBlocks readN
    rw [hf, hi]
    rfl
  have ho := recvBlocks_keptOut c 0 2
  split
  · rename_i e; rw [e] at this; cases this
  · rename_i e; rw [e] at ho; exact ⟨_, rfl, ho⟩

/-- The client's request, before the server has answered. -/
theorem fetch_alone (H : Mac) (remote loc : SockAddr) (junk : Bytes) (first last : U32) (sid : Bytes) (hsid : sid.length = 16) (A B : Conn) (C : Calm A B) (hi : A.inp = []) :
    (fetch H remote loc junk first last sid A).2.out = A.out ++ request H A first last sid := by
  obtain ⟨⟨⟨rA, rB⟩, L, _, _⟩, ⟨sA, sB⟩, wA, wB⟩ := C
  obtain ⟨A1, e1, o1, i1, r1, s1, _⟩ := C10_fetch_session H A B rA rB L first last sid hsid (by rw [sA]; rfl) (by rw [sA]; rfl) wA (by rw [sB]; rfl) (by rw [sB]; rfl)
    (by rw [sB]; rfl) wB
  dsimp only at e1
  obtain ⟨A2, h2, o2⟩ := fetchAck_none H A1 r1.1 (i1.trans hi)
  have : fetch H remote loc junk first last sid A = (.failed, A2.fail) := by
    unfold fetch
    rw [if_neg (by rw [wA]; decide), e1]
    dsimp only
    unfold readAnswer
    rw [h2]
  rw [this]
  show A2.out = _
  rw [o2, o1]
  rfl

/-- A conversation as in C36 to C38, however the answer of the server is found. -/
theorem fetch_settles (H : Mac) (E : Env) (remote loc : SockAddr) (junk : Bytes) (first last : U32) (sid : Bytes) (hsid : sid.length = 16) (A B : Conn) (C : Calm A B)
    (blocks : Nat) (result : Result) (hr : result ≠ .failed)
    (conv : ∀ A0 B0, Peers B0 A0 → Conversation H E remote loc junk first last sid B0 A0 blocks result) :
    Settles (fetch H remote loc junk first last sid) (afterType .fetchSession (Fetch.serve H E)) A B fun r A' s B' => r = result ∧ s = some () ∧ Calm A' B' := by
  have hC := C
  obtain ⟨⟨⟨rA, rB⟩, L, iA, iB⟩, ⟨sA, sB⟩, wA, wB⟩ := C
  have hP : ∀ x y, Peers { B with inp := x } { A with inp := y } := fun x y =>
    ⟨rB, rA, L, by show B.state.request = true; rw [sB]; rfl, by show B.state.isReading = false; rw [sB]; rfl, by show B.state.test = false; rw [sB]; rfl, wB,
      by show A.state.request = true; rw [sA]; rfl, by show A.state.test = false; rw [sA]; rfl, wA⟩
  have alone := fetch_alone H remote loc junk first last sid hsid { A with inp := [] } { B with inp := [] } ⟨⟨⟨rA, rB⟩, L, rfl, rfl⟩, ⟨sA, sB⟩, wA, wB⟩ rfl
  obtain ⟨B', resp, e1, -, o1, i1, -⟩ := conv _ _ (hP (request H A first last sid) []) [] (List.append_nil _).symm
  obtain ⟨B2, resp2, e2, -, o2, i2, k2⟩ := conv _ _ (hP (request H A first last sid) resp) [] (List.append_nil _).symm
  have hB : B2 = B' := by rw [e1] at e2; exact (congrArg Prod.snd e2).symm
  subst hB
  have hresp : resp = resp2 := List.append_cancel_left (o1.symm.trans o2)
  subst hresp
  obtain ⟨A', a1, a2, a3, P'⟩ := k2 [] (List.append_nil _).symm
  have hs1 : (afterType .fetchSession (Fetch.serve H E) { B with inp := request H A first last sid }).2.out = B.out ++ resp := by rw [e1]; exact o1
  have hc1 : (fetch H remote loc junk first last sid { A with inp := resp }).2.out = A.out ++ request H A first last sid := by rw [a1]; exact a2
  refine settles (x1 := request H A first last sid) (y1 := resp) (x := request H A first last sid) (y := resp) alone hs1 hc1 hs1 hc1 ?_
  rw [a1, e1]
  refine ⟨rfl, rfl, ⟨⟨⟨P'.readyB, P'.readyA⟩, P'.linked, a3, i1⟩, ⟨?_, ?_⟩, P'.onewayB, P'.onewayA⟩⟩
  · rcases fetch_idle H remote loc junk first last sid { A with inp := resp } sA with ⟨h, _⟩ | ⟨_, h⟩
    · rw [a1] at h; exact absurd h hr
    · rw [a1] at h; exact h
  · unfold afterType at e1
    cases hty : readRequestType { B with inp := request H A first last sid } with
    | mk ty B1 =>
      rw [hty] at e1
      dsimp only at e1
      split at e1
      · rename_i ht
        subst ht
        obtain ⟨-, h⟩ := request_idle { B with inp := request H A first last sid } sB _ _ hty
        simp only [reduceCtorEq, or_self, false_and, true_and, or_false, false_or] at h
        exact serve_st H E _ _ e1 h
      · simp at e1

/-- C100, fetching: on a connection on which nothing is under way the client fetches a session that the server keeps, and gets what C36 says; both sides are then ready for the next request and in
step. -/
theorem C100_fetch (H : Mac) (E : Env) (remote loc : SockAddr) (junk : Bytes) (hj : junk.length = 112) (A B : Conn) (C : Calm A B) (first last : U32) (sid : Bytes) (hsid : sid.length = 16)
    (f : Bytes) (h : HdrIn) (fin : Bool) (next : U32) (skips : List Skip) (rs : List DataRec) (hst : Stored f h fin next skips rs) (hE : Grants E first last sid f)
    (hfull : first = 0 ∧ last = 0xFFFFFFFF#32 → fin = true) (hk : 8 * skips.length < 2 ^ 32)
    (hs1 : Spec.Request.scopeKnown remote false h.sender) (hs2 : Spec.Request.scopeKnown remote false h.receiver) :
    Settles (fetch H remote loc junk first last sid) (afterType .fetchSession (Fetch.serve H E)) A B fun r A' s B' =>
      (∃ n file, r = .fetched n file ∧ recordsSeen file = inRange first (lastSent fin last rs) rs ∧ readSkips file (BitVec.ofNat 32 skips.length) = some skips) ∧
      s = some () ∧ Calm A' B' := by
  have := fetch_settles H E remote loc junk first last sid hsid A B C _ _ (by simp)
    (fun A0 B0 P => serve_travels H E remote loc junk hj B0 A0 P first last sid hsid f h fin next skips rs hst hE hfull hs1 hs2)
  obtain ⟨n, h1, h2, h3, h4⟩ := this
  obtain ⟨_, e1, e2, e3⟩ := fetchedFile_read remote h hst.header hst.oneway fin next skips (inRange first (lastSent fin last rs) rs)
    (fun r hr => hst.records r (List.mem_filter.1 hr).1) (Nat.lt_of_le_of_lt (inRange_length_le _ _ _) hst.nrecs) hk
  exact ⟨n, h1, ⟨_, _, h2, e1, e3⟩, h3, h4⟩

/-- C100, a fetch that is refused: the client is told so, and the connection is as good as before. -/
theorem C100_fetch_refused (H : Mac) (E : Env) (remote loc : SockAddr) (junk : Bytes) (A B : Conn) (C : Calm A B) (first last : U32) (sid : Bytes) (hsid : sid.length = 16)
    (hE : E.policy first last sid = some false ∨ (E.policy first last sid = some true ∧ (E.opens sid = false ∨ ∃ a, header E first last 0 0 0 = .error a))) :
    Settles (fetch H remote loc junk first last sid) (afterType .fetchSession (Fetch.serve H E)) A B fun r A' s B' => r = .refused ∧ s = some () ∧ Calm A' B' := by
  refine fetch_settles H E remote loc junk first last sid hsid A B C 2 _ (by simp) (fun A0 B0 P => refuse_travels H E remote loc junk B0 A0 P first last sid hsid fun c => ?_)
  rcases hE with hp | ⟨hp, ho | ⟨a, hh⟩⟩
  · refine ⟨.reject, by decide, by decide, fun c0 h0 => ?_⟩
    unfold Fetch.serve; rw [h0]; simp only; rw [hp]
  · refine ⟨.reject, by decide, by decide, fun c0 h0 => ?_⟩
    unfold Fetch.serve; rw [h0]; simp only; rw [hp]; simp only; rw [if_neg (by rw [ho]; decide)]
  · by_cases ho : E.opens sid = true
    · refine ⟨a, ?_, ?_, fun c0 h0 => ?_⟩
      · rcases header_error E _ _ 0 0 0 a hh with x | x <;> rw [x] <;> decide
      · rcases header_error E _ _ 0 0 0 a hh with x | x <;> rw [x] <;> decide
      · unfold Fetch.serve; rw [h0]; simp only; rw [hp]; simp only; rw [if_pos ho, hh]
    · refine ⟨.reject, by decide, by decide, fun c0 h0 => ?_⟩
      unfold Fetch.serve; rw [h0]; simp only; rw [hp]; simp only; rw [if_neg ho]

/-! ## Opening and asking -/

/-- C100, the beginning: a one-way connection that has just been set up, as in C20. -/
theorem C100_opened (K : Cbc.Kdf) (e : AcceptEnv) (o : OpenEnv) (S C S' C' : Conn) (fS : Spec.Setup.Fresh S) (fC : Spec.Setup.Fresh C)
    (htw : S.twoway = false ∧ C.twoway = false) (hc : e.challenge.length = 16) (hs : e.salt.length = 16)
    (hiv : ∀ iv, e.iv = some iv → iv.length = 16) (hz : OpenEnv.Sized o)
    (huser : ∀ u, o.userid = some u → ∀ x ∈ u, x ≠ 0#8)
    (hsame : ∀ u pf pf', o.userid = some u → o.getPF (u.take 80) = .known pf → e.getPF (u.take 80) = .known pf' → pf = pf')
    (x : Spec.Setup.Exchange K e o S C S' C') : Calm C' S' := by
  obtain ⟨l, _, _, _, r1, r2, s1, s2, i1, i2, t1, t2⟩ := C20_keys_agree K e o S C S' C' fS fC (htw.1.trans htw.2.symm) hc hs hiv hz huser hsame x
  exact ⟨⟨⟨r2, r1⟩, ⟨l.2, l.1⟩, i2, i1⟩, ⟨s2, s1⟩, t2.trans htw.2, t1.trans htw.1⟩

/-- A question that is not cut short leaves the kind of connection. -/
theorem askServer_kind (H : Mac) (e : ClientEnv) (hp : Peer e) (cs cr : Bool) (snd rcv : SockAddr) (sid : Bytes) (c : Conn) (r : Except Sev (SockAddr × SockAddr × Bytes)) (c' : Conn)
    (h : askServer H e cs cr snd rcv sid c = (r, c')) (hr : r ≠ .error .fatal) : c'.twoway = c.twoway := by
  unfold askServer at h
  dsimp only at h
  split at h
  · simp only [Prod.mk.injEq] at h; exact absurd h.1.symm hr
  · rename_i c1 e1
    rcases writeReq_st H c _ _ _ e1 with ⟨k, _⟩ | ⟨_, _, _, k, _⟩
    · cases k
    · obtain ⟨i, hi⟩ := hp c1
      rw [hi] at h
      split at h
      · simp only [Prod.mk.injEq] at h; exact absurd h.1.symm hr
      · rename_i c2 e2
        have : c2.twoway = c1.twoway := by
          unfold readAcceptSession at e2
          split at e2
          · simp at e2
          split at e2
          · rename_i e3
            have s3 := recvBlocks_st e3
            split at e2
            · simp at e2
            · rename_i e4
              have s4 := s3.trans (checkMsg_st e4)
              dsimp only at e2
              split at e2
              · simp at e2
              · simp only [Prod.mk.injEq] at e2
                rw [← e2.2]
                exact s4.2
          · simp at e2
        split at h <;> simp only [Prod.mk.injEq] at h <;> rw [← h.2, this, k]

theorem request_kind (H : Mac) (e : ClientEnv) (hp : Peer e) (ms : List Mine) (c : Conn) (hr : (sessionRequest H e ms c).err ≠ .fatal) :
    (sessionRequest H e ms c).c.twoway = c.twoway := by
  have err : ∀ {cs cr : Bool} {snd rcv : SockAddr} {sid : Bytes} {x : Sev} {c' : Conn}, askServer H e cs cr snd rcv sid c = (.error x, c') → x ≠ .fatal → c'.twoway = c.twoway :=
    fun h hx => askServer_kind H e hp _ _ _ _ _ _ _ _ h (fun k => hx (by injection k))
  have done : ∀ {cs cr : Bool} {snd rcv : SockAddr} {sid : Bytes} {v : SockAddr × SockAddr × Bytes} {c' : Conn}, askServer H e cs cr snd rcv sid c = (.ok v, c') → c'.twoway = c.twoway :=
    fun h => askServer_kind H e hp _ _ _ _ _ _ _ _ h (fun k => by cases k)
  have remote : ∀ snd rcv, (requestRemote H e ms snd rcv c).err ≠ .fatal → (requestRemote H e ms snd rcv c).c.twoway = c.twoway := by
    intro snd rcv
    unfold requestRemote
    split
    · exact fun _ => rfl
    · split
      · rename_i h; exact err h
      · rename_i h
        have := done h
        (repeat' split) <;> exact fun _ => this
  have loc : ∀ snd rcv, (requestLocal H e ms snd rcv c).err ≠ .fatal → (requestLocal H e ms snd rcv c).c.twoway = c.twoway := by
    intro snd rcv
    unfold requestLocal
    split
    · exact fun _ => rfl
    · split
      · exact fun _ => rfl
      · split
        · exact fun _ => rfl
        · split
          · exact fun _ => rfl
          · dsimp only
            split
            · exact fun _ => rfl
            · split
              · rename_i h; exact err h
              · rename_i h
                have := done h
                split <;> exact fun _ => this
  revert hr
  unfold sessionRequest
  split
  · exact fun _ => rfl
  · split
    · split
      · exact fun _ => rfl
      · split
        · exact remote _ _
        · exact loc _ _
    · exact fun _ => rfl

/-- A session was set up, so nothing broke. -/
theorem processTest_rc {ρ : Type} (H : Mac) (env : TestEnv) (t : Turn ρ) (c : Conn) (h : (processTest H env t c).2.isSome) : (processTest H env t c).1.rc ≠ .fatal := by
  unfold processTest at h ⊢
  unfold processTestRequest
  dsimp only at h ⊢
  cases hr : readTestRequest H true env.remote env.localAddr c with
  | mk q r =>
    obtain ⟨acc, c1⟩ := r
    rw [hr] at h
    cases q with
    | none => simp at h
    | some q =>
      dsimp only at h ⊢
      cases ha : answerTest env c.twoway c.cipher q with
      | no _ => rw [ha] at h; simp at h
      | grant port sid dest =>
        rw [ha] at h
        dsimp only [Verdict.reply] at h ⊢
        cases hw : writeAcceptSession H c1 .accept port (some sid) with
        | mk w c2 =>
          rw [hw] at h
          cases w with
          | none => simp at h
          | some w => simp

/-- C100, asking for a session: when the server refuses or sets the session up, both sides are ready for the next request and in step. -/
theorem C100_ask {ρ : Type} (H : Mac) (env : TestEnv) (t : Turn ρ) (e : ClientEnv) (A B : Conn) (C : Calm A B) (M : Meeting H env t e A B) (hm : Mild e) (ms : List Mine)
    (hs : (serverTurn H env t (fed A (sessionRequest H e ms A).c B)).1.rc = .warning ∨ (serverTurn H env t (fed A (sessionRequest H e ms A).c B)).2.isSome) :
    Calm (sessionRequest H e ms A).c (serverTurn H env t (fed A (sessionRequest H e ms A).c B)).1.c := by
  have hp : Peer e := by
    intro c
    rw [M.peer]
    exact ⟨_, rfl⟩
  have key : (sessionRequest H e ms A).err ≠ .fatal ∧ Quiet (sessionRequest H e ms A).c (serverTurn H env t (fed A (sessionRequest H e ms A).c B)).1.c ∧
      Idle (sessionRequest H e ms A).c (serverTurn H env t (fed A (sessionRequest H e ms A).c B)).1.c := by
    rcases C77_outcomes H env t e A B M ms with ⟨_, h2, m, s, _, _, _, _, _, h8, h9, _⟩ | ⟨_, _, _, h4, h5⟩ | ⟨_, _, _, s, _, h5, h6, h7⟩
    · exact ⟨by rw [h2]; simp, h8, h9⟩
    · rcases hs with hs | hs
      · obtain ⟨a, b, c⟩ := h5 hs
        exact ⟨by rw [a]; simp, b, c⟩
      · rw [h4] at hs; cases hs
    · refine ⟨?_, h6, h7⟩
      rcases h5 with ⟨_, h⟩ | ⟨x, y, h⟩ | ⟨x, y, h⟩
      · rw [h]; simp
      · intro k; exact hm.1 _ _ _ (h.trans (congrArg some k))
      · intro k; exact hm.2 _ _ (h.trans (congrArg some k))
  obtain ⟨ke, kq, ki⟩ := key
  refine ⟨kq, ⟨?_, ?_⟩, (request_kind H e hp ms A ke).trans C.oneway.1, ?_⟩
  · rcases request_st H e hp hm ms A with ⟨h, _⟩ | ⟨h, _⟩
    · have := ki.1
      rw [h] at this; cases this
    · rw [h]; exact C.state.1
  all_goals
    generalize hf : fed A (sessionRequest H e ms A).c B = F at ki hs
    have sF : F.state = .requestOnly := by rw [← hf]; exact C.state.2
    have tF : F.twoway = false := by rw [← hf]; exact C.oneway.2
    unfold serverTurn at ki hs ⊢
    cases hty : readRequestType F with
    | mk ty F1 =>
      obtain ⟨tw1, h⟩ := request_idle F sF _ _ hty
      rw [hty] at ki hs
      dsimp only at ki hs ⊢
      rw [tF] at ki hs ⊢ tw1
      simp only [Bool.false_eq_true, if_false] at ki hs ⊢
      by_cases ht : ty = .test
      · subst ht
        simp only [reduceCtorEq, or_self, false_and, true_and, or_false, false_or] at h
        rw [if_pos rfl] at ki hs ⊢
        have nf : (processTest H env t F1).1.rc ≠ .fatal := by
          rcases hs with hs | hs
          · rw [hs]; simp
          · exact processTest_rc H env t F1 hs
        obtain ⟨ph, _, k⟩ := test_pass H { t with remote := env.remote, localAddr := env.localAddr, onTest := fun r => (answerTest env F1.twoway F1.cipher r).reply } F1 tw1 h
        rcases k with k | ⟨k1, k2⟩
        · exact absurd k nf
        · first
            | exact k1
            | rcases k2 with k2 | ⟨_, k2, _⟩
              · obtain ⟨_, _, i3, i4, _⟩ := ki
                rcases k2 with k2 | k2
                · exact absurd (k2.symm.trans i3) (by decide)
                · exact absurd (k2.symm.trans i4) (by decide)
              · exact k2
      · rw [if_neg ht] at hs
        rcases hs with hs | hs <;> cases hs

/-! ## The life of a connection -/

/-- `A'` and `B'` are the two ends when nothing more is written. -/
def Final {α β : Type} (client : Conn → α × Conn) (server : Conn → β × Conn) (A B A' B' : Conn) : Prop :=
  ∃ n, (∀ m, n ≤ m → exchange client server A B m = exchange client server A B n) ∧
    A' = (client { A with inp := (exchange client server A B n).2 }).2 ∧ B' = (server { B with inp := (exchange client server A B n).1 }).2

/-- What is true of the ends that an exchange settles to is true of its final ends: there is one end only. -/
theorem final_settles {α β : Type} {client : Conn → α × Conn} {server : Conn → β × Conn} {A B A' B' : Conn} {P : α → Conn → β → Conn → Prop}
    (f : Final client server A B A' B') (h : Settles client server A B P) : ∃ a b, P a A' b B' := by
  obtain ⟨n, hn, rfl, rfl⟩ := f
  obtain ⟨m, hm, hp⟩ := h
  have : exchange client server A B n = exchange client server A B m := by
    rcases Nat.le_total n m with k | k
    · exact (hn m k).symm
    · exact hm n k
  rw [this]
  exact ⟨_, _, hp⟩

/-- One thing that an honest client does on a connection, with an honest server. -/
inductive Does (H : Mac) (A B A' B' : Conn) : Prop
  /-- It asks for a session, and the server refuses it or sets it up. -/
  | asks (env : TestEnv) (t : Turn (List FileOp)) (e : ClientEnv) (ms : List Mine) : Meeting H env t e A B → Mild e →
      ((serverTurn H env t (fed A (sessionRequest H e ms A).c B)).1.rc = .warning ∨ (serverTurn H env t (fed A (sessionRequest H e ms A).c B)).2.isSome) →
      A' = (sessionRequest H e ms A).c → B' = (serverTurn H env t (fed A (sessionRequest H e ms A).c B)).1.c → Does H A B A' B'
  /-- It starts the sessions of both sides, and they are ended. -/
  | runs (t : Ends (List FileOp)) (u : Turn (List FileOp)) (acctA acctB : Sess (List FileOp) → Account) (ending : Call (List FileOp)) : Together t u acctA acctB →
      SomeoneSpeaks ending t u.wait → Final (clientRound H ending) (serverPass H u) A B A' B' → Does H A B A' B'
  /-- It fetches a session that the server keeps. -/
  | fetches (E : Env) (remote loc : SockAddr) (junk : Bytes) (first last : U32) (sid f : Bytes) (h : HdrIn) (fin : Bool) (next : U32) (skips : List Skip) (rs : List DataRec) :
      junk.length = 112 → sid.length = 16 → Stored f h fin next skips rs → Grants E first last sid f → (first = 0 ∧ last = 0xFFFFFFFF#32 → fin = true) →
      8 * skips.length < 2 ^ 32 → Spec.Request.scopeKnown remote false h.sender → Spec.Request.scopeKnown remote false h.receiver →
      Final (fetch H remote loc junk first last sid) (afterType .fetchSession (Fetch.serve H E)) A B A' B' → Does H A B A' B'
  /-- It asks for a session that it does not get. -/
  | misses (E : Env) (remote loc : SockAddr) (junk : Bytes) (first last : U32) (sid : Bytes) : sid.length = 16 →
      (E.policy first last sid = some false ∨ (E.policy first last sid = some true ∧ (E.opens sid = false ∨ ∃ a, header E first last 0 0 0 = .error a))) →
      Final (fetch H remote loc junk first last sid) (afterType .fetchSession (Fetch.serve H E)) A B A' B' → Does H A B A' B'

/-- Any number of such things, one after the other. -/
inductive Lives (H : Mac) (A B : Conn) : Conn → Conn → Prop
  | new : Lives H A B A B
  | next {A1 B1 A2 B2 : Conn} : Lives H A B A1 B1 → Does H A1 B1 A2 B2 → Lives H A B A2 B2

/-- C100: whatever an honest client and server have done on a connection, and however often, they are ready for the next request and in step. By `C100_ask`, `C100_sessions`, `C100_fetch` and
`C100_fetch_refused` that request then succeeds, or is refused. -/
theorem C100_understand (H : Mac) (A B A' B' : Conn) (C : Calm A B) (h : Lives H A B A' B') : Calm A' B' := by
  induction h with
  | new => exact C
  | next _ d ih =>
    rcases d with ⟨env, t, e, ms, M, hm, hs, rfl, rfl⟩ | ⟨t, u, acctA, acctB, ending, T, hw, f⟩ |
      ⟨E, remote, loc, junk, first, last, sid, f, h, fin, next, skips, rs, hj, hsid, hst, hE, hfull, hk, hs1, hs2, hf⟩ | ⟨E, remote, loc, junk, first, last, sid, hsid, hE, hf⟩
    · exact C100_ask H env t e _ _ ih M hm ms hs
    · obtain ⟨_, _, _, _, _, _, h⟩ := final_settles f (C100_sessions H _ _ ih t u acctA acctB T ending hw)
      exact h
    · obtain ⟨_, _, _, _, h⟩ := final_settles hf (C100_fetch H E remote loc junk hj _ _ ih first last sid hsid f h fin next skips rs hst hE hfull hk hs1 hs2)
      exact h
    · obtain ⟨_, _, _, _, h⟩ := final_settles hf (C100_fetch_refused H E remote loc junk _ _ ih first last sid hsid hE)
      exact h

/-! ## A case -/

theorem final_exists {α β : Type} {client : Conn → α × Conn} {server : Conn → β × Conn} {A B : Conn} {P : α → Conn → β → Conn → Prop} (h : Settles client server A B P) :
    ∃ A' B', Final client server A B A' B' := by
  obtain ⟨n, hn, _⟩ := h
  exact ⟨_, _, n, hn, rfl, rfl⟩

theorem demo_calm : Calm demoA demoB := ⟨⟨⟨demo_linked.1, demo_linked.2.1⟩, demo_linked.2.2.1, rfl, rfl⟩, ⟨rfl, rfl⟩, rfl, rfl⟩

/-- A session that the client sends with two gaps, and one that the server sends. -/
def thereAcct : Account := ⟨9#32, [⟨1#32, 2#32⟩, ⟨4#32, 4#32⟩]⟩
def backAcct : Account := ⟨5#32, []⟩
def sends (sid : Bytes) (a : Account) : Sess (List FileOp) := ⟨sid, some ⟨true, skipFile a, (skipFile a).length, []⟩⟩
def receives (sid : Bytes) : Sess (List FileOp) := ⟨sid, some ⟨false, [], 0, []⟩⟩

def roundEnds : Ends (List FileOp) :=
  { stopSend := some (.accept, 1#32), stopRecv := true, freed := true, tests := [sends (zeros 16) thereAcct, receives (List.replicate 16 1#8)], file := goodFile }
def roundTurn (w : WaitPlan) : Turn (List FileOp) where
  remote := .unspec
  localAddr := .unspec
  onTest := fun _ => some (.accept, 0#16, none)
  started := true
  wait := w
  stopSend := some (.failure, 1#32)
  stopRecv := true
  tests := [sends (List.replicate 16 1#8) backAcct, receives (zeros 16)]
  file := goodFile
  onFetch := fun _ => .refuse .failure

theorem demo_together (w : WaitPlan) : Together roundEnds (roundTurn w) (fun _ => thereAcct) (fun _ => backAcct) where
  started := rfl
  stopsA := ⟨.accept, by decide, rfl⟩
  stopsB := ⟨.failure, by decide, rfl⟩
  recvs := ⟨rfl, rfl, rfl⟩
  files := ⟨rfl, rfl⟩
  accounts := by
    constructor
    · intro t ht e he hs
      simp only [roundEnds, List.mem_cons, List.not_mem_nil, or_false] at ht
      rcases ht with rfl | rfl
      · simp only [sends, Option.some.injEq] at he
        subst he
        exact ⟨rfl, rfl, rfl, by decide, by decide⟩
      · simp only [receives, Option.some.injEq] at he
        subst he; cases hs
    · intro t ht e he hs
      simp only [roundTurn, List.mem_cons, List.not_mem_nil, or_false] at ht
      rcases ht with rfl | rfl
      · simp only [sends, Option.some.injEq] at he
        subst he
        exact ⟨rfl, rfl, rfl, by decide, by decide⟩
      · simp only [receives, Option.some.injEq] at he
        subst he; cases hs
  count := ⟨by decide, show 1 < 2 ^ 32 by decide⟩
  set := by
    constructor <;> intro s hs <;> simp only [roundEnds, roundTurn, List.mem_cons, List.not_mem_nil, or_false] at hs <;> rcases hs with rfl | rfl <;> rfl
  there := List.Perm.refl _
  back := List.Perm.refl _

/-- Sessions, another round of sessions that the server ends, and the fetch of a session, all on one encrypted connection. -/
theorem C100_example (H : Mac) : ∃ A1 B1 A2 B2 A3 B3, Does H demoA demoB A1 B1 ∧ Does H A1 B1 A2 B2 ∧ Does H A2 B2 A3 B3 ∧ Calm A3 B3 := by
  obtain ⟨A1, B1, f1⟩ := final_exists (C100_sessions H demoA demoB demo_calm roundEnds (roundTurn .theirs) _ _ (demo_together _) (.stop roundEnds) (Or.inl ⟨Or.inl rfl, Or.inr rfl⟩))
  have d1 : Does H demoA demoB A1 B1 := .runs _ _ _ _ _ (demo_together _) (Or.inl ⟨Or.inl rfl, Or.inr rfl⟩) f1
  have l1 : Lives H demoA demoB A1 B1 := .next .new d1
  obtain ⟨A2, B2, f2⟩ := final_exists (C100_sessions H A1 B1 (C100_understand H _ _ _ _ demo_calm l1) roundEnds (roundTurn .ours) _ _ (demo_together _) (.wait .message roundEnds)
    (Or.inr ⟨rfl, rfl⟩))
  have d2 : Does H A1 B1 A2 B2 := .runs _ _ _ _ _ (demo_together _) (Or.inr ⟨rfl, rfl⟩) f2
  have l2 : Lives H demoA demoB A2 B2 := .next l1 d2
  obtain ⟨A3, B3, f3⟩ := final_exists (C100_fetch H (demoFetchEnv demoFetchFile) (.v4 1 861) .unspec (zeros 112) (zeros_length _) A2 B2 (C100_understand H _ _ _ _ demo_calm l2) 1 2
    demoFileHdr.sid demoFileHdr_storable.sid demoFetchFile demoFileHdr true 5 _ _ demoFetchFile_stored (demoFetchEnv_grants _ _ _ _) (fun _ => rfl) (by decide) trivial trivial)
  have d3 : Does H A2 B2 A3 B3 := .fetches _ _ _ _ _ _ _ _ _ _ _ _ _ (zeros_length _) demoFileHdr_storable.sid demoFetchFile_stored (demoFetchEnv_grants _ _ _ _) (fun _ => rfl)
    (by decide) trivial trivial f3
  exact ⟨_, _, _, _, _, _, d1, d2, d3, C100_understand H _ _ _ _ demo_calm (.next l2 d3)⟩

/-- The beginning: the encrypted set-up of `C20_exchange_example`. -/
theorem C100_opened_example : ∃ S C, Spec.Setup.Fresh S ∧ Spec.Setup.Fresh C ∧ Calm (controlOpen anyKdf (demoOpen []) C).2 (controlAccept anyKdf (demoEnv 7#32) S).2 := by
  obtain ⟨S, C, fS, fC, x, _, _, t1, t2⟩ := C20_exchange_example
  refine ⟨S, C, fS, fC, C100_opened anyKdf (demoEnv 7#32) (demoOpen []) S C _ _ fS fC ⟨t1, t2⟩ rfl rfl ?_ (demoOpen_sized _) ?_ ?_ x⟩
  · intro iv h
    have : some (List.replicate 16 3#8) = some iv := h
    rw [← Option.some.inj this]
    rfl
  · intro u h
    have : some [117#8] = some u := h
    rw [← Option.some.inj this]
    decide
  · intro u pf pf' h h1 h2
    have h : some [117#8] = some u := h
    rw [← Option.some.inj h] at h1 h2
    have h1 : PF.known [112#8, 102#8] = .known pf := h1
    have h2 : PF.known [112#8, 102#8] = .known pf' := h2
    rw [h1] at h2
    injection h2

end Owamp.Props
