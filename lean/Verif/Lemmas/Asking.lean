import Verif.Props.Request
import Verif.Lemmas.State
import Verif.Spec.Asking
/-!
# Lemmas about asking for a session
-/
namespace Owamp.Ctl
open Owamp.Spec.Channel Owamp.Spec.Request Owamp.Spec.Asking Owamp.Codec

theorem writeAccept_none (H : Mac) (c : Conn) (acc : Accept) (port : U16) :
    writeAcceptSession H c acc port none = writeAcceptSession H c acc port (some (zeros 16)) := by
  have hm : (put16 (put8 (zeros 400) 0 acc.code) 2 port).length = 400 := by
    simp (disch := blen) only [put8, put16, put_length, zeros_length]
  have e : put (put16 (put8 (zeros 400) 0 acc.code) 2 port) 4 (zeros 16) = put16 (put8 (zeros 400) 0 acc.code) 2 port := by
    have h : get (put16 (put8 (zeros 400) 0 acc.code) 2 port) 4 16 = zeros 16 := by
      fields
    have := put_get_self (put16 (put8 (zeros 400) 0 acc.code) 2 port) 4 16 (by rw [hm]; omega)
    rw [h] at this
    exact this
  unfold writeAcceptSession
  simp only [e]

theorem recvBlocks_mode (c : Conn) (o n : Nat) : (recvBlocks c o n).2.mode = c.mode := by
  unfold recvBlocks readN
  split <;> rename_i e <;> (repeat' split at e) <;> simp only [Prod.mk.injEq] at e <;> obtain ⟨_, rfl⟩ := e <;>
    (try split) <;> rfl

theorem recvBlocks_keptOut (c : Conn) (o n : Nat) : (recvBlocks c o n).2.out = c.out := by
  unfold recvBlocks readN
  split <;> rename_i e <;> (repeat' split at e) <;> simp only [Prod.mk.injEq] at e <;> obtain ⟨_, rfl⟩ := e <;>
    (try split) <;> rfl

theorem readRequestType_kind (c : Conn) : (readRequestType c).2.twoway = c.twoway ∧ (readRequestType c).2.mode = c.mode := by
  have h1 := (recvBlocks_same c 0 1).2
  have h2 := recvBlocks_mode c 0 1
  unfold readRequestType
  split
  · exact ⟨rfl, rfl⟩
  split
  · rename_i c1 e
    rw [e] at h1 h2
    dsimp only at h1 h2
    dsimp only
    repeat' split
    all_goals exact ⟨h1, h2⟩
  · rename_i c1 e
    rw [e] at h1 h2
    exact ⟨h1, h2⟩
  · rename_i c1 _ _ e
    rw [e] at h1 h2
    exact ⟨h1, h2⟩

theorem asking_cipher {c d : Conn} (h : c.mode = d.mode) : c.cipher = d.cipher := by
  unfold Conn.cipher; rw [h]

theorem readAccept_out (H : Mac) (c : Conn) : (readAcceptSession H c).2.out = c.out := by
  unfold readAcceptSession
  split
  · rfl
  have ho := recvBlocks_keptOut c 0 3
  split
  · rename_i c e
    rw [e] at ho
    have hc : (checkMsg H c 2).2.out = c.out := by
      unfold checkMsg recvHmacAdd recvCheck
      repeat' split
      all_goals rfl
    split
    · rename_i e2; rw [e2] at hc; exact hc.trans ho
    · rename_i e2
      rw [e2] at hc
      dsimp only
      split
      · exact hc.trans ho
      · exact hc.trans ho
  · rename_i e; rw [e] at ho; exact ho

/-- Nothing to read: the answer is not read. -/
theorem readAccept_empty (H : Mac) (c : Conn) (hf : c.faults = []) (hi : c.inp = []) :
    (readAcceptSession H c).1 = none ∧ (readAcceptSession H c).2.out = c.out := by
  unfold readAcceptSession
  split
  · exact ⟨rfl, rfl⟩
  have : (recvBlocks c 0 3).1 = .closed := by
    unfold recvBlocks readN
    rw [hf, hi]
    rfl
  have ho := recvBlocks_keptOut c 0 3
  split
  · rename_i e; rw [e] at this; cases this
  · rename_i e; rw [e] at ho; exact ⟨rfl, ho⟩

/-- The outcome of a question, when its transport is known to work. -/
theorem ask_general {ρ : Type} (H : Mac) (env : TestEnv) (t : Turn ρ) (A B : Conn) (hAi : A.inp = []) (hBi : B.inp = [])
    (a : ReqArgs) (wire : Bytes) (req : TestReq) (sA sB : CState) (hsA : sA.acceptSession = true) (hsB : sB.acceptSession = true)
    (D : ∀ i, Delivers A { B with inp := i } (writeTestRequest H · a)
      (afterType (if B.twoway then .testTW else .test) (Props.serverReads H env.remote env.localAddr)) wire (req, .accept) sA sB) :
    ∃ A', writeTestRequest H A a = (some (), A') ∧
      let srv := serverTurn H env t (fed A A' B)
      let rd := readAcceptSession H (servedBy H env t A B A')
      rd.2.out = A'.out ∧
      match answerTest env B.twoway B.cipher req with
      | .no .fatal => rd.1 = none ∧ srv.2 = none ∧ srv.1.rc = .fatal
      | .no (.refuse acc) => acc ≠ .invalid → rd.1 = some (acc, 0, zeros 16) ∧ srv.2 = none ∧ srv.1.rc = (if acc = .accept then .ok else .warning) ∧ Quiet rd.2 srv.1.c ∧
          rd.2.state = { sA with acceptSession := false } ∧ srv.1.c.state = { sB with acceptSession := false }
      | .grant port sid dest => sid.length = 16 → rd.1 = some (.accept, port, sid) ∧ srv.2 = some ⟨req, sid, dest⟩ ∧ srv.1.rc = .ok ∧ Quiet rd.2 srv.1.c ∧
          rd.2.state = { sA with acceptSession := false } ∧ srv.1.c.state = { sB with acceptSession := false } := by
  obtain ⟨A', w1, w2, w3, w4, w5, w6⟩ := D wire
  refine ⟨A', w1, ?_⟩
  obtain ⟨B2, r1, r2, r3, r4, r5, r6⟩ := w6 [] (by simp)
  have hfed : fed A A' B = { B with inp := wire } := by
    unfold fed
    rw [hBi, w2, List.nil_append, List.drop_left]
  -- the request as the server reads it
  have hk := readRequestType_kind { B with inp := wire }
  generalize hT : (if B.twoway then ReqType.testTW else .test) = T at r1
  obtain ⟨ty, B1, hty⟩ : ∃ ty B1, readRequestType { B with inp := wire } = (ty, B1) := ⟨_, _, rfl⟩
  rw [hty] at hk
  dsimp only at hk
  unfold afterType at r1
  rw [hty] at r1
  dsimp only at r1
  by_cases hteq : ty = T
  case neg => rw [if_neg hteq] at r1; cases r1
  rw [if_pos hteq] at r1
  have hread : readTestRequest H true env.remote env.localAddr B1 = (some req, .accept, B2) := by
    unfold Props.serverReads at r1
    split at r1
    rename_i r acc c hq
    simp only [Prod.mk.injEq] at r1
    obtain ⟨r1, rfl⟩ := r1
    cases r with
    | none => cases r1
    | some r =>
      simp only [Option.map_some, Option.some.injEq, Prod.mk.injEq] at r1
      obtain ⟨rfl, rfl⟩ := r1
      exact hq
  have htw : B1.twoway = B.twoway := hk.1
  have hci : B1.cipher = B.cipher := asking_cipher hk.2
  have hserv : ∀ (v : Verdict), answerTest env B.twoway B.cipher req = v → serverTurn H env t (fed A A' B) =
      ((match v.reply with
        | none => ⟨[if B1.twoway then ReqType.testTW else .test], false, .fatal, B2⟩
        | some (acc, port, sid) =>
          match writeAcceptSession H B2 acc port sid with
          | (some _, c) => ⟨[if B1.twoway then ReqType.testTW else .test], false, if acc = .accept then .ok else .warning, c⟩
          | (none, c) => ⟨[if B1.twoway then ReqType.testTW else .test], false, if acc = .accept then .fatal else .warning, c⟩),
       match v with
       | .no _ => none
       | .grant port sid dest =>
         match writeAcceptSession H B2 .accept port (some sid) with
         | (some _, _) => some ⟨req, sid, dest⟩
         | (none, _) => none) := by
    intro v hv
    unfold serverTurn
    rw [hfed, hty]
    dsimp only
    rw [hT, if_pos hteq]
    unfold processTest processTestRequest
    dsimp only
    rw [hread]
    dsimp only
    rw [htw, hci, hv]
    rfl
  have hAs : ∀ i, Conn.state { A' with inp := i } = sA := fun _ => w5
  generalize hv : answerTest env B.twoway B.cipher req = v
  -- an answer sent is an answer read
  have answer : ∀ (acc : Accept) (port : U16) (sid : Bytes), sid.length = 16 → acc ≠ .invalid →
      ∃ B3 A3, writeAcceptSession H B2 acc port (some sid) = (some (), B3) ∧
        (∀ i, i = B3.out.drop B.out.length → readAcceptSession H { A' with inp := A'.inp ++ i } = (some (acc, port, sid), A3)) ∧
        A3.out = A'.out ∧ Quiet A3 B3 ∧ A3.state = { sA with acceptSession := false } ∧ B3.state = { sB with acceptSession := false } := by
    intro acc port sid hl hne
    have L2 : Linked B2 A' := ⟨r6.2, r6.1⟩
    have C := fun i => Props.C10_accept_session H B2 { A' with inp := i } r4 w4 L2 acc port sid hl hne (by rw [r5]; exact hsB) (by rw [hAs]; exact hsA)
    dsimp only at C
    generalize sealed B2 (acceptLayout acc port sid ++ tag H B2 (acceptLayout acc port sid)) = wire2 at C
    obtain ⟨B3, c1, c2, c3, c4, c5, c6⟩ := C wire2
    obtain ⟨A3, d1, d2, d3, d4, d5, d6⟩ := c6 [] (by simp)
    refine ⟨B3, A3, c1, ?_, d3, ⟨⟨d4, c4⟩, ⟨d6.2, d6.1⟩, d2, by rw [c3, r2]⟩, ?_, ?_⟩
    · intro i hi
      have e : i = wire2 := by
        rw [hi, c2, r3]
        exact List.drop_left
      have : A'.inp ++ i = wire2 := by rw [w3, hAi, e]; rfl
      rw [this]
      exact d1
    · rw [d5, hAs]
    · rw [c5, r5]
  have hs := hserv v hv
  cases v with
  | no n =>
    cases n with
    | fatal =>
      dsimp only [Verdict.reply] at hs
      have hsrv : servedBy H env t A B A' = { A' with inp := [] } := by
        unfold servedBy
        rw [hs]
        dsimp only
        rw [r3, w3, hAi]
        simp
      have := readAccept_empty H { A' with inp := [] } w4.1 rfl
      dsimp only
      rw [hsrv, hs]
      exact ⟨this.2, this.1, rfl, rfl⟩
    | refuse acc =>
      by_cases hne : acc = .invalid
      · subst hne
        exact ⟨readAccept_out H _, fun h => absurd rfl h⟩
      obtain ⟨B3, A3, q1, q2, q3, q4, q5, q6⟩ := answer acc 0 (zeros 16) (by simp) hne
      dsimp only [Verdict.reply] at hs
      rw [writeAccept_none, q1] at hs
      dsimp only at hs
      have hrd : readAcceptSession H (servedBy H env t A B A') = (some (acc, 0, zeros 16), A3) := by
        unfold servedBy
        rw [hs]
        exact q2 _ rfl
      dsimp only
      rw [hrd, hs]
      exact ⟨q3, fun _ => ⟨rfl, rfl, rfl, q4, q5, q6⟩⟩
  | grant port sid dest =>
    by_cases hl : sid.length = 16
    · obtain ⟨B3, A3, q1, q2, q3, q4, q5, q6⟩ := answer .accept port sid hl (by decide)
      dsimp only [Verdict.reply] at hs
      rw [q1] at hs
      dsimp only at hs
      have hrd : readAcceptSession H (servedBy H env t A B A') = (some (.accept, port, sid), A3) := by
        unfold servedBy
        rw [hs]
        exact q2 _ rfl
      dsimp only
      rw [hrd, hs]
      exact ⟨q3, fun _ => ⟨rfl, rfl, rfl, q4, q5, q6⟩⟩
    · exact ⟨readAccept_out H _, fun h => absurd h hl⟩

theorem fed_congr (A X Y B : Conn) (h : X.out = Y.out) : fed A X B = fed A Y B := by unfold fed; rw [h]

/-- The receiver's address as it is asked for. -/
def asked (tw : Bool) (snd rcv : SockAddr) : SockAddr := if tw && rcv.port = 0 then rcv.setPort snd.port else rcv

theorem ask_server {ρ : Type} (H : Mac) (env : TestEnv) (t : Turn ρ) (A B : Conn) (hAi : A.inp = []) (hBi : B.inp = [])
    (e : ClientEnv) (he : e.peer = servedBy H env t A B) (cs cr : Bool) (snd rcv : SockAddr) (sid : Bytes)
    (wire : Bytes) (req : TestReq) (sA sB : CState) (hsA : sA.acceptSession = true) (hsB : sB.acceptSession = true)
    (D : ∀ i, Delivers A { B with inp := i }
      (writeTestRequest H · ⟨snd, asked A.twoway snd rcv, cs, cr, e.zeroAddr, if A.twoway then none else some sid, e.spec⟩)
      (afterType (if B.twoway then .testTW else .test) (Props.serverReads H env.remote env.localAddr)) wire (req, .accept) sA sB) :
    let x := askServer H e cs cr snd rcv sid A
    let srv := serverTurn H env t (fed A x.2 B)
    match answerTest env B.twoway B.cipher req with
    | .no .fatal => x.1 = .error .fatal ∧ srv.2 = none ∧ srv.1.rc = .fatal
    | .no (.refuse acc) => acc ≠ .invalid → acc ≠ .accept → x.1 = .error .ok ∧ srv.2 = none ∧ srv.1.rc = .warning ∧ Quiet x.2 srv.1.c ∧
        x.2.state = { sA with acceptSession := false } ∧ srv.1.c.state = { sB with acceptSession := false }
    | .grant port sid' dest => sid'.length = 16 →
        x.1 = .ok (if cs && !cr then snd.setPort port else snd,
          if !(cs && !cr) && (A.twoway || (!cs && cr)) then (asked A.twoway snd rcv).setPort port else asked A.twoway snd rcv,
          if A.twoway || cr then sid' else sid) ∧
        srv.2 = some ⟨req, sid', dest⟩ ∧ srv.1.rc = .ok ∧ Quiet x.2 srv.1.c ∧
        x.2.state = { sA with acceptSession := false } ∧ srv.1.c.state = { sB with acceptSession := false } := by
  obtain ⟨A', w, o, k⟩ := ask_general H env t A B hAi hBi _ wire req sA sB hsA hsB D
  have hx : askServer H e cs cr snd rcv sid A =
      match readAcceptSession H (servedBy H env t A B A') with
      | (none, c) => (.error .fatal, c)
      | (some (acc, port, answer), c) =>
        if acc = .accept then (.ok ((if cs && !cr then (snd.setPort port, asked A.twoway snd rcv) else if A.twoway || (!cs && cr) then (snd, (asked A.twoway snd rcv).setPort port) else (snd, asked A.twoway snd rcv)).1,
          (if cs && !cr then (snd.setPort port, asked A.twoway snd rcv) else if A.twoway || (!cs && cr) then (snd, (asked A.twoway snd rcv).setPort port) else (snd, asked A.twoway snd rcv)).2, if A.twoway || cr then answer else sid), c) else (.error .ok, c) := by
    unfold askServer
    dsimp only
    rw [show (if A.twoway && decide (rcv.port = 0) then rcv.setPort snd.port else rcv) = asked A.twoway snd rcv from rfl, w]
    dsimp only
    rw [he]
    obtain ⟨rr, cc⟩ := readAcceptSession H (servedBy H env t A B A')
    cases rr with
    | none => rfl
    | some r => obtain ⟨acc, port, ans⟩ := r; rfl
  intro x srv
  obtain ⟨rr, cc, hrd⟩ : ∃ rr cc, readAcceptSession H (servedBy H env t A B A') = (rr, cc) := ⟨_, _, rfl⟩
  rw [hrd] at o k hx
  dsimp only at o k hx
  have hxo : x.2.out = A'.out := by
    show (askServer H e cs cr snd rcv sid A).2.out = _
    rw [hx]
    cases rr with
    | none => exact o
    | some r =>
      obtain ⟨acc, port, ans⟩ := r
      dsimp only
      split <;> exact o
  have hsrv : srv = serverTurn H env t (fed A A' B) := by
    show serverTurn H env t (fed A x.2 B) = _
    rw [fed_congr A x.2 A' B hxo]
  rw [hsrv]
  show match answerTest env B.twoway B.cipher req with
    | .no .fatal => (askServer H e cs cr snd rcv sid A).1 = .error .fatal ∧ _
    | .no (.refuse acc) => acc ≠ .invalid → acc ≠ .accept → (askServer H e cs cr snd rcv sid A).1 = .error .ok ∧ _ ∧ _ ∧ Quiet (askServer H e cs cr snd rcv sid A).2 _ ∧ (askServer H e cs cr snd rcv sid A).2.state = _ ∧ _
    | .grant port sid' dest => sid'.length = 16 → (askServer H e cs cr snd rcv sid A).1 = _ ∧ _ ∧ _ ∧ Quiet (askServer H e cs cr snd rcv sid A).2 _ ∧ (askServer H e cs cr snd rcv sid A).2.state = _ ∧ _
  rw [hx]
  split at k
  · obtain ⟨rfl, k2, k3⟩ := k
    exact ⟨rfl, k2, k3⟩
  · intro h1 h2
    obtain ⟨rfl, k2, k3, k4, k5, k6⟩ := k h1
    dsimp only
    rw [if_neg h2]
    rw [if_neg h2] at k3
    exact ⟨rfl, k2, k3, k4, k5, k6⟩
  · intro h1
    obtain ⟨rfl, k2, k3, k4, k5, k6⟩ := k h1
    dsimp only
    rw [if_pos rfl]
    refine ⟨?_, k2, k3, k4, k5, k6⟩
    cases cs <;> cases cr <;> cases A.twoway <;> rfl

/-- Nothing to read: no request. -/
theorem readRequestType_empty (c : Conn) (hf : c.faults = []) (hi : c.inp = []) : ∀ ty, ty ≠ .invalid → ty ≠ .sockClose → (readRequestType c).1 ≠ ty := by
  intro ty h1 h2
  unfold readRequestType
  split
  · exact h1.symm
  have : (recvBlocks c 0 1).1 = .closed := by
    unfold recvBlocks readN
    rw [hf, hi]
    rfl
  split
  · rename_i e; rw [e] at this; cases this
  · rename_i e; rw [e] at this; cases this
  · exact h2.symm

end Owamp.Ctl
