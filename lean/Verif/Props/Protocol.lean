import Verif.Lemmas.Message
/-!
# C10: control messages decode to what was sent

Each theorem says: the writer succeeds, what it puts on the socket is the documented layout (sealed
with CBC and followed by the digest in ciphered modes), and the peer's reader returns exactly the values
written, consumes exactly those bytes, and leaves both ends in step for the next message.
-/
namespace Owamp.Props
open Owamp.Ctl Owamp.Spec.Channel

/-- A ciphered client connection used to show that the hypotheses below can be met. -/
def demoA : Conn :=
  { state := { request := true }, mode := 4#32, twoway := false, userid := zeros 80,
    aesKey := List.replicate 16 7#8, hmacKey := List.replicate 32 9#8,
    readIV := List.replicate 16 1#8, writeIV := List.replicate 16 2#8,
    sendAcc := [1#8], recvAcc := [], msg := zeros 400, inp := [], out := [], faults := [] }
/-- Its server. -/
def demoB : Conn :=
  { demoA with readIV := demoA.writeIV, writeIV := demoA.readIV, sendAcc := [], recvAcc := [1#8] }

theorem demo_linked : Ready demoA ∧ Ready demoB ∧ Linked demoA demoB ∧ demoA.cipher = true := by
  refine ⟨⟨rfl, zeros_length _, List.length_replicate⟩, ⟨rfl, zeros_length _, List.length_replicate⟩, ⟨⟨rfl, fun _ => ⟨rfl, rfl, rfl, rfl⟩⟩, ⟨rfl, fun _ => ⟨rfl, rfl, rfl, rfl⟩⟩⟩, by decide⟩

/-- C10, server greeting. It travels in clear on a new connection. -/
theorem C10_greeting (A B : Conn) (rA : Ready A) (rB : Ready B) (L : Linked A B)
    (hA : A.state = .invalid) (hB : B.state = .invalid) (modes count : U32) (challenge salt : Bytes)
    (hc : challenge.length = 16) (hs : salt.length = 16) :
    Delivers A B (writeServerGreeting · ⟨modes, challenge, salt, count⟩) readServerGreeting
      (greetingLayout modes challenge salt count) ⟨modes, challenge, salt, count⟩ .setupOnly .setupOnly := by
  have hm := rA.2.1
  have hm' := rB.2.1
  have e : get (put32 (put (put (put32 (put A.msg 0 (zeros 64)) 12 modes) 16 challenge) 32 salt) 48 count) 0 64
      = greetingLayout modes challenge salt count := by
    rw [get_pieces _ 0 [12, 4, 16, 16, 4, 12] 64 rfl]
    fields
    simp [greetingLayout]
  apply Exists.intro
  refine ⟨?_, ?_, ?_, ?_, ?_, ?_⟩
  · unfold writeServerGreeting
    simp only [hA, ne_eq, not_true_eq_false, if_false, e]
    rw [writeN_ok _ (by exact rA.1)]
  · rfl
  · rfl
  · refine ⟨rfl, ?_, rA.2.2⟩
    show List.length (put32 _ _ _) = 400
    simp (disch := blen) only [put32, put_length]; exact hm
  · rfl
  · intro rest hi
    have hl : (greetingLayout modes challenge salt count).length = 64 := by simp [greetingLayout, hc, hs]
    apply Exists.intro
    refine ⟨?_, ?_, ?_, ?_, ?_, ?_⟩
    · unfold readServerGreeting
      simp only [hB, ne_eq, not_true_eq_false, if_false]
      rw [readN_ok B rB.1 _ rest 64 hl hi]
      simp only [greetingLayout, List.append_assoc]
      refine Prod.ext (congrArg some ?_) rfl
      show Greeting.mk _ _ _ _ = Greeting.mk _ _ _ _
      congr 1 <;> fields [hc, hs]
    · rfl
    · rfl
    · refine ⟨rfl, ?_, rB.2.2⟩
      show List.length (put _ _ _) = 400
      rw [put_length _ _ _ (by simp [hc, hs]; omega)]; exact hm'
    · rfl
    · exact L


theorem setup_body (m : Bytes) (hm : m.length = 400) (mode : U32) (u t iv : Bytes) (hu : u.length = 80)
    (ht : t.length = 64) (hi : iv.length = 16) :
    get (put (put (put (put32 (put m 0 (zeros 164)) 0 mode) 4 u) 84 t) 148 iv) 0 164
      = setupLayout mode u t iv := by
  rw [get_pieces _ 0 [4, 80, 64, 16] 164 rfl]
  fields
  simp [setupLayout]

theorem setup_body_open (m : Bytes) (hm : m.length = 400) (mode : U32) :
    get (put32 (put m 0 (zeros 164)) 0 mode) 0 164
      = setupLayout mode (zeros 80) (zeros 64) (zeros 16) := by
  rw [get_pieces _ 0 [4, 80, 64, 16] 164 rfl]
  fields
  simp [setupLayout]

/-- C10, set-up response: the server reads back the mode, and in a ciphered mode also the user name,
the token and the client's IV. -/
theorem C10_setup_response (A B : Conn) (rA : Ready A) (rB : Ready B) (L : Linked A B)
    (hA : A.state = .setupOnly) (hB : B.state = .setupOnly) (token : Bytes) (ht : token.length = 64)
    (hu : A.userid.length = 80) :
    let clear := setupLayout A.mode (if A.cipher then A.userid else zeros 80)
      (if A.cipher then token else zeros 64) (if A.cipher then A.writeIV else zeros 16)
    Delivers A B (writeSetupResponse · token)
      (fun B => let r := readSetupResponse B; (r.1.map fun s => (s, r.2.userid), r.2)) clear
      (⟨A.mode, if A.cipher then token else zeros 64, if A.cipher then A.writeIV else zeros 16⟩,
        if A.cipher then A.userid else zeros 80) .setupOnly .setupOnly := by
  have hm := rA.2.1
  have hm' := rB.2.1
  intro clear
  have hw : ∃ m, m.length = 400 ∧ writeSetupResponse A token =
      (some (), { A with msg := m, out := A.out ++ clear, faults := [] }) := by
    unfold writeSetupResponse
    simp only [hA, ne_eq, not_true_eq_false, if_false]
    by_cases hc : A.cipher = true
    · simp only [hc, if_true, clear]
      refine ⟨put (put (put (put32 (put A.msg 0 (zeros 164)) 0 A.mode) 4 A.userid) 84 token) 148 A.writeIV, ?_, ?_⟩
      · have := rA.2.2
        simp (disch := blen) only [put32, put_length]; exact hm
      · rw [setup_body A.msg hm A.mode A.userid token A.writeIV hu ht rA.2.2, writeN_ok _ (by exact rA.1)]
    · have hc : A.cipher = false := by simpa using hc
      simp only [hc, clear]
      refine ⟨put32 (put A.msg 0 (zeros 164)) 0 A.mode, ?_, ?_⟩
      · simp (disch := blen) only [put32, put_length]; exact hm
      · simp only [Bool.false_eq_true, if_false]
        rw [setup_body_open A.msg hm A.mode, writeN_ok _ (by exact rA.1)]
  obtain ⟨m, hml, hw⟩ := hw
  refine ⟨_, hw, rfl, rfl, ⟨rfl, hml, rA.2.2⟩, hA, ?_⟩
  intro rest hi
  have hl1 : (if A.cipher then A.userid else zeros 80).length = 80 := by split; exact hu; simp
  have hl2 : (if A.cipher then token else zeros 64).length = 64 := by split; exact ht; simp
  have hl3 : (if A.cipher then A.writeIV else zeros 16).length = 16 := by split; exact rA.2.2; simp
  simp only [clear] at hi ⊢
  generalize (if A.cipher then A.userid else zeros 80) = u at *
  generalize (if A.cipher then token else zeros 64) = t at *
  generalize (if A.cipher then A.writeIV else zeros 16) = iv at *
  have hl : (setupLayout A.mode u t iv).length = 164 := by simp [setupLayout, hl1, hl2, hl3]
  have hrd : readSetupResponse B = (some ⟨A.mode, t, iv⟩,
      { B with msg := put B.msg 0 (setupLayout A.mode u t iv), userid := u, inp := rest, faults := [] }) := by
    unfold readSetupResponse
    simp only [hB, ne_eq, not_true_eq_false, if_false]
    rw [readN_ok B rB.1 _ rest 164 hl hi]
    simp only [setupLayout, List.append_assoc]
    have e1 : get32 (put B.msg 0 (enc32 A.mode ++ (u ++ (t ++ iv)))) 0 = A.mode := by fields [hl1, hl2, hl3]
    have e2 : get (put B.msg 0 (enc32 A.mode ++ (u ++ (t ++ iv)))) 84 64 = t := by fields [hl1, hl2, hl3]
    have e3 : get (put B.msg 0 (enc32 A.mode ++ (u ++ (t ++ iv)))) 148 16 = iv := by fields [hl1, hl2, hl3]
    have e4 : get (put B.msg 0 (enc32 A.mode ++ (u ++ (t ++ iv)))) 4 80 = u := by fields [hl1, hl2, hl3]
    simp only [e1, e2, e3, e4, hB]
  refine ⟨{ B with msg := put B.msg 0 (setupLayout A.mode u t iv), userid := u, inp := rest, faults := [] },
    by rw [hrd]; rfl, rfl, rfl, ⟨rfl, ?_, rB.2.2⟩, hB, L⟩
  show List.length (put B.msg 0 (setupLayout A.mode u t iv)) = 400
  rw [put_length _ _ _ (by omega)]; exact hm'


theorem recvHmacAdd_cipher (c : Conn) (t : Bytes) : (recvHmacAdd c t).cipher = c.cipher := by
  unfold recvHmacAdd; split <;> rfl

/-- C10, server start with a positive answer: the client learns the answer and the start time, and takes
the server's IV, so from here on it can read what the server sends. -/
theorem C10_server_start (A B : Conn) (rA : Ready A) (rB : Ready B) (uptime : U64)
    (hmode : A.cipher = B.cipher)
    (hkeys : A.cipher = true → A.aesKey = B.aesKey ∧ A.hmacKey = B.hmacKey ∧ A.sendAcc = B.recvAcc)
    (L : InStep B A) (hA : A.state = .setupOnly) (hB : B.state = .setupOnly) :
    Delivers A B (writeServerStart · .accept uptime) readServerStart
      (startClearLayout .accept A.writeIV ++ sealed A (startLayout uptime)) (.accept, uptime)
      .requestOnly .requestOnly := by
  have hm := rA.2.1
  have hm' := rB.2.1
  have hiv := rA.2.2
  have hw : ∃ m, m.length = 400 ∧ writeServerStart A .accept uptime =
      (some (), { A with
        msg := m, state := .requestOnly,
        out := A.out ++ (startClearLayout .accept A.writeIV ++ sealed A (startLayout uptime)),
        sendAcc := if A.cipher then A.sendAcc ++ startLayout uptime else A.sendAcc,
        writeIV := wireIV A.cipher A.aesKey A.writeIV (startLayout uptime), faults := [] }) := by
    have e1 : get (put (put (put (put8 (put A.msg 0 (zeros 15)) 15 Accept.accept.code) 16 A.writeIV) 32
        (enc64 uptime)) 40 (zeros 8)) 32 16 = startLayout uptime := by
      rw [get_pieces _ 32 [8, 8] 16 rfl]; fields; rfl
    have e2 : ∀ w : Bytes, w.length = 16 → get (put (put (put (put (put8 (put A.msg 0 (zeros 15)) 15 Accept.accept.code)
        16 A.writeIV) 32 (enc64 uptime)) 40 (zeros 8)) 32 w) 0 48 = startClearLayout .accept A.writeIV ++ w := by
      intro w hw
      rw [get_pieces _ 0 [15, 1, 16, 16] 48 rfl]; fields; simp [startClearLayout, enc8_eq]
    have hsl : (startLayout uptime).length = 16 := by simp [startLayout]
    unfold writeServerStart
    simp only [hA, ne_eq, not_true_eq_false, if_false, if_true, encTime_eq, sealed_eq A (startLayout uptime) 1 hsl]
    unfold sendHmacAdd
    by_cases hc : A.cipher = true
    · have hc1 : ∀ m s t, Conn.cipher { A with msg := m, state := s, sendAcc := t } = true := fun _ _ _ => hc
      simp only [hc, hc1, if_true, e1, wire, wireIV]
      have hwl := Cbc.blockEncrypt_length A.aesKey A.writeIV (startLayout uptime) 1 hsl
      rw [e2 _ hwl, writeN_ok _ (by exact rA.1)]
      refine ⟨_, ?_, rfl⟩
      simp (disch := blen) only [put8, put_length]; exact hm
    · have hc : A.cipher = false := by simpa using hc
      have hc2 : ∀ m s, Conn.cipher { A with msg := m, state := s } = false := fun _ _ => hc
      simp only [hc, hc2, Bool.false_eq_true, if_false, wire, wireIV]
      have e3 : get (put (put (put (put8 (put A.msg 0 (zeros 15)) 15 Accept.accept.code) 16 A.writeIV) 32
        (enc64 uptime)) 40 (zeros 8)) 0 48 = startClearLayout .accept A.writeIV ++ startLayout uptime := by
        rw [get_pieces _ 0 [15, 1, 16, 8, 8] 48 rfl]; fields; simp [startClearLayout, startLayout, enc8_eq]
      rw [e3, writeN_ok _ (by exact rA.1)]
      refine ⟨_, ?_, rfl⟩
      simp (disch := blen) only [put8, put_length]; exact hm
  obtain ⟨m, hml, hw⟩ := hw
  refine ⟨_, hw, rfl, rfl, ⟨rfl, hml, wireIV_length _ _ _ _ hiv⟩, rfl, ?_⟩
  intro rest hi
  have hl : (startClearLayout .accept A.writeIV).length = 32 := by simp [startClearLayout, hiv]
  have hsl : (startLayout uptime).length = 16 := by simp [startLayout]
  have f1 : get8 (put B.msg 0 (startClearLayout .accept A.writeIV)) 15 = Accept.accept.code := by
    simp only [startClearLayout, ← enc8_eq, List.append_assoc]; fields [hiv]
  have f2 : get (put B.msg 0 (startClearLayout .accept A.writeIV)) 16 16 = A.writeIV := by
    simp only [startClearLayout, ← enc8_eq, List.append_assoc]; fields [hiv]
  rw [List.append_assoc] at hi
  let B1 : Conn := { B with
    inp := sealed A (startLayout uptime) ++ rest, faults := [],
    msg := put B.msg 0 (startClearLayout .accept A.writeIV), readIV := A.writeIV }
  have hrecv : recvBlocks B1 0 1 = (.done, B1.got 0 (startLayout uptime) rest) := by
    apply recvBlocks_ok B1 rfl 0 1 _ _ hsl (fun _ => hiv)
    show sealed A (startLayout uptime) ++ rest = wire B.cipher B.aesKey A.writeIV (startLayout uptime) ++ rest
    rw [sealed_eq A (startLayout uptime) 1 hsl, ← hmode]
    unfold wire
    split
    · rename_i hc; rw [(hkeys hc).1]
    · rfl
  have hput : (put B.msg 0 (startClearLayout .accept A.writeIV)).length = 400 := by
    rw [put_length _ _ _ (by omega)]; exact hm'
  have f3 : get (B1.got 0 (startLayout uptime) rest).msg 0 16 = startLayout uptime := by
    show get (put (put B.msg 0 (startClearLayout .accept A.writeIV)) 0 (startLayout uptime)) 0 16 = _
    rw [get_put_same _ _ _ _ hsl (by omega)]
  have f4 : get (B1.got 0 (startLayout uptime) rest).msg 0 8 = enc64 uptime := by
    show get (put (put B.msg 0 (startClearLayout .accept A.writeIV)) 0 (startLayout uptime)) 0 8 = _
    unfold startLayout
    fields
  have hrd : readServerStart B = (some (.accept, uptime),
      (recvHmacAdd (B1.got 0 (startLayout uptime) rest) (startLayout uptime)).setState .requestOnly) := by
    unfold readServerStart
    simp only [hB, ne_eq, not_true_eq_false, if_false]
    rw [readN_ok B rB.1 _ _ 32 hl hi]
    simp only [f1, f2, getAcceptType_code, reduceCtorEq, if_false, not_true_eq_false]
    rw [show recvBlocks _ 0 1 = _ from hrecv]
    simp only [f3]
    unfold recvHmacAdd
    split
    · rename_i hc
      simp only [f4, decTime_enc]
    · simp only [f4, decTime_enc]
  refine ⟨_, hrd, ?_, ?_, ⟨?_, ?_, ?_⟩, rfl, ⟨?_, ?_⟩, ?_⟩
  · unfold recvHmacAdd; split <;> rfl
  · unfold recvHmacAdd; split <;> rfl
  · unfold recvHmacAdd; split <;> rfl
  · have : (put (put B.msg 0 (startClearLayout .accept A.writeIV)) 0 (startLayout uptime)).length = 400 := by
      rw [put_length _ _ _ (by omega)]; exact hput
    unfold recvHmacAdd; split <;> exact this
  · unfold recvHmacAdd; split <;> exact rB.2.2
  · show A.cipher = Conn.cipher (recvHmacAdd _ _)
    rw [recvHmacAdd_cipher]; exact hmode
  · intro hc
    have hcA : A.cipher = true := hc
    have hcB : (B1.got 0 (startLayout uptime) rest).cipher = true := hmode.symm.trans hcA
    have hcB' : B.cipher = true := hcB
    obtain ⟨k1, k2, k3⟩ := hkeys hcA
    unfold recvHmacAdd
    rw [if_pos hcB]
    refine ⟨k1, k2, ?_, ?_⟩
    · show wireIV A.cipher A.aesKey A.writeIV _ = wireIV B.cipher B.aesKey A.writeIV _
      rw [k1, hmode]
    · show (if A.cipher = true then A.sendAcc ++ _ else _) = B.recvAcc ++ _
      rw [if_pos hcA, k3]
  · unfold recvHmacAdd; split <;> exact L


/-- C10, server start with a negative answer: it travels in clear whatever the mode was, the client
learns the answer, and both ends fall back to open mode. -/
theorem C10_server_start_refused (A B : Conn) (rA : Ready A) (rB : Ready B) (acc : Accept) (uptime : U64)
    (hacc : acc ≠ .accept) (hval : acc ≠ .invalid) (hA : A.state = .setupOnly) (hB : B.state = .setupOnly) :
    Delivers A B (writeServerStart · acc uptime) readServerStart
      (startClearLayout acc A.writeIV ++ zeros 16) (acc, 0#64) .invalid .requestOnly := by
  have hm := rA.2.1
  have hm' := rB.2.1
  have hiv := rA.2.2
  have hw : ∃ m, m.length = 400 ∧ writeServerStart A acc uptime =
      (some (), { A with
        msg := m, state := .invalid, mode := 1#32,
        out := A.out ++ (startClearLayout acc A.writeIV ++ zeros 16), faults := [] }) := by
    have e3 : get (put (put (put8 (put A.msg 0 (zeros 15)) 15 acc.code) 16 A.writeIV) 32
        (zeros 16)) 0 48 = startClearLayout acc A.writeIV ++ zeros 16 := by
      rw [get_pieces _ 0 [15, 1, 16, 16] 48 rfl]; fields; simp [startClearLayout, enc8_eq]
    have hc2 : ∀ m s, Conn.cipher { A with msg := m, mode := 1#32, state := s } = false := fun _ _ => by
      simp [Conn.cipher, cipherMode]
    unfold writeServerStart
    simp only [hA, ne_eq, not_true_eq_false, if_false, hacc]
    unfold sendHmacAdd
    simp only [hc2, Bool.false_eq_true, if_false, e3]
    rw [writeN_ok _ (by exact rA.1)]
    refine ⟨_, ?_, rfl⟩
    simp (disch := blen) only [put8, put_length]; exact hm
  obtain ⟨m, hml, hw⟩ := hw
  refine ⟨_, hw, rfl, rfl, ⟨rfl, hml, hiv⟩, rfl, ?_⟩
  intro rest hi
  have hl : (startClearLayout acc A.writeIV).length = 32 := by simp [startClearLayout, hiv]
  have f1 : get8 (put B.msg 0 (startClearLayout acc A.writeIV)) 15 = acc.code := by
    simp only [startClearLayout, ← enc8_eq, List.append_assoc]; fields [hiv]
  have f2 : get (put B.msg 0 (startClearLayout acc A.writeIV)) 16 16 = A.writeIV := by
    simp only [startClearLayout, ← enc8_eq, List.append_assoc]; fields [hiv]
  rw [List.append_assoc] at hi
  let B1 : Conn := { B with
    inp := zeros 16 ++ rest, faults := [],
    msg := put B.msg 0 (startClearLayout acc A.writeIV), readIV := A.writeIV, mode := 1#32 }
  have hc1 : B1.cipher = false := by simp [B1, Conn.cipher, cipherMode]
  have hrecv : recvBlocks B1 0 1 = (.done, B1.got 0 (zeros 16) rest) := by
    apply recvBlocks_ok B1 rfl 0 1 _ _ (by simp) (fun _ => hiv)
    simp only [Conn.rd, wire, hc1, B1, Bool.false_eq_true, if_false]
  have hput : (put B.msg 0 (startClearLayout acc A.writeIV)).length = 400 := by
    rw [put_length _ _ _ (by omega)]; exact hm'
  have f4 : get (B1.got 0 (zeros 16) rest).msg 0 8 = enc64 0#64 := by
    show get (put (put B.msg 0 (startClearLayout acc A.writeIV)) 0 (zeros 16)) 0 8 = _
    fields; rfl
  have hrd : readServerStart B = (some (acc, 0#64), (B1.got 0 (zeros 16) rest).setState .requestOnly) := by
    unfold readServerStart
    simp only [hB, ne_eq, not_true_eq_false, if_false]
    rw [readN_ok B rB.1 _ _ 32 hl hi]
    simp only [f1, f2, getAcceptType_code, hacc, hval, if_false, not_false_eq_true, if_true]
    rw [show recvBlocks _ 0 1 = _ from hrecv]
    have hc3 : (B1.got 0 (zeros 16) rest).cipher = false := hc1
    simp only [recvHmacAdd, hc3, Bool.false_eq_true, if_false, f4, decTime_enc]
  refine ⟨_, hrd, rfl, rfl, ⟨rfl, ?_, rB.2.2⟩, rfl, ⟨rfl, fun h => ?_⟩, ⟨rfl, fun h => ?_⟩⟩
  · show (put (put B.msg 0 (startClearLayout acc A.writeIV)) 0 (zeros 16)).length = 400
    rw [put_length _ _ _ (by simp; omega)]; exact hput
  · exact absurd h (by simp [Conn.cipher, cipherMode])
  · exact absurd h (by simp [Conn.setState, Conn.got, B1, Conn.cipher, cipherMode])

/-- C10, accept-session. -/
theorem C10_accept_session (H : Mac) (A B : Conn) (rA : Ready A) (rB : Ready B) (L : Linked A B)
    (acc : Accept) (port : U16) (sid : Bytes) (hs : sid.length = 16) (hv : acc ≠ .invalid)
    (hA : A.state.acceptSession = true) (hB : B.state.acceptSession = true) :
    let body := acceptLayout acc port sid
    Delivers A B (writeAcceptSession H · acc port (some sid)) (readAcceptSession H)
      (sealed A (body ++ tag H A body)) (acc, port, sid)
      { A.state with acceptSession := false } { B.state with acceptSession := false } := by
  intro body
  let m := put (put16 (put8 (zeros 400) 0 acc.code) 2 port) 4 sid
  have hml : m.length = 400 := by
    simp (disch := blen) only [m, put8, put16, put_length, zeros_length]
  have e : get m 0 (16 * 2) = body := by
    simp only [m]
    rw [get_pieces _ 0 [1, 1, 2, 16, 12] (16 * 2) rfl]
    fields
    simp [body, acceptLayout, enc8_eq]
  obtain ⟨h1, h2, h3⟩ := send_msg H A rA m body 2 (by omega) hml e
  refine ⟨(A.sentMsg H m 2).setState { A.state with acceptSession := false }, ?_, h2, rfl, h3, rfl, ?_⟩
  · unfold writeAcceptSession
    simp only [hA, not_true_eq_false, if_false]
    rw [show sendMsg H A _ 2 = _ from h1]; rfl
  · intro rest hi
    obtain ⟨g1, g2, g3, g4, g5⟩ := recv_msg H A B rA rB L m body rest 2 (by omega) hml e hi
    refine ⟨(B.got 0 (plain H A body) rest).checked.setState { B.state with acceptSession := false }, ?_,
      rfl, rfl, g3, rfl, g4⟩
    unfold readAcceptSession
    simp only [hB, not_true_eq_false, if_false]
    rw [g1]
    simp only
    rw [g2]
    have f1 := g5 0 1 (by omega)
    have f2 := g5 2 2 (by omega)
    have f3 := g5 4 16 (by omega)
    simp only [get8, get16, f1, f2, f3]
    simp only [body, acceptLayout, ← enc8_eq, List.append_assoc]
    fields [hs]
    simp only [getAcceptType_code, hv, if_false]
    rfl

/-- C10, start-sessions. The server reads the request type first. -/
theorem C10_start_sessions (H : Mac) (A B : Conn) (rA : Ready A) (rB : Ready B) (L : Linked A B)
    (hA : A.state.request = true) (hAp : A.state.isPending = false)
    (hB : B.state.request = true) (hBr : B.state.isReading = false) (hBt : B.state.test = false) :
    Delivers A B (writeStartSessions H) (afterType .startSessions (readStartSessions H))
      (sealed A (startSessionsLayout ++ tag H A startSessionsLayout)) ()
      { A.state with startAck := true, test := true }
      { B.state with startSessions := false, startAck := true, test := true } := by
  have hm := rA.2.1
  let m := put (put8 A.msg 0 2#8) 1 (zeros 31)
  have hml : m.length = 400 := by
    simp (disch := blen) only [m, put8, put_length]; exact hm
  have e : get m 0 (16 * (0 + 1)) = startSessionsLayout := by
    simp only [m]
    rw [get_pieces _ 0 [1, 15] (16 * (0 + 1)) rfl]
    fields
    simp [startSessionsLayout, enc8_eq]
  obtain ⟨h1, h2, h3⟩ := send_msg H A rA m startSessionsLayout 1 (by omega) hml e
  refine ⟨(A.sentMsg H m 1).setState { A.state with startAck := true, test := true }, ?_, h2, rfl, h3, rfl, ?_⟩
  · unfold writeStartSessions
    simp only [hA, hAp, not_true_eq_false, Bool.false_eq_true, or_self, if_false]
    rw [show sendMsg H A _ 1 = _ from h1]
    simp [Conn.setState, Conn.sentMsg, Conn.sent, hA]
  · intro rest hi
    obtain ⟨B1, B2, g1, g2, g3, g4, g5, g6, g7, g8, g9, g10, g11, g12⟩ :=
      recv_req H A B rA rB L m startSessionsLayout rest 0 .startSessions (by omega) hml e hB hBr (by decide)
        (by simp [hBt]) rfl hi
    refine ⟨B2.checked.setState { B.state with startSessions := false, startAck := true, test := true }, ?_,
      g7, g8, g10, rfl, g11⟩
    unfold afterType
    rw [g1]
    simp only [if_true]
    unfold readStartSessions
    have hst : B1.state.startSessions = true := by rw [g4]; rfl
    simp only [hst, not_true_eq_false, if_false]
    rw [g2]
    simp only
    rw [g3]
    have f1 := g12 0 1 (by omega)
    have f2 : get startSessionsLayout 0 1 = enc8 2#8 := rfl
    have hst2 : B2.checked.state = typeState .startSessions B.state := g6
    simp only [get8, f1, f2, dec_enc8, ne_eq, not_true_eq_false, if_false, hst2, typeState]

/-- C10, start-ack. -/
theorem C10_start_ack (H : Mac) (A B : Conn) (rA : Ready A) (rB : Ready B) (L : Linked A B)
    (acc : Accept) (hv : acc ≠ .invalid) (hA : A.state.startAck = true) (hB : B.state.startAck = true) :
    let body := startAckLayout acc
    Delivers A B (writeStartAck H · acc) (readStartAck H) (sealed A (body ++ tag H A body)) acc
      { A.state with startAck := false, test := A.state.test && acc = .accept }
      { B.state with
        startAck := false, test := B.state.test && acc = .accept,
        request := B.state.request || acc ≠ .accept } := by
  intro body
  have hm := rA.2.1
  let m := put (put8 A.msg 0 acc.code) 1 (zeros 15)
  have hml : m.length = 400 := by
    simp (disch := blen) only [m, put8, put_length]; exact hm
  have e : get m 0 (16 * 1) = body := by
    simp only [m]
    rw [get_pieces _ 0 [1, 15] (16 * 1) rfl]
    fields
    simp [body, startAckLayout, enc8_eq]
  obtain ⟨h1, h2, h3⟩ := send_msg H A rA m body 1 (by omega) hml e
  refine ⟨(A.sentMsg H m 1).setState { A.state with startAck := false, test := A.state.test && acc = .accept },
    ?_, h2, rfl, h3, rfl, ?_⟩
  · unfold writeStartAck
    simp only [hA, not_true_eq_false, if_false]
    rw [show sendMsg H A _ 1 = _ from h1]
    by_cases ha : acc = .accept
    · simp [ha, Conn.setState, Conn.sentMsg, Conn.sent]
    · simp [ha, Conn.setState, Conn.sentMsg, Conn.sent]
  · intro rest hi
    obtain ⟨g1, g2, g3, g4, g5⟩ := recv_msg H A B rA rB L m body rest 1 (by omega) hml e hi
    refine ⟨(B.got 0 (plain H A body) rest).checked.setState { B.state with
        startAck := false, test := B.state.test && acc = .accept,
        request := B.state.request || acc ≠ .accept }, ?_, rfl, rfl, g3, rfl, g4⟩
    unfold readStartAck
    simp only [hB, not_true_eq_false, if_false]
    rw [g1]
    simp only
    rw [g2]
    have f1 := g5 0 1 (by omega)
    simp only [get8, f1]
    simp only [body, startAckLayout, ← enc8_eq]
    fields
    simp only [getAcceptType_code, hv, if_false]
    by_cases ha : acc = .accept
    · simp [ha, Conn.setState, Conn.checked, Conn.got]
    · simp [ha, Conn.setState, Conn.checked, Conn.got]

/-- C10, fetch-session. -/
theorem C10_fetch_session (H : Mac) (A B : Conn) (rA : Ready A) (rB : Ready B) (L : Linked A B)
    (first last : U32) (sid : Bytes) (hs : sid.length = 16)
    (hA : A.state.request = true) (hAt : A.state.test = false) (hAw : A.twoway = false)
    (hB : B.state.request = true) (hBr : B.state.isReading = false) (hBt : B.state.test = false)
    (hBw : B.twoway = false) :
    let body := fetchLayout first last sid
    Delivers A B (writeFetchSession H · first last sid) (afterType .fetchSession (readFetchSession H))
      (sealed A (body ++ tag H A body)) (first, last, sid)
      { A.state with fetchAck := true, fetchSession := true, request := false }
      { B.state with fetchSession := false, request := false, fetchAck := true, fetching := true } := by
  intro body
  have hm := rA.2.1
  let m := put (put32 (put32 (put (put8 A.msg 0 4#8) 1 (zeros 7)) 8 first) 12 last) 16 sid
  have hml : m.length = 400 := by
    simp (disch := blen) only [m, put8, put32, put_length]; exact hm
  have e : get m 0 (16 * (1 + 1)) = body := by
    simp only [m]
    rw [get_pieces _ 0 [1, 7, 4, 4, 16] (16 * (1 + 1)) rfl]
    fields
    simp [body, fetchLayout, enc8_eq]
  obtain ⟨h1, h2, h3⟩ := send_msg H A rA m body 2 (by omega) hml e
  refine ⟨(A.sentMsg H m 2).setState { A.state with fetchAck := true, fetchSession := true, request := false },
    ?_, h2, rfl, h3, rfl, ?_⟩
  · unfold writeFetchSession
    simp only [hA, hAt, hAw, not_true_eq_false, Bool.false_eq_true, or_self, if_false]
    rw [show sendMsg H A _ 2 = _ from h1]
    simp [Conn.setState, Conn.sentMsg, Conn.sent, hAt]
  · intro rest hi
    obtain ⟨B1, B2, g1, g2, g3, g4, g5, g6, g7, g8, g9, g10, g11, g12⟩ :=
      recv_req H A B rA rB L m body rest 1 .fetchSession (by omega) hml e hB hBr (by decide)
        (by simp [hBt]) rfl hi
    refine ⟨B2.checked.setState
      { B.state with fetchSession := false, request := false, fetchAck := true, fetching := true }, ?_,
      g7, g8, g10, rfl, g11⟩
    unfold afterType
    rw [g1]
    simp only [if_true]
    unfold readFetchSession
    have hst : B1.state.fetchSession = true := by rw [g4]; rfl
    have hw1 : B1.twoway = false := by rw [g5, hBw]
    simp only [hst, hw1, not_true_eq_false, Bool.false_eq_true, if_false]
    rw [g2]
    simp only
    rw [g3]
    have f1 := g12 0 1 (by omega)
    have f2 := g12 8 4 (by omega)
    have f3 := g12 12 4 (by omega)
    have f4 := g12 16 16 (by omega)
    have hst2 : B2.checked.state = typeState .fetchSession B.state := g6
    simp only [get8, get32, f1, f2, f3, f4, hst2, typeState]
    simp only [body, fetchLayout, ← enc8_eq, List.append_assoc]
    fields [hs]
    simp only [ne_eq, not_true_eq_false, if_false]

/-- C10, fetch-ack. Next sequence number and number of skip ranges are only sent when the session is
finished (`finished` not 0); otherwise the client reads them as 0. -/
theorem C10_fetch_ack (H : Mac) (A B : Conn) (rA : Ready A) (rB : Ready B) (L : Linked A B)
    (a : FetchAck) (hv : a.accept ≠ .invalid) (hA : A.state.fetchAck = true) (hB : B.state.fetchAck = true) :
    let b : FetchAck := if a.finished = 0 then { a with nextSeq := 0, nskips := 0 } else a
    let body := fetchAckLayout b
    Delivers A B (writeFetchAck H · a) (readFetchAck H) (sealed A (body ++ tag H A body)) b
      { A.state with
        fetchAck := false, fetching := A.state.fetching && a.accept = .accept,
        request := A.state.request || a.accept ≠ .accept }
      { B.state with
        fetchAck := false, fetchSession := false,
        request := B.state.request || a.accept ≠ .accept,
        testRequest := B.state.testRequest || (a.accept = .accept && !B.twoway),
        testRequestTW := B.state.testRequestTW || (a.accept = .accept && B.twoway) } := by
  intro b body
  have hm := rA.2.1
  let m := put32 (if a.finished ≠ 0 then
    put32 (put32 (put8 (put8 (put A.msg 0 (zeros 32)) 0 a.accept.code) 1 a.finished) 4 a.nextSeq) 8 a.nskips else
    put8 (put8 (put A.msg 0 (zeros 32)) 0 a.accept.code) 1 a.finished) 12 a.nrecs
  have hml : m.length = 400 := by
    simp only [m]
    split <;> (simp (disch := blen) only [put8, put32, put_length]; exact hm)
  have hb1 : b.accept = a.accept := by simp only [b]; split <;> rfl
  have hb2 : b.finished = a.finished := by simp only [b]; split <;> rfl
  have hb3 : b.nrecs = a.nrecs := by simp only [b]; split <;> rfl
  have e : get m 0 (16 * 1) = body := by
    simp only [m, body, fetchAckLayout, hb1, hb2, hb3]
    rw [get_pieces _ 0 [1, 1, 2, 4, 4, 4] (16 * 1) rfl]
    by_cases hf : a.finished = 0
    · simp only [b, hf, ne_eq, not_true_eq_false, if_false, if_true]
      fields
      simp [enc8_eq]; rfl
    · simp only [b, hf, ne_eq, not_false_eq_true, if_true, if_false]
      fields
      simp [enc8_eq]
  obtain ⟨h1, h2, h3⟩ := send_msg H A rA m body 1 (by omega) hml e
  refine ⟨(A.sentMsg H m 1).setState { A.state with
      fetchAck := false, fetching := A.state.fetching && a.accept = .accept,
      request := A.state.request || a.accept ≠ .accept }, ?_, h2, rfl, h3, rfl, ?_⟩
  · unfold writeFetchAck
    simp only [hA, not_true_eq_false, if_false]
    rw [show sendMsg H A _ 1 = _ from h1]
    by_cases ha : a.accept = .accept
    · simp [ha, Conn.setState, Conn.sentMsg, Conn.sent]
    · simp [ha, Conn.setState, Conn.sentMsg, Conn.sent]
  · intro rest hi
    obtain ⟨g1, g2, g3, g4, g5⟩ := recv_msg H A B rA rB L m body rest 1 (by omega) hml e hi
    refine ⟨(B.got 0 (plain H A body) rest).checked.setState { B.state with
        fetchAck := false, fetchSession := false,
        request := B.state.request || a.accept ≠ .accept,
        testRequest := B.state.testRequest || (a.accept = .accept && !B.twoway),
        testRequestTW := B.state.testRequestTW || (a.accept = .accept && B.twoway) }, ?_, rfl, rfl, g3, rfl, g4⟩
    unfold readFetchAck
    simp only [hB, not_true_eq_false, if_false]
    rw [g1]
    simp only
    rw [g2]
    have f1 := g5 0 1 (by omega)
    have f2 := g5 1 1 (by omega)
    have f3 := g5 4 4 (by omega)
    have f4 := g5 8 4 (by omega)
    have f5 := g5 12 4 (by omega)
    simp only [get8, get32, f1, f2, f3, f4, f5]
    simp only [body, fetchAckLayout, ← enc8_eq, List.append_assoc]
    fields
    simp only [getAcceptType_code, hb1, hb2, hb3, hv, if_false]
    have hbe : (⟨a.accept, a.finished, b.nextSeq, b.nskips, a.nrecs⟩ : FetchAck) = b := by
      rw [← hb1, ← hb2, ← hb3]
    simp only [hbe]
    by_cases ha : a.accept = .accept
    · cases ht : B.twoway <;> simp [ha, ht, Conn.setState, Conn.checked, Conn.got]
    · simp [ha, Conn.setState, Conn.checked, Conn.got]

/-! ### The hypotheses can be met -/

/-- `demoA` and `demoB` in given states are ready and linked, in a ciphered mode. -/
theorem demo_states (s t : CState) : Ready { demoA with state := s } ∧ Ready { demoB with state := t } ∧
    Linked { demoA with state := s } { demoB with state := t } ∧ Conn.cipher { demoA with state := s } = true :=
  demo_linked

example := C10_greeting { demoA with state := .invalid } { demoB with state := .invalid } (demo_states _ .invalid).1
  (demo_states .invalid _).2.1 (demo_states _ _).2.2.1 rfl rfl 7#32 1024#32 (List.replicate 16 1#8)
  (List.replicate 16 2#8) rfl rfl
example := C10_setup_response { demoA with state := .setupOnly } { demoB with state := .setupOnly }
  (demo_states _ .setupOnly).1 (demo_states .setupOnly _).2.1 (demo_states _ _).2.2.1 rfl rfl (zeros 64)
  (zeros_length _) (zeros_length _)
example := C10_server_start { demoA with state := .setupOnly } { demoB with state := .setupOnly }
  (demo_states _ .setupOnly).1 (demo_states .setupOnly _).2.1 5#64 rfl (fun _ => ⟨rfl, rfl, rfl⟩)
  (demo_states .setupOnly .setupOnly).2.2.1.2 rfl rfl
example := C10_server_start_refused { demoA with state := .setupOnly } { demoB with state := .setupOnly }
  (demo_states _ .setupOnly).1 (demo_states .setupOnly _).2.1 .reject 5#64 (by decide) (by decide) rfl rfl
example (H : Mac) := C10_accept_session H { demoA with state := { request := true, acceptSession := true } }
  { demoB with state := { request := true, acceptSession := true } } (demo_states _ .invalid).1
  (demo_states .invalid _).2.1 (demo_states _ _).2.2.1 .accept 5000#16 (List.replicate 16 5#8) rfl (by decide) rfl rfl
example (H : Mac) := C10_start_sessions H demoA demoB demo_linked.1 demo_linked.2.1 demo_linked.2.2.1 rfl rfl rfl rfl rfl
example (H : Mac) := C10_start_ack H { demoA with state := { request := true, startAck := true, test := true } }
  { demoB with state := { request := true, startAck := true, test := true } } (demo_states _ .invalid).1
  (demo_states .invalid _).2.1 (demo_states _ _).2.2.1 .failure (by decide) rfl rfl
example (H : Mac) := C10_fetch_session H demoA demoB demo_linked.1 demo_linked.2.1 demo_linked.2.2.1 0#32 0xffffffff#32
  (List.replicate 16 5#8) rfl rfl rfl rfl rfl rfl rfl rfl
example (H : Mac) := C10_fetch_ack H { demoA with state := { fetchAck := true, fetching := true } }
  { demoB with state := { fetchAck := true, fetchSession := true } } (demo_states _ .invalid).1
  (demo_states .invalid _).2.1 (demo_states _ _).2.2.1 ⟨.accept, 1#8, 7#32, 2#32, 5#32⟩ (by decide) rfl rfl

end Owamp.Props
