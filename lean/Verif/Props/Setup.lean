import Verif.Lemmas.SetupOpen
import Verif.Props.Server
/-!
# C18-C20: connection set-up
-/
namespace Owamp.Props
open Owamp.Ctl Owamp.Spec.Channel Owamp.Spec.Setup

/-- **C18, part.** A connection is accepted only if the greeting announced the offered set, that set is
not empty, the response names exactly one known mode, the connection is in that mode, and the
server's policy agreed to it. Missing: that the mode is in the offered set (`C18_unoffered_accepted`
shows that it need not be). -/
theorem C18_one_mode_partial (K : Cbc.Kdf) (e : AcceptEnv) (S S' : Conn) (hm : S.msg.length = 400)
    (hc : e.challenge.length = 16) (hs : e.salt.length = 16) (h : controlAccept K e S = (true, S')) :
    ∃ m keyid token iv rest more, keyid.length = 80 ∧ token.length = 64 ∧ iv.length = 16 ∧ S.inp = setupLayout m keyid token iv ++ rest ∧
      S'.out = S.out ++ greetingLayout e.offered e.challenge e.salt e.count ++ more ∧
      S'.mode = m ∧ IsMode S.twoway m ∧ e.offered ≠ 0 ∧
      e.policy m (if m = 1#32 then none else some keyid) = .yes := by
  obtain ⟨m, keyid, token, iv, rest, mm, fs, hk, ht, hi, hmm, hin, hoff, _, hd⟩ := accept_ran K e S S' hm hc hs h
  obtain ⟨hmode, c1, ha, hp, hw⟩ := decide_ran K e token _ _ hd
  obtain ⟨w1, _, _, _, _, _, w7, more, w8⟩ := start_ran _ _ _ hw
  have hcm := cipher_of_mode _ _ hmode
  refine ⟨m, keyid, token, iv, rest, more, hk, ht, hi, hin, ?_, ?_, hmode, hoff, ?_⟩
  · rw [w8]
    rcases auth_ran K e token _ _ ha with ⟨_, e1⟩ | ⟨_, pf, iv', _, _, _, _, e1⟩ <;> rw [e1]
  · rw [w1]
    rcases auth_ran K e token _ _ ha with ⟨_, e1⟩ | ⟨_, pf, iv', _, _, _, _, e1⟩ <;> rw [e1]
  · rcases auth_ran K e token _ _ ha with ⟨hci, e1⟩ | ⟨hci, pf, iv', _, _, _, _, e1⟩
    · have hm1 : m = 1#32 := by
        by_cases h1 : m = 1#32
        · exact h1
        · have := hcm.2 h1
          change cipherMode m = false at hci
          change cipherMode m = true at this
          rw [this] at hci; cases hci
      subst e1
      rw [show Conn.cipher _ = false from hci] at hp
      rw [if_pos hm1]
      exact hp
    · have hm1 : m ≠ 1#32 := hcm.1 hci
      subst e1
      change e.policy m (if cipherMode m then some keyid else none) = .yes at hp
      rw [show cipherMode m = true from hci] at hp
      rw [if_neg hm1]
      exact hp

/-- A server whose hooks know one user, `u`. -/
def demoEnv (offered : U32) : AcceptEnv :=
  { offered := offered, challenge := List.replicate 16 5#8, salt := List.replicate 16 6#8, count := 2048#32
    getPF := fun n => if n = [117#8] then .known [112#8, 102#8] else .unknown
    kdfOk := true, iv := some (List.replicate 16 3#8), policy := fun _ _ => .yes, uptime := 77#64 }

/-- A server connection as allocated, with `inp` to be read. -/
def newConn (twoway : Bool) (inp : Bytes) : Conn :=
  { state := .invalid, mode := 0#32, twoway := twoway, userid := zeros 80, aesKey := zeros 16, hmacKey := zeros 32,
    readIV := zeros 16, writeIV := zeros 16, sendAcc := [], recvAcc := [], msg := zeros 400, inp := inp, out := [],
    faults := [] }

theorem newConn_fresh (tw : Bool) (inp : Bytes) : Fresh (newConn tw inp) :=
  ⟨⟨rfl, zeros_length _, zeros_length _⟩, rfl, rfl, rfl, rfl, rfl⟩

/-- Some key derivation, to evaluate examples. -/
def anyKdf : Cbc.Kdf := ⟨fun pf salt _ => (pf ++ salt ++ zeros 16).take 16, by intros; simp [zeros_length]; omega⟩

/-- **C18 fails.** A daemon that supports every mode and whose limits forbid open mode to this client
(so it offers only authenticated and encrypted mode) accepts the client's choice of open mode. -/
theorem C18_unoffered_accepted :
    ∃ (e : AcceptEnv) (S : Conn), e.offered = daemonOffer 7#32 false ∧ Fresh S ∧
      (controlAccept anyKdf e S).1 = true ∧ (controlAccept anyKdf e S).2.mode = 1#32 ∧
      ¬ InSet 1#32 e.offered := by
  refine ⟨demoEnv 6#32, newConn false (setupLayout 1#32 (zeros 80) (zeros 64) (zeros 16)), by decide,
    newConn_fresh _ _, ?_, ?_, by unfold InSet; decide⟩ <;> decide +kernel

/-- **C20.** A connection in a mode other than open is accepted only if the response names a user whose
pass-phrase is known to the server, and carries a token made with that pass-phrase and the server's
salt for the server's own challenge. The session keys are those in the token. -/
theorem C20_proof_of_secret (K : Cbc.Kdf) (e : AcceptEnv) (S S' : Conn) (hm : S.msg.length = 400)
    (hc : e.challenge.length = 16) (hs : e.salt.length = 16) (h : controlAccept K e S = (true, S'))
    (hci : S'.mode ≠ 1#32) :
    ∃ keyid pf iv rest, keyid.length = 80 ∧ iv.length = 16 ∧ e.getPF (cstr keyid) = .known pf ∧
      S.inp = setupLayout S'.mode keyid (tokenFor K pf e.salt e.count e.challenge S'.aesKey S'.hmacKey) iv ++ rest := by
  obtain ⟨m, keyid, token, iv, rest, mm, fs, hk, ht, hi, hmm, hin, hoff, _, hd⟩ := accept_ran K e S S' hm hc hs h
  obtain ⟨hmode, c1, ha, hp, hw⟩ := decide_ran K e token _ _ hd
  obtain ⟨w1, w2, w3, _, _, _, w7, more, w8⟩ := start_ran _ _ _ hw
  have hcm := cipher_of_mode _ _ hmode
  rcases auth_ran K e token _ _ ha with ⟨hno, e1⟩ | ⟨_, pf, iv', hpf, _, _, hch, e1⟩
  · exfalso
    subst e1
    have := hcm.2 (by rw [w1] at hci; exact hci)
    change cipherMode m = true at this
    change cipherMode m = false at hno
    rw [this] at hno; cases hno
  · subst e1
    refine ⟨keyid, pf, iv, rest, hk, hi, hpf, ?_⟩
    rw [w1, w2, w3, hin]
    rw [← token_plain K pf e.salt e.count token e.challenge ht hch]

theorem flatten_length_cbc (key iv : Bytes) (l : List Bytes) : ((cbc key iv l).flatten).length = 16 * l.length := by
  induction l generalizing iv with
  | nil => rfl
  | cons p ps ih =>
    simp only [cbc, List.flatten_cons, List.length_append, ih, List.length_cons]
    have : (Spec.AES.encrypt key (List.zipWith (· ^^^ ·) p iv)).length = 16 := rfl
    omega

theorem tokenFor_enc (K : Cbc.Kdf) (pf salt : Bytes) (count : U32) (ch a hk : Bytes) (h1 : ch.length = 16)
    (h2 : a.length = 16) (h3 : hk.length = 32) :
    tokenFor K pf salt count ch a hk = Cbc.encryptToken K pf salt count (ch ++ a ++ hk) := by
  unfold tokenFor Cbc.encryptToken
  rw [Cbc.blockEncrypt_cbc _ _ _ 4 (by simp; omega)]

theorem tokenFor_length (K : Cbc.Kdf) (pf salt : Bytes) (count : U32) (ch a hk : Bytes) (h1 : ch.length = 16)
    (h2 : a.length = 16) (h3 : hk.length = 32) : (tokenFor K pf salt count ch a hk).length = 64 := by
  unfold tokenFor
  rw [flatten_length_cbc]
  simp [blocksOf, h1, h2, h3]

theorem decrypt_tokenFor (K : Cbc.Kdf) (pf salt : Bytes) (count : U32) (ch a hk : Bytes) (h1 : ch.length = 16)
    (h2 : a.length = 16) (h3 : hk.length = 32) :
    Cbc.decryptToken K pf salt count (tokenFor K pf salt count ch a hk) = ch ++ a ++ hk := by
  rw [tokenFor_enc K pf salt count ch a hk h1 h2 h3]
  unfold Cbc.decryptToken Cbc.encryptToken
  rw [Cbc.blockDecrypt_blockEncrypt _ _ _ 4 (by simp; omega) (zeros_length _)]

/-- **C20, replay.** A response recorded from a set-up with another challenge is refused. -/
theorem C20_replay_refused (K : Cbc.Kdf) (e : AcceptEnv) (S : Conn) (hm : S.msg.length = 400)
    (hc : e.challenge.length = 16) (hs : e.salt.length = 16) (m : U32) (hmode : m ≠ 1#32)
    (keyid pf iv rest ch a hk : Bytes) (hpf : e.getPF (cstr keyid) = .known pf)
    (l1 : keyid.length = 80) (l2 : iv.length = 16) (l3 : ch.length = 16) (l4 : a.length = 16) (l5 : hk.length = 32)
    (hin : S.inp = setupLayout m keyid (tokenFor K pf e.salt e.count ch a hk) iv ++ rest) (hne : ch ≠ e.challenge) :
    (controlAccept K e S).1 = false := by
  cases hr : (controlAccept K e S).1
  · rfl
  · exfalso
    have h : controlAccept K e S = (true, (controlAccept K e S).2) := Prod.ext hr rfl
    generalize (controlAccept K e S).2 = S' at h
    obtain ⟨m', keyid', token, iv', rest', mm, fs, hk', ht, hi, hmm, hin', hoff, _, hd⟩ := accept_ran K e S S' hm hc hs h
    obtain ⟨hmd, c1, ha, hp, hw⟩ := decide_ran K e token _ _ hd
    rw [hin'] at hin
    obtain ⟨q1, q2, q3, q4, q5⟩ := setup_inj _ _ _ _ _ _ _ _ hk' l1 ht (tokenFor_length K pf e.salt e.count ch a hk l3 l4 l5) _ _ hi l2 hin
    subst q1 q2 q3 q4 q5
    rcases auth_ran K e _ _ _ ha with ⟨hno, e1⟩ | ⟨_, pf', iv', hpf', _, _, hch, e1⟩
    · have := (cipher_of_mode _ _ hmd).2 hmode
      change cipherMode m' = true at this
      change cipherMode m' = false at hno
      rw [this] at hno; cases hno
    · change e.getPF (cstr keyid') = _ at hpf'
      rw [hpf] at hpf'
      cases hpf'
      rw [decrypt_tokenFor K pf e.salt e.count ch a hk l3 l4 l5, List.append_assoc, get_zero_append _ _ _ (by omega)] at hch
      exact hne hch.symm

theorem recvBlocks_out (c : Conn) (off n : Nat) : (recvBlocks c off n).2.out = c.out := by
  unfold recvBlocks readN
  split <;> rename_i h <;> (repeat' split at h) <;> simp at h <;> (try split) <;>
    (first | (rw [← h.2]) | (simp only [← h.2]) | (simp only [← h]))

theorem readServerStart_out (c : Conn) : (readServerStart c).2.out = c.out := by
  unfold readServerStart
  split
  · rfl
  · split
    · rename_i bs c1 hr
      obtain ⟨_, _, fs, e⟩ := readN_full _ _ _ _ hr
      dsimp only
      split
      · rw [e]; rfl
      · split
        · rename_i c2 h2
          have := congrArg (fun r => r.2.out) h2
          simp only [recvBlocks_out] at this
          simp only [Conn.setState]
          have h3 : ∀ (d : Conn) t, (recvHmacAdd d t).out = d.out := by
            intro d t; unfold recvHmacAdd; split <;> rfl
          rw [h3, ← this, e]
          split <;> rfl
        · rename_i c2 _ h2
          have := congrArg (fun r => r.2.out) h2
          simp only [recvBlocks_out] at this
          simp only [Conn.fail, Conn.setState]
          rw [← this, e]
          split <;> rfl
    · rename_i r c1 _ hr
      have : c1.out = c.out := by
        have := congrArg (fun r => r.2.out) hr
        unfold readN at this
        (repeat' split at this) <;> exact this.symm
      simp only [Conn.fail, Conn.setState, this]

/-- The token and connection of the chosen mode. -/
theorem makeToken_ran (K : Cbc.Kdf) (e : OpenEnv) (g : Greeting) (pf : Bytes) (c : Conn) (hg : g.challenge.length = 16)
    (h1 : e.aesKey.length = 16) (h2 : e.hmacKey.length = 32) :
    (c.cipher = true → makeToken K e g pf c =
      (tokenFor K pf g.salt g.count g.challenge e.aesKey e.hmacKey,
        { c with aesKey := e.aesKey, hmacKey := e.hmacKey, sendAcc := [], recvAcc := [], writeIV := e.iv })) ∧
    (c.cipher = false → makeToken K e g pf c = (e.junk, c)) := by
  unfold makeToken
  constructor <;> intro hc <;> rw [hc]
  · rw [if_pos rfl, tokenFor_enc K pf g.salt g.count g.challenge e.aesKey e.hmacKey hg h1 h2]
  · rfl

/-- The client's random material has the right sizes. -/
structure OpenEnv.Sized (e : OpenEnv) : Prop where
  aes : e.aesKey.length = 16
  hmac : e.hmacKey.length = 32
  iv : e.iv.length = 16

/-- A client that has chosen a mode sends the response and waits for the answer. -/
theorem openIn_ran (K : Cbc.Kdf) (e : OpenEnv) (g : Greeting) (pf : Bytes) (c : Conn) (m : U32) (hz : OpenEnv.Sized e)
    (hg : g.challenge.length = 16) (rc : Ready c) (hs : c.state = .setupOnly) (hu : c.userid.length = 80) :
    ∃ u t iv B, u.length = 80 ∧ t.length = 64 ∧ iv.length = 16 ∧
      openIn K e g pf c (.mode m) = (match readServerStart B with
        | (some (acc, _), c) => (decide (acc = .accept), c)
        | (none, c) => (false, c)) ∧
      B.out = c.out ++ setupLayout m u t iv ∧ Ready B ∧ B.state = .setupOnly ∧ B.mode = m ∧ B.inp = c.inp ∧
      B.twoway = c.twoway ∧
      (cipherMode m = true → u = c.userid ∧ t = tokenFor K pf g.salt g.count g.challenge e.aesKey e.hmacKey ∧ iv = e.iv ∧
        B.aesKey = e.aesKey ∧ B.hmacKey = e.hmacKey ∧ B.writeIV = e.iv ∧ B.sendAcc = [] ∧ B.recvAcc = []) := by
  have ht := makeToken_ran K e g pf { c with mode := m } hg hz.aes hz.hmac
  unfold openIn
  dsimp only
  cases hc : cipherMode m
  · have hc' : Conn.cipher { c with mode := m } = false := hc
    rw [ht.2 hc']
    obtain ⟨mm, u, t, iv, hmm, hul, htl, hil, _, hw⟩ := response_ran { c with mode := m } rc hs e.junk
      (fun h => by rw [hc'] at h; cases h) hu
    unfold finishOpen
    rw [hw]
    exact ⟨u, t, iv, _, hul, htl, hil, rfl, rfl, ⟨rfl, hmm, rc.2.2⟩, hs, rfl, rfl, rfl, fun h => nomatch h⟩
  · have hc' : Conn.cipher { c with mode := m } = true := hc
    rw [ht.1 hc']
    have rd : Ready { c with mode := m, aesKey := e.aesKey, hmacKey := e.hmacKey, sendAcc := [], recvAcc := [], writeIV := e.iv } :=
      ⟨rc.1, rc.2.1, hz.iv⟩
    obtain ⟨mm, u, t, iv, hmm, hul, htl, hil, hval, hw⟩ := response_ran _ rd hs
      (tokenFor K pf g.salt g.count g.challenge e.aesKey e.hmacKey)
      (fun _ => tokenFor_length K pf g.salt g.count g.challenge e.aesKey e.hmacKey hg hz.aes hz.hmac) hu
    unfold finishOpen
    rw [hw]
    obtain ⟨v1, v2, v3⟩ := hval hc
    exact ⟨u, t, iv, _, hul, htl, hil, rfl, rfl, ⟨rfl, hmm, hz.iv⟩, hs, rfl, rfl, rfl,
      fun _ => ⟨v1, v2, v3, rfl, rfl, rfl, rfl, rfl⟩⟩

/-- A positive answer does not change the mode. -/
theorem readServerStart_mode (c c' : Conn) (up : U64) (h : readServerStart c = (some (.accept, up), c')) : c'.mode = c.mode := by
  unfold readServerStart at h
  split at h
  · simp at h
  · split at h
    · rename_i bs c1 hr
      obtain ⟨_, _, fs, e⟩ := readN_full _ _ _ _ hr
      dsimp only at h
      split at h
      · simp at h
      · split at h
        · rename_i c2 h2
          simp only [Prod.mk.injEq, Option.some.injEq] at h
          obtain ⟨⟨h3, _⟩, h4⟩ := h
          rw [h3] at h2
          simp only [ne_eq, not_true_eq_false, if_false] at h2
          have h5 : ∀ (d : Conn) t, (recvHmacAdd d t).mode = d.mode := by
            intro d t; unfold recvHmacAdd; split <;> rfl
          rw [← h4]
          show (recvHmacAdd c2 _).mode = _
          rw [h5]
          have h6 : ∀ (d : Conn) o n, (recvBlocks d o n).2.mode = d.mode := by
            intro d o n
            unfold recvBlocks readN
            split <;> rename_i h <;> (repeat' split at h) <;> simp at h <;> (try split) <;>
              (first | (rw [← h.2]) | (simp only [← h.2]) | (simp only [← h]))
          have h7 := h6 { { c1 with msg := put c1.msg 0 bs } with readIV := get (put c1.msg 0 bs) 16 16 } 0 1
          rw [h2] at h7
          rw [h7, e]
        · simp at h
    · simp at h

/-- A positive answer leaves the kind of connection. -/
theorem readServerStart_kind (c c' : Conn) (up : U64) (h : readServerStart c = (some (.accept, up), c')) : c'.twoway = c.twoway := by
  unfold readServerStart at h
  split at h
  · simp at h
  · split at h
    · rename_i bs c1 hr
      obtain ⟨_, _, fs, e⟩ := readN_full _ _ _ _ hr
      dsimp only at h
      split at h
      · simp at h
      · split at h
        · rename_i c2 h2
          simp only [Prod.mk.injEq, Option.some.injEq] at h
          obtain ⟨⟨h3, _⟩, h4⟩ := h
          rw [h3] at h2
          simp only [ne_eq, not_true_eq_false, if_false] at h2
          have h5 : ∀ (d : Conn) t, (recvHmacAdd d t).twoway = d.twoway := by
            intro d t; unfold recvHmacAdd; split <;> rfl
          rw [← h4]
          show (recvHmacAdd c2 _).twoway = _
          rw [h5]
          have h6 : ∀ (d : Conn) o n, (recvBlocks d o n).2.twoway = d.twoway := by
            intro d o n
            unfold recvBlocks readN
            split <;> rename_i h <;> (repeat' split at h) <;> simp at h <;> (try split) <;>
              (first | (rw [← h.2]) | (simp only [← h.2]) | (simp only [← h]))
          have h7 := h6 { { c1 with msg := put c1.msg 0 bs } with readIV := get (put c1.msg 0 bs) 16 16 } 0 1
          rw [h2] at h7
          rw [h7, e]
        · simp at h
    · simp at h

/-- **C19.** For every greeting, request mask, set of known pass-phrases and policy: either the client
answers with a mode that was offered and requested and, if it is not open mode, whose user's pass-phrase
is known; that its policy permits; and every usable stronger mode was refused by its policy. Then an
accepted connection is in that mode. Or it sends nothing and fails, because policy refused every
usable mode or a hook reported an error. -/
theorem C19_strongest_mode (K : Cbc.Kdf) (e : OpenEnv) (C : Conn) (f : Fresh C) (hz : OpenEnv.Sized e) (modes count : U32)
    (ch salt rest : Bytes) (hc : ch.length = 16) (hs : salt.length = 16)
    (hi : C.inp = greetingLayout modes ch salt count ++ rest) :
    ∃ who, (who = none ∨ ∃ u, e.userid = some u ∧ who = some (useridBuf u)) ∧
    ((∃ m u t iv, u.length = 80 ∧ t.length = 64 ∧ iv.length = 16 ∧
        (controlOpen K e C).2.out = setupLayout m u t iv ∧
        ((controlOpen K e C).1 = true → (controlOpen K e C).2.mode = m) ∧
        Usable C.twoway modes e m ∧ e.policy m who = .yes ∧
        ∀ m', Usable C.twoway modes e m' → rank m < rank m' → e.policy m' who = .no) ∨
     ((controlOpen K e C).1 = false ∧ (controlOpen K e C).2.out = [] ∧
        ((∀ m, Usable C.twoway modes e m → e.policy m who = .no) ∨
         (∃ u, e.userid = some u ∧ e.getPF (u.take 80) = .error) ∨
         ∃ m, Usable C.twoway modes e m ∧ e.policy m who = .error))) := by
  obtain ⟨mm, hmm, hr⟩ := greeting_read C f.ready f.state modes count ch salt rest hc hs hi
  have ho : controlOpen K e C = answerGreeting K e ⟨modes, ch, salt, count⟩
      { C with inp := rest, faults := [], msg := mm, state := .setupOnly } := by
    unfold controlOpen; rw [hr]
  rw [ho]
  obtain ⟨who, hwho, h⟩ := answer_cases K e ⟨modes, ch, salt, count⟩
    { C with inp := rest, faults := [], msg := mm, state := .setupOnly }
  refine ⟨who, hwho, ?_⟩
  rcases h with ⟨m, pf, c1, h1, h2, h3, h4, h5, h6⟩ | ⟨h1, h2, h3⟩
  · left
    have r1 : Ready c1 ∧ c1.state = .setupOnly ∧ c1.userid.length = 80 ∧ c1.out = [] := by
      rcases h5 with h | ⟨u, hu, h⟩ <;> rw [h]
      · exact ⟨⟨rfl, hmm, f.ready.2.2⟩, rfl, by show C.userid.length = 80; rw [f.user, zeros_length], f.out⟩
      · exact ⟨⟨rfl, hmm, f.ready.2.2⟩, rfl, hu, f.out⟩
    obtain ⟨u, t, iv, B, q1, q2, q3, q4, q5, q6, q7, q8, q9, q10, q11⟩ :=
      openIn_ran K e ⟨modes, ch, salt, count⟩ pf c1 m hz hc r1.1 r1.2.1 r1.2.2.1
    refine ⟨m, u, t, iv, q1, q2, q3, ?_, ?_, h1, h2, h3⟩
    · rw [h6, q4]
      have := readServerStart_out B
      rw [q5, r1.2.2.2, List.nil_append] at this
      rw [← this]
      split <;> rename_i hh <;> rw [hh]
    · rw [h6, q4]
      split
      · rename_i acc up c2 hh
        intro ha
        have ha : acc = .accept := by simpa using ha
        subst ha
        rw [← q8]
        exact readServerStart_mode _ _ _ hh
      · intro ha; cases ha
  · right
    refine ⟨h1, by rw [h2]; exact f.out, h3⟩

/-- A non-trivial case: encrypted, authenticated and open mode are offered and requested, the policy
forbids encrypted mode, and the client answers with authenticated mode. -/
def demoOpen (refuse : List U32) : OpenEnv :=
  { requested := 15#32, userid := some [117#8], getPF := fun n => if n = [117#8] then .known [112#8, 102#8] else .unknown
    policy := fun m _ => if m ∈ refuse then .no else .yes
    aesKey := List.replicate 16 21#8, hmacKey := List.replicate 32 22#8, iv := List.replicate 16 23#8, junk := [] }

theorem demoOpen_sized (r : List U32) : OpenEnv.Sized (demoOpen r) := ⟨rfl, rfl, rfl⟩

example : get (controlOpen anyKdf (demoOpen [4#32]) (newConn false
    (greetingLayout 7#32 (List.replicate 16 5#8) (List.replicate 16 6#8) 1024#32))).2.out 0 4 = enc32 2#32 := by decide +kernel

/-- **C20, keys.** When the server and the client have each returned a handle after reading what the
other wrote, and they do not disagree about the user's pass-phrase, both are in the same mode, which is
one the server offered, and each can decrypt and verify what the other sends: same keys, same chaining
values, same text under the MAC. Each has read all that the other wrote. -/
theorem C20_keys_agree (K : Cbc.Kdf) (e : AcceptEnv) (o : OpenEnv) (S C S' C' : Conn) (fS : Fresh S) (fC : Fresh C)
    (htw : S.twoway = C.twoway) (hc : e.challenge.length = 16) (hs : e.salt.length = 16)
    (hiv : ∀ iv, e.iv = some iv → iv.length = 16) (hz : OpenEnv.Sized o)
    (huser : ∀ u, o.userid = some u → ∀ x ∈ u, x ≠ 0#8)
    (hsame : ∀ u pf pf', o.userid = some u → o.getPF (u.take 80) = .known pf → e.getPF (u.take 80) = .known pf' → pf = pf')
    (x : Exchange K e o S C S' C') :
    Linked S' C' ∧ S'.mode = C'.mode ∧ IsMode S.twoway S'.mode ∧ InSet S'.mode e.offered ∧ Ready S' ∧ Ready C' ∧
      S'.state = .requestOnly ∧ C'.state = .requestOnly ∧ S'.inp = [] ∧ C'.inp = [] ∧ S'.twoway = S.twoway ∧ C'.twoway = C.twoway := by
  obtain ⟨m, keyid, token, iv, rest, mm, fs, hk, ht, hi, hmm, hin, hoff, hfs, hd⟩ := accept_ran K e S S' fS.ready.2.1 hc hs x.accepted
  obtain ⟨hmode, c1, ha, hp, hw⟩ := decide_ran K e token _ _ hd
  obtain ⟨w1, w2, w3, w4, _, w6, w7, more, w8⟩ := start_ran _ _ _ hw
  have hfs := hfs fS.ready.1
  have hcm := cipher_of_mode _ _ hmode
  -- what the server keeps
  have hc1 : Ready c1 ∧ c1.state = .setupOnly ∧ c1.mode = m ∧ c1.out = greetingLayout e.offered e.challenge e.salt e.count ∧
      c1.readIV = iv ∧ (c1.inp = rest ∧ c1.twoway = S.twoway) ∧
      (cipherMode m = true → ∃ pf, e.getPF (cstr keyid) = .known pf ∧ c1.sendAcc = [] ∧ c1.recvAcc = [] ∧
        c1.aesKey = get (Cbc.decryptToken K pf e.salt e.count token) 16 16 ∧
        c1.hmacKey = get (Cbc.decryptToken K pf e.salt e.count token) 32 32) := by
    rcases auth_ran K e token _ _ ha with ⟨hno, e1⟩ | ⟨_, pf, iv', hpf, hiv', _, hch, e1⟩
    · subst e1
      refine ⟨⟨hfs, hmm, fS.ready.2.2⟩, rfl, rfl, ?_, rfl, ⟨rfl, rfl⟩, ?_⟩
      · show S.out ++ _ = _
        rw [fS.out, List.nil_append]
      · intro hh
        change cipherMode m = false at hno
        rw [hno] at hh; cases hh
    · subst e1
      refine ⟨⟨hfs, hmm, hiv _ hiv'⟩, rfl, rfl, ?_, rfl, ⟨rfl, rfl⟩, fun _ => ⟨pf, hpf, rfl, rfl, rfl, rfl⟩⟩
      show S.out ++ _ = _
      rw [fS.out, List.nil_append]
  obtain ⟨rA, sA, mA, oA, riA, ⟨iA, tA⟩, kA⟩ := hc1
  -- what the client does
  have hci : C.inp = greetingLayout e.offered e.challenge e.salt e.count ++ more := by rw [x.toClient, w8, oA]
  obtain ⟨mm2, hmm2, hr⟩ := greeting_read C fC.ready fC.state e.offered e.count e.challenge e.salt more hc hs hci
  have ho : controlOpen K o C = answerGreeting K o ⟨e.offered, e.challenge, e.salt, e.count⟩
      { C with inp := more, faults := [], msg := mm2, state := .setupOnly } := by
    unfold controlOpen; rw [hr]
  have hop := x.opened
  rw [ho] at hop
  obtain ⟨who, hwho, h⟩ := answer_cases K o ⟨e.offered, e.challenge, e.salt, e.count⟩
    { C with inp := more, faults := [], msg := mm2, state := .setupOnly }
  rcases h with ⟨m', pf, d1, h1, h2, h3, h4, h5, h6⟩ | ⟨h1, h2, h3⟩
  · rw [h6] at hop
    have r1 : Ready d1 ∧ d1.state = .setupOnly ∧ d1.userid.length = 80 ∧ d1.out = [] ∧ d1.inp = more ∧ d1.twoway = C.twoway := by
      rcases h5 with h | ⟨u, hu, h⟩ <;> rw [h]
      · exact ⟨⟨rfl, hmm2, fC.ready.2.2⟩, rfl, by show C.userid.length = 80; rw [fC.user, zeros_length], fC.out, rfl, rfl⟩
      · exact ⟨⟨rfl, hmm2, fC.ready.2.2⟩, rfl, hu, fC.out, rfl, rfl⟩
    obtain ⟨u, t, iv2, B, q1, q2, q3, q4, q5, q6, q7, q8, q9, q10, q11⟩ :=
      openIn_ran K o ⟨e.offered, e.challenge, e.salt, e.count⟩ pf d1 m' hz hc r1.1 r1.2.1 r1.2.2.1
    rw [q4] at hop
    have hout : C'.out = setupLayout m' u t iv2 := by
      have := readServerStart_out B
      rw [q5, r1.2.2.2.1, List.nil_append] at this
      rw [← this]
      have h9 := congrArg (fun r => r.2.out) hop
      dsimp only at h9
      rw [← h9]
      split <;> rename_i hh <;> rw [hh]
    have hsi := x.toServer
    rw [hin, hout, ← List.append_nil (setupLayout m' u t iv2)] at hsi
    obtain ⟨e1, e2, e3, e4, e5⟩ := setup_inj _ _ _ _ _ _ _ _ hk q1 ht q2 _ _ hi q3 hsi
    subst e1 e2 e3 e4
    have hci : c1.cipher = B.cipher := by unfold Conn.cipher; rw [mA, q8]
    have hcA : c1.cipher = cipherMode m := by unfold Conn.cipher; rw [mA]
    have keys : c1.cipher = true → c1.aesKey = B.aesKey ∧ c1.hmacKey = B.hmacKey ∧ c1.sendAcc = B.recvAcc ∧
        B.writeIV = c1.readIV ∧ B.sendAcc = c1.recvAcc := by
      intro hcc
      rw [hcA] at hcc
      obtain ⟨pf', g1, g2, g3, g4, g5⟩ := kA hcc
      obtain ⟨v1, v2, v3, v4, v5, v6, v7, v8⟩ := q11 hcc
      obtain ⟨un, u1, u2, u3⟩ := h4 (hcm.1 hcc)
      rw [v1, u3, cstr_useridBuf un (huser un u1)] at g1
      have := hsame _ _ _ u1 u2 g1
      subst this
      rw [v2, decrypt_tokenFor K pf e.salt e.count e.challenge o.aesKey o.hmacKey hc hz.aes hz.hmac] at g4 g5
      have ga : get (e.challenge ++ o.aesKey ++ o.hmacKey) 16 16 = o.aesKey := by
        unfold get
        rw [List.append_assoc, List.drop_left' hc, List.take_left' hz.aes]
      have gh : get (e.challenge ++ o.aesKey ++ o.hmacKey) 32 32 = o.hmacKey := by
        unfold get
        rw [List.drop_left' (by simp [hc, hz.aes]), List.take_of_length_le (by rw [hz.hmac])]
      exact ⟨by rw [g4, v4, ga], by rw [g5, v5, gh], by rw [g2, v8], by rw [v6, riA, v3], by rw [v7, g3]⟩
    have L : InStep B c1 := ⟨hci.symm, fun hcc => by
      have := keys (hci.trans hcc)
      exact ⟨this.1.symm, this.2.1.symm, this.2.2.2.1, this.2.2.2.2⟩⟩
    obtain ⟨A', a1, a2, a3, a4, a5, a6⟩ := C10_server_start c1 B rA q6 e.uptime hci (fun hh => ⟨(keys hh).1, (keys hh).2.1, (keys hh).2.2.1⟩) L sA q7
    dsimp only at a1
    rw [a1] at hw
    simp only [Prod.mk.injEq, true_and] at hw
    subst hw
    have hmore : more = startClearLayout .accept c1.writeIV ++ sealed c1 (startLayout e.uptime) := by
      rw [w8] at a2
      exact List.append_cancel_left a2
    obtain ⟨B', b1, b2, b3, b4, b5, b6⟩ := a6 [] (by rw [q9, r1.2.2.2.2.1, hmore, List.append_nil])
    rw [b1] at hop
    simp only [Prod.mk.injEq] at hop
    obtain ⟨_, hop⟩ := hop
    subst hop
    refine ⟨b6, ?_, ?_, ?_, a4, b4, a5, b5, w4.trans (iA.trans e5), b2, w6.trans tA, (readServerStart_kind _ _ _ b1).trans (q10.trans r1.2.2.2.2.2)⟩
    · rw [w1, mA, readServerStart_mode _ _ _ b1, q8]
    · rw [w1, mA]; exact hmode
    · rw [w1, mA]; exact h1.offered
  · rw [hop] at h1; cases h1

theorem pair_true (p : Bool × Conn) (h : p.1 = true) : p = (true, p.2) := Prod.ext h rfl

/-- The hypotheses are met: an encrypted set-up that succeeds on both sides. -/
theorem C20_exchange_example :
    ∃ (S C : Conn), Fresh S ∧ Fresh C ∧ Exchange anyKdf (demoEnv 7#32) (demoOpen []) S C
        (controlAccept anyKdf (demoEnv 7#32) S).2 (controlOpen anyKdf (demoOpen []) C).2 ∧
      (controlAccept anyKdf (demoEnv 7#32) S).2.mode = 4#32 ∧
      (controlOpen anyKdf (demoOpen []) C).2.aesKey = List.replicate 16 21#8 ∧ S.twoway = false ∧ C.twoway = false := by
  obtain ⟨S, hS⟩ : ∃ S, S = newConn false (setupLayout 4#32 (useridBuf [117#8])
    (Cbc.encryptToken anyKdf [112#8, 102#8] (List.replicate 16 6#8) 2048#32
      (List.replicate 16 5#8 ++ List.replicate 16 21#8 ++ List.replicate 32 22#8)) (List.replicate 16 23#8)) := ⟨_, rfl⟩
  refine ⟨S, newConn false (controlAccept anyKdf (demoEnv 7#32) S).2.out, by rw [hS]; exact newConn_fresh _ _, newConn_fresh _ _,
    ⟨pair_true _ ?_, pair_true _ ?_, rfl, ?_⟩, ?_, ?_, by rw [hS]; rfl, rfl⟩ <;> subst hS <;> decide +kernel

end Owamp.Props
