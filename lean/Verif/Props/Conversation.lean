import Verif.Spec.Conversation
import Verif.Lemmas.Accepted
import Verif.Props.Protocol
/-!
# C13, C14: conversations over a control connection
-/
namespace Owamp.Props
open Owamp.Ctl Owamp.Spec.Channel Owamp.Spec.Conversation

/-- One direction: `Q` is the plaintext on its way from `A` to `B`. -/
structure Dir (A B : Conn) (Q : Bytes) : Prop where
  blocks : ∃ k, Q.length = 16 * k
  cipher : A.cipher = B.cipher
  key : A.cipher = true → A.aesKey = B.aesKey
  ivlen : A.cipher = true → B.readIV.length = 16
  inp : B.inp = B.rd Q
  iv : A.cipher = true → A.writeIV = wireIV B.cipher B.aesKey B.readIV Q

theorem Dir.send {A B : Conn} {Q : Bytes} (h : Dir A B Q) (p : Bytes) (n : Nat) (hp : p.length = 16 * n) :
    Dir (A.sent p) { B with inp := B.inp ++ A.wr p } (Q ++ p) := by
  obtain ⟨k, hk⟩ := h.blocks
  have e := h.cipher
  have hw : B.inp ++ A.wr p = wire B.cipher B.aesKey B.readIV (Q ++ p) := by
    rw [wire_append B.cipher B.aesKey B.readIV Q p k n hk hp, h.inp]
    refine congrArg _ ?_
    show wire A.cipher A.aesKey A.writeIV p = _
    cases hc : A.cipher
    · rw [← e, hc]; simp [wire]
    · rw [h.iv hc, h.key hc, ← e, hc]
  have hv : A.cipher = true → (A.sent p).writeIV = wireIV B.cipher B.aesKey B.readIV (Q ++ p) := by
    intro hc
    show wireIV A.cipher A.aesKey A.writeIV p = _
    rw [wireIV_append B.cipher B.aesKey B.readIV Q p k n hk hp, ← h.iv hc, h.key hc, e]
  exact ⟨⟨k + n, by rw [List.length_append, hk, hp, Nat.mul_add]⟩, e, h.key, h.ivlen, hw, hv⟩

theorem Dir.recv {A B : Conn} {Q : Bytes} (h : Dir A B Q) (hf : B.faults = []) (n : Nat)
    (hn : 16 * n ≤ B.inp.length) :
    (Q.take (16 * n)).length = 16 * n ∧ recvBlocks B 0 n = (.done, B.got 0 (Q.take (16 * n)) (B.inp.drop (16 * n))) ∧
    Dir A (B.got 0 (Q.take (16 * n)) (B.inp.drop (16 * n))) (Q.drop (16 * n)) := by
  obtain ⟨k, hk⟩ := h.blocks
  have hil : B.inp.length = 16 * k := by rw [h.inp]; exact wire_length _ _ _ _ _ hk
  have hnk : n ≤ k := by omega
  have h1 : (Q.take (16 * n)).length = 16 * n := by simp; omega
  have h2 : (Q.drop (16 * n)).length = 16 * (k - n) := by simp; omega
  have e := wire_append B.cipher B.aesKey B.readIV _ _ n (k - n) h1 h2
  have ei := wireIV_append B.cipher B.aesKey B.readIV _ _ n (k - n) h1 h2
  rw [List.take_append_drop] at e ei
  have hin : B.inp = B.rd (Q.take (16 * n)) ++ wire B.cipher B.aesKey (wireIV B.cipher B.aesKey B.readIV (Q.take (16 * n))) (Q.drop (16 * n)) := by
    rw [h.inp]; exact e
  have hwl : (B.rd (Q.take (16 * n))).length = 16 * n := wire_length _ _ _ _ _ h1
  have hd : B.inp.drop (16 * n) = wire B.cipher B.aesKey (wireIV B.cipher B.aesKey B.readIV (Q.take (16 * n))) (Q.drop (16 * n)) := by
    rw [hin, List.drop_left' hwl]
  refine ⟨h1, ?_, ⟨⟨k - n, h2⟩, h.cipher, h.key, fun hc => wireIV_length _ _ _ _ (h.ivlen hc), hd, fun hc => ?_⟩⟩
  · apply recvBlocks_ok B hf _ _ _ _ h1 (fun hc => h.ivlen (h.cipher ▸ hc))
    rw [hd]; exact hin
  · rw [h.iv hc, ei]; rfl

/-- Both directions, and the logs. -/
structure Inv (s : Sys) (Q R : Bytes) : Prop where
  ab : Dir s.a s.b Q
  ba : Dir s.b s.a R
  logB : s.sentA = s.gotB ++ Q
  logA : s.sentB = s.gotA ++ R
  fa : s.a.faults = []
  fb : s.b.faults = []
  ma : s.a.msg.length = 400
  mb : s.b.msg.length = 400

theorem Inv.step {s : Sys} {Q R : Bytes} (h : Inv s Q R) (e : Ev) (he : WholeBlocks e) :
    ∃ Q' R', Inv (step s e) Q' R' := by
  cases e with
  | sendA p =>
    obtain ⟨n, hp⟩ : ∃ n, p.length = 16 * n := ⟨p.length / 16, by unfold WholeBlocks at he; simp only at he; omega⟩
    have e1 : (sendBuf s.a p).2.2 = s.a.sent p := by rw [sendBuf_ok _ h.fa]
    have e2 : (s.a.sent p).out.drop s.a.out.length = s.a.wr p := by
      show (s.a.out ++ s.a.wr p).drop s.a.out.length = _; simp
    refine ⟨Q ++ p, R, ?_⟩
    simp only [Spec.Conversation.step, e1, e2]
    exact ⟨h.ab.send p n hp, ⟨h.ba.blocks, h.ba.cipher, h.ba.key, h.ba.ivlen, h.ba.inp, h.ba.iv⟩,
      by simp [h.logB], h.logA, rfl, h.fb, h.ma, h.mb⟩
  | sendB p =>
    obtain ⟨n, hp⟩ : ∃ n, p.length = 16 * n := ⟨p.length / 16, by unfold WholeBlocks at he; simp only at he; omega⟩
    have e1 : (sendBuf s.b p).2.2 = s.b.sent p := by rw [sendBuf_ok _ h.fb]
    have e2 : (s.b.sent p).out.drop s.b.out.length = s.b.wr p := by
      show (s.b.out ++ s.b.wr p).drop s.b.out.length = _; simp
    refine ⟨Q, R ++ p, ?_⟩
    simp only [Spec.Conversation.step, e1, e2]
    exact ⟨⟨h.ab.blocks, h.ab.cipher, h.ab.key, h.ab.ivlen, h.ab.inp, h.ab.iv⟩, h.ba.send p n hp, h.logB,
      by simp [h.logA], h.fa, rfl, h.ma, h.mb⟩
  | recvA n =>
    simp only [Spec.Conversation.step]
    split
    · rename_i hn
      obtain ⟨h1, h2, h3⟩ := h.ba.recv h.fa n hn.1
      have hm := h.ma
      have hg : get (s.a.got 0 (R.take (16 * n)) (s.a.inp.drop (16 * n))).msg 0 (16 * n) = R.take (16 * n) := by
        show get (put s.a.msg 0 _) 0 _ = _
        rw [get_put_same _ _ _ _ h1 (by omega)]
      refine ⟨Q, R.drop (16 * n), ?_⟩
      rw [h2]
      simp only [hg]
      exact ⟨⟨h.ab.blocks, h.ab.cipher, h.ab.key, h.ab.ivlen, h.ab.inp, h.ab.iv⟩, h3, h.logB,
        by simp [h.logA], rfl, h.fb,
        by show (put s.a.msg 0 _).length = 400; rw [put_length _ _ _ (by omega)]; exact hm, h.mb⟩
    · exact ⟨Q, R, h⟩
  | recvB n =>
    simp only [Spec.Conversation.step]
    split
    · rename_i hn
      obtain ⟨h1, h2, h3⟩ := h.ab.recv h.fb n hn.1
      have hm := h.mb
      have hg : get (s.b.got 0 (Q.take (16 * n)) (s.b.inp.drop (16 * n))).msg 0 (16 * n) = Q.take (16 * n) := by
        show get (put s.b.msg 0 _) 0 _ = _
        rw [get_put_same _ _ _ _ h1 (by omega)]
      refine ⟨Q.drop (16 * n), R, ?_⟩
      rw [h2]
      simp only [hg]
      exact ⟨h3, ⟨h.ba.blocks, h.ba.cipher, h.ba.key, h.ba.ivlen, h.ba.inp, h.ba.iv⟩, by simp [h.logB], h.logA,
        h.fa, rfl, h.ma, by show (put s.b.msg 0 _).length = 400; rw [put_length _ _ _ (by omega)]; exact hm⟩
    · exact ⟨Q, R, h⟩

theorem Inv.run {s : Sys} {Q R : Bytes} (h : Inv s Q R) (es : List Ev) (he : ∀ e ∈ es, WholeBlocks e) :
    ∃ Q' R', Inv (run s es) Q' R' := by
  induction es generalizing s Q R with
  | nil => exact ⟨Q, R, h⟩
  | cons e es ih =>
    obtain ⟨Q', R', h'⟩ := h.step e (he e (by simp))
    exact ih h' (fun x hx => he x (by simp [hx]))

/-- Before anything was said. -/
def opening (A B : Conn) : Sys := ⟨A, B, [], [], [], []⟩

theorem dir_start {A B : Conn} (L : InStep A B) (rA : Ready A) (hi : B.inp = []) : Dir A B [] := by
  refine ⟨⟨0, rfl⟩, L.1, fun h => (L.2 h).1, fun h => ?_, ?_, fun h => ?_⟩
  · rw [← (L.2 h).2.2.1]; exact rA.2.2
  · rw [hi]; unfold Conn.rd wire; split <;> rfl
  · rw [(L.2 h).2.2.1]; unfold wireIV; split <;> rfl

/-- C13: whatever each side sends and however the sends and reads of the two sides are interleaved and
cut into messages, what a side has read is a prefix of what the other has sent, and is all of it once
no bytes are left on the way. -/
theorem C13_in_step (A B : Conn) (rA : Ready A) (rB : Ready B) (L : Linked A B) (hA : A.inp = []) (hB : B.inp = [])
    (es : List Ev) (he : ∀ e ∈ es, WholeBlocks e) :
    let s := run (opening A B) es
    s.gotB <+: s.sentA ∧ s.gotA <+: s.sentB ∧ (s.b.inp = [] → s.gotB = s.sentA) ∧ (s.a.inp = [] → s.gotA = s.sentB) := by
  intro s
  have h0 : Inv (opening A B) [] [] :=
    ⟨dir_start L.1 rA hB, dir_start L.2 rB hA, rfl, rfl, rA.1, rB.1, rA.2.1, rB.2.1⟩
  obtain ⟨Q, R, h⟩ := h0.run es he
  have done : ∀ (X Y : Conn) (Z : Bytes), Dir X Y Z → Y.inp = [] → Z = [] := by
    intro X Y Z hd hi
    obtain ⟨k, hk⟩ := hd.blocks
    have : Y.inp.length = 16 * k := by rw [hd.inp]; exact wire_length _ _ _ _ _ hk
    rw [hi] at this
    exact List.length_eq_zero_iff.1 (by simp at this; omega)
  refine ⟨⟨Q, h.logB.symm⟩, ⟨R, h.logA.symm⟩, fun hi => ?_, fun hi => ?_⟩
  · have := done _ _ _ h.ab hi
    rw [h.logB, this, List.append_nil]
  · have := done _ _ _ h.ba hi
    rw [h.logA, this, List.append_nil]

/-- C13: the bytes on the socket are those of CBC over all the plaintext of that direction, and depend
on nothing else. -/
theorem C13_bytes_on_socket (A : Conn) (hf : A.faults = []) (ps : List Bytes) (hp : ∀ p ∈ ps, p.length % 16 = 0) :
    (ps.foldl (fun c p => (sendBuf c p).2.2) A).out = A.out ++ sealed A ps.flatten := by
  suffices h : ∀ (ps : List Bytes) (c : Conn), c.faults = [] → (∀ p ∈ ps, p.length % 16 = 0) →
      (ps.foldl (fun c p => (sendBuf c p).2.2) c).out = c.out ++ c.wr ps.flatten ∧ ∃ k, ps.flatten.length = 16 * k by
    obtain ⟨h1, k, hk⟩ := h ps A hf hp
    rw [h1, sealed_eq A _ k hk]; rfl
  intro ps
  induction ps with
  | nil => intro c _ _; exact ⟨by simp [wr_nil], 0, rfl⟩
  | cons p ps ih =>
    intro c hf hp
    obtain ⟨n, hn⟩ : ∃ n, p.length = 16 * n := ⟨p.length / 16, by have := hp p (by simp); omega⟩
    have e1 : (sendBuf c p).2.2 = c.sent p := by rw [sendBuf_ok _ hf]
    obtain ⟨h1, k, hk⟩ := ih (c.sent p) rfl (fun q hq => hp q (by simp [hq]))
    refine ⟨?_, n + k, by simp only [List.flatten_cons, List.length_append]; omega⟩
    rw [List.foldl_cons, e1, h1, List.flatten_cons]
    show c.out ++ c.wr p ++ wire c.cipher c.aesKey (wireIV c.cipher c.aesKey c.writeIV p) _ = _
    unfold Conn.wr
    rw [wire_append _ _ _ _ _ n k hn hk, List.append_assoc]

/-- C13, ciphered and with both ends having more to say. -/
example : ∃ A B : Conn, Ready A ∧ Ready B ∧ Linked A B ∧ A.inp = [] ∧ B.inp = [] ∧ A.cipher = true :=
  ⟨demoA, demoB, demo_linked.1, demo_linked.2.1, demo_linked.2.2.1, rfl, rfl, demo_linked.2.2.2⟩

/-! ## C14 -/

/-- C14, receiver: over any input bytes and any sequence of reads and checks, the checks give exactly
the verdicts of comparing each digest with the MAC of the text since the previous digest, and the text
under the MAC afterwards is what came since the last good digest. -/
theorem C14_receiver (H : Mac) (ops : List ROp) : ∀ (c : Conn) (v : Bool) (c' : Conn), c.cipher = true →
    c.readIV.length = 16 → c.msg.length = 400 → (∀ n, ROp.text n ∈ ops → 16 * n ≤ 400) →
    recvAll H c ops = some (v, c') →
    verdict H c.hmacKey c.recvAcc (plainIn c) ops = some (v, c'.recvAcc, plainIn c') := by
  induction ops with
  | nil =>
    intro c v c' hc hv hm _ h
    simp only [recvAll, Option.some.injEq, Prod.mk.injEq] at h
    obtain ⟨rfl, rfl⟩ := h
    rfl
  | cons op ops ih =>
    intro c v c' hc hv hm hb h
    cases op with
    | text n =>
      have hn := hb n (by simp)
      rw [recvAll] at h
      split at h
      · rename_i c1 hr
        have T := recvBlocks_took c c1 0 n (fun _ => hv) hr
        have K1 := T.kept (by omega)
        have hl := T.len
        have hg : get c1.msg 0 (16 * n) = (plainIn c).take (16 * n) := by
          rw [T.msg, get_put_same _ _ _ _ (by simp; omega) (by omega)]
        obtain ⟨K2, P2, V2, M2, R2⟩ := recvHmacAdd_kept c1 (get c1.msg 0 (16 * n))
        have hc1 : c1.cipher = true := by rw [K1.cipher]; exact hc
        have hc2 : (recvHmacAdd c1 (get c1.msg 0 (16 * n))).cipher = true := by rw [K2.cipher]; exact hc1
        have := ih _ v c' hc2 (V2 T.iv hc2) (K2.len (K1.len hm)) (fun k hk => hb k (by simp [hk])) h
        rw [P2, T.rest, R2 hc1, T.acc, K2.key, K1.key, hg] at this
        rw [verdict, if_pos hl]; exact this
      · simp at h
    | check =>
      rw [recvAll] at h
      split at h
      · rename_i c1 hr
        have T := recvBlocks_took c c1 0 1 (fun _ => hv) hr
        have K1 := T.kept (by omega)
        have hl := T.len
        have hg : get c1.msg 0 16 = (plainIn c).take 16 := by
          rw [T.msg, get_put_same _ _ _ _ (by simp; omega) (by omega)]
        have hc1 : c1.cipher = true := by rw [K1.cipher]; exact hc
        rw [verdict, if_pos (by omega)]
        split at h
        · rename_i c2 hk
          obtain ⟨K3, P3, V3, M3, R3⟩ := recvCheck_true H _ c2 _ hk
          obtain ⟨d1, d2⟩ := R3 hc1
          rw [hg, K1.key, T.acc] at d1
          rw [if_pos d1]
          have hc2 : c2.cipher = true := by rw [K3.cipher]; exact hc1
          have := ih c2 v c' hc2 (V3 T.iv hc2) (K3.len (K1.len hm)) (fun k hk => hb k (by simp [hk])) h
          rw [P3, T.rest, d2, K3.key, K1.key] at this
          exact this
        · rename_i c2 hk
          simp only [Option.some.injEq, Prod.mk.injEq] at h
          obtain ⟨rfl, rfl⟩ := h
          unfold recvCheck at hk
          rw [hc1, if_pos rfl] at hk
          simp only [Prod.mk.injEq, decide_eq_false_iff_not] at hk
          obtain ⟨k1, k2⟩ := hk
          rw [hg, K1.key, T.acc] at k1
          rw [if_neg k1, ← k2]
          refine congrArg some (Prod.ext rfl (Prod.ext rfl ?_))
          exact T.rest.symm
      · simp at h

/-- C14, sender: over any sequence of texts and digests, what goes out is the sealed stream in which
each digest covers exactly the text since the previous one. -/
theorem C14_sender (H : Mac) (c : Conn) (hc : c.cipher = true) (hf : c.faults = []) (ops : List SOp)
    (hb : ∀ p, SOp.text p ∈ ops → p.length % 16 = 0) :
    (sendAll H c ops).out = c.out ++ sealed c (stream H c.hmacKey c.sendAcc ops) ∧
    (sendAll H c ops).sendAcc = pendingAfter c.sendAcc ops := by
  suffices h : ∀ (ops : List SOp) (c : Conn), c.cipher = true → c.faults = [] →
      (∀ p, SOp.text p ∈ ops → p.length % 16 = 0) →
      (sendAll H c ops).out = c.out ++ c.wr (stream H c.hmacKey c.sendAcc ops) ∧
      (sendAll H c ops).sendAcc = pendingAfter c.sendAcc ops ∧
      ∃ k, (stream H c.hmacKey c.sendAcc ops).length = 16 * k by
    obtain ⟨h1, h2, k, hk⟩ := h ops c hc hf hb
    rw [sealed_eq c _ k hk]
    exact ⟨h1, h2⟩
  intro ops
  induction ops with
  | nil => intro c _ _ _; exact ⟨by simp [sendAll, stream, wr_nil], rfl, 0, rfl⟩
  | cons op ops ih =>
    intro c hc hf hb
    cases op with
    | text p =>
      obtain ⟨n, hn⟩ : ∃ n, p.length = 16 * n := ⟨p.length / 16, by have := hb p (by simp); omega⟩
      have e0 : sendHmacAdd c p = { c with sendAcc := c.sendAcc ++ p } := by unfold sendHmacAdd; rw [hc]; rfl
      have e1 : (sendBuf (sendHmacAdd c p) p).2.2 = ({ c with sendAcc := c.sendAcc ++ p } : Conn).sent p := by
        rw [e0, sendBuf_ok _ (by exact hf)]
      obtain ⟨h1, h2, k, hk⟩ := ih (({ c with sendAcc := c.sendAcc ++ p } : Conn).sent p) hc rfl
        (fun q hq => hb q (by simp [hq]))
      rw [sendAll, e1]
      refine ⟨?_, h2, n + k, ?_⟩
      · rw [h1]
        show c.out ++ c.wr p ++ wire c.cipher c.aesKey (wireIV c.cipher c.aesKey c.writeIV p) _ = _
        rw [List.append_assoc]
        exact congrArg (c.out ++ ·) (wire_append c.cipher c.aesKey c.writeIV p _ n k hn hk).symm
      · rw [stream, List.length_append, hn]
        have : (stream H c.hmacKey (c.sendAcc ++ p) ops).length = 16 * k := hk
        omega
    | digest =>
      have e0 : sendDigest H c = ((H.hash c.hmacKey c.sendAcc).take 16, { c with sendAcc := [] }) := by
        unfold sendDigest; rw [hc]; rfl
      have hdl : ((H.hash c.hmacKey c.sendAcc).take 16).length = 16 * 1 := by simp [H.len]
      have e1 : (sendBuf (sendDigest H c).2 (sendDigest H c).1).2.2 =
          ({ c with sendAcc := [] } : Conn).sent ((H.hash c.hmacKey c.sendAcc).take 16) := by
        rw [e0, sendBuf_ok _ (by exact hf)]
      obtain ⟨h1, h2, k, hk⟩ := ih (({ c with sendAcc := [] } : Conn).sent ((H.hash c.hmacKey c.sendAcc).take 16)) hc rfl
        (fun q hq => hb q (by simp [hq]))
      rw [sendAll, e1]
      refine ⟨?_, h2, 1 + k, ?_⟩
      · rw [h1]
        show c.out ++ c.wr _ ++ wire c.cipher c.aesKey (wireIV c.cipher c.aesKey c.writeIV _) _ = _
        rw [List.append_assoc]
        exact congrArg (c.out ++ ·) (wire_append c.cipher c.aesKey c.writeIV _ _ 1 k hdl hk).symm
      · rw [stream, List.length_append, hdl]
        have : (stream H c.hmacKey [] ops).length = 16 * k := hk
        omega

/-- C14: on the sender's own stream every check succeeds, and both ends hold the same pending text
afterwards. -/
theorem C14_honest (H : Mac) (key : Bytes) (ops : List SOp) (hb : ∀ p, SOp.text p ∈ ops → p.length % 16 = 0) :
    ∀ pending rest, verdict H key pending (stream H key pending ops ++ rest) (ops.map mirror) =
      some (true, pendingAfter pending ops, rest) := by
  induction ops with
  | nil => intro pending rest; rfl
  | cons op ops ih =>
    intro pending rest
    have ih := ih (fun q hq => hb q (by simp [hq]))
    cases op with
    | text p =>
      have hn := hb p (by simp)
      have e : 16 * (p.length / 16) = p.length := by omega
      simp only [List.map_cons, mirror, verdict, stream, List.append_assoc, e]
      rw [if_pos (by simp), List.take_left' rfl, List.drop_left' rfl, ih]
      rfl
    | digest =>
      have hdl : ((H.hash key pending).take 16).length = 16 := by simp [H.len]
      simp only [List.map_cons, mirror, verdict, stream, List.append_assoc]
      rw [if_pos (by rw [List.length_append]; omega), List.take_left' hdl, if_pos rfl, List.drop_left' hdl, ih]
      rfl

/-- C14: two receivers' texts that pass with the same digest are the same text, or a collision of the
truncated MAC: replaying, dropping, cutting or moving blocks changes the MAC's input. -/
theorem C14_digest_binds (H : Mac) (key t1 t2 P : Bytes) (h1 : verdict H key t1 P [.check] = some (true, [], P.drop 16))
    (h2 : verdict H key t2 P [.check] = some (true, [], P.drop 16)) :
    t1 = t2 ∨ (t1 ≠ t2 ∧ (H.hash key t1).take 16 = (H.hash key t2).take 16) := by
  by_cases e : t1 = t2
  · exact Or.inl e
  · refine Or.inr ⟨e, ?_⟩
    have f : ∀ t, verdict H key t P [.check] = some (true, [], P.drop 16) → P.take 16 = (H.hash key t).take 16 := by
      intro t h
      simp only [verdict] at h
      split at h
      · split at h
        · assumption
        · simp at h
      · simp at h
    rw [← f t1 h1, ← f t2 h2]

theorem recv_done (c : Conn) (hf : c.faults = []) (hi : c.readIV.length = 16) (off n : Nat)
    (h : 16 * n ≤ (plainIn c).length) : ∃ c', recvBlocks c off n = (.done, c') ∧ c'.faults = [] := by
  have hl : 16 * n ≤ c.inp.length := by
    unfold plainIn at h
    split at h
    · obtain ⟨h1, -⟩ := Cbc.decLoop_length c.aesKey (c.inp.length / 16) c.readIV (c.inp.take (16 * (c.inp.length / 16))) hi
        (by simp; omega)
      have e := Cbc.decLoop_append c.aesKey (c.inp.length / 16) 0 c.readIV (c.inp.take (16 * (c.inp.length / 16)))
        (c.inp.drop (16 * (c.inp.length / 16))) (by simp; omega)
      rw [List.take_append_drop] at e
      have e2 : c.inp.length * 8 / 128 = c.inp.length / 16 + 0 := by omega
      have : (Cbc.blockDecrypt c.aesKey c.readIV c.inp).1.length = 16 * (c.inp.length / 16) := by
        show (Cbc.decLoop c.aesKey (c.inp.length * 8 / 128) c.readIV c.inp).1.length = _
        rw [e2, e]; simp [Cbc.decLoop, h1]
      omega
    · exact h
  have hr : readN c (n * 16) = (.full (c.inp.take (n * 16)), { c with inp := c.inp.drop (n * 16), faults := [] }) := by
    unfold readN
    rw [hf]
    simp only
    rw [if_pos (by omega)]; rfl
  unfold recvBlocks
  rw [hr]
  simp only
  split
  · exact ⟨_, rfl, rfl⟩
  · exact ⟨_, rfl, rfl⟩

theorem recvAll_total (H : Mac) (ops : List ROp) : ∀ (c : Conn) (r : Bool × Bytes × Bytes), c.cipher = true →
    c.readIV.length = 16 → c.msg.length = 400 → c.faults = [] → (∀ n, ROp.text n ∈ ops → 16 * n ≤ 400) →
    verdict H c.hmacKey c.recvAcc (plainIn c) ops = some r → ∃ q, recvAll H c ops = some q := by
  induction ops with
  | nil => intro c r _ _ _ _ _ _; exact ⟨_, rfl⟩
  | cons op ops ih =>
    intro c r hc hv hm hf hb h
    cases op with
    | text n =>
      have hn := hb n (by simp)
      rw [verdict] at h
      split at h
      · rename_i hl
        obtain ⟨c1, hr, hf1⟩ := recv_done c hf hv 0 n hl
        have T := recvBlocks_took c c1 0 n (fun _ => hv) hr
        have K1 := T.kept (by omega)
        have hg : get c1.msg 0 (16 * n) = (plainIn c).take (16 * n) := by
          rw [T.msg, get_put_same _ _ _ _ (by simp; omega) (by omega)]
        obtain ⟨K2, P2, V2, M2, R2⟩ := recvHmacAdd_kept c1 (get c1.msg 0 (16 * n))
        have hc1 : c1.cipher = true := by rw [K1.cipher]; exact hc
        have hc2 : (recvHmacAdd c1 (get c1.msg 0 (16 * n))).cipher = true := by rw [K2.cipher]; exact hc1
        rw [recvAll, hr]
        refine ih _ r hc2 (V2 T.iv hc2) (K2.len (K1.len hm)) ?_ (fun k hk => hb k (by simp [hk])) ?_
        · unfold recvHmacAdd; split <;> exact hf1
        · rw [P2, T.rest, R2 hc1, T.acc, K2.key, K1.key, hg]; exact h
      · simp at h
    | check =>
      rw [verdict] at h
      split at h
      · rename_i hl
        obtain ⟨c1, hr, hf1⟩ := recv_done c hf hv 0 1 (by omega)
        have T := recvBlocks_took c c1 0 1 (fun _ => hv) hr
        have K1 := T.kept (by omega)
        have hg : get c1.msg 0 16 = (plainIn c).take 16 := by
          rw [T.msg, get_put_same _ _ _ _ (by simp; omega) (by omega)]
        have hc1 : c1.cipher = true := by rw [K1.cipher]; exact hc
        rw [recvAll, hr]
        simp only
        split
        · rename_i c2 hk
          obtain ⟨K3, P3, V3, M3, R3⟩ := recvCheck_true H _ c2 _ hk
          obtain ⟨d1, d2⟩ := R3 hc1
          rw [hg, K1.key, T.acc] at d1
          rw [if_pos d1] at h
          have hc2 : c2.cipher = true := by rw [K3.cipher]; exact hc1
          refine ih c2 r hc2 (V3 T.iv hc2) (K3.len (K1.len hm)) ?_ (fun k hk => hb k (by simp [hk])) ?_
          · unfold recvCheck at hk
            rw [hc1, if_pos rfl] at hk
            simp only [Prod.mk.injEq] at hk
            rw [← hk.2]; exact hf1
          · rw [P3, T.rest, d2, K3.key, K1.key]; exact h
        · exact ⟨_, rfl⟩
      · simp at h

/-- C14: whatever texts and digests the sender sends in whatever order, the peer reading them block for
block accepts every digest, is left with the same pending text (none if the last was a digest), and has
nothing left to read. -/
theorem C14_conversation (H : Mac) (A B : Conn) (rA : Ready A) (rB : Ready B) (L : InStep A B) (hc : A.cipher = true)
    (hB : B.inp = []) (ops : List SOp) (hb : ∀ p, SOp.text p ∈ ops → p.length % 16 = 0 ∧ p.length ≤ 400) :
    let A' := sendAll H A ops
    ∃ B', recvAll H { B with inp := A'.out.drop A.out.length } (ops.map mirror) = some (true, B') ∧
      B'.recvAcc = A'.sendAcc ∧ plainIn B' = [] ∧ A'.sendAcc = pendingAfter A.sendAcc ops := by
  intro A'
  obtain ⟨h1, h2⟩ := C14_sender H A hc rA.1 ops (fun p hp => (hb p hp).1)
  obtain ⟨k1, k2, k3, k4⟩ := L.2 hc
  have hBc : B.cipher = true := by rw [← L.1]; exact hc
  have hBi : B.readIV.length = 16 := by rw [← k3]; exact rA.2.2
  have hs : ∃ k, (stream H A.hmacKey A.sendAcc ops).length = 16 * k := by
    suffices ∀ (ops : List SOp) (pe : Bytes), (∀ p, SOp.text p ∈ ops → p.length % 16 = 0) →
        ∃ k, (stream H A.hmacKey pe ops).length = 16 * k from this ops _ (fun p hp => (hb p hp).1)
    intro ops
    induction ops with
    | nil => intro pe _; exact ⟨0, rfl⟩
    | cons op ops ih =>
      intro pe hb
      cases op with
      | text p =>
        obtain ⟨k, hk⟩ := ih (pe ++ p) (fun q hq => hb q (by simp [hq]))
        have := hb p (by simp)
        exact ⟨p.length / 16 + k, by rw [stream, List.length_append, hk]; omega⟩
      | digest =>
        obtain ⟨k, hk⟩ := ih [] (fun q hq => hb q (by simp [hq]))
        exact ⟨1 + k, by rw [stream, List.length_append, hk]; simp [H.len]; omega⟩
  obtain ⟨k, hk⟩ := hs
  have hin : A'.out.drop A.out.length = A.wr (stream H A.hmacKey A.sendAcc ops) := by
    show (sendAll H A ops).out.drop _ = _
    rw [h1, sealed_eq A _ k hk]; simp; rfl
  have hpl : plainIn { B with inp := A'.out.drop A.out.length } = stream H A.hmacKey A.sendAcc ops := by
    show (if B.cipher then (Cbc.blockDecrypt B.aesKey B.readIV (A'.out.drop A.out.length)).1 else _) = _
    rw [hBc, if_pos rfl, hin]
    unfold Conn.wr wire
    rw [hc, if_pos rfl, ← k1, ← k3, Cbc.blockDecrypt_blockEncrypt _ _ _ k hk rA.2.2]
  have hv := C14_honest H A.hmacKey ops (fun p hp => (hb p hp).1) A.sendAcc []
  rw [List.append_nil] at hv
  have hbn : ∀ n, ROp.text n ∈ ops.map mirror → 16 * n ≤ 400 := by
    intro n hn
    obtain ⟨o, ho, he⟩ := List.mem_map.1 hn
    cases o with
    | text p => simp only [mirror, ROp.text.injEq] at he; have := hb p ho; omega
    | digest => simp [mirror] at he
  have hv' : verdict H B.hmacKey B.recvAcc (plainIn { B with inp := A'.out.drop A.out.length }) (ops.map mirror)
      = some (true, pendingAfter A.sendAcc ops, []) := by rw [hpl, ← k2, ← k4]; exact hv
  obtain ⟨⟨v, B'⟩, hq⟩ := recvAll_total H (ops.map mirror) { B with inp := A'.out.drop A.out.length } _ hBc hBi
    rB.2.1 rB.1 hbn hv'
  have := C14_receiver H (ops.map mirror) { B with inp := A'.out.drop A.out.length } v B' hBc hBi rB.2.1 hbn hq
  have this := hv'.symm.trans this
  simp only [Option.some.injEq, Prod.mk.injEq] at this
  obtain ⟨t1, t2, t3⟩ := this
  subst t1
  exact ⟨B', hq, by rw [← t2, h2], t3.symm, h2⟩

theorem get_put_within (buf bs : Bytes) (off o n : Nat) (h : o + n ≤ bs.length) (hb : off + bs.length ≤ buf.length) :
    get (put buf off bs) (off + o) n = get bs o n := by
  have e : get (put buf off bs) off bs.length = bs := get_put_same _ _ _ _ rfl hb
  rw [← get_get (put buf off bs) off bs.length o n h, e]

theorem checked (H : Mac) (c c1 c2 : Conn) (off n k : Nat) (hv : IVok c) (hm : c.msg.length = 400)
    (hr : recvBlocks c off n = (.done, c1)) (ho : off + 16 * n = 16 * k + 16) (hk : 16 * k + 16 ≤ 400) (hoff : off ≤ 16 * k)
    (hck : checkMsg H c1 k = (true, c2)) :
    Covered H c c2 off k := by
  have T := recvBlocks_took c c1 off n hv hr
  have K1 := T.kept (by omega)
  have hl := T.len
  unfold checkMsg at hck
  obtain ⟨K2, P2, V2, M2, R2⟩ := recvHmacAdd_kept c1 (get c1.msg 0 (16 * k))
  obtain ⟨K3, P3, V3, M3, R3⟩ := recvCheck_true H _ c2 _ hck
  have htl : ((plainIn c).take (16 * n)).length = 16 * n := by simp; omega
  have hbody : get c1.msg 0 (16 * k) = get c.msg 0 off ++ (plainIn c).take (16 * k - off) := by
    have e0 := get_concat c1.msg 0 off (16 * k - off)
    rw [show off + (16 * k - off) = 16 * k by omega] at e0
    rw [← e0, T.msg, get_put_before _ _ _ _ _ (by omega) (by omega)]
    refine congrArg _ ?_
    have := get_put_within c.msg ((plainIn c).take (16 * n)) off 0 (16 * k - off) (by omega) (by omega)
    simp only [Nat.add_zero, Nat.zero_add] at this ⊢
    rw [this]
    unfold get
    rw [List.drop_zero, List.take_take, Nat.min_eq_left (by omega)]
  have hd : get c1.msg (16 * k) 16 = get (plainIn c) (16 * k - off) 16 := by
    rw [T.msg]
    have := get_put_within c.msg ((plainIn c).take (16 * n)) off (16 * k - off) 16 (by omega) (by omega)
    rw [show off + (16 * k - off) = 16 * k by omega] at this
    rw [this]
    unfold get
    rw [List.drop_take, List.take_take, Nat.min_eq_left (by omega)]
  refine ⟨fun hc => ?_, fun hc => ?_⟩
  · have hc1 : c1.cipher = true := by rw [K1.cipher]; exact hc
    have := (R3 (by rw [K2.cipher]; exact hc1)).1
    rw [hd, K2.key, K1.key, R2 hc1, T.acc, hbody] at this
    exact this
  · have hc1 : c1.cipher = true := by rw [K1.cipher]; exact hc
    exact (R3 (by rw [K2.cipher]; exact hc1)).2

/-- C14, the readers of whole messages, on any input: success means the block at the end was the digest
of the text pending and the message, and nothing is pending afterwards. -/
theorem C14_messages (H : Mac) (c c' : Conn) (hv : IVok c) (hm : c.msg.length = 400) :
    (∀ v, readAcceptSession H c = (some v, c') → Covered H c c' 0 2) ∧
    (∀ v, readStartSessions H c = (some v, c') → Covered H c c' 16 1) ∧
    (∀ v, readStartAck H c = (some v, c') → Covered H c c' 0 1) ∧
    (∀ v, readFetchSession H c = (some v, c') → Covered H c c' 16 2) ∧
    (∀ v, readFetchAck H c = (some v, c') → Covered H c c' 0 1) := by
  refine ⟨fun v h => ?_, fun v h => ?_, fun v h => ?_, fun v h => ?_, fun v h => ?_⟩
  · unfold readAcceptSession at h
    split at h
    · simp at h
    split at h
    · rename_i c1 hr
      split at h
      · simp at h
      · rename_i c2 hk
        have := checked H c c1 c2 0 3 2 hv hm hr (by omega) (by omega) (by omega) hk
        dsimp only at h
        split at h
        · simp at h
        · simp only [Prod.mk.injEq] at h
          rw [← h.2]; exact this
    · simp at h
  · unfold readStartSessions at h
    split at h
    · simp at h
    split at h
    · simp at h
    · rename_i c1 hr
      split at h
      · simp at h
      · rename_i c2 hk
        have := checked H c c1 c2 16 1 1 hv hm hr (by omega) (by omega) (by omega) hk
        split at h
        · simp at h
        · simp only [Prod.mk.injEq] at h
          rw [← h.2]; exact this
    · simp at h
  · unfold readStartAck at h
    split at h
    · simp at h
    split at h
    · rename_i c1 hr
      split at h
      · simp at h
      · rename_i c2 hk
        have := checked H c c1 c2 0 2 1 hv hm hr (by omega) (by omega) (by omega) hk
        dsimp only at h
        split at h
        · simp at h
        · simp only [Prod.mk.injEq] at h
          rw [← h.2]
          split
          · exact this
          · exact this
    · simp at h
  · unfold readFetchSession at h
    split at h
    · simp at h
    split at h
    · simp at h
    split at h
    · simp at h
    · rename_i c1 hr
      split at h
      · simp at h
      · rename_i c2 hk
        have := checked H c c1 c2 16 2 2 hv hm hr (by omega) (by omega) (by omega) hk
        split at h
        · simp at h
        · simp only [Prod.mk.injEq] at h
          rw [← h.2]; exact this
    · simp at h
  · unfold readFetchAck at h
    split at h
    · simp at h
    split at h
    · rename_i c1 hr
      split at h
      · simp at h
      · rename_i c2 hk
        have := checked H c c1 c2 0 2 1 hv hm hr (by omega) (by omega) (by omega) hk
        dsimp only at h
        split at h
        · simp at h
        · simp only [Prod.mk.injEq] at h
          rw [← h.2]
          split
          · exact this
          · split
            · exact this
            · exact this
    · simp at h

/-- A message and its digest, twice, over a ciphered connection. -/
example (H : Mac) : ∃ B', recvAll H { demoB with inp := (sendAll H demoA [.text (zeros 32), .digest, .text (zeros 16), .digest]).out }
      [.text 2, .check, .text 1, .check] = some (true, B') ∧ B'.recvAcc = [] := by
  obtain ⟨B', h1, h2, _, h4⟩ := C14_conversation H demoA demoB demo_linked.1 demo_linked.2.1 demo_linked.2.2.1.1
    demo_linked.2.2.2 rfl [.text (zeros 32), .digest, .text (zeros 16), .digest] (by
      intro p hp
      simp only [List.mem_cons, SOp.text.injEq, reduceCtorEq, false_or, List.not_mem_nil, or_false] at hp
      rcases hp with rfl | rfl <;> simp)
  exact ⟨B', h1, by rw [h2, h4]; rfl⟩

end Owamp.Props
