import Verif.Lemmas.Packet
import Verif.Props.Setup
/-!
# C28, C29, C57: test packets and test-session keys
-/
namespace Owamp.Props
open Owamp.Pkt Owamp.Ctl Owamp.Time Owamp.Spec.Channel Owamp.Spec.Packet

/-! ## C29: keys -/

/-- **C29.** In a ciphered one-way session the sender encrypts and the receiver decrypts with the same AES key,
`AES_sid(session AES key)`, and both have the same digest key, the CBC encryption under the SID of the session digest
key; who is the server does not matter. -/
theorem C29_oneway (m : U32) (hm : m = 2#32 ∨ m = 4#32) (server server' : Bool) (aes hmac sid : Bytes) (hh : hmac.length = 32) :
    let s := initKeys m false server true aes hmac sid
    let r := initKeys m false server' false aes hmac sid
    s.aeskey = .forEnc (Spec.AES.encrypt sid aes) ∧ r.aeskey = .forDec (Spec.AES.encrypt sid aes) ∧
      s.hmacKey = (cbc sid (zeros 16) (blocksOf hmac)).flatten ∧ r.hmacKey = s.hmacKey := by
  have hc : m &&& 6#32 ≠ 0#32 := by rcases hm with rfl | rfl <;> decide
  simp only [initKeys, if_pos hc, Bool.false_eq_true, if_false, if_true, Rijndael.encrypt_eq,
    Cbc.blockEncrypt_cbc sid (zeros 16) hmac 2 hh, and_self]

/-- **C29.** In a ciphered two-way session client and server have the same AES key in both directions and the same
digest key. -/
theorem C29_twoway (m : U32) (hm : m = 2#32 ∨ m = 4#32) (send send' : Bool) (aes hmac sid : Bytes) (hh : hmac.length = 32) :
    let c := initKeys m true false send aes hmac sid
    let r := initKeys m true true send' aes hmac sid
    c.aeskey = .forEnc (Spec.AES.encrypt sid aes) ∧ r.aeskey = .forDec (Spec.AES.encrypt sid aes) ∧
      r.replyKey = .forEnc (Spec.AES.encrypt sid aes) ∧ c.replyKey = .forDec (Spec.AES.encrypt sid aes) ∧
      c.hmacKey = (cbc sid (zeros 16) (blocksOf hmac)).flatten ∧ r.hmacKey = c.hmacKey := by
  have hc : m &&& 6#32 ≠ 0#32 := by rcases hm with rfl | rfl <;> decide
  simp only [initKeys, if_pos hc, Bool.false_eq_true, if_false, if_true, Rijndael.encrypt_eq,
    Cbc.blockEncrypt_cbc sid (zeros 16) hmac 2 hh, and_self]

private theorem fits_ow (m : U32) (f : Fmt) (hf : fmtOW m = some f) (sv sv' : Bool) (aes hmac sid : Bytes) (hh : hmac.length = 32) :
    Fits f (initKeys m false sv true aes hmac sid) (initKeys m false sv' false aes hmac sid) := by
  unfold fmtOW at hf
  split at hf
  · exact .inl (Option.some.inj hf).symm
  · split at hf
    · obtain ⟨h1, h2, _, h4⟩ := C29_oneway m (.inl ‹_›) sv sv' aes hmac sid hh
      exact .inr ⟨_, h1, h2, h4.symm⟩
    · split at hf
      · obtain ⟨h1, h2, _, h4⟩ := C29_oneway m (.inr ‹_›) sv sv' aes hmac sid hh
        exact .inr ⟨_, h1, h2, h4.symm⟩
      · cases hf

private theorem fits_tw (m : U32) (f : Fmt) (hf : fmtTW m = some f) (sv sv' : Bool) (aes hmac sid : Bytes) (hh : hmac.length = 32) :
    Fits f (initKeys m true false sv aes hmac sid) (initKeys m true true sv' aes hmac sid) ∧
      (f = .clear ∨ ∃ key, (initKeys m true true sv' aes hmac sid).replyKey = .forEnc key ∧
        (initKeys m true false sv aes hmac sid).replyKey = .forDec key ∧
        (initKeys m true true sv' aes hmac sid).hmacKey = (initKeys m true false sv aes hmac sid).hmacKey) := by
  unfold fmtTW at hf
  split at hf
  · exact ⟨.inl (Option.some.inj hf).symm, .inl (Option.some.inj hf).symm⟩
  · split at hf
    · obtain ⟨h1, h2, h3, h4, _, h6⟩ := C29_twoway m (.inl ‹_›) sv sv' aes hmac sid hh
      exact ⟨.inr ⟨_, h1, h2, h6.symm⟩, .inr ⟨_, h3, h4, h6⟩⟩
    · split at hf
      · obtain ⟨h1, h2, h3, h4, _, h6⟩ := C29_twoway m (.inr ‹_›) sv sv' aes hmac sid hh
        exact ⟨.inr ⟨_, h1, h2, h6.symm⟩, .inr ⟨_, h3, h4, h6⟩⟩
      · cases hf

/-- **C29.** After connection set-up (C20) the two ends hold the same session keys, so for one SID they compute the same
test keys for the same role. -/
theorem C29_linked (A B : Conn) (L : Linked A B) (hm : A.mode = B.mode) (sid : Bytes) (twoway server send : Bool) :
    initKeys A.mode twoway server send A.aesKey A.hmacKey sid = initKeys B.mode twoway server send B.aesKey B.hmacKey sid := by
  rw [← hm]
  by_cases hc : A.cipher = true
  · obtain ⟨h1, h2, _⟩ := L.1.2 hc
    rw [h1, h2]
  · have h6 : A.mode &&& 6#32 = 0#32 := by
      simp only [Conn.cipher, cipherMode, ne_eq, decide_not, Bool.not_eq_true, Bool.not_eq_false', decide_eq_true_eq] at hc
      have : A.mode &&& 6#32 = (A.mode &&& 14#32) &&& 6#32 := by rw [BitVec.and_assoc]; rfl
      rw [this, hc]; rfl
    simp only [initKeys, h6, ne_eq, not_true_eq_false, if_false]

/-! ## C28: a sender's packets -/

private theorem read_facts (f : Fmt) (P pad : Bytes) (seq : U32) (t : TimeStamp) (F : Facts f P seq t pad) :
    seqOf P = seq ∧ timeOf f P = t.owptime ∧ errOf f P = estimateRead t := by
  refine ⟨?_, readTime P (timeAt f) t.owptime F.time, readErr P (errAt f) t F.err⟩
  rw [seqOf, get32, F.seq, dec_enc32]

/-- **C28, one-way.** Whatever was in the payload buffer before, the receiver, with its own keys for the session,
accepts the digest of a sender's packet and reads from it the sequence number, time stamp and error estimate put there.
The scale is a 6 bit field; a stamp without estimate carries the largest one. -/
theorem C28_oneway_understood (H : Mac) (m : U32) (f : Fmt) (hf : fmtOW m = some f) (server server' : Bool)
    (aes hmac sid : Bytes) (hh : hmac.length = 32) (buf pad : Bytes) (hb : buf.length = payloadSize f pad.length)
    (seq : U32) (t : TimeStamp) :
    ∃ pkt P, sendPacket H f (initKeys m false server true aes hmac sid) buf pad seq t = some pkt ∧
      pkt.length = payloadSize f pad.length ∧
      openPacket H f (initKeys m false server' false aes hmac sid) pkt = .plain P ∧
      seqOf P = seq ∧ timeOf f P = t.owptime ∧ errOf f P = estimateRead t := by
  have hb' : buf.length = padAt f + pad.length := by rw [hb]; cases f <;> rfl
  obtain ⟨pkt, P, h1, h2, h3, h4⟩ := opened H f _ _ (fits_ow m f hf server server' aes hmac sid hh) buf pad seq t hb'
  exact ⟨pkt, P, h1, by rw [h2, hb], h3, read_facts f P pad seq t h4⟩

/-- **C28, two-way.** The same for the packets a client sends to a reflector. -/
theorem C28_twoway_understood (H : Mac) (m : U32) (f : Fmt) (hf : fmtTW m = some f) (send send' : Bool)
    (aes hmac sid : Bytes) (hh : hmac.length = 32) (buf pad : Bytes) (hb : buf.length = payloadSize f pad.length)
    (seq : U32) (t : TimeStamp) :
    ∃ pkt P, sendPacket H f (initKeys m true false send aes hmac sid) buf pad seq t = some pkt ∧
      pkt.length = payloadSize f pad.length ∧
      openPacket H f (initKeys m true true send' aes hmac sid) pkt = .plain P ∧
      seqOf P = seq ∧ timeOf f P = t.owptime ∧ errOf f P = estimateRead t := by
  have hb' : buf.length = padAt f + pad.length := by rw [hb]; cases f <;> rfl
  obtain ⟨pkt, P, h1, h2, h3, h4⟩ := opened H f _ _ (fits_tw m f hf send send' aes hmac sid hh).1 buf pad seq t hb'
  exact ⟨pkt, P, h1, by rw [h2, hb], h3, read_facts f P pad seq t h4⟩

/-- The packets a one-way sender puts on the network one after another, reusing the payload buffer. -/
def sendAllPackets (H : Mac) (f : Fmt) (e : Ep) : Bytes → List (Bytes × U32 × TimeStamp) → List (Option Bytes)
  | _, [] => []
  | buf, (pad, seq, t) :: ps =>
    let r := sendPacket H f e buf pad seq t
    r :: sendAllPackets H f e (r.getD buf) ps

/-- **C28, on the wire.** Starting from the zeroed payload buffer, every packet of a one-way sender has exactly the
layout of RFC 4656 section 4.1.2. In encrypted mode that is the ciphertext of the whole header, its digest and the
padding: no header byte travels in clear. -/
theorem C28_layout (H : Mac) (f : Fmt) (e : Ep) (key : Bytes) (hk : f = .clear ∨ e.aeskey = .forEnc key) (n : Nat)
    (ps : List (Bytes × U32 × TimeStamp)) (hp : ∀ p ∈ ps, p.1.length = n) :
    sendAllPackets H f e (zeros (payloadSize f n)) ps =
      ps.map fun p => some (senderPacket (H.hash e.hmacKey) key p.2.1 p.2.2.owptime (estimateOf p.2.2) p.1 f) := by
  suffices h : ∀ buf, buf.length = payloadSize f n → (f = .auth → get buf 26 6 = zeros 6) →
      sendAllPackets H f e buf ps =
        ps.map fun p => some (senderPacket (H.hash e.hmacKey) key p.2.1 p.2.2.owptime (estimateOf p.2.2) p.1 f) by
    refine h _ (by simp) ?_
    intro hf; subst hf
    exact get_zeros _ _ _ (by simp only [payloadSize]; omega)
  induction ps with
  | nil => intro _ _ _; rfl
  | cons p ps ih =>
    intro buf hb hz
    obtain ⟨pad, seq, t⟩ := p
    have hpad : pad.length = n := hp _ (.head _)
    have hel := estimateOf_length t
    have key1 : sendPacket H f e buf pad seq t =
        some (senderPacket (H.hash e.hmacKey) key seq t.owptime (estimateOf t) pad f) ∧
        (senderPacket (H.hash e.hmacKey) key seq t.owptime (estimateOf t) pad f).length = payloadSize f n ∧
        (f = .auth → get (senderPacket (H.hash e.hmacKey) key seq t.owptime (estimateOf t) pad f) 26 6 = zeros 6) := by
      cases f with
      | clear =>
        refine ⟨sendPacket_clear H e buf pad seq t (by rw [hb, hpad]; rfl), ?_, (fun h => by cases h)⟩
        simp [senderPacket, hel, hpad, payloadSize]; omega
      | auth =>
        have hk := hk.resolve_left (by simp)
        have hc := enc_auth_len key (enc32 seq ++ zeros 12) (by simp)
        have hm := mac_len H e.hmacKey (enc32 seq ++ zeros 12)
        have e1 := one_block key (enc32 seq ++ zeros 12) (by simp)
        have hz := hz rfl
        refine ⟨?_, ?_, ?_⟩
        · rw [sendPacket_auth H e key buf pad seq t (by rw [hb, hpad]; rfl) hk, hz, senderPacket, e1]
        · rw [senderPacket, e1]
          simp [hel, hc, hpad, payloadSize, H.len]; omega
        · intro _
          rw [senderPacket, e1]
          generalize (H.hash e.hmacKey (enc32 seq ++ zeros 12)).take 16 = M at *
          generalize estimateOf t = E at *
          generalize (Cbc.blockEncrypt key (zeros 16) (enc32 seq ++ zeros 12)).1 = C at *
          simp only [List.append_assoc]
          fields [hel, hc, hm]
      | enc =>
        have hk := hk.resolve_left (by simp)
        have ha : enc32 seq ++ zeros 12 ++ enc64 t.owptime ++ estimateOf t ++ zeros 6 =
            enc32 seq ++ zeros 12 ++ (enc64 t.owptime ++ estimateOf t ++ zeros 6) := by simp only [List.append_assoc]
        have hl : (enc32 seq ++ zeros 12 ++ (enc64 t.owptime ++ estimateOf t ++ zeros 6)).length = 16 * 2 := by simp [hel]
        have e1 := Cbc.blockEncrypt_cbc key (zeros 16) _ 2 hl
        refine ⟨?_, ?_, (fun h => by cases h)⟩
        · rw [sendPacket_enc H e key buf pad seq t (by rw [hb, hpad]; rfl) hk, senderPacket, ha, e1]
        · rw [senderPacket, ha, ← e1, List.length_append, List.length_append, mac_len, Cbc.blockEncrypt_length _ _ _ 2 hl,
            hpad]; rfl
    obtain ⟨k1, k2, k3⟩ := key1
    simp only [sendAllPackets, List.map_cons]
    rw [k1, Option.getD_some, ih (fun p hp' => hp p (.tail _ hp')) _ k2 k3]

/-! ## C57: reflected packets -/

/-- The reply to a packet that opened to `P`. -/
private theorem reflect_raw (H : Mac) (m : U32) (f : Fmt) (hf : fmtTW m = some f) (send send' : Bool)
    (aes hmac sid : Bytes) (hh : hmac.length = 32) (P pad : Bytes) (seq : U32) (ts : U64) (E1 : Bytes) (e1 : E1.length = 2)
    (est : ErrEst) (he : ∀ X o, get X o 2 = E1 → decodeErrEstimate (get8 X o) (get8 X (o + 1)) = est) (F : Raw f P seq ts E1 pad)
    (i : U32) (rcv now : TimeStamp) (ttl : Byte) (spare : Bytes) (hs : spare.length = twPayloadSize f 0 - payloadSize f 0) :
    ∃ reply, reflect H f (initKeys m true true send' aes hmac sid) (P ++ spare) P.length i rcv now ttl = some reply ∧
      reply.length = max (payloadSize f pad.length) (twPayloadSize f 0) ∧
      reply = replyPacket (H.hash (initKeys m true false send aes hmac sid).hmacKey) (Spec.AES.encrypt sid aes) i now.owptime
        (estimateOf now) rcv.owptime seq ts E1 ttl f ++
        pad.take (payloadSize f pad.length - twPayloadSize f 0) ∧
      ∀ rest, ∃ B, openReply H f (initKeys m true false send aes hmac sid) (reply ++ rest) = .plain B ∧
        readReply f B = { sndSeq := seq, sndTime := ts, sndErr := est, rcvTime := rcv.owptime,
                          ttl := ttl, seq := i, time := now.owptime, err := estimateRead now } := by
  have hft := fits_tw m f hf send send' aes hmac sid hh
  have e2 := estimateOf_length now
  have hkeyOf : ∀ {key}, (initKeys m true true send' aes hmac sid).replyKey = .forEnc key → f ≠ .clear → key = Spec.AES.encrypt sid aes := by
    intro key k1 hne
    have hm : m = 2#32 ∨ m = 4#32 := by
      unfold fmtTW at hf
      split at hf
      · exact (hne (Option.some.inj hf).symm).elim
      · split at hf
        · exact .inl ‹_›
        · split at hf
          · exact .inr ‹_›
          · cases hf
    have := (C29_twoway m hm send send' aes hmac sid hh).2.2.1
    rw [k1] at this
    exact KeyInst.forEnc.inj this
  cases f with
  | clear =>
    have hr := reflect_clear H (initKeys m true true send' aes hmac sid) P spare pad seq ts E1 e1 i rcv now ttl F (by rw [hs]; rfl)
    have hPe : P.length - 41 = payloadSize .clear pad.length - twPayloadSize .clear 0 := by rw [F.len]; rfl
    refine ⟨_, hr, ?_, ?_, ?_⟩
    · rw [F.len]
      simp only [payloadSize, twPayloadSize, padAt]
      simp [e1, e2]; omega
    · rw [hPe]; rfl
    · intro rest
      refine ⟨_, openReply_clear H _ _, ?_⟩
      rw [List.append_assoc]
      exact readReply_clear i ts E1 est e1 he rcv now seq ttl _
  | auth =>
    obtain ⟨key, k1, k2, k3⟩ := hft.2.resolve_left (by simp)
    have hkey := hkeyOf k1 (by simp)
    have hr := reflect_auth H _ key P spare pad seq ts E1 e1 i rcv now ttl F (by rw [hs]; rfl) k1
    have hPe : P.length - 112 = payloadSize .auth pad.length - twPayloadSize .auth 0 := by rw [F.len]; rfl
    have hc := enc_auth_len key (enc32 i ++ zeros 12) (by simp)
    have hm := mac_len H (initKeys m true true send' aes hmac sid).hmacKey (enc32 i ++ zeros 12)
    have e3 : Spec.AES.encrypt key (enc32 i ++ zeros 12) = (Cbc.blockEncrypt key (zeros 16) (enc32 i ++ zeros 12)).1 :=
      one_block key _ (by simp)
    refine ⟨_, hr, ?_, ?_, ?_⟩
    · rw [F.len]
      simp only [payloadSize, twPayloadSize, padAt, List.length_append, hc, hm, replyTail]
      simp [e1, e2]; omega
    · rw [hPe, ← hkey, replyPacket, e3, k3]
    · intro rest
      have ht : (replyTail now.owptime (estimateOf now) rcv.owptime seq ts E1 ttl).length = 80 := by
        simp [replyTail, e1, e2]
      have hop := openWith_auth H key (initKeys m true false send aes hmac sid).hmacKey (enc32 i ++ zeros 12)
        (replyTail now.owptime (estimateOf now) rcv.owptime seq ts E1 ttl ++
          ((H.hash (initKeys m true true send' aes hmac sid).hmacKey (enc32 i ++ zeros 12)).take 16 ++
            (pad.take (P.length - 112) ++ rest))) 80 96 (by simp) (by omega)
        (by
          rw [get_append_right _ _ _ _ (by omega), ht, get_zero_append _ _ 16 hm.symm, k3])
      rw [← k2] at hop
      have hrd := readReply_ciph .auth (by simp) i ts E1 est e1 he rcv now seq ttl
        ((H.hash (initKeys m true true send' aes hmac sid).hmacKey (enc32 i ++ zeros 12)).take 16 ++
            (pad.take (P.length - 112) ++ rest))
      refine ⟨_, ?_, hrd⟩
      unfold openReply
      simp only [List.append_assoc] at hop ⊢
      exact hop
  | enc =>
    obtain ⟨key, k1, k2, k3⟩ := hft.2.resolve_left (by simp)
    have hkey := hkeyOf k1 (by simp)
    have hr := reflect_enc H _ key P spare pad seq ts E1 e1 i rcv now ttl F (by rw [hs]; rfl) k1
    have hPe : P.length - 112 = payloadSize .enc pad.length - twPayloadSize .enc 0 := by rw [F.len]; rfl
    have ht : (replyTail now.owptime (estimateOf now) rcv.owptime seq ts E1 ttl).length = 16 * 5 := by
      simp [replyTail, e1, e2]
    have hc := Cbc.blockEncrypt_length key (zeros 16) (enc32 i ++ zeros 12 ++
      replyTail now.owptime (estimateOf now) rcv.owptime seq ts E1 ttl) 6 (by rw [List.length_append, ht]; simp)
    have hcb := Cbc.blockEncrypt_cbc key (zeros 16) (enc32 i ++ zeros 12 ++
      replyTail now.owptime (estimateOf now) rcv.owptime seq ts E1 ttl) 6 (by rw [List.length_append, ht]; simp)
    have hm := mac_len H (initKeys m true true send' aes hmac sid).hmacKey (enc32 i ++ zeros 12 ++
      replyTail now.owptime (estimateOf now) rcv.owptime seq ts E1 ttl)
    refine ⟨_, hr, ?_, ?_, ?_⟩
    · rw [F.len]
      simp only [payloadSize, twPayloadSize, padAt, List.length_append, hc, hm, List.length_take]
      omega
    · rw [hPe, ← hkey, replyPacket, hcb, k3]
    · intro rest
      have hop := openWith_enc H key (initKeys m true false send aes hmac sid).hmacKey (enc32 i ++ zeros 12)
        (replyTail now.owptime (estimateOf now) rcv.owptime seq ts E1 ttl)
        ((H.hash (initKeys m true true send' aes hmac sid).hmacKey (enc32 i ++ zeros 12 ++
          replyTail now.owptime (estimateOf now) rcv.owptime seq ts E1 ttl)).take 16 ++
            (pad.take (P.length - 112) ++ rest)) 5 80 96 (by simp) ht rfl (by omega)
        (by rw [k3] at *; exact get_zero_append _ _ 16 hm.symm)
      rw [← k2] at hop
      have hrd := readReply_ciph .enc (by simp) i ts E1 est e1 he rcv now seq ttl
        ((H.hash (initKeys m true true send' aes hmac sid).hmacKey (enc32 i ++ zeros 12 ++
          replyTail now.owptime (estimateOf now) rcv.owptime seq ts E1 ttl)).take 16 ++
            (pad.take (P.length - 112) ++ rest))
      refine ⟨_, ?_, hrd⟩
      unfold openReply
      rw [List.append_assoc, List.append_assoc, hop, List.append_assoc (enc32 i ++ zeros 12)]

/-- **C57.** A client's two-way packet, opened and reflected by the server and opened by the client: the reply has the
RFC 5357 layout, and the client reads from it its own sequence number, send time and error estimate, the reflector's
receive time, send time, sequence number and error estimate, and the TTL the reflector saw. The reply is as large as the
packet when the padding allows, and carries the start of the client's padding. `spare` and `rest` are what else the two
payload buffers hold. -/
theorem C57_reflected (H : Mac) (m : U32) (f : Fmt) (hf : fmtTW m = some f) (send send' : Bool)
    (aes hmac sid : Bytes) (hh : hmac.length = 32) (buf pad : Bytes) (hb : buf.length = payloadSize f pad.length)
    (seq i : U32) (t rcv now : TimeStamp) (ttl : Byte) (spare : Bytes)
    (hs : spare.length = twPayloadSize f 0 - payloadSize f 0) :
    ∃ pkt P reply, sendPacket H f (initKeys m true false send aes hmac sid) buf pad seq t = some pkt ∧
      openPacket H f (initKeys m true true send' aes hmac sid) pkt = .plain P ∧
      reflect H f (initKeys m true true send' aes hmac sid) (P ++ spare) pkt.length i rcv now ttl = some reply ∧
      reply.length = max (payloadSize f pad.length) (twPayloadSize f 0) ∧
      reply = replyPacket (H.hash (initKeys m true false send aes hmac sid).hmacKey) (Spec.AES.encrypt sid aes) i now.owptime
        (estimateOf now) rcv.owptime seq t.owptime (estimateOf t) ttl f ++
        pad.take (payloadSize f pad.length - twPayloadSize f 0) ∧
      ∀ rest, ∃ B, openReply H f (initKeys m true false send aes hmac sid) (reply ++ rest) = .plain B ∧
        readReply f B = { sndSeq := seq, sndTime := t.owptime, sndErr := estimateRead t, rcvTime := rcv.owptime,
                          ttl := ttl, seq := i, time := now.owptime, err := estimateRead now } := by
  have hb' : buf.length = padAt f + pad.length := by rw [hb]; cases f <;> rfl
  have hft := fits_tw m f hf send send' aes hmac sid hh
  obtain ⟨pkt, P, h1, h2, h3, F⟩ := opened H f _ _ hft.1 buf pad seq t hb'
  have hPl : P.length = pkt.length := by rw [h2, hb', F.len]
  obtain ⟨reply, r1, r2, r3, r4⟩ := reflect_raw H m f hf send send' aes hmac sid hh P pad seq t.owptime (estimateOf t) (estimateOf_length t)
    (estimateRead t) (fun X o h => readErr X o t h) F i rcv now ttl spare hs
  rw [hPl] at r1
  exact ⟨pkt, P, reply, h1, h3, r1, r2, r3, r4⟩

private theorem enc_dec32 (l : Bytes) (h : l.length = 4) : enc32 (BitVec.ofNat 32 (beDec l)) = l := by
  have h1 := beDec_lt l
  have h2 := beEnc_beDec l
  rw [h] at h1 h2
  rw [enc32, BitVec.toNat_ofNat, Nat.mod_eq_of_lt h1, h2]

private theorem enc_dec64 (l : Bytes) (h : l.length = 8) : enc64 (decodeTimeStamp l) = l := by
  have h1 := beDec_lt l
  have h2 := beEnc_beDec l
  rw [h] at h1 h2
  rw [decodeTimeStamp_eq _ (by omega), get64, get_all _ _ (by omega), enc64, BitVec.toNat_ofNat, Nat.mod_eq_of_lt h1, h2]

/-- **C57**, for whatever a reflector accepts: any datagram of the session's size that opens at the server is answered with a reply from which the client reads the number, time and error
estimate that were in the datagram (meaningful or not), the reflector's values and the TTL. -/
theorem C57_any (H : Mac) (m : U32) (f : Fmt) (hf : fmtTW m = some f) (send send' : Bool)
    (aes hmac sid : Bytes) (hh : hmac.length = 32) (D P : Bytes) (n : Nat) (hl : D.length = payloadSize f n)
    (ho : openPacket H f (initKeys m true true send' aes hmac sid) D = .plain P)
    (i : U32) (rcv now : TimeStamp) (ttl : Byte) (spare : Bytes) (hs : spare.length = twPayloadSize f 0 - payloadSize f 0) :
    ∃ reply, reflect H f (initKeys m true true send' aes hmac sid) (P ++ spare) D.length i rcv now ttl = some reply ∧
      reply.length = max (payloadSize f n) (twPayloadSize f 0) ∧
      ∀ rest, ∃ B, openReply H f (initKeys m true false send aes hmac sid) (reply ++ rest) = .plain B ∧
        readReply f B = { sndSeq := seqOf P, sndTime := timeOf f P, sndErr := errOf f P, rcvTime := rcv.owptime,
                          ttl := ttl, seq := i, time := now.owptime, err := estimateRead now } := by
  have hPl := openPacket_length H f _ D P n hl ho
  have hp : P.length = padAt f + n := by rw [hPl, hl]; cases f <;> rfl
  have hpos : padAt f ≥ 14 ∧ timeAt f + 8 ≤ padAt f ∧ errAt f + 2 ≤ padAt f := by cases f <;> decide
  have hg : (get P (padAt f) n).length = n := get_length _ _ _ (by omega)
  have he : ∀ X o, get X o 2 = get P (errAt f) 2 → decodeErrEstimate (get8 X o) (get8 X (o + 1)) = errOf f P := by
    intro X o h
    have h0 : get X o 1 = get P (errAt f) 1 := by
      have := congrArg (fun l => get l 0 1) h
      simpa only [get_get _ _ _ _ _ (show 0 + 1 ≤ 2 by omega), Nat.add_zero] using this
    have h1 : get X (o + 1) 1 = get P (errAt f + 1) 1 := by
      have := congrArg (fun l => get l 1 1) h
      simpa only [get_get _ _ _ _ _ (show 1 + 1 ≤ 2 by omega)] using this
    unfold errOf get8
    rw [h0, h1]
  have F : Raw f P (seqOf P) (timeOf f P) (get P (errAt f) 2) (get P (padAt f) n) :=
    ⟨by rw [hg]; exact hp, (enc_dec32 _ (get_length _ _ _ (by omega))).symm, (enc_dec64 _ (get_length _ _ _ (by omega))).symm, rfl, by rw [hg]⟩
  obtain ⟨reply, r1, r2, _, r4⟩ := reflect_raw H m f hf send send' aes hmac sid hh P _ _ _ _ (get_length _ _ _ (by omega))
    (errOf f P) he F i rcv now ttl spare hs
  rw [hPl] at r1
  rw [hg] at r2
  exact ⟨reply, r1, r2, r4⟩

/-! ## A concrete session -/

/-- A digest for examples that depends on key and text. -/
def demoPktMac : Mac := ⟨fun k x => (x ++ k ++ zeros 20).take 20, fun _ _ => by simp; omega⟩

def demoStamp : TimeStamp := ⟨0xE0000001_80000000, true, 7, 3⟩
def demoKeys (twoway server send : Bool) : Ep := initKeys 4#32 twoway server send (beEnc 16 1) (beEnc 32 2) (beEnc 16 3)

/-- An encrypted one-way packet: what is on the wire differs from the header, and the receiver reads the header. -/
theorem C28_example :
    ((sendPacket demoPktMac .enc (demoKeys false true true) (zeros 51) [1, 2, 3] 77 demoStamp).map fun pkt =>
      (pkt.length, decide (get pkt 0 4 = enc32 77),
        match openPacket demoPktMac .enc (demoKeys false false false) pkt with
        | .plain P => some (seqOf P, timeOf .enc P, errOf .enc P)
        | _ => none)) =
      some (51, false, some (77#32, 0xE000000180000000#64, ⟨true, 3#8, 7#8, true⟩)) := by
  decide +kernel

/-- With one bit of the digest changed the receiver refuses it; with a session key of another SID it refuses it too. -/
theorem C28_example_refused :
    ((sendPacket demoPktMac .enc (demoKeys false true true) (zeros 51) [1, 2, 3] 77 demoStamp).map fun pkt =>
      (openPacket demoPktMac .enc (demoKeys false false false) (put pkt 40 [1]),
        openPacket demoPktMac .enc (initKeys 4#32 false false false (beEnc 16 1) (beEnc 32 2) (beEnc 16 4)) pkt)) =
      some (.badDigest, .badDigest) := by
  decide +kernel

/-- A reflected packet. -/
theorem C57_example :
    ((sendPacket demoPktMac .enc (demoKeys true false true) (zeros 51) [1, 2, 3] 77 demoStamp).bind fun pkt =>
      match openPacket demoPktMac .enc (demoKeys true true false) pkt with
      | .plain P =>
        (reflect demoPktMac .enc (demoKeys true true false) (P ++ zeros 64) 51 5 demoStamp { demoStamp with scale := 9 } 60).bind fun r =>
          match openReply demoPktMac .enc (demoKeys true false true) r with
          | .plain B => some (r.length, readReply .enc B)
          | _ => none
      | _ => none) =
      some (112, { sndSeq := 77, sndTime := 0xE000000180000000#64, sndErr := ⟨true, 3#8, 7#8, true⟩,
                   rcvTime := 0xE000000180000000#64, ttl := 60, seq := 5, time := 0xE000000180000000#64,
                   err := ⟨true, 9#8, 7#8, true⟩ }) := by
  decide +kernel

end Owamp.Props
