import Verif.Props.Packet
import Verif.Props.Schedule
import Verif.Model.Sizes
import Verif.Lemmas.Stream
/-!
# C59: packet sizes and rates
-/
namespace Owamp.Props
open Owamp.Ctl Owamp.Time Owamp.Pkt Owamp.Spec.Packet Owamp.Sched

/-! ## Sizes -/

theorem head_fmt {m : U32} {f : Fmt} (hf : fmtTW m = some f) :
    (Sizes.headSize m).toNat = payloadSize f 0 ∧ (Sizes.twHeadSize m).toNat = twPayloadSize f 0 := by
  unfold fmtTW at hf
  unfold Sizes.headSize Sizes.twHeadSize
  split at hf
  · rename_i h
    injection hf with hf; subst hf
    rw [if_pos h, if_pos h]; exact ⟨rfl, rfl⟩
  · rename_i h
    rw [if_neg h, if_neg h]
    split at hf
    · rename_i h2
      injection hf with hf; subst hf
      rw [if_pos (.inl h2), if_pos (.inl h2)]; exact ⟨rfl, rfl⟩
    · split at hf
      · rename_i h2
        injection hf with hf; subst hf
        rw [if_pos (.inr h2), if_pos (.inr h2)]; exact ⟨rfl, rfl⟩
      · cases hf

theorem fmtTW_of_OW {m : U32} {f : Fmt} (hf : fmtOW m = some f) : fmtTW m = some f := by
  unfold fmtOW at hf
  unfold fmtTW
  split at hf
  · rename_i h; rw [if_pos (.inl h)]; exact hf
  · rename_i h
    split at hf
    · rename_i h2
      subst h2
      exact hf
    · split at hf
      · rename_i h3
        subst h3
        exact hf
      · cases hf

theorem payloadSize_add (f : Fmt) (n : Nat) : payloadSize f n = payloadSize f 0 + n := by
  cases f <;> simp [payloadSize]

theorem payloadSize_zero_le (f : Fmt) : payloadSize f 0 ≤ 48 := by cases f <;> decide

/-- **C59.** The payload size computed for a session, for every mode the packet code knows, is that of the header in
that mode and the padding.

Missing for all paddings: the sum wraps for a padding of 2^32 − 48 or more, see `C59_wraps`. -/
theorem C59_payload_partial (m padding : U32) (f : Fmt) (hf : fmtTW m = some f) (hp : padding.toNat + 48 < 2 ^ 32) :
    Sizes.lenPayload m padding = payloadSize f padding.toNat := by
  have h := (head_fmt hf).1
  have hle := payloadSize_zero_le f
  unfold Sizes.lenPayload Sizes.payloadSize
  rw [BitVec.toNat_add, h, payloadSize_add f padding.toNat, Nat.mod_eq_of_lt]
  omega

theorem sendPacket_length (H : Mac) (f : Fmt) (e : Ep) (key : Bytes) (hk : f = .clear ∨ e.aeskey = .forEnc key) (buf pad : Bytes)
    (seq : U32) (t : TimeStamp) (hb : buf.length = payloadSize f pad.length) :
    ∃ pkt, sendPacket H f e buf pad seq t = some pkt ∧ pkt.length = payloadSize f pad.length := by
  have hel : (errBytes t).length = 2 := by rw [errBytes_eq]; exact estimateOf_length t
  have htl : (encodeTimeStamp t).length = 8 := by rw [encodeTimeStamp_eq]; simp [enc64]
  cases f with
  | clear =>
    have hb : buf.length = 14 + pad.length := hb
    refine ⟨_, rfl, ?_⟩
    show (put (put (put32 (put buf 14 pad) 0 seq) 4 (encodeTimeStamp t)) 12 (errBytes t)).length = 14 + pad.length
    have l1 := put_length buf pad 14 (by omega)
    have l2 : (put32 (put buf 14 pad) 0 seq).length = (put buf 14 pad).length :=
      put_length _ _ 0 (by rw [enc32, beEnc_length]; omega)
    have l3 := put_length (put32 (put buf 14 pad) 0 seq) (encodeTimeStamp t) 4 (by omega)
    have l4 := put_length (put (put32 (put buf 14 pad) 0 seq) 4 (encodeTimeStamp t)) (errBytes t) 12 (by omega)
    omega
  | auth =>
    have hb : buf.length = 48 + pad.length := hb
    have hk := hk.resolve_left (by simp)
    have hc := enc_auth_len key (get (put32 (zeros 32) 0 seq) 0 16) (get_length _ _ _ (by
      have := put_length (zeros 32) (enc32 seq) 0 (by simp [enc32])
      rw [zeros_length] at this
      show 0 + 16 ≤ (put (zeros 32) 0 (enc32 seq)).length
      omega))
    have hm := mac_len H e.hmacKey (get (put32 (zeros 32) 0 seq) 0 16)
    have l1 := put_length buf pad 48 (by omega)
    unfold sendPacket
    dsimp only
    rw [hk]
    refine ⟨_, rfl, ?_⟩
    generalize Cbc.blockEncrypt key (zeros 16) (get (put32 (zeros 32) 0 seq) 0 16) = c at *
    generalize (H.hash e.hmacKey (get (put32 (zeros 32) 0 seq) 0 16)).take 16 = M at *
    generalize put buf 48 pad = b1 at *
    dsimp only
    have l2 := put_length b1 c.1 0 (by omega)
    generalize put b1 0 c.1 = b2 at *
    have l3 := put_length b2 (encodeTimeStamp t) 16 (by omega)
    generalize put b2 16 (encodeTimeStamp t) = b3 at *
    have l4 := put_length b3 (errBytes t) 24 (by omega)
    generalize put b3 24 (errBytes t) = b4 at *
    have l5 := put_length b4 M 32 (by omega)
    rw [l5]
    show b4.length = 48 + pad.length
    omega
  | enc =>
    have hb : buf.length = 48 + pad.length := hb
    have hk := hk.resolve_left (by simp)
    have z1 := put_length (zeros 32) (enc32 seq) 0 (by simp [enc32])
    rw [zeros_length] at z1
    unfold sendPacket
    dsimp only
    rw [hk]
    unfold put32
    generalize put (zeros 32) 0 (enc32 seq) = clr at *
    have hc := enc_auth_len key (get clr 0 16) (get_length _ _ _ (by omega))
    have z2 := put_length clr (encodeTimeStamp t) 16 (by omega)
    have l1 := put_length buf pad 48 (by omega)
    simp only [KeyInst.encrypt, Option.bind_some, Option.map_some]
    generalize Cbc.blockEncrypt key (zeros 16) (get clr 0 16) = c at *
    generalize put clr 16 (encodeTimeStamp t) = clr2 at *
    have z3 := put_length clr2 (errBytes t) 24 (by omega)
    generalize put clr2 24 (errBytes t) = clr3 at *
    have hg : (get clr3 16 16).length = 16 * 1 := get_length _ _ _ (by omega)
    have hc2 := Cbc.blockEncrypt_length key c.2 (get clr3 16 16) 1 hg
    refine ⟨_, rfl, ?_⟩
    have hm := mac_len H e.hmacKey (get clr3 0 16 ++ get clr3 16 16)
    generalize (H.hash e.hmacKey (get clr3 0 16 ++ get clr3 16 16)).take 16 = M at *
    generalize Cbc.blockEncrypt key c.2 (get clr3 16 16) = c2 at *
    generalize put buf 48 pad = b1 at *
    have l2 := put_length b1 c.1 0 (by omega)
    generalize put b1 0 c.1 = b2 at *
    have l3 := put_length b2 c2.1 16 (by omega)
    generalize put b2 16 c2.1 = b3 at *
    have l4 := put_length b3 M 32 (by omega)
    rw [l4]
    show b3.length = 48 + pad.length
    omega

/-- **C59.** Every packet a sender builds in the buffer that `_OWPEndpointInit` allocates is as long as the computed
payload size, which is also what it hands to `sendto` and what a receiver asks for.

Missing: paddings for which the size wraps. -/
theorem C59_emitted_partial (H : Mac) (m padding : U32) (f : Fmt) (hf : fmtOW m = some f) (hp : padding.toNat + 48 < 2 ^ 32)
    (e : Ep) (key : Bytes) (hk : f = .clear ∨ e.aeskey = .forEnc key) (ps : List (Bytes × U32 × TimeStamp))
    (hps : ∀ p ∈ ps, p.1.length = padding.toNat) :
    ∀ r ∈ sendAllPackets H f e (zeros (Sizes.allocated false m padding)) ps,
      ∃ pkt, r = some pkt ∧ pkt.length = Sizes.lenPayload m padding := by
  have hlen := C59_payload_partial m padding f (fmtTW_of_OW hf) hp
  have ha : Sizes.allocated false m padding = payloadSize f padding.toNat := by
    unfold Sizes.allocated
    simp [hlen]
  rw [ha, hlen]
  have hz : (zeros (payloadSize f padding.toNat)).length = payloadSize f padding.toNat := zeros_length _
  generalize zeros (payloadSize f padding.toNat) = buf at *
  induction ps generalizing buf with
  | nil => intro r hr; cases hr
  | cons p ps ih =>
    intro r hr
    obtain ⟨pad, seq, t⟩ := p
    have hpad : pad.length = padding.toNat := hps _ (List.mem_cons_self)
    obtain ⟨pkt, h1, h2⟩ := sendPacket_length H f e key hk buf pad seq t (by rw [hpad]; exact hz)
    rw [hpad] at h2
    rw [sendAllPackets] at hr
    rw [h1] at hr
    rcases List.mem_cons.1 hr with rfl | hr
    · exact ⟨pkt, rfl, h2⟩
    · exact ih (fun p hp => hps p (List.mem_cons_of_mem _ hp)) pkt h2 r hr

/-- What follows the header is carried along. -/
def Carried (x : Bytes) : Opened → Opened
  | .plain b => .plain (b ++ x)
  | o => o

theorem put_append (a x b : Bytes) (o : Nat) (h : o + b.length ≤ a.length) : put (a ++ x) o b = put a o b ++ x := by
  unfold put
  rw [List.take_append_of_le_length (by omega), List.drop_append_of_le_length (by omega)]
  simp

theorem blockDecrypt_length (key iv c : Bytes) (n : Nat) (h : c.length = 16 * n) (hi : iv.length = 16) :
    (Cbc.blockDecrypt key iv c).1.length = 16 * n ∧ (Cbc.blockDecrypt key iv c).2.length = 16 := by
  unfold Cbc.blockDecrypt
  have e : c.length * 8 / 128 = n := by omega
  rw [e]
  exact Cbc.decLoop_length key n iv c hi h

theorem openWith_carried (H : Mac) (f : Fmt) (k : KeyInst) (hk : Bytes) (n at' : Nat) (h x : Bytes)
    (hat : at' + 16 ≤ h.length) (hn : 16 + 16 * n ≤ at') :
    openWith H f k hk (16 * n) at' (h ++ x) = Carried x (openWith H f k hk (16 * n) at' h) := by
  cases f with
  | clear => rfl
  | auth =>
    unfold openWith
    dsimp only
    rw [get_append_left _ _ _ _ (by omega)]
    cases k with
    | unset => rfl
    | forEnc key => rfl
    | forDec key =>
      obtain ⟨hl, hiv⟩ := blockDecrypt_length key (zeros 16) (get h 0 16) 1 (get_length _ _ _ (by omega)) (by simp)
      show (if _ then _ else _) = Carried x (if _ then _ else _)
      generalize Cbc.blockDecrypt key (zeros 16) (get h 0 16) = d at *
      have lp := put_length h d.1 0 (by omega)
      rw [put_append _ _ _ _ (by omega), get_append_left _ _ _ _ (by omega), get_append_left _ _ _ _ (by omega)]
      generalize put h 0 d.1 = b at *
      split <;> rfl
  | enc =>
    unfold openWith
    dsimp only
    rw [get_append_left _ _ _ _ (by omega)]
    cases k with
    | unset => rfl
    | forEnc key => rfl
    | forDec key =>
      obtain ⟨hl, hiv⟩ := blockDecrypt_length key (zeros 16) (get h 0 16) 1 (get_length _ _ _ (by omega)) (by simp)
      show (if _ then _ else _) = Carried x (if _ then _ else _)
      generalize Cbc.blockDecrypt key (zeros 16) (get h 0 16) = d at *
      have lp := put_length h d.1 0 (by omega)
      rw [put_append _ _ _ _ (by omega)]
      generalize put h 0 d.1 = b at *
      rw [get_append_left b x 16 (16 * n) (by omega)]
      obtain ⟨hl2, _⟩ := blockDecrypt_length key d.2 (get b 16 (16 * n)) n (get_length _ _ _ (by omega)) hiv
      generalize Cbc.blockDecrypt key d.2 (get b 16 (16 * n)) = d2 at *
      have lp2 := put_length b d2.1 16 (by omega)
      rw [put_append b x d2.1 16 (by omega)]
      generalize put b 16 d2.1 = b2 at *
      rw [get_append_left b2 x at' 16 (by omega), get_append_left b2 x 0 16 (by omega),
        get_append_left b2 x 16 (16 * n) (by omega)]
      split <;> rfl

theorem openWith_plain_length (H : Mac) (f : Fmt) (k : KeyInst) (hk : Bytes) (n at' : Nat) (h P : Bytes)
    (hn : 16 + 16 * n ≤ h.length) (hop : openWith H f k hk (16 * n) at' h = .plain P) : P.length = h.length := by
  cases f with
  | clear => injection hop with hop; rw [hop]
  | auth =>
    unfold openWith at hop
    dsimp only at hop
    cases k with
    | unset => cases hop
    | forEnc key => cases hop
    | forDec key =>
      obtain ⟨hl, hiv⟩ := blockDecrypt_length key (zeros 16) (get h 0 16) 1 (get_length _ _ _ (by omega)) (by simp)
      change (if _ then _ else _) = _ at hop
      split at hop
      · injection hop with hop
        rw [← hop, put_length _ _ _ (by omega)]
      · cases hop
  | enc =>
    unfold openWith at hop
    dsimp only at hop
    cases k with
    | unset => cases hop
    | forEnc key => cases hop
    | forDec key =>
      obtain ⟨hl, hiv⟩ := blockDecrypt_length key (zeros 16) (get h 0 16) 1 (get_length _ _ _ (by omega)) (by simp)
      change (if _ then _ else _) = _ at hop
      generalize Cbc.blockDecrypt key (zeros 16) (get h 0 16) = d at *
      have lp := put_length h d.1 0 (by omega)
      generalize put h 0 d.1 = b at *
      obtain ⟨hl2, _⟩ := blockDecrypt_length key d.2 (get b 16 (16 * n)) n (get_length _ _ _ (by omega)) hiv
      generalize Cbc.blockDecrypt key d.2 (get b 16 (16 * n)) = d2 at *
      split at hop
      · injection hop with hop
        rw [← hop, put_length _ _ _ (by omega), lp]
      · cases hop

/-- **C59.** The computed size without padding holds every field that a receiver or reflector reads: for whatever follows
those bytes (padding, or memory after the buffer), the packet is opened in the same way and gives the same sequence
number, time and error estimate. -/
theorem C59_reader_enough (H : Mac) (m : U32) (f : Fmt) (hf : fmtTW m = some f) (e : Ep) (h x : Bytes)
    (hh : h.length = Sizes.lenPayload m 0#32) :
    openPacket H f e (h ++ x) = Carried x (openPacket H f e h) ∧
    ∀ P, openPacket H f e h = .plain P → P.length = h.length ∧
      seqOf (P ++ x) = seqOf P ∧ timeOf f (P ++ x) = timeOf f P ∧ errOf f (P ++ x) = errOf f P := by
  rw [C59_payload_partial m 0#32 f hf (by decide)] at hh
  have h14 : 14 ≤ h.length := by rw [hh]; cases f <;> decide
  have key : f ≠ .clear → h.length = 48 := by intro hc; rw [hh]; cases f <;> first | rfl | exact absurd rfl hc
  have hlen : ∀ P, openPacket H f e h = .plain P → P.length = h.length := by
    intro P hP
    cases f with
    | clear => injection hP with hP; rw [hP]
    | auth => have := key (by simp); exact openWith_plain_length H .auth e.aeskey e.hmacKey 1 32 h P (by omega) hP
    | enc => have := key (by simp); exact openWith_plain_length H .enc e.aeskey e.hmacKey 1 32 h P (by omega) hP
  constructor
  · cases f with
    | clear => rfl
    | auth => have := key (by simp); exact openWith_carried H .auth e.aeskey e.hmacKey 1 32 h x (by omega) (by omega)
    | enc => have := key (by simp); exact openWith_carried H .enc e.aeskey e.hmacKey 1 32 h x (by omega) (by omega)
  · intro P hP
    have hl := hlen P hP
    refine ⟨hl, ?_, ?_, ?_⟩
    · unfold seqOf get32
      rw [get_append_left _ _ _ _ (by omega)]
    · have : timeAt f + 8 ≤ P.length := by
        rw [hl, hh]; cases f <;> decide
      unfold timeOf
      rw [get_append_left _ _ _ _ this]
    · have : errAt f + 2 ≤ P.length := by
        rw [hl, hh]; cases f <;> decide
      unfold errOf get8
      rw [get_append_left _ _ _ _ (by omega), get_append_left _ _ _ _ (by omega)]

/-- **C59.** The same for the replies of a reflector and the size of a reply without padding. -/
theorem C59_reply_enough (H : Mac) (m : U32) (f : Fmt) (hf : fmtTW m = some f) (e : Ep) (h x : Bytes)
    (hh : h.length = (Sizes.twPayloadSize m 0#32).toNat) :
    openReply H f e (h ++ x) = Carried x (openReply H f e h) ∧
    ∀ P, openReply H f e h = .plain P → P.length = h.length ∧ readReply f (P ++ x) = readReply f P := by
  have hh : h.length = twPayloadSize f 0 := by
    rw [hh, Sizes.twPayloadSize, BitVec.add_zero, (head_fmt hf).2]
  have hlen : ∀ P, openReply H f e h = .plain P → P.length = h.length := by
    intro P hP
    cases f with
    | clear => injection hP with hP; rw [hP]
    | auth =>
      have hh : h.length = 112 := hh
      exact openWith_plain_length H .auth e.replyKey e.hmacKey 5 96 h P (by omega) hP
    | enc =>
      have hh : h.length = 112 := hh
      exact openWith_plain_length H .enc e.replyKey e.hmacKey 5 96 h P (by omega) hP
  constructor
  · cases f with
    | clear => rfl
    | auth =>
      have hh : h.length = 112 := hh
      exact openWith_carried H .auth e.replyKey e.hmacKey 5 96 h x (by omega) (by omega)
    | enc =>
      have hh : h.length = 112 := hh
      exact openWith_carried H .enc e.replyKey e.hmacKey 5 96 h x (by omega) (by omega)
  · intro P hP
    have hl := hlen P hP
    refine ⟨hl, ?_⟩
    cases f with
    | clear =>
      have hh : h.length = 41 := hh
      simp only [readReply, get32, get8]
      rw [get_append_left _ _ 24 4 (by omega), get_append_left _ _ 28 8 (by omega), get_append_left _ _ 36 1 (by omega),
        get_append_left _ _ 37 1 (by omega), get_append_left _ _ 16 8 (by omega), get_append_left _ _ 40 1 (by omega),
        get_append_left _ _ 0 4 (by omega), get_append_left _ _ 4 8 (by omega), get_append_left _ _ 12 1 (by omega),
        get_append_left _ _ 13 1 (by omega)]
    | auth =>
      have hh : h.length = 112 := hh
      simp only [readReply, get32, get8]
      rw [get_append_left _ _ 48 4 (by omega), get_append_left _ _ 64 8 (by omega), get_append_left _ _ 72 1 (by omega),
        get_append_left _ _ 73 1 (by omega), get_append_left _ _ 32 8 (by omega), get_append_left _ _ 80 1 (by omega),
        get_append_left _ _ 0 4 (by omega), get_append_left _ _ 16 8 (by omega), get_append_left _ _ 24 1 (by omega),
        get_append_left _ _ 25 1 (by omega)]
    | enc =>
      have hh : h.length = 112 := hh
      simp only [readReply, get32, get8]
      rw [get_append_left _ _ 48 4 (by omega), get_append_left _ _ 64 8 (by omega), get_append_left _ _ 72 1 (by omega),
        get_append_left _ _ 73 1 (by omega), get_append_left _ _ 32 8 (by omega), get_append_left _ _ 80 1 (by omega),
        get_append_left _ _ 0 4 (by omega), get_append_left _ _ 16 8 (by omega), get_append_left _ _ 24 1 (by omega),
        get_append_left _ _ 25 1 (by omega)]

theorem tw_diff (f : Fmt) : payloadSize f 0 ≤ twPayloadSize f 0 ∧ twPayloadSize f 0 ≤ 112 := by cases f <;> decide

/-- **C59.** For a two-way session the allocation is the size of a packet and the difference of the two headers: it holds the
packet, what the reflector sends back and what the client is ready to receive.

Missing: paddings for which the size wraps. -/
theorem C59_allocated_partial (m padding : U32) (f : Fmt) (hf : fmtTW m = some f) (hp : padding.toNat + 48 < 2 ^ 32) :
    Sizes.allocated true m padding = payloadSize f padding.toNat + (twPayloadSize f 0 - payloadSize f 0) ∧
    Sizes.lenPayload m padding ≤ Sizes.allocated true m padding ∧
    Sizes.replyLen m padding ≤ Sizes.allocated true m padding ∧
    Sizes.replyExpected m padding = Sizes.allocated true m padding := by
  obtain ⟨h1, h2⟩ := head_fmt hf
  have hl := C59_payload_partial m padding f hf hp
  obtain ⟨d1, d2⟩ := tw_diff f
  have e1 : (Sizes.payloadSize m 0#32).toNat = payloadSize f 0 := by rw [Sizes.payloadSize, BitVec.add_zero, h1]
  have e2 : (Sizes.twPayloadSize m 0#32).toNat = twPayloadSize f 0 := by rw [Sizes.twPayloadSize, BitVec.add_zero, h2]
  have e3 : (Sizes.twPayloadSize m 0#32 - Sizes.payloadSize m 0#32).toNat = twPayloadSize f 0 - payloadSize f 0 := by
    rw [BitVec.toNat_sub_of_le (by rw [BitVec.le_def, e1, e2]; exact d1), e1, e2]
  have hadd := payloadSize_add f padding.toNat
  have ha : Sizes.allocated true m padding = payloadSize f padding.toNat + (twPayloadSize f 0 - payloadSize f 0) := by
    unfold Sizes.allocated
    dsimp only
    rw [if_pos rfl, hl, e1, e2]
    have : (payloadSize f padding.toNat + twPayloadSize f 0 + 2 ^ 64 - payloadSize f 0) % 2 ^ 64 =
        payloadSize f padding.toNat + (twPayloadSize f 0 - payloadSize f 0) := by omega
    rw [this]
    omega
  refine ⟨ha, by omega, ?_, ?_⟩
  · unfold Sizes.replyLen
    rw [ha, hl, e2]; omega
  · unfold Sizes.replyExpected
    rw [ha, hl, e3]; omega

/-- Full statement that fails: the client of a two-way session knows how long the reply is. It asks for the packet and
the difference of the headers, always, while the reflector takes that difference from the padding: the two agree only if
there is no padding. (`run_tw_test` then relies on `errno` still being `EINTR`, endpoint.c:3515.) -/
theorem C59_reply_mismatch (m padding : U32) (f : Fmt) (hf : fmtTW m = some f) (hp : padding.toNat + 48 < 2 ^ 32) :
    Sizes.replyLen m padding = Sizes.replyExpected m padding ↔ padding = 0#32 := by
  obtain ⟨h1, _, _, h4⟩ := C59_allocated_partial m padding f hf hp
  obtain ⟨d1, d2⟩ := tw_diff f
  have hne : payloadSize f 0 < twPayloadSize f 0 := by cases f <;> decide
  have hl := C59_payload_partial m padding f hf hp
  have hadd := payloadSize_add f padding.toNat
  have e2 : (Sizes.twPayloadSize m 0#32).toNat = twPayloadSize f 0 := by
    rw [Sizes.twPayloadSize, BitVec.add_zero, (head_fmt hf).2]
  rw [h4, h1]
  unfold Sizes.replyLen
  rw [hl, e2]
  constructor
  · intro h
    apply BitVec.eq_of_toNat_eq
    show padding.toNat = 0
    omega
  · rintro rfl
    show max (payloadSize f 0) _ = payloadSize f 0 + _
    omega

/-- The reply as built by the model of `run_reflector` has the length `replyLen` (see `C57_reflected`). -/
theorem C59_reply_length_partial (m padding : U32) (f : Fmt) (hf : fmtTW m = some f) (hp : padding.toNat + 48 < 2 ^ 32) :
    Sizes.replyLen m padding = max (payloadSize f padding.toNat) (twPayloadSize f 0) := by
  unfold Sizes.replyLen
  rw [C59_payload_partial m padding f hf hp, Sizes.twPayloadSize, BitVec.add_zero, (head_fmt hf).2]

/-- **C59.** The test for an overflow of the packet size never fires, whatever the padding: it converts the size to an `int`
and back. -/
theorem C59_check_never_fires (twoway : Bool) (af : Sizes.Family) (m padding : U32) :
    Sizes.bufferSize twoway af m padding ≠ none := by
  unfold Sizes.bufferSize
  dsimp only
  rw [if_neg]
  · simp
  · intro h; exact h (BitVec.ofInt_toInt)

/-- Full statement that fails: the payload has room for the header. A request with a padding of 2^32 − 11 makes the payload
of an open session 3 bytes, and that is all that is allocated for packets with a header of 14 bytes; the test for an
overflow passes. -/
theorem C59_wraps :
    Sizes.lenPayload 1#32 0xFFFFFFF5#32 = 3 ∧ Sizes.allocated false 1#32 0xFFFFFFF5#32 = 3 ∧
    payloadSize .clear 0 = 14 ∧ Sizes.bufferSize false .inet 1#32 0xFFFFFFF5#32 = some 159 := by decide

/-- **C59.** In general: the allocation for a one-way session is smaller than the header exactly for those paddings. -/
theorem C59_wraps_iff (m padding : U32) (f : Fmt) (hf : fmtOW m = some f) :
    Sizes.allocated false m padding < payloadSize f 0 ↔ 2 ^ 32 ≤ payloadSize f 0 + padding.toNat := by
  have h := (head_fmt (fmtTW_of_OW hf)).1
  have hle := payloadSize_zero_le f
  have hpl := padding.isLt
  have ha : Sizes.allocated false m padding = (payloadSize f 0 + padding.toNat) % 2 ^ 32 := by
    unfold Sizes.allocated Sizes.lenPayload Sizes.payloadSize
    simp [BitVec.toNat_add, h]
  rw [ha]
  omega

/-- **C59.** The size of the IP packet: header of IP (20 or 40 bytes), header of UDP (8 bytes) and payload. -/
theorem C59_packet_partial (m padding : U32) (f : Fmt) (hf : fmtTW m = some f) (hp : padding.toNat + 96 < 2 ^ 32) :
    (Sizes.packetSize .inet m padding).toNat = 20 + 8 + payloadSize f padding.toNat ∧
    (Sizes.packetSize .inet6 m padding).toNat = 40 + 8 + payloadSize f padding.toNat ∧
    Sizes.packetSize .other m padding = 0#32 := by
  have hl := C59_payload_partial m padding f hf (by omega)
  have hadd := payloadSize_add f padding.toNat
  have hle := payloadSize_zero_le f
  have hpos : 14 ≤ payloadSize f 0 := by cases f <;> decide
  unfold Sizes.lenPayload at hl
  have hne : Sizes.payloadSize m padding ≠ 0#32 := by
    intro h; rw [h] at hl
    have : (0 : Nat) = payloadSize f padding.toNat := hl
    omega
  refine ⟨?_, ?_, rfl⟩
  · show (if Sizes.payloadSize m padding = 0#32 then 0#32 else Sizes.payloadSize m padding + (20#32 + 8#32)).toNat = _
    rw [if_neg hne, BitVec.toNat_add, hl, Nat.mod_eq_of_lt]
    · show _ + 28 = _; omega
    · show _ + 28 < _; omega
  · show (if Sizes.payloadSize m padding = 0#32 then 0#32 else Sizes.payloadSize m padding + (40#32 + 8#32)).toNat = _
    rw [if_neg hne, BitVec.toNat_add, hl, Nat.mod_eq_of_lt]
    · show _ + 48 = _; omega
    · show _ + 48 < _; omega

example : fmtOW 4#32 = some .enc ∧ (1000#32).toNat + 96 < 2 ^ 32 ∧ Sizes.lenPayload 4#32 1000#32 = 1048 ∧
    (Sizes.packetSize .inet6 4#32 1000#32).toNat = 1096 ∧ Sizes.replyLen 4#32 1000#32 = 1048 ∧
    Sizes.replyExpected 4#32 1000#32 = 1112 := by decide

/-! ## Rates -/

theorem duration_foldl (slots : List Slot) (d : U64) :
    (slots.foldl (fun d s => d + Sizes.meanDelay s) d).toNat = (d.toNat + (slots.map fun s => (Sizes.meanDelay s).toNat).sum) % 2 ^ 64 := by
  induction slots generalizing d with
  | nil => simp; exact (Nat.mod_eq_of_lt d.isLt).symm
  | cons s ss ih =>
    rw [List.foldl_cons, ih, BitVec.toNat_add, List.map_cons, List.sum_cons, ← Nat.add_assoc]
    simp [Nat.add_mod]

/-- **C59.** The packet rate of a test is the number of slots over the sum of their mean delays in seconds.

Missing: a sum of delays of 0 or more than 2^64 units, see `C59_no_delay_is_free` and `C59_sum_wraps`. -/
theorem C59_rate_partial (slots : List Slot) (h0 : 0 < (slots.map fun s => (Sizes.meanDelay s).toNat).sum)
    (h1 : (slots.map fun s => (Sizes.meanDelay s).toNat).sum < 2 ^ 64) :
    Sizes.packetRate slots * (((slots.map fun s => (Sizes.meanDelay s).toNat).sum : Rat) / (2 ^ 32 : Nat)) = slots.length := by
  have hd : (Sizes.duration slots).toNat = (slots.map fun s => (Sizes.meanDelay s).toNat).sum := by
    unfold Sizes.duration
    rw [duration_foldl]
    show (0 + _) % _ = _
    rw [Nat.zero_add, Nat.mod_eq_of_lt h1]
  have hne : Sizes.duration slots ≠ 0#64 := by
    intro h; rw [h] at hd
    have : (0 : Nat) = _ := hd
    omega
  have hl : slots.length ≠ 0 := by
    intro h
    have := List.length_eq_zero_iff.1 h
    subst this
    exact absurd h0 (by decide)
  unfold Sizes.packetRate
  rw [if_neg hl, if_neg hne, hd]
  generalize (slots.map fun s => (Sizes.meanDelay s).toNat).sum = D at *
  generalize hx : ((D : Rat) / (2 ^ 32 : Nat)) = x
  have hxn : x ≠ 0 := by
    rw [← hx]
    intro h
    have hD : (0 : Rat) < (D : Rat) := by
      have := Rat.natCast_lt_natCast.2 h0
      exact this
    have h32 : (0 : Rat) < ((2 ^ 32 : Nat) : Rat) := by
      have := Rat.natCast_lt_natCast (a := 0) (b := 2 ^ 32) |>.2 (by decide)
      exact this
    have h2 : (D : Rat) / ((2 ^ 32 : Nat) : Rat) * ((2 ^ 32 : Nat) : Rat) = (D : Rat) :=
      Rat.div_mul_cancel (fun h => by rw [h] at h32; exact absurd h32 (by decide))
    rw [h, Rat.zero_mul] at h2
    rw [← h2] at hD
    exact absurd hD (by decide)
  exact Rat.div_mul_cancel hxn

/-- **C59.** For a schedule of literal slots the rate is what the schedule does: in every whole number of rounds through the
slots, the number of packets sent is the rate times the time that has passed (in seconds). -/
theorem C59_rate_literal_partial (E : Bytes → Bytes → Bytes) (sid : Bytes) (l : List U64) (np : U32)
    (c : Ctx) (hc : create sid ⟨np, l.map Slot.literal⟩ = some c) (k : Nat) (hp : (k + 1) * l.length ≤ np.toNat)
    (h0 : 0 < (offsets l).sum) (h1 : (offsets l).sum < 2 ^ 64) :
    ∃ ds : List Nat, deltas E np.toNat c = ds.map Except.ok ∧
      Sizes.packetRate (l.map Slot.literal) * (((ds.take ((k + 1) * l.length)).sum : Nat) / (2 ^ 32 : Nat) : Rat) =
        (((k + 1) * l.length : Nat) : Rat) := by
  have hl : 0 < l.length := by
    cases l with
    | nil => exact absurd h0 (by decide)
    | cons x l => exact Nat.succ_pos _
  have hk : k * l.length + (l.length - 1) + 1 = (k + 1) * l.length := by
    rw [Nat.succ_mul]; omega
  obtain ⟨ds, h2, h3⟩ := C07_literal_period E sid l np c hc k (l.length - 1) (by omega) (by omega)
  refine ⟨ds, h2, ?_⟩
  have e1 : (offsets l).take (l.length - 1 + 1) = offsets l := by
    apply List.take_of_length_le
    simp [offsets]; omega
  rw [hk, e1] at h3
  have e2 : ((l.map Slot.literal).map fun s => (Sizes.meanDelay s).toNat) = offsets l := by
    unfold offsets
    rw [List.map_map]
    rfl
  have hr := C59_rate_partial (l.map Slot.literal) (by rw [e2]; exact h0) (by rw [e2]; exact h1)
  rw [e2, List.length_map] at hr
  have e3 : (ds.take ((k + 1) * l.length)).sum = (k + 1) * (offsets l).sum := by
    rw [h3, Nat.succ_mul]
  rw [e3, Rat.natCast_mul, Rat.natCast_mul, ← hr]
  generalize Sizes.packetRate (l.map Slot.literal) = r
  generalize (((offsets l).sum : Nat) : Rat) = S
  generalize ((k + 1 : Nat) : Rat) = K
  rw [Rat.div_def, Rat.div_def]
  grind

/-- Full statement that fails: the bandwidth asked for covers the test. A test whose slots have no delay at all, and so
sends as fast as it can, has rate 0: it is granted with a demand of 0 bits per second, whatever the number and size of
its packets, while every delay of its schedule is 0. -/
theorem C59_no_delay_is_free (E : Bytes → Bytes → Bytes) (sid : Bytes) (n : Nat) (np : U32) (c : Ctx)
    (hc : create sid ⟨np, List.replicate n (.literal 0#64)⟩ = some c) (af : Sizes.Family) (m padding : U32) :
    Sizes.packetRate (List.replicate n (.literal 0#64)) = 0 ∧
    Sizes.demanded af m padding (List.replicate n (.literal 0#64)) = some 0#64 ∧
    ∃ ds : List Nat, deltas E np.toNat c = ds.map Except.ok ∧ ds.length = np.toNat ∧ ∀ d ∈ ds, d = 0 := by
  have hd : Sizes.duration (List.replicate n (.literal 0#64)) = 0#64 := by
    unfold Sizes.duration
    induction n with
    | zero => rfl
    | succ n ih =>
      rw [List.replicate_succ, List.foldl_cons]
      clear hc ih
      show List.foldl _ 0#64 _ = _
      induction n with
      | zero => rfl
      | succ n ih => rw [List.replicate_succ, List.foldl_cons]; exact ih
  have hr : Sizes.packetRate (List.replicate n (.literal 0#64)) = 0 := by
    unfold Sizes.packetRate
    rw [hd, if_pos (rfl : (0#64 : U64) = 0#64)]
    split <;> rfl
  refine ⟨hr, ?_, ?_⟩
  · unfold Sizes.demanded Sizes.bandwidth
    rw [hr, Rat.zero_mul, Rat.zero_mul]
    rfl
  · obtain ⟨ds, h1, h2, _⟩ := C06_schedule E sid _ c hc
    refine ⟨ds, h1, h2, ?_⟩
    intro d hdm
    obtain ⟨k, hk, rfl⟩ := List.mem_iff_getElem.1 hdm
    obtain ⟨d', h3, h4⟩ := C07_slot_cyclic E sid _ c hc k (by rw [← h2]; exact hk)
    rw [h1, List.getElem?_map, List.getElem?_eq_getElem hk] at h3
    have h3 : ds[k] = d' := by simpa using h3
    rw [h3]
    rcases h4 with ⟨o, h5, h6⟩ | ⟨_, _, _, _, h5, _⟩
    · dsimp only at h5
      have h7 := List.mem_of_getElem? h5
      have := (List.mem_replicate.1 h7).2
      injection this with this
      rw [h6, this]; rfl
    · dsimp only at h5
      have h7 := List.mem_of_getElem? h5
      have := (List.mem_replicate.1 h7).2
      cases this

/-- The sum of the delays wraps as well: two slots of 2^31 seconds have rate 0. -/
theorem C59_sum_wraps :
    Sizes.packetRate [.literal 0x8000000000000000#64, .literal 0x8000000000000000#64] = 0 := by decide +kernel

/-- A rate that fits, and one that does not: a slot of one second with packets of 500 bytes asks for 8·(20+8+14+458) = 4000 bits
per second. -/
theorem C59_demand_example :
    Sizes.demanded .inet 1#32 458#32 [.literal 0x100000000#64] = some 4000#64 ∧
    Sizes.demanded .inet 1#32 458#32 [.literal 0x80000000#64, .randExp 0x180000000#64] = some 4000#64 := by decide +kernel

/-- The amount that is asked for is the bandwidth in bits per second, rounded down, whenever it is below 2^64. -/
theorem C59_demand_partial (af : Sizes.Family) (m padding : U32) (slots : List Slot) (v : U64)
    (h : Sizes.demanded af m padding slots = some v) :
    (v.toNat : Rat) ≤ Sizes.packetRate slots * ((Sizes.packetSize af m padding).toNat : Rat) * 8 ∧
    Sizes.packetRate slots * ((Sizes.packetSize af m padding).toNat : Rat) * 8 < (v.toNat : Rat) + 1 := by
  unfold Sizes.demanded at h
  dsimp only at h
  change _ ≤ Sizes.bandwidth af m padding slots ∧ Sizes.bandwidth af m padding slots < _
  generalize Sizes.bandwidth af m padding slots = b at *
  split at h
  · rename_i hb
    injection h with h
    have hv : ((v.toNat : Int)) = b.floor := by
      rw [← h, BitVec.toNat_ofInt]
      omega
    have e : (v.toNat : Rat) = ((b.floor : Int) : Rat) := by
      rw [← hv, Rat.intCast_natCast]
    rw [e]
    refine ⟨Rat.floor_le b, ?_⟩
    have h1 := Rat.lt_floor_add_one b
    rw [Rat.intCast_add] at h1
    exact h1
  · cases h

end Owamp.Props
