import Verif.Spec.Packet
import Verif.Lemmas.Bytes
import Verif.Lemmas.Cbc
import Verif.Lemmas.Time
import Verif.Props.Time
/-! Lemmas about test packets. -/
namespace Owamp.Pkt
open Owamp.Ctl Owamp.Time Owamp.Spec.Channel Owamp.Spec.Packet

theorem or_comm8 (a b : Byte) : a ||| b = b ||| a := BitVec.or_comm a b

theorem errBytes_eq (t : TimeStamp) : errBytes t = estimateOf t := by
  unfold errBytes encodeErrEstimate estimateOf estimate
  by_cases h : t.multiplier = 0
  · rw [if_pos h, if_pos h, if_neg (show (0xFF#8 : Byte) ≠ 0 by decide)]
    simp only [Option.getD]
    decide
  · rw [if_neg h, if_neg h]
    cases t.sync <;> simp [or_comm8]

theorem estimateOf_length (t : TimeStamp) : (estimateOf t).length = 2 := by
  unfold estimateOf estimate; split <;> rfl

theorem estimateOf_read (t : TimeStamp) :
    ∃ b0 b1, estimateOf t = [b0, b1] ∧ decodeErrEstimate b0 b1 = estimateRead t := by
  by_cases h : t.multiplier = 0
  · refine ⟨_, _, by unfold estimateOf estimate; rw [if_pos h], ?_⟩
    unfold estimateRead; rw [if_pos h]; decide
  · have hlt : (t.scale &&& 0x3F#8).toNat < 64 := by
      rw [BitVec.toNat_and]
      exact Nat.lt_of_le_of_lt Nat.and_le_right (by decide)
    have hsame : estimateOf { t with scale := t.scale &&& 0x3F#8 } = estimateOf t := by
      unfold estimateOf estimate
      rw [if_neg h, if_neg h]
      simp only [BitVec.and_assoc, BitVec.and_self]
    obtain ⟨b0, b1, h1, h2⟩ := Props.C03_errest_roundtrip { t with scale := t.scale &&& 0x3F#8 } h hlt
    refine ⟨b0, b1, ?_, ?_⟩
    · rw [← hsame, ← errBytes_eq]; unfold errBytes; rw [h1]; rfl
    · rw [h2, estimateRead, if_neg h]

theorem enc_auth_len (key : Bytes) (p : Bytes) (h : p.length = 16) : (Cbc.blockEncrypt key (zeros 16) p).1.length = 16 :=
  Cbc.blockEncrypt_length key (zeros 16) p 1 h

theorem mac_len (H : Mac) (k x : Bytes) : ((H.hash k x).take 16).length = 16 := by
  rw [List.length_take, H.len]; rfl


theorem hdr_eq (seq : U32) : get (put32 (zeros 32) 0 seq) 0 16 = enc32 seq ++ zeros 12 := by
  rw [get_pieces (put32 (zeros 32) 0 seq) 0 [4, 12] 16 rfl]; fields

theorem xor_zeros (p : Bytes) (n : Nat) (h : p.length = n) : List.zipWith (· ^^^ ·) p (zeros n) = p := by
  subst h
  induction p with
  | nil => rfl
  | cons b p ih =>
    rw [List.length_cons, zeros, List.replicate_succ, List.zipWith_cons_cons, ← zeros, ih]
    simp

theorem one_block (key p : Bytes) (h : p.length = 16) : Spec.AES.encrypt key p = (Cbc.blockEncrypt key (zeros 16) p).1 := by
  rw [Cbc.blockEncrypt_cbc _ _ _ 1 h, Cbc.range_blocks 0 _ h, get_all _ _ (by omega)]
  have : List.drop 16 p = [] := List.drop_of_length_le (by omega)
  rw [this]
  show _ = (cbc key (zeros 16) [p]).flatten
  simp only [cbc, List.flatten_cons, List.flatten_nil, List.append_nil]
  rw [xor_zeros _ 16 h]

/-- A buffer is the concatenation of its fields. -/
theorem eq_pieces (X : Bytes) (ns : List Nat) (h : X.length = ns.sum) : X = pieces X 0 ns := by
  rw [← get_pieces X 0 ns ns.sum rfl, get_all _ _ (Nat.le_of_eq h)]

theorem sendPacket_clear (H : Mac) (e : Ep) (buf pad : Bytes) (seq : U32) (t : TimeStamp) (hl : buf.length = 14 + pad.length) :
    sendPacket H .clear e buf pad seq t = some (enc32 seq ++ enc64 t.owptime ++ estimateOf t ++ pad) := by
  unfold sendPacket
  simp only [encodeTimeStamp_eq, errBytes_eq]
  have hel := estimateOf_length t
  refine congrArg some ?_
  generalize estimateOf t = E at hel
  rw [eq_pieces (put _ _ _) [4, 8, 2, pad.length]]
  · fields [hel, hl]
    simp only [List.append_assoc]
  · simp (disch := blen) only [put32, put_length, hl]
    simp; omega

/-- The bytes before the digest and padding, for the two ciphered formats: `C` are the first 32 bytes. -/
theorem put_tail (buf C M pad : Bytes) (a b : Bytes) (hl : buf.length = 48 + pad.length) (hM : M.length = 16)
    (hab : a.length = 16) (hC : C.length = 32) (hCa : C = a ++ b) :
    put (put (put (put buf 48 pad) 0 a) 16 b) 32 M = C ++ M ++ pad := by
  subst hCa
  have hb : b.length = 16 := by simp at hC; omega
  rw [eq_pieces (put _ _ _) [16, 16, 16, pad.length]]
  · fields [hab, hb, hM, hl]
    simp only [List.append_assoc]
  · simp (disch := blen) only [put_length, hl]
    simp; omega

theorem sendPacket_auth (H : Mac) (e : Ep) (key buf pad : Bytes) (seq : U32) (t : TimeStamp)
    (hl : buf.length = 48 + pad.length) (hk : e.aeskey = .forEnc key) :
    sendPacket H .auth e buf pad seq t =
      some ((Cbc.blockEncrypt key (zeros 16) (enc32 seq ++ zeros 12)).1 ++ enc64 t.owptime ++ estimateOf t ++ get buf 26 6 ++
        (H.hash e.hmacKey (enc32 seq ++ zeros 12)).take 16 ++ pad) := by
  unfold sendPacket
  simp only [encodeTimeStamp_eq, errBytes_eq, hdr_eq, hk, KeyInst.encrypt, Option.map_some]
  have hel := estimateOf_length t
  have hc := enc_auth_len key (enc32 seq ++ zeros 12) (by simp)
  have hm := mac_len H e.hmacKey (enc32 seq ++ zeros 12)
  refine congrArg some ?_
  generalize estimateOf t = E at hel
  generalize (Cbc.blockEncrypt key (zeros 16) (enc32 seq ++ zeros 12)).1 = C at *
  generalize (H.hash e.hmacKey (enc32 seq ++ zeros 12)).take 16 = M at *
  rw [eq_pieces (put _ _ _) [16, 8, 2, 6, 16, pad.length]]
  · fields [hel, hl, hc, hm]
    simp only [List.append_assoc]
  · simp (disch := blen) only [put_length, hl]
    simp; omega

theorem enc_split (key a b : Bytes) (ha : a.length = 16) (n : Nat) (hb : b.length = 16 * n) :
    (Cbc.blockEncrypt key (zeros 16) a).1 ++ (Cbc.blockEncrypt key (Cbc.blockEncrypt key (zeros 16) a).2 b).1 =
      (Cbc.blockEncrypt key (zeros 16) (a ++ b)).1 := by
  rw [Cbc.blockEncrypt_append key (zeros 16) a b 1 n ha hb]

theorem sendPacket_enc (H : Mac) (e : Ep) (key buf pad : Bytes) (seq : U32) (t : TimeStamp)
    (hl : buf.length = 48 + pad.length) (hk : e.aeskey = .forEnc key) :
    sendPacket H .enc e buf pad seq t =
      some ((Cbc.blockEncrypt key (zeros 16) (enc32 seq ++ zeros 12 ++ (enc64 t.owptime ++ estimateOf t ++ zeros 6))).1 ++
        (H.hash e.hmacKey (enc32 seq ++ zeros 12 ++ (enc64 t.owptime ++ estimateOf t ++ zeros 6))).take 16 ++ pad) := by
  unfold sendPacket
  simp only [encodeTimeStamp_eq, errBytes_eq, hdr_eq, hk, KeyInst.encrypt, Option.map_some, Option.bind_some]
  have hel := estimateOf_length t
  have h1 : get (put (put (put32 (zeros 32) 0 seq) 16 (enc64 t.owptime)) 24 (estimateOf t)) 0 16 = enc32 seq ++ zeros 12 := by
    rw [get_pieces _ 0 [4, 12] 16 rfl]; fields [hel]
  have h2 : get (put (put (put32 (zeros 32) 0 seq) 16 (enc64 t.owptime)) 24 (estimateOf t)) 16 16 =
      enc64 t.owptime ++ estimateOf t ++ zeros 6 := by
    rw [get_pieces _ 16 [8, 2, 6] 16 rfl]; fields [hel]
    simp only [List.append_assoc]
  rw [h1, h2]
  refine congrArg some ?_
  have hb : (enc64 t.owptime ++ estimateOf t ++ zeros 6).length = 16 * 1 := by simp [hel]
  refine put_tail buf _ _ pad _ _ hl (mac_len _ _ _) (enc_auth_len _ _ (by simp)) ?_ (enc_split _ _ _ (by simp) 1 hb).symm
  rw [Cbc.blockEncrypt_length _ _ _ 2 (by simp [hel])]

theorem put_zero_append (a b R : Bytes) (h : b.length = a.length) : put (a ++ R) 0 b = b ++ R := by
  unfold put
  rw [Nat.zero_add, List.drop_left' h.symm, List.take_zero, List.nil_append]

theorem put_mid (a b c R : Bytes) (k : Nat) (hk : a.length = k) (h : c.length = b.length) : put (a ++ (b ++ R)) k c = a ++ (c ++ R) := by
  unfold put
  rw [List.take_left' hk, ← List.append_assoc a b R, List.drop_left' (by simp; omega), List.append_assoc]

theorem openWith_auth (H : Mac) (key hk hdr R : Bytes) (rest at' : Nat) (hh : hdr.length = 16) (hat : 16 ≤ at')
    (hm : get R (at' - 16) 16 = (H.hash hk hdr).take 16) :
    openWith H .auth (.forDec key) hk rest at' ((Cbc.blockEncrypt key (zeros 16) hdr).1 ++ R) = .plain (hdr ++ R) := by
  have hc := enc_auth_len key hdr hh
  unfold openWith
  simp only [KeyInst.decrypt]
  rw [get_zero_append _ _ 16 hc.symm, Cbc.blockDecrypt_blockEncrypt key (zeros 16) hdr 1 hh (by simp)]
  simp only [Option.elim]
  rw [put_zero_append _ _ _ (by omega), get_zero_append _ _ 16 hh.symm, get_append_right _ _ _ _ (by omega), hh, if_pos hm]

theorem openWith_enc (H : Mac) (key hk a b R : Bytes) (n rest at' : Nat) (ha : a.length = 16) (hb : b.length = 16 * n)
    (hr : rest = 16 * n) (hat : 16 + rest ≤ at') (hm : get R (at' - (16 + rest)) 16 = (H.hash hk (a ++ b)).take 16) :
    openWith H .enc (.forDec key) hk rest at' ((Cbc.blockEncrypt key (zeros 16) (a ++ b)).1 ++ R) = .plain (a ++ b ++ R) := by
  have hc := enc_auth_len key a ha
  have hi := Cbc.blockEncrypt_iv_length key (zeros 16) a (by simp)
  have hc' := Cbc.blockEncrypt_length key (Cbc.blockEncrypt key (zeros 16) a).2 b n hb
  have hd := Cbc.blockDecrypt_blockEncrypt key (zeros 16) a 1 ha (by simp)
  have hd' := Cbc.blockDecrypt_blockEncrypt key (Cbc.blockEncrypt key (zeros 16) a).2 b n hb hi
  unfold openWith
  simp only [KeyInst.decrypt]
  rw [← enc_split key a b ha n hb, List.append_assoc, get_zero_append _ _ 16 hc.symm, hd]
  simp only [Option.elim]
  rw [put_zero_append _ _ _ (by omega), get_append_right _ _ _ _ (by omega), ha, Nat.sub_self,
    get_zero_append _ _ rest (by omega), hd']
  simp only [Option.elim]
  rw [put_mid _ _ _ _ 16 ha (by omega), get_zero_append _ _ 16 ha.symm, get_append_right a (b ++ R) 16 rest (by omega), ha, Nat.sub_self,
    get_zero_append _ _ rest (by omega), get_append_right a _ at' 16 (by omega), get_append_right b _ _ 16 (by omega), ha, hb]
  have : at' - 16 - 16 * n = at' - (16 + rest) := by omega
  rw [this, if_pos hm, List.append_assoc]

theorem readTime (X : Bytes) (o : Nat) (t : U64) (h : get X o 8 = enc64 t) : decodeTimeStamp (get X o 8) = t := by
  rw [h, decodeTimeStamp_eq _ (by simp), get64, get_all _ _ (by simp), dec_enc64]

theorem readErr (X : Bytes) (o : Nat) (t : TimeStamp) (h : get X o 2 = estimateOf t) :
    decodeErrEstimate (get8 X o) (get8 X (o + 1)) = estimateRead t := by
  obtain ⟨b0, b1, e1, e2⟩ := estimateOf_read t
  rw [e1] at h
  have h0 : get X o 1 = [b0] := by
    have := congrArg (fun l => get l 0 1) h
    simp only [get_get _ _ _ _ _ (show 0 + 1 ≤ 2 by omega)] at this
    exact this
  have h1 : get X (o + 1) 1 = [b1] := by
    have := congrArg (fun l => get l 1 1) h
    simp only [get_get _ _ _ _ _ (show 1 + 1 ≤ 2 by omega)] at this
    exact this
  have d : ∀ b : Byte, BitVec.ofNat 8 (beDec [b]) = b := fun b => by rw [← enc8_eq]; exact dec_enc8 b
  rw [get8, get8, h0, h1, d, d, e2]

/-- Where the padding of a sender's packet starts. -/
def padAt : Fmt → Nat | .clear => 14 | _ => 48

/-- What is true of an opened packet: its number, the 8 bytes of its time, the 2 bytes of its error estimate, its padding. -/
structure Raw (f : Fmt) (P : Bytes) (seq : U32) (ts : U64) (est : Bytes) (pad : Bytes) : Prop where
  len : P.length = padAt f + pad.length
  seq : get P 0 4 = enc32 seq
  time : get P (timeAt f) 8 = enc64 ts
  err : get P (errAt f) 2 = est
  pad : get P (padAt f) pad.length = pad

/-- What is true of an opened sender packet. -/
abbrev Facts (f : Fmt) (P : Bytes) (seq : U32) (t : TimeStamp) (pad : Bytes) : Prop := Raw f P seq t.owptime (estimateOf t) pad

/-- Keys that fit: what one side encrypts the other decrypts. -/
def Fits (f : Fmt) (e e' : Ep) : Prop :=
  f = .clear ∨ ∃ key, e.aeskey = .forEnc key ∧ e'.aeskey = .forDec key ∧ e.hmacKey = e'.hmacKey

theorem opened (H : Mac) (f : Fmt) (e e' : Ep) (hfit : Fits f e e') (buf pad : Bytes) (seq : U32) (t : TimeStamp)
    (hl : buf.length = padAt f + pad.length) :
    ∃ pkt P, sendPacket H f e buf pad seq t = some pkt ∧ pkt.length = buf.length ∧ openPacket H f e' pkt = .plain P ∧
      Facts f P seq t pad := by
  have hel := estimateOf_length t
  cases f with
  | clear =>
    refine ⟨_, enc32 seq ++ enc64 t.owptime ++ estimateOf t ++ pad, sendPacket_clear H e buf pad seq t hl, ?_, rfl, ?_⟩
    · simp [hel, hl, padAt]; omega
    · generalize hE : estimateOf t = E at *
      constructor
      · simp [hel, padAt]; omega
      · simp only [List.append_assoc]; fields
      · simp only [List.append_assoc, timeAt]; fields
      · rw [errAt, hE]; simp only [List.append_assoc]; fields [hel]
      · simp only [List.append_assoc, padAt]; fields [hel]
  | auth =>
    rcases hfit with h | ⟨key, h1, h2, h3⟩
    · cases h
    have hm := mac_len H e.hmacKey (enc32 seq ++ zeros 12)
    have hc := enc_auth_len key (enc32 seq ++ zeros 12) (by simp)
    have hg : (get buf 26 6).length = 6 := by rw [get_length]; rw [hl]; simp only [padAt]; omega
    have hop := openWith_auth H key e'.hmacKey (enc32 seq ++ zeros 12)
        (enc64 t.owptime ++ (estimateOf t ++ (get buf 26 6 ++ ((H.hash e.hmacKey (enc32 seq ++ zeros 12)).take 16 ++ pad)))) 16 32 (by simp) (by omega)
        (by
          rw [h3] at *
          generalize (H.hash e'.hmacKey (enc32 seq ++ zeros 12)).take 16 = M at *
          generalize estimateOf t = E at *
          generalize get buf 26 6 = G at *
          fields [hel, hg, hm])
    refine ⟨_, ?PA, sendPacket_auth H e key buf pad seq t hl h1, ?lenA, ?opA, ?factsA⟩
    case opA =>
      unfold openPacket
      rw [h2]
      simp only [List.append_assoc] at hop ⊢
      exact hop
    case lenA =>
      simp [hel, hc, hg, hl, padAt, H.len]; omega
    case factsA =>
      generalize (H.hash e.hmacKey (enc32 seq ++ zeros 12)).take 16 = M at *
      generalize hE : estimateOf t = E at *
      generalize get buf 26 6 = G at *
      constructor
      · simp [hel, hg, hm, padAt]; omega
      · try simp only [List.append_assoc]
        fields
      · show get _ 16 8 = _; try simp only [List.append_assoc]
        fields
      · show get _ 24 2 = _; rw [hE]; try simp only [List.append_assoc]
        fields [hel]
      · show get _ 48 _ = _; try simp only [List.append_assoc]
        fields [hel, hg, hm]
  | enc =>
    rcases hfit with h | ⟨key, h1, h2, h3⟩
    · cases h
    have hb : (enc64 t.owptime ++ estimateOf t ++ zeros 6).length = 16 * 1 := by simp [hel]
    have hm := mac_len H e.hmacKey (enc32 seq ++ zeros 12 ++ (enc64 t.owptime ++ estimateOf t ++ zeros 6))
    have hc := Cbc.blockEncrypt_length key (zeros 16) (enc32 seq ++ zeros 12 ++ (enc64 t.owptime ++ estimateOf t ++ zeros 6)) 2 (by simp [hel])
    have hop := openWith_enc H key e'.hmacKey (enc32 seq ++ zeros 12) (enc64 t.owptime ++ estimateOf t ++ zeros 6)
        ((H.hash e.hmacKey (enc32 seq ++ zeros 12 ++ (enc64 t.owptime ++ estimateOf t ++ zeros 6))).take 16 ++ pad) 1 16 32
        (by simp) hb rfl (by omega) (by rw [h3] at *; exact get_zero_append _ _ 16 hm.symm)
    refine ⟨_, ?PB, sendPacket_enc H e key buf pad seq t hl h1, ?lenB, ?opB, ?factsB⟩
    case opB =>
      unfold openPacket
      rw [h2, List.append_assoc]
      exact hop
    case lenB =>
      rw [List.length_append, List.length_append, hm, hc, hl]; rfl
    case factsB =>
      generalize (H.hash e.hmacKey _).take 16 = M at *
      generalize hE : estimateOf t = E at *
      constructor
      · simp [hel, hm, padAt]; omega
      · try simp only [List.append_assoc]
        fields
      · show get _ 16 8 = _; try simp only [List.append_assoc]
        fields
      · show get _ 24 2 = _; rw [hE]; try simp only [List.append_assoc]
        fields [hel]
      · show get _ 48 _ = _; try simp only [List.append_assoc]
        fields [hel, hm]

/-- Size of a reflector's header. -/
def rpadAt : Fmt → Nat | .clear => 41 | _ => 112

/-- The payload after the padding was moved and the header area cleared. -/
theorem cleared (buf pad : Bytes) (r p n : Nat) (hp : p ≤ r) (hb : buf.length = r + n) (hn : n = pad.length)
    (hpad : get buf p pad.length = pad) :
    ∃ T, put (if p + n > r then put buf r (get buf p (p + n - r)) else buf) 0 (zeros r) = zeros r ++ T ∧ T.length = n ∧
      get T 0 (p + n - r) = pad.take (p + n - r) := by
  have hcl : ∀ X : Bytes, X.length = r + n → put X 0 (zeros r) = zeros r ++ X.drop r := by
    intro X hX
    unfold put
    simp
  by_cases h : p + n > r
  · rw [if_pos h]
    have hg : (get buf p (p + n - r)).length = p + n - r := get_length _ _ _ (by omega)
    rw [hcl _ (by rw [put_length _ _ _ (by omega), hb])]
    refine ⟨_, rfl, ?_, ?_⟩
    · rw [List.length_drop, put_length _ _ _ (by omega), hb]; omega
    · have e : get ((put buf r (get buf p (p + n - r))).drop r) 0 (p + n - r) =
          get (put buf r (get buf p (p + n - r))) r (p + n - r) := by
        unfold get; rw [List.drop_drop, Nat.add_zero]
      rw [e, get_put_same _ _ _ _ hg (by omega)]
      have := congrArg (List.take (p + n - r)) hpad
      rw [← this]
      unfold get
      rw [List.take_take, Nat.min_eq_left (by omega)]
  · rw [if_neg h, hcl _ hb]
    refine ⟨_, rfl, by rw [List.length_drop, hb]; omega, ?_⟩
    have : p + n - r = 0 := by omega
    rw [this, get_empty, List.take_zero]

theorem get_hdr (h T : Bytes) (k m : Nat) (hh : h.length = k) (hm : k ≤ m) : get (h ++ T) 0 m = h ++ get T 0 (m - k) := by
  unfold get
  rw [List.drop_zero, List.drop_zero, List.take_append, List.take_of_length_le (by omega), hh]

theorem reflect_clear (H : Mac) (e : Ep) (P spare pad : Bytes) (seq : U32) (ts : U64) (E1 : Bytes) (h1 : E1.length = 2)
    (i : U32) (rcv now : TimeStamp) (ttl : Byte) (F : Raw .clear P seq ts E1 pad) (hs : spare.length = 27) :
    reflect H .clear e (P ++ spare) P.length i rcv now ttl =
      some (enc32 i ++ enc64 now.owptime ++ estimateOf now ++ zeros 2 ++ enc64 rcv.owptime ++ enc32 seq ++ enc64 ts ++
        E1 ++ zeros 2 ++ [ttl] ++ pad.take (P.length - 41)) := by
  obtain ⟨f1, f2, f3, f4, f5⟩ := F
  have f1 : P.length = 14 + pad.length := f1
  have f3 : get P 4 8 = enc64 ts := f3
  have f4 : get P 12 2 = E1 := f4
  have f5 : get P 14 pad.length = pad := f5
  unfold reflect
  simp only [timeAt, errAt, twPayloadSize, encodeTimeStamp_eq, errBytes_eq]
  rw [get_append_left P spare 0 4 (by omega), get_append_left P spare 4 8 (by omega), get_append_left P spare 12 2 (by omega), f2, f3, f4]
  obtain ⟨T, hT, hTl, hTp⟩ := cleared (P ++ spare) pad 41 14 pad.length (by omega) (by simp; omega) rfl
    (by rw [get_append_left _ _ _ _ (by omega)]; exact f5)
  rw [f1, hT]
  refine congrArg some ?_
  have h2 := estimateOf_length now
  generalize estimateOf now = E2 at *
  rw [eq_pieces (put _ _ _) [4, 8, 2, 2, 8, 4, 8, 2, 2, 1, T.length]]
  · fields [h1, h2]
    rw [enc8_eq]
    simp only [← List.append_assoc]
    rw [get_hdr _ T 41 _ (by simp [h1, h2]) (by omega)]
    have : max (14 + pad.length) 41 - 41 = 14 + pad.length - 41 := by omega
    rw [this, hTp]
  · simp (disch := blen) only [put32, put8, put_length]
    simp; omega

theorem reflect_auth (H : Mac) (e : Ep) (key P spare pad : Bytes) (seq : U32) (ts : U64) (E1 : Bytes) (h1 : E1.length = 2)
    (i : U32) (rcv now : TimeStamp) (ttl : Byte) (F : Raw .auth P seq ts E1 pad) (hs : spare.length = 64) (hk : e.replyKey = .forEnc key) :
    reflect H .auth e (P ++ spare) P.length i rcv now ttl =
      some ((Cbc.blockEncrypt key (zeros 16) (enc32 i ++ zeros 12)).1 ++
        replyTail now.owptime (estimateOf now) rcv.owptime seq ts (E1) ttl ++
        (H.hash e.hmacKey (enc32 i ++ zeros 12)).take 16 ++ pad.take (P.length - 112)) := by
  obtain ⟨f1, f2, f3, f4, f5⟩ := F
  have f1 : P.length = 48 + pad.length := f1
  have f3 : get P 16 8 = enc64 ts := f3
  have f4 : get P 24 2 = E1 := f4
  have f5 : get P 48 pad.length = pad := f5
  have hh : get (put32 (zeros 96) 0 i) 0 16 = enc32 i ++ zeros 12 := by
    rw [get_pieces _ 0 [4, 12] 16 rfl]; fields
  unfold reflect
  simp only [timeAt, errAt, twPayloadSize, encodeTimeStamp_eq, errBytes_eq, hk, KeyInst.encrypt, Option.map_some, hh]
  rw [get_append_left P spare 0 4 (by omega), get_append_left P spare 16 8 (by omega), get_append_left P spare 24 2 (by omega), f2, f3, f4]
  obtain ⟨T, hT, hTl, hTp⟩ := cleared (P ++ spare) pad 112 48 pad.length (by omega) (by simp; omega) rfl
    (by rw [get_append_left _ _ _ _ (by omega)]; exact f5)
  rw [f1, hT]
  refine congrArg some ?_
  have h2 := estimateOf_length now
  have hc := enc_auth_len key (enc32 i ++ zeros 12) (by simp)
  have hm := mac_len H e.hmacKey (enc32 i ++ zeros 12)
  generalize estimateOf now = E2 at *
  generalize (Cbc.blockEncrypt key (zeros 16) (enc32 i ++ zeros 12)).1 = C at *
  generalize (H.hash e.hmacKey (enc32 i ++ zeros 12)).take 16 = M at *
  rw [eq_pieces (put _ _ _) [16, 8, 2, 6, 8, 8, 4, 12, 8, 2, 6, 1, 15, 16, T.length]]
  · fields [h1, h2, hc, hm]
    rw [enc8_eq, replyTail]
    simp only [← List.append_assoc]
    rw [get_hdr _ T 112 _ (by simp [h1, h2, hc, hm]) (by omega)]
    have : max (48 + pad.length) 112 - 112 = 48 + pad.length - 112 := by omega
    rw [this, hTp]
  · simp (disch := blen) only [put32, put8, put_length]
    simp; omega

theorem reflect_enc (H : Mac) (e : Ep) (key P spare pad : Bytes) (seq : U32) (ts : U64) (E1 : Bytes) (h1 : E1.length = 2)
    (i : U32) (rcv now : TimeStamp) (ttl : Byte) (F : Raw .enc P seq ts E1 pad) (hs : spare.length = 64) (hk : e.replyKey = .forEnc key) :
    reflect H .enc e (P ++ spare) P.length i rcv now ttl =
      some ((Cbc.blockEncrypt key (zeros 16) (enc32 i ++ zeros 12 ++
          replyTail now.owptime (estimateOf now) rcv.owptime seq ts (E1) ttl)).1 ++
        (H.hash e.hmacKey (enc32 i ++ zeros 12 ++
          replyTail now.owptime (estimateOf now) rcv.owptime seq ts (E1) ttl)).take 16 ++
        pad.take (P.length - 112)) := by
  obtain ⟨f1, f2, f3, f4, f5⟩ := F
  have f1 : P.length = 48 + pad.length := f1
  have f3 : get P 16 8 = enc64 ts := f3
  have f4 : get P 24 2 = E1 := f4
  have f5 : get P 48 pad.length = pad := f5
  have h2 := estimateOf_length now
  unfold reflect
  simp only [timeAt, errAt, twPayloadSize, encodeTimeStamp_eq, errBytes_eq, hk, KeyInst.encrypt, Option.map_some, Option.bind_some]
  rw [get_append_left P spare 0 4 (by omega), get_append_left P spare 16 8 (by omega), get_append_left P spare 24 2 (by omega), f2, f3, f4]
  obtain ⟨T, hT, hTl, hTp⟩ := cleared (P ++ spare) pad 112 48 pad.length (by omega) (by simp; omega) rfl
    (by rw [get_append_left _ _ _ _ (by omega)]; exact f5)
  rw [f1, hT]
  refine congrArg some ?_
  generalize estimateOf now = E2 at *
  obtain ⟨clr, hclr⟩ : ∃ clr, clr = put (put (put8 (put (put (put (put (put32 (zeros 96) 0 i) 32 (enc64 rcv.owptime)) 48 (enc32 seq)) 64
    (enc64 ts)) 72 E1) 80 ttl) 16 (enc64 now.owptime)) 24 E2 := ⟨_, rfl⟩
  have ha : get clr 0 16 = enc32 i ++ zeros 12 := by
    rw [hclr, get_pieces _ 0 [4, 12] 16 rfl]; fields [h1, h2]
  have hb : get clr 16 80 = replyTail now.owptime E2 rcv.owptime seq ts E1 ttl := by
    rw [hclr, get_pieces _ 16 [8, 2, 6, 8, 8, 4, 12, 8, 2, 6, 1, 15] 80 rfl]; fields [h1, h2]
    rw [enc8_eq, replyTail]
    simp only [List.append_assoc]
  rw [← hclr, ha, hb]
  have hbl : (replyTail now.owptime E2 rcv.owptime seq ts E1 ttl).length = 16 * 5 := by simp [replyTail, h1, h2]
  generalize replyTail now.owptime E2 rcv.owptime seq ts E1 ttl = b at *
  have hal : (enc32 i ++ zeros 12).length = 16 := by simp
  generalize enc32 i ++ zeros 12 = a at *
  rw [← enc_split key a b hal 5 hbl]
  have hc := enc_auth_len key a hal
  have hc' := Cbc.blockEncrypt_length key (Cbc.blockEncrypt key (zeros 16) a).2 b 5 hbl
  have hm := mac_len H e.hmacKey (a ++ b)
  generalize (Cbc.blockEncrypt key (Cbc.blockEncrypt key (zeros 16) a).2 b).1 = C' at *
  generalize (Cbc.blockEncrypt key (zeros 16) a).1 = C at *
  generalize (H.hash e.hmacKey (a ++ b)).take 16 = M at *
  clear ha hb hclr
  rw [eq_pieces (put _ _ _) [16, 80, 16, T.length]]
  · fields [hc, hc', hm]
    simp only [← List.append_assoc]
    rw [get_hdr _ T 112 _ (by simp [hc, hc', hm]) (by omega)]
    have : max (48 + pad.length) 112 - 112 = 48 + pad.length - 112 := by omega
    rw [this, hTp]
  · simp (disch := blen) only [put_length]
    simp; omega

theorem readReply_clear (i : U32) (ts : U64) (E1 : Bytes) (est : ErrEst) (e1 : E1.length = 2)
    (r2' : ∀ X o, get X o 2 = E1 → decodeErrEstimate (get8 X o) (get8 X (o + 1)) = est) (rcv now : TimeStamp) (seq : U32) (ttl : Byte) (Q : Bytes) :
    readReply .clear (enc32 i ++ enc64 now.owptime ++ estimateOf now ++ zeros 2 ++ enc64 rcv.owptime ++ enc32 seq ++ enc64 ts ++
        E1 ++ zeros 2 ++ [ttl] ++ Q) =
      { sndSeq := seq, sndTime := ts, sndErr := est, rcvTime := rcv.owptime, ttl := ttl, seq := i,
        time := now.owptime, err := estimateRead now } := by
  have e2 := estimateOf_length now
  have r1 : ∀ X, get X 12 2 = estimateOf now → decodeErrEstimate (get8 X 12) (get8 X 13) = estimateRead now := fun X h => readErr X 12 now h
  have r2 := fun X => r2' X 36
  rw [← enc8_eq]
  simp only [List.append_assoc]
  generalize estimateOf now = E2 at *
  obtain ⟨X, hX⟩ : ∃ X, X = enc32 i ++ (enc64 now.owptime ++ (E2 ++ (zeros 2 ++ (enc64 rcv.owptime ++ (enc32 seq ++
    (enc64 ts ++ (E1 ++ (zeros 2 ++ (enc8 ttl ++ Q))))))))) := ⟨_, rfl⟩
  rw [← hX]
  have g1 : get X 12 2 = E2 := by rw [hX]; fields [e1, e2]
  have g2 : get X 36 2 = E1 := by rw [hX]; fields [e1, e2]
  have g3 : get X 28 8 = enc64 ts := by rw [hX]; fields [e1, e2]
  have g4 : get X 16 8 = enc64 rcv.owptime := by rw [hX]; fields [e1, e2]
  have g5 : get X 4 8 = enc64 now.owptime := by rw [hX]; fields [e1, e2]
  have g6 : get X 24 4 = enc32 seq := by rw [hX]; fields [e1, e2]
  have g7 : get X 0 4 = enc32 i := by rw [hX]; fields [e1, e2]
  have g8 : get X 40 1 = enc8 ttl := by rw [hX]; fields [e1, e2]
  unfold readReply
  rw [r1 X g1, r2 X g2, readTime X 28 _ g3, readTime X 16 _ g4, readTime X 4 _ g5, get32, get32, get8, g6, g7, g8, dec_enc32, dec_enc32, dec_enc8]

theorem readReply_ciph (f : Fmt) (hf : f ≠ .clear) (i : U32) (ts : U64) (E1 : Bytes) (est : ErrEst) (e1 : E1.length = 2)
    (r2' : ∀ X o, get X o 2 = E1 → decodeErrEstimate (get8 X o) (get8 X (o + 1)) = est) (rcv now : TimeStamp) (seq : U32) (ttl : Byte) (Q : Bytes) :
    readReply f (enc32 i ++ zeros 12 ++ (replyTail now.owptime (estimateOf now) rcv.owptime seq ts (E1) ttl ++ Q)) =
      { sndSeq := seq, sndTime := ts, sndErr := est, rcvTime := rcv.owptime, ttl := ttl, seq := i,
        time := now.owptime, err := estimateRead now } := by
  have e2 := estimateOf_length now
  have r1 : ∀ X, get X 24 2 = estimateOf now → decodeErrEstimate (get8 X 24) (get8 X 25) = estimateRead now := fun X h => readErr X 24 now h
  have r2 := fun X => r2' X 72
  rw [replyTail, ← enc8_eq]
  simp only [List.append_assoc]
  generalize estimateOf now = E2 at *
  obtain ⟨X, hX⟩ : ∃ X, X = enc32 i ++ (zeros 12 ++ (enc64 now.owptime ++ (E2 ++ (zeros 6 ++ (enc64 rcv.owptime ++ (zeros 8 ++ (enc32 seq ++
    (zeros 12 ++ (enc64 ts ++ (E1 ++ (zeros 6 ++ (enc8 ttl ++ (zeros 15 ++ Q))))))))))))) := ⟨_, rfl⟩
  rw [← hX]
  have g1 : get X 24 2 = E2 := by rw [hX]; fields [e1, e2]
  have g2 : get X 72 2 = E1 := by rw [hX]; fields [e1, e2]
  have g3 : get X 64 8 = enc64 ts := by rw [hX]; fields [e1, e2]
  have g4 : get X 32 8 = enc64 rcv.owptime := by rw [hX]; fields [e1, e2]
  have g5 : get X 16 8 = enc64 now.owptime := by rw [hX]; fields [e1, e2]
  have g6 : get X 48 4 = enc32 seq := by rw [hX]; fields [e1, e2]
  have g7 : get X 0 4 = enc32 i := by rw [hX]; fields [e1, e2]
  have g8 : get X 80 1 = enc8 ttl := by rw [hX]; fields [e1, e2]
  have : readReply f X = readReply .auth X := by cases f <;> first | rfl | exact (hf rfl).elim
  rw [this]
  unfold readReply
  dsimp only
  rw [r1 X g1, r2 X g2, readTime X 64 _ g3, readTime X 32 _ g4, readTime X 16 _ g5, get32, get32, get8, g6, g7, g8, dec_enc32, dec_enc32, dec_enc8]

theorem dec_one (key iv p : Bytes) (hp : p.length = 16) (hi : iv.length = 16) :
    (Cbc.blockDecrypt key iv p).1.length = 16 ∧ (Cbc.blockDecrypt key iv p).2.length = 16 := by
  unfold Cbc.blockDecrypt
  rw [show p.length * 8 / 128 = 1 by omega]
  have := Rijndael.decrypt_length key (get p 0 16)
  constructor
  · show (Cbc.xorBlock _ _ ++ []).length = 16
    rw [List.append_nil, Cbc.xorBlock_length _ _ (by omega), hi]
  · exact get_length _ _ _ (by omega)

theorem openPacket_length (H : Mac) (f : Fmt) (e : Ep) (D P : Bytes) (n : Nat) (hl : D.length = payloadSize f n)
    (h : openPacket H f e D = .plain P) : P.length = D.length := by
  unfold openPacket openWith at h
  cases f with
  | clear => simp only [Opened.plain.injEq] at h; rw [h]
  | auth =>
    have hl : D.length = 48 + n := hl
    cases hk : e.aeskey with
    | forDec key =>
      rw [hk] at h
      simp only [KeyInst.decrypt, Option.elim_some] at h
      split at h
      · cases h
        have := dec_one key (zeros 16) (get D 0 16) (get_length _ _ _ (by omega)) (by simp)
        rw [put_length _ _ _ (by omega)]
      · cases h
    | _ => rw [hk] at h; simp [KeyInst.decrypt] at h
  | enc =>
    have hl : D.length = 48 + n := hl
    cases hk : e.aeskey with
    | forDec key =>
      rw [hk] at h
      simp only [KeyInst.decrypt, Option.elim_some] at h
      split at h
      · cases h
        have h1 := dec_one key (zeros 16) (get D 0 16) (get_length _ _ _ (by omega)) (by simp)
        have h2 : (put D 0 (Cbc.blockDecrypt key (zeros 16) (get D 0 16)).1).length = D.length := put_length _ _ _ (by omega)
        have h3 := dec_one key (Cbc.blockDecrypt key (zeros 16) (get D 0 16)).2
          (get (put D 0 (Cbc.blockDecrypt key (zeros 16) (get D 0 16)).1) 16 16) (get_length _ _ _ (by omega)) h1.2
        rw [put_length _ _ _ (by omega), h2]
      · cases h
    | _ => rw [hk] at h; simp [KeyInst.decrypt] at h

theorem openReply_clear (H : Mac) (e : Ep) (X : Bytes) : openReply H .clear e X = .plain X := rfl

end Owamp.Pkt
