/-!
# Bytes, big-endian integers and buffers

Vocabulary shared by models, specifications and proofs. Nothing here models owamp code.
-/
namespace Owamp

abbrev Byte := BitVec 8
abbrev U16 := BitVec 16
abbrev U32 := BitVec 32
abbrev U64 := BitVec 64
abbrev Bytes := List Byte

/-- `n` bytes holding `x` in network byte order (most significant byte first), modulo `256^n`. -/
def beEnc : Nat → Nat → Bytes
  | 0, _ => []
  | n+1, x => beEnc n (x / 256) ++ [BitVec.ofNat 8 x]

/-- The natural number a byte string denotes in network byte order. -/
def beDec (l : Bytes) : Nat := l.foldl (fun a b => a * 256 + b.toNat) 0

@[simp] theorem beEnc_length (n x : Nat) : (beEnc n x).length = n := by
  induction n generalizing x with
  | zero => rfl
  | succ n ih => simp [beEnc, ih]

theorem beDec_append_single (l : Bytes) (b : Byte) : beDec (l ++ [b]) = beDec l * 256 + b.toNat := by
  simp [beDec]

theorem beDec_beEnc (n x : Nat) : beDec (beEnc n x) = x % 256 ^ n := by
  induction n generalizing x with
  | zero => simp [beEnc, beDec, Nat.mod_one]
  | succ n ih =>
    rw [beEnc, beDec_append_single, ih, BitVec.toNat_ofNat]
    have h : (256 : Nat) ^ (n + 1) = 256 * 256 ^ n := by rw [Nat.pow_succ, Nat.mul_comm]
    rw [h, Nat.mod_mul]
    omega

theorem beDec_lt (l : Bytes) : beDec l < 256 ^ l.length := by
  suffices h : ∀ (r : Bytes), beDec r.reverse < 256 ^ r.length by
    have := h l.reverse; simpa using this
  intro r
  induction r with
  | nil => simp [beDec]
  | cons b r ih =>
    rw [List.reverse_cons, beDec_append_single, List.length_cons, Nat.pow_succ]
    have := b.isLt
    omega

theorem beEnc_beDec (l : Bytes) : beEnc l.length (beDec l) = l := by
  suffices h : ∀ (r : Bytes), beEnc r.length (beDec r.reverse) = r.reverse by
    have := h l.reverse; simpa using this
  intro r
  induction r with
  | nil => simp [beEnc]
  | cons b r ih =>
    rw [List.reverse_cons, beDec_append_single, List.length_cons, beEnc]
    have hb := b.isLt
    have h1 : (beDec r.reverse * 256 + b.toNat) / 256 = beDec r.reverse := by omega
    rw [h1, ih]
    congr 2
    apply BitVec.eq_of_toNat_eq
    rw [BitVec.toNat_ofNat]; omega

/-- The bytes `[off, off+n)` of a buffer. -/
def get (buf : Bytes) (off n : Nat) : Bytes := (buf.drop off).take n

/-- Overwrite the bytes of `buf` starting at `off` with `bs` (`memcpy(&buf[off], bs, |bs|)`).
Meaningful when `off + |bs| ≤ |buf|`; the models keep that condition. -/
def put (buf : Bytes) (off : Nat) (bs : Bytes) : Bytes :=
  buf.take off ++ bs ++ buf.drop (off + bs.length)

/-- A buffer of `n` zero bytes (`memset(buf,0,n)`). -/
def zeros (n : Nat) : Bytes := List.replicate n 0

@[simp] theorem zeros_length (n : Nat) : (zeros n).length = n := by simp [zeros]

theorem get_length (buf : Bytes) (off n : Nat) (h : off + n ≤ buf.length) :
    (get buf off n).length = n := by
  simp [get]; omega

theorem get_length_le (buf : Bytes) (off n : Nat) : (get buf off n).length ≤ n := by
  simp [get]; omega

theorem put_length (buf bs : Bytes) (off : Nat) (h : off + bs.length ≤ buf.length) :
    (put buf off bs).length = buf.length := by
  simp [put]; omega

theorem get_put_same (buf bs : Bytes) (off n : Nat) (hn : bs.length = n)
    (h : off + n ≤ buf.length) : get (put buf off bs) off n = bs := by
  subst hn
  have h1 : (buf.take off).length = off := by simp; omega
  unfold get put
  rw [List.append_assoc, List.drop_append_of_le_length (by omega), List.drop_of_length_le (by omega),
    List.nil_append, List.take_append_of_le_length (by omega), List.take_of_length_le (by omega)]

theorem get_put_before (buf bs : Bytes) (off o n : Nat) (h : o + n ≤ off)
    (hb : off + bs.length ≤ buf.length) : get (put buf off bs) o n = get buf o n := by
  unfold get put
  have h1 : (buf.take off).length = off := by simp; omega
  rw [List.append_assoc, List.drop_append_of_le_length (by omega),
    List.take_append_of_le_length (by simp; omega), List.drop_take, List.take_take]
  congr 1; omega

theorem get_put_after (buf bs : Bytes) (off o n : Nat) (h : off + bs.length ≤ o)
    (hb : off + bs.length ≤ buf.length) : get (put buf off bs) o n = get buf o n := by
  unfold get put
  have h1 : (buf.take off).length = off := by simp; omega
  have h2 : (buf.take off ++ bs).length = off + bs.length := by simp; omega
  rw [List.drop_append, List.drop_of_length_le (by omega), List.nil_append, h2, List.drop_drop]
  congr 2; omega

theorem get_zeros (k off n : Nat) (h : off + n ≤ k) : get (zeros k) off n = zeros n := by
  simp [get, zeros, List.drop_replicate, List.take_replicate]; omega

theorem get_get (buf : Bytes) (o n o' n' : Nat) (h : o' + n' ≤ n) :
    get (get buf o n) o' n' = get buf (o + o') n' := by
  simp only [get, List.drop_take, List.drop_drop, List.take_take]
  congr 1; omega

theorem get_append_left (a b : Bytes) (o n : Nat) (h : o + n ≤ a.length) :
    get (a ++ b) o n = get a o n := by
  unfold get
  rw [List.drop_append_of_le_length (by omega), List.take_append_of_le_length (by simp; omega)]

theorem get_append_right (a b : Bytes) (o n : Nat) (h : a.length ≤ o) :
    get (a ++ b) o n = get b (o - a.length) n := by
  unfold get
  rw [List.drop_append, List.drop_of_length_le h, List.nil_append]

theorem get_all (a : Bytes) (n : Nat) (h : a.length ≤ n) : get a 0 n = a := by
  simp [get, List.take_of_length_le h]

theorem get_zero_append (a b : Bytes) (n : Nat) (h : n = a.length) : get (a ++ b) 0 n = a := by
  subst h; rw [get_append_left _ _ _ _ (by omega), get_all _ _ (Nat.le_refl _)]

theorem get_concat (buf : Bytes) (o n m : Nat) :
    get buf o n ++ get buf (o + n) m = get buf o (n + m) := by
  simp [get, List.take_add]

/-- The C view of a big-endian `uint16_t`/`uint32_t`/`uint64_t` field: `ntohl(*(uint32_t*)&buf[off])`
and friends. -/
def get8 (buf : Bytes) (off : Nat) : Byte := BitVec.ofNat 8 (beDec (get buf off 1))
def get16 (buf : Bytes) (off : Nat) : U16 := BitVec.ofNat 16 (beDec (get buf off 2))
def get32 (buf : Bytes) (off : Nat) : U32 := BitVec.ofNat 32 (beDec (get buf off 4))
def get64 (buf : Bytes) (off : Nat) : U64 := BitVec.ofNat 64 (beDec (get buf off 8))

def enc8 (x : Byte) : Bytes := beEnc 1 x.toNat
def enc16 (x : U16) : Bytes := beEnc 2 x.toNat
def enc32 (x : U32) : Bytes := beEnc 4 x.toNat
def enc64 (x : U64) : Bytes := beEnc 8 x.toNat

@[simp] theorem enc8_length (x : Byte) : (enc8 x).length = 1 := by simp [enc8]
@[simp] theorem enc16_length (x : U16) : (enc16 x).length = 2 := by simp [enc16]
@[simp] theorem enc32_length (x : U32) : (enc32 x).length = 4 := by simp [enc32]
@[simp] theorem enc64_length (x : U64) : (enc64 x).length = 8 := by simp [enc64]

theorem enc8_eq (x : Byte) : enc8 x = [x] := by
  simp [enc8, beEnc]

def put8 (buf : Bytes) (off : Nat) (x : Byte) : Bytes := put buf off (enc8 x)
def put16 (buf : Bytes) (off : Nat) (x : U16) : Bytes := put buf off (enc16 x)
def put32 (buf : Bytes) (off : Nat) (x : U32) : Bytes := put buf off (enc32 x)
def put64 (buf : Bytes) (off : Nat) (x : U64) : Bytes := put buf off (enc64 x)

theorem dec_enc8 (x : Byte) : BitVec.ofNat 8 (beDec (enc8 x)) = x := by
  rw [enc8, beDec_beEnc]; apply BitVec.eq_of_toNat_eq; have := x.isLt; simp; omega
theorem dec_enc16 (x : U16) : BitVec.ofNat 16 (beDec (enc16 x)) = x := by
  rw [enc16, beDec_beEnc]; apply BitVec.eq_of_toNat_eq; have := x.isLt; simp; omega
theorem dec_enc32 (x : U32) : BitVec.ofNat 32 (beDec (enc32 x)) = x := by
  rw [enc32, beDec_beEnc]; apply BitVec.eq_of_toNat_eq; have := x.isLt; simp; omega
theorem dec_enc64 (x : U64) : BitVec.ofNat 64 (beDec (enc64 x)) = x := by
  rw [enc64, beDec_beEnc]; apply BitVec.eq_of_toNat_eq; have := x.isLt; simp; omega

theorem enc_get8 (buf : Bytes) (off : Nat) (h : off + 1 ≤ buf.length) :
    enc8 (get8 buf off) = get buf off 1 := by
  have hl := get_length buf off 1 h
  have h1 := beDec_lt (get buf off 1); rw [hl] at h1
  have h2 := beEnc_beDec (get buf off 1); rw [hl] at h2
  rw [enc8, get8, BitVec.toNat_ofNat, Nat.mod_eq_of_lt (by simpa using h1), h2]
theorem enc_get16 (buf : Bytes) (off : Nat) (h : off + 2 ≤ buf.length) :
    enc16 (get16 buf off) = get buf off 2 := by
  have hl := get_length buf off 2 h
  have h1 := beDec_lt (get buf off 2); rw [hl] at h1
  have h2 := beEnc_beDec (get buf off 2); rw [hl] at h2
  rw [enc16, get16, BitVec.toNat_ofNat, Nat.mod_eq_of_lt (by simpa using h1), h2]
theorem enc_get32 (buf : Bytes) (off : Nat) (h : off + 4 ≤ buf.length) :
    enc32 (get32 buf off) = get buf off 4 := by
  have hl := get_length buf off 4 h
  have h1 := beDec_lt (get buf off 4); rw [hl] at h1
  have h2 := beEnc_beDec (get buf off 4); rw [hl] at h2
  rw [enc32, get32, BitVec.toNat_ofNat, Nat.mod_eq_of_lt (by simpa using h1), h2]
theorem enc_get64 (buf : Bytes) (off : Nat) (h : off + 8 ≤ buf.length) :
    enc64 (get64 buf off) = get buf off 8 := by
  have hl := get_length buf off 8 h
  have h1 := beDec_lt (get buf off 8); rw [hl] at h1
  have h2 := beEnc_beDec (get buf off 8); rw [hl] at h2
  rw [enc64, get64, BitVec.toNat_ofNat, Nat.mod_eq_of_lt (by simpa using h1), h2]

end Owamp
