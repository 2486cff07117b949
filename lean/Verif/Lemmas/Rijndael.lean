import Verif.Model.Rijndael
import Verif.Spec.AES
/-!
# Lemmas: the table implementation of Rijndael against FIPS-197
-/
namespace Owamp.Rijndael
open Owamp.Spec.AES

/-- The four bytes of a word, most significant first. -/
def col (w : U32) : Col :=
  ⟨(w >>> 24).setWidth 8, (w >>> 16).setWidth 8, (w >>> 8).setWidth 8, w.setWidth 8⟩

def st (q : Quad) : State := ⟨col q.a, col q.b, col q.c, col q.d⟩

theorem col_xor (x y : U32) : col (x ^^^ y) = (col x).xor (col y) := by
  simp [col, Col.xor, BitVec.ushiftRight_xor_distrib, BitVec.setWidth_xor]

/-- A word as the number its bytes denote. -/
theorem word_toNat (w : U32) : w.toNat = (col w).r0.toNat * 2 ^ 24 + (col w).r1.toNat * 2 ^ 16
    + (col w).r2.toNat * 2 ^ 8 + (col w).r3.toNat := by
  simp only [col, BitVec.toNat_setWidth, BitVec.toNat_ushiftRight, Nat.shiftRight_eq_div_pow]
  have := w.isLt
  omega

theorem col_inj (x y : U32) (h : col x = col y) : x = y := by
  apply BitVec.eq_of_toNat_eq
  rw [word_toNat x, word_toNat y, h]

theorem idx0 (w : U32) : (w >>> 24).toNat = (col w).r0.toNat := by
  simp only [col, BitVec.toNat_setWidth, BitVec.toNat_ushiftRight, Nat.shiftRight_eq_div_pow]
  have := w.isLt
  omega

theorem and_ff (w : U32) : (w &&& 0xff#32).toNat = w.toNat % 256 := by
  rw [BitVec.toNat_and]
  have : (0xff#32).toNat = 2 ^ 8 - 1 := by decide
  rw [this, Nat.and_two_pow_sub_one_eq_mod]

theorem sh16 (w : U32) : (col (w >>> 16)).r3 = (col w).r1 := rfl
theorem sh8 (w : U32) : (col (w >>> 8)).r3 = (col w).r2 := rfl
theorem idx3 (w : U32) : (w &&& 0xff#32).toNat = (col w).r3.toNat := by
  rw [and_ff]; simp [col, BitVec.toNat_setWidth]

/-- Lift a fact checked for all 256 table indices to all bytes. -/
theorem lift256 {P : Byte → Prop} (h : ∀ i : Fin 256, P (BitVec.ofNat 8 i)) (x : Byte) : P x := by
  have := h ⟨x.toNat, x.isLt⟩
  simpa only [BitVec.ofNat_toNat, BitVec.setWidth_eq] using this

/-- The substitution as the code has it: the low byte of `Te4`. -/
def tsbox (x : Byte) : Byte := (Te4.getD x.toNat 0).setWidth 8

theorem sbox_eq (x : Byte) : sbox x = tsbox x :=
  lift256 (P := fun x => sbox x = tsbox x) (by decide +kernel) x

theorem te0 (x : Byte) : col (Te0.getD x.toNat 0) = ⟨gmul 2 (sbox x), sbox x, sbox x, gmul 3 (sbox x)⟩ := by
  rw [sbox_eq]
  exact lift256 (P := fun x => col (Te0.getD x.toNat 0) = ⟨gmul 2 (tsbox x), tsbox x, tsbox x, gmul 3 (tsbox x)⟩)
    (by decide +kernel) x
theorem te1 (x : Byte) : col (Te1.getD x.toNat 0) = ⟨gmul 3 (sbox x), gmul 2 (sbox x), sbox x, sbox x⟩ := by
  rw [sbox_eq]
  exact lift256 (P := fun x => col (Te1.getD x.toNat 0) = ⟨gmul 3 (tsbox x), gmul 2 (tsbox x), tsbox x, tsbox x⟩)
    (by decide +kernel) x
theorem te2 (x : Byte) : col (Te2.getD x.toNat 0) = ⟨sbox x, gmul 3 (sbox x), gmul 2 (sbox x), sbox x⟩ := by
  rw [sbox_eq]
  exact lift256 (P := fun x => col (Te2.getD x.toNat 0) = ⟨tsbox x, gmul 3 (tsbox x), gmul 2 (tsbox x), tsbox x⟩)
    (by decide +kernel) x
theorem te3 (x : Byte) : col (Te3.getD x.toNat 0) = ⟨sbox x, sbox x, gmul 3 (sbox x), gmul 2 (sbox x)⟩ := by
  rw [sbox_eq]
  exact lift256 (P := fun x => col (Te3.getD x.toNat 0) = ⟨tsbox x, tsbox x, gmul 3 (tsbox x), gmul 2 (tsbox x)⟩)
    (by decide +kernel) x
theorem te4 (x : Byte) : col (Te4.getD x.toNat 0) = ⟨sbox x, sbox x, sbox x, sbox x⟩ := by
  rw [sbox_eq]
  exact lift256 (P := fun x => col (Te4.getD x.toNat 0) = ⟨tsbox x, tsbox x, tsbox x, tsbox x⟩)
    (by decide +kernel) x

/-- The inverse substitution, read off `Td4`. -/
def isbox (x : Byte) : Byte := (Td4.getD x.toNat 0).setWidth 8

theorem isbox_sbox (x : Byte) : isbox (sbox x) = x := by
  rw [sbox_eq]
  exact lift256 (P := fun x => isbox (tsbox x) = x) (by decide +kernel) x

theorem td0 (x : Byte) : col (Td0.getD x.toNat 0) =
    ⟨gmul 14 (isbox x), gmul 9 (isbox x), gmul 13 (isbox x), gmul 11 (isbox x)⟩ :=
  lift256 (P := fun x => col (Td0.getD x.toNat 0) =
    ⟨gmul 14 (isbox x), gmul 9 (isbox x), gmul 13 (isbox x), gmul 11 (isbox x)⟩)
    (by decide +kernel) x
theorem td1 (x : Byte) : col (Td1.getD x.toNat 0) =
    ⟨gmul 11 (isbox x), gmul 14 (isbox x), gmul 9 (isbox x), gmul 13 (isbox x)⟩ :=
  lift256 (P := fun x => col (Td1.getD x.toNat 0) =
    ⟨gmul 11 (isbox x), gmul 14 (isbox x), gmul 9 (isbox x), gmul 13 (isbox x)⟩)
    (by decide +kernel) x
theorem td2 (x : Byte) : col (Td2.getD x.toNat 0) =
    ⟨gmul 13 (isbox x), gmul 11 (isbox x), gmul 14 (isbox x), gmul 9 (isbox x)⟩ :=
  lift256 (P := fun x => col (Td2.getD x.toNat 0) =
    ⟨gmul 13 (isbox x), gmul 11 (isbox x), gmul 14 (isbox x), gmul 9 (isbox x)⟩)
    (by decide +kernel) x
theorem td3 (x : Byte) : col (Td3.getD x.toNat 0) =
    ⟨gmul 9 (isbox x), gmul 13 (isbox x), gmul 11 (isbox x), gmul 14 (isbox x)⟩ :=
  lift256 (P := fun x => col (Td3.getD x.toNat 0) =
    ⟨gmul 9 (isbox x), gmul 13 (isbox x), gmul 11 (isbox x), gmul 14 (isbox x)⟩)
    (by decide +kernel) x
theorem td4 (x : Byte) : col (Td4.getD x.toNat 0) = ⟨isbox x, isbox x, isbox x, isbox x⟩ :=
  lift256 (P := fun x => col (Td4.getD x.toNat 0) = ⟨isbox x, isbox x, isbox x, isbox x⟩)
    (by decide +kernel) x

/-! Masks. -/
theorem setWidth_and (x y : U32) : (x &&& y).setWidth 8 = x.setWidth 8 &&& y.setWidth 8 := by
  simp

theorem mask0 (w : U32) : col (w &&& 0xff000000#32) = ⟨(col w).r0, 0#8, 0#8, 0#8⟩ := by
  simp only [col, BitVec.ushiftRight_and_distrib, setWidth_and]
  have a : (0xff000000#32 >>> 24).setWidth 8 = BitVec.allOnes 8 := by decide
  have b : (0xff000000#32 >>> 16).setWidth 8 = 0#8 := by decide
  have c : (0xff000000#32 >>> 8).setWidth 8 = 0#8 := by decide
  have d : (0xff000000#32).setWidth 8 = 0#8 := by decide
  rw [a, b, c, d]
  simp only [BitVec.and_allOnes, BitVec.and_zero]
theorem mask1 (w : U32) : col (w &&& 0x00ff0000#32) = ⟨0#8, (col w).r1, 0#8, 0#8⟩ := by
  simp only [col, BitVec.ushiftRight_and_distrib, setWidth_and]
  have a : (0x00ff0000#32 >>> 24).setWidth 8 = 0#8 := by decide
  have b : (0x00ff0000#32 >>> 16).setWidth 8 = BitVec.allOnes 8 := by decide
  have c : (0x00ff0000#32 >>> 8).setWidth 8 = 0#8 := by decide
  have d : (0x00ff0000#32).setWidth 8 = 0#8 := by decide
  rw [a, b, c, d]
  simp only [BitVec.and_allOnes, BitVec.and_zero]
theorem mask2 (w : U32) : col (w &&& 0x0000ff00#32) = ⟨0#8, 0#8, (col w).r2, 0#8⟩ := by
  simp only [col, BitVec.ushiftRight_and_distrib, setWidth_and]
  have a : (0x0000ff00#32 >>> 24).setWidth 8 = 0#8 := by decide
  have b : (0x0000ff00#32 >>> 16).setWidth 8 = 0#8 := by decide
  have c : (0x0000ff00#32 >>> 8).setWidth 8 = BitVec.allOnes 8 := by decide
  have d : (0x0000ff00#32).setWidth 8 = 0#8 := by decide
  rw [a, b, c, d]
  simp only [BitVec.and_allOnes, BitVec.and_zero]
theorem mask3 (w : U32) : col (w &&& 0x000000ff#32) = ⟨0#8, 0#8, 0#8, (col w).r3⟩ := by
  simp only [col, BitVec.ushiftRight_and_distrib, setWidth_and]
  have a : (0x000000ff#32 >>> 24).setWidth 8 = 0#8 := by decide
  have b : (0x000000ff#32 >>> 16).setWidth 8 = 0#8 := by decide
  have c : (0x000000ff#32 >>> 8).setWidth 8 = 0#8 := by decide
  have d : (0x000000ff#32).setWidth 8 = BitVec.allOnes 8 := by decide
  rw [a, b, c, d]
  simp only [BitVec.and_allOnes, BitVec.and_zero]

theorem st_encRound (s k : Quad) :
    st (encRound s k) = addRoundKey (mixColumns (shiftRows (subBytes (st s)))) (st k) := by
  simp only [st, encRound, col_xor, lut, idx0, idx3, sh16, sh8, te0, te1, te2, te3,
    addRoundKey, mixColumns, mixCol, shiftRows, subBytes, subCol, Col.xor]

theorem st_encLast (s k : Quad) :
    st (encLast s k) = addRoundKey (shiftRows (subBytes (st s))) (st k) := by
  simp only [st, encLast, col_xor, mask0, mask1, mask2, mask3, lut, idx0, idx3, sh16, sh8, te4,
    addRoundKey, shiftRows, subBytes, subCol, Col.xor]
  simp

def isubCol (c : Col) : Col := ⟨isbox c.r0, isbox c.r1, isbox c.r2, isbox c.r3⟩
def isubBytes (s : State) : State := ⟨isubCol s.c0, isubCol s.c1, isubCol s.c2, isubCol s.c3⟩
def ishiftRows (s : State) : State :=
  ⟨⟨s.c0.r0, s.c3.r1, s.c2.r2, s.c1.r3⟩, ⟨s.c1.r0, s.c0.r1, s.c3.r2, s.c2.r3⟩,
   ⟨s.c2.r0, s.c1.r1, s.c0.r2, s.c3.r3⟩, ⟨s.c3.r0, s.c2.r1, s.c1.r2, s.c0.r3⟩⟩
def imixCol (c : Col) : Col :=
  ⟨gmul 14 c.r0 ^^^ gmul 11 c.r1 ^^^ gmul 13 c.r2 ^^^ gmul 9 c.r3,
   gmul 9 c.r0 ^^^ gmul 14 c.r1 ^^^ gmul 11 c.r2 ^^^ gmul 13 c.r3,
   gmul 13 c.r0 ^^^ gmul 9 c.r1 ^^^ gmul 14 c.r2 ^^^ gmul 11 c.r3,
   gmul 11 c.r0 ^^^ gmul 13 c.r1 ^^^ gmul 9 c.r2 ^^^ gmul 14 c.r3⟩
def imixColumns (s : State) : State := ⟨imixCol s.c0, imixCol s.c1, imixCol s.c2, imixCol s.c3⟩

theorem st_decRound (s k : Quad) :
    st (decRound s k) = addRoundKey (imixColumns (ishiftRows (isubBytes (st s)))) (st k) := by
  simp only [st, decRound, col_xor, lut, idx0, idx3, sh16, sh8, td0, td1, td2, td3,
    addRoundKey, imixColumns, imixCol, ishiftRows, isubBytes, isubCol, Col.xor]

theorem st_decLast (s k : Quad) :
    st (decLast s k) = addRoundKey (ishiftRows (isubBytes (st s))) (st k) := by
  simp only [st, decLast, col_xor, mask0, mask1, mask2, mask3, lut, idx0, idx3, sh16, sh8, td4,
    addRoundKey, ishiftRows, isubBytes, isubCol, Col.xor]
  simp

theorem col_invMixWord (w : U32) : col (invMixWord w) = imixCol (col w) := by
  simp only [invMixWord, col_xor, lut, idx0, idx3, sh16, sh8, te4, td0, td1, td2, td3, isbox_sbox,
    imixCol, Col.xor]

def invMixQuad (k : Quad) : Quad := ⟨invMixWord k.a, invMixWord k.b, invMixWord k.c, invMixWord k.d⟩

theorem st_invMixQuad (k : Quad) : st (invMixQuad k) = imixColumns (st k) := by
  simp only [st, invMixQuad, col_invMixWord, imixColumns]

/-! Inverses. -/

theorem xtime_xor (a b : Byte) : xtime (a ^^^ b) = xtime a ^^^ xtime b := by
  simp only [xtime, BitVec.shiftLeft_xor_distrib, BitVec.sshiftRight_xor_distrib]
  ext i
  simp only [BitVec.getElem_xor, BitVec.getElem_and]
  cases (0x1b#8)[i] <;> cases (a <<< 1)[i] <;> cases (b <<< 1)[i] <;>
    cases (a.sshiftRight 7)[i] <;> cases (b.sshiftRight 7)[i] <;> rfl

theorem gmul_xor_right (c a b : Byte) : gmul c (a ^^^ b) = gmul c a ^^^ gmul c b := by
  suffices h : ∀ n i x, gmulAux (a ^^^ b) n i x = gmulAux a n i x ^^^ gmulAux b n i x from h 8 0 c
  intro n
  induction n with
  | zero => intro i x; simp [gmulAux]
  | succ n ih =>
    intro i x
    rw [gmulAux, gmulAux, gmulAux, ih, BitVec.getLsbD_xor]
    generalize gmulAux a n (i + 1) (xtime x) = p
    generalize gmulAux b n (i + 1) (xtime x) = q
    have e1 : ∀ x y z w : Byte, (x ^^^ y) ^^^ (z ^^^ w) = (x ^^^ z) ^^^ (y ^^^ w) := by
      intro x y z w; ac_rfl
    cases a.getLsbD i <;> cases b.getLsbD i <;> simp [e1] <;> ac_rfl

/-- The products of the matrices, entry by entry, for every byte. -/
theorem imix_facts (x : Byte) :
    (gmul 14 (gmul 2 x) ^^^ gmul 11 x ^^^ gmul 13 x ^^^ gmul 9 (gmul 3 x) = x ∧
     gmul 14 (gmul 3 x) ^^^ gmul 11 (gmul 2 x) ^^^ gmul 13 x ^^^ gmul 9 x = 0 ∧
     gmul 14 x ^^^ gmul 11 (gmul 3 x) ^^^ gmul 13 (gmul 2 x) ^^^ gmul 9 x = 0 ∧
     gmul 14 x ^^^ gmul 11 x ^^^ gmul 13 (gmul 3 x) ^^^ gmul 9 (gmul 2 x) = 0) :=
  lift256 (P := fun x => gmul 14 (gmul 2 x) ^^^ gmul 11 x ^^^ gmul 13 x ^^^ gmul 9 (gmul 3 x) = x ∧
     gmul 14 (gmul 3 x) ^^^ gmul 11 (gmul 2 x) ^^^ gmul 13 x ^^^ gmul 9 x = 0 ∧
     gmul 14 x ^^^ gmul 11 (gmul 3 x) ^^^ gmul 13 (gmul 2 x) ^^^ gmul 9 x = 0 ∧
     gmul 14 x ^^^ gmul 11 x ^^^ gmul 13 (gmul 3 x) ^^^ gmul 9 (gmul 2 x) = 0)
    (by decide +kernel) x

/-- Regroup sixteen terms by input byte. -/
theorem regroup (a0 a1 a2 a3 b0 b1 b2 b3 c0 c1 c2 c3 d0 d1 d2 d3 : Byte) :
    (a0 ^^^ b0 ^^^ c0 ^^^ d0) ^^^ (a1 ^^^ b1 ^^^ c1 ^^^ d1) ^^^ (a2 ^^^ b2 ^^^ c2 ^^^ d2) ^^^
      (a3 ^^^ b3 ^^^ c3 ^^^ d3) =
    (a0 ^^^ a1 ^^^ a2 ^^^ a3) ^^^ (b0 ^^^ b1 ^^^ b2 ^^^ b3) ^^^ (c0 ^^^ c1 ^^^ c2 ^^^ c3) ^^^
      (d0 ^^^ d1 ^^^ d2 ^^^ d3) := by
  ac_rfl

theorem rot4 (a b c d : Byte) : a ^^^ b ^^^ c ^^^ d = b ^^^ c ^^^ d ^^^ a := by ac_rfl
theorem rot4' (a b c d : Byte) : a ^^^ b ^^^ c ^^^ d = c ^^^ d ^^^ a ^^^ b := by ac_rfl
theorem rot4'' (a b c d : Byte) : a ^^^ b ^^^ c ^^^ d = d ^^^ a ^^^ b ^^^ c := by ac_rfl

theorem imix_mix (c : Col) : imixCol (mixCol c) = c := by
  obtain ⟨a, b, x, y⟩ := c
  simp only [imixCol, mixCol, gmul_xor_right]
  obtain ⟨a1, a2, a3, a4⟩ := imix_facts a
  obtain ⟨b1, b2, b3, b4⟩ := imix_facts b
  obtain ⟨x1, x2, x3, x4⟩ := imix_facts x
  obtain ⟨y1, y2, y3, y4⟩ := imix_facts y
  congr 1
  · rw [regroup, a1, b2, x3, y4]; simp
  · rw [regroup, rot4 (gmul 9 (gmul 2 a)), rot4 (gmul 9 (gmul 3 b)), rot4 (gmul 9 x), rot4 (gmul 9 y),
      a4, b1, x2, y3]; simp
  · rw [regroup, rot4' (gmul 13 (gmul 2 a)), rot4' (gmul 13 (gmul 3 b)), rot4' (gmul 13 x),
      rot4' (gmul 13 y), a3, b4, x1, y2]; simp
  · rw [regroup, rot4'' (gmul 11 (gmul 2 a)), rot4'' (gmul 11 (gmul 3 b)), rot4'' (gmul 11 x),
      rot4'' (gmul 11 y), a2, b3, x4, y1]; simp

theorem imixColumns_mix (s : State) : imixColumns (mixColumns s) = s := by
  simp [imixColumns, mixColumns, imix_mix]

theorem xor4 (p q r s u v w x : Byte) :
    (p ^^^ u) ^^^ (q ^^^ v) ^^^ (r ^^^ w) ^^^ (s ^^^ x) = (p ^^^ q ^^^ r ^^^ s) ^^^ (u ^^^ v ^^^ w ^^^ x) := by
  ac_rfl

theorem imixCol_xor (x y : Col) : imixCol (x.xor y) = (imixCol x).xor (imixCol y) := by
  simp only [imixCol, Col.xor, gmul_xor_right, xor4]

theorem imixColumns_add (s k : State) :
    imixColumns (addRoundKey s k) = addRoundKey (imixColumns s) (imixColumns k) := by
  simp only [imixColumns, addRoundKey, imixCol_xor]

theorem col_xor_cancel (x y : Col) : (x.xor y).xor y = x := by
  simp [Col.xor, BitVec.xor_assoc]

theorem add_cancel (s k : State) : addRoundKey (addRoundKey s k) k = s := by
  simp [addRoundKey, col_xor_cancel]

theorem ishift_isub (s : State) : ishiftRows (isubBytes (shiftRows (subBytes s))) = s := by
  simp [ishiftRows, isubBytes, isubCol, shiftRows, subBytes, subCol, isbox_sbox]

/-! Loading and storing blocks. -/

theorem col_getu32 (pt : Bytes) (o : Nat) : col (getu32 pt o) =
    ⟨pt.getD o 0, pt.getD (o + 1) 0, pt.getD (o + 2) 0, pt.getD (o + 3) 0⟩ := by
  have key : ∀ a b c d : Byte, col ((a.setWidth 32 <<< 24) ^^^ (b.setWidth 32 <<< 16)
      ^^^ (c.setWidth 32 <<< 8) ^^^ d.setWidth 32) = ⟨a, b, c, d⟩ := by
    intro a b c d
    rw [col_xor, col_xor, col_xor]
    have h0 : col (a.setWidth 32 <<< 24) = ⟨a, 0, 0, 0⟩ :=
      lift256 (P := fun a => col (a.setWidth 32 <<< 24) = ⟨a, 0, 0, 0⟩) (by decide +kernel) a
    have h1 : col (b.setWidth 32 <<< 16) = ⟨0, b, 0, 0⟩ :=
      lift256 (P := fun a => col (a.setWidth 32 <<< 16) = ⟨0, a, 0, 0⟩) (by decide +kernel) b
    have h2 : col (c.setWidth 32 <<< 8) = ⟨0, 0, c, 0⟩ :=
      lift256 (P := fun a => col (a.setWidth 32 <<< 8) = ⟨0, 0, a, 0⟩) (by decide +kernel) c
    have h3 : col (d.setWidth 32) = ⟨0, 0, 0, d⟩ :=
      lift256 (P := fun a => col (a.setWidth 32) = ⟨0, 0, 0, a⟩) (by decide +kernel) d
    rw [h0, h1, h2, h3]
    simp [Col.xor]
  exact key _ _ _ _

theorem st_load (blk : Bytes) (k : Quad) : st (load blk k) = addRoundKey (ofBytes blk) (st k) := by
  simp only [load, st, col_xor, col_getu32, addRoundKey, ofBytes]

theorem store_eq (s : Quad) : store s = toBytes (st s) := rfl

theorem ofBytes_toBytes (s : State) : ofBytes (toBytes s) = s := rfl

theorem toBytes_ofBytes (l : Bytes) (h : l.length = 16) : toBytes (ofBytes l) = l := by
  match l, h with
  | [_, _, _, _, _, _, _, _, _, _, _, _, _, _, _, _], _ => rfl

theorem st_inj (x y : Quad) (h : st x = st y) : x = y := by
  obtain ⟨a, b, c, d⟩ := x
  obtain ⟨a', b', c', d'⟩ := y
  simp only [st, State.mk.injEq] at h
  obtain ⟨h1, h2, h3, h4⟩ := h
  rw [col_inj _ _ h1, col_inj _ _ h2, col_inj _ _ h3, col_inj _ _ h4]

/-! Key schedule. -/

theorem st_expandStep (r : Quad) (rc : U32) (b : Byte) (hrc : col rc = ⟨b, 0, 0, 0⟩) :
    st (expandStep r rc) =
      (let t := (st r).c3
       let c0 := ((st r).c0.xor ⟨sbox t.r1, sbox t.r2, sbox t.r3, sbox t.r0⟩).xor ⟨b, 0, 0, 0⟩
       let c1 := (st r).c1.xor c0
       let c2 := (st r).c2.xor c1
       let c3 := (st r).c3.xor c2
       ⟨c0, c1, c2, c3⟩) := by
  simp only [st, expandStep, col_xor, mask0, mask1, mask2, mask3, lut, idx0, idx3, sh16, sh8, te4,
    hrc]
  simp only [Col.xor]
  simp

end Owamp.Rijndael
