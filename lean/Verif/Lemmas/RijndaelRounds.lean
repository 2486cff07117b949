import Verif.Lemmas.Rijndael
/-!
# Key schedule and round loop of the table-driven Rijndael code
-/
namespace Owamp.Rijndael
open Owamp.Spec.AES

/-- Round key `i` in the layout of the code. -/
def rkey (key : Bytes) : Nat → Quad
  | 0 => ⟨getu32 key 0, getu32 key 4, getu32 key 8, getu32 key 12⟩
  | n + 1 => expandStep (rkey key n) (rcon.getD n 0)

theorem keySetupEnc_eq (key : Bytes) : keySetupEnc key =
    [rkey key 0, rkey key 1, rkey key 2, rkey key 3, rkey key 4, rkey key 5, rkey key 6, rkey key 7,
     rkey key 8, rkey key 9, rkey key 10] := rfl

theorem rcon_col (n : Nat) (h : n < 10) : col (rcon.getD n 0) = ⟨rconByte n, 0, 0, 0⟩ := by
  have : ∀ n : Fin 10, col (rcon.getD n 0) = ⟨rconByte n, 0, 0, 0⟩ := by decide +kernel
  exact this ⟨n, h⟩

theorem st_rkey (key : Bytes) (n : Nat) (h : n ≤ 10) : st (rkey key n) = roundKey (ofBytes key) n := by
  induction n with
  | zero => simp only [rkey, st, col_getu32, roundKey, ofBytes]
  | succ n ih =>
    rw [rkey, st_expandStep _ _ _ (rcon_col n (by omega)), roundKey, ← ih (by omega)]
    rfl

theorem keySetupDec_eq (key : Bytes) : keySetupDec key =
    [rkey key 10, invMixQuad (rkey key 9), invMixQuad (rkey key 8), invMixQuad (rkey key 7),
     invMixQuad (rkey key 6), invMixQuad (rkey key 5), invMixQuad (rkey key 4),
     invMixQuad (rkey key 3), invMixQuad (rkey key 2), invMixQuad (rkey key 1), rkey key 0] := by
  rw [keySetupDec, keySetupEnc_eq]
  rfl

/-- The loop is ten rounds' worth of nine applications. -/
theorem roundLoop_eq (rnd : Quad → Quad → Quad) (k0 k1 k2 k3 k4 k5 k6 k7 k8 k9 k10 s : Quad) :
    roundLoop rnd [k0, k1, k2, k3, k4, k5, k6, k7, k8, k9, k10] (10 >>> 1) s 0 =
      (rnd (rnd (rnd (rnd (rnd (rnd (rnd (rnd (rnd s k1) k2) k3) k4) k5) k6) k7) k8) k9, 10) := rfl

theorem st_load_rounds (key blk : Bytes) :
    st (load blk (rkey key 0)) = rounds (ofBytes key) (ofBytes blk) 0 := by
  rw [st_load, st_rkey _ _ (by omega)]; rfl

theorem st_enc_step (key blk : Bytes) (n : Nat) (hn : n < 10) (s : Quad)
    (h : st s = rounds (ofBytes key) (ofBytes blk) n) :
    st (encRound s (rkey key (n + 1))) = rounds (ofBytes key) (ofBytes blk) (n + 1) := by
  rw [st_encRound, h, st_rkey _ _ (by omega)]; rfl

theorem encrypt_eq (key blk : Bytes) : encrypt key blk = Spec.AES.encrypt key blk := by
  have h0 := st_load_rounds key blk
  have h1 := st_enc_step key blk 0 (by omega) _ h0
  have h2 := st_enc_step key blk 1 (by omega) _ h1
  have h3 := st_enc_step key blk 2 (by omega) _ h2
  have h4 := st_enc_step key blk 3 (by omega) _ h3
  have h5 := st_enc_step key blk 4 (by omega) _ h4
  have h6 := st_enc_step key blk 5 (by omega) _ h5
  have h7 := st_enc_step key blk 6 (by omega) _ h6
  have h8 := st_enc_step key blk 7 (by omega) _ h7
  have h9 := st_enc_step key blk 8 (by omega) _ h8
  clear h1 h2 h3 h4 h5 h6 h7 h8
  rw [encrypt, keySetupEnc_eq, encryptRk, roundLoop_eq]
  simp only [List.getD_cons_zero, List.getD_cons_succ]
  rw [store_eq, st_encLast, h9, st_rkey _ _ (by omega)]
  rfl

theorem st_dec_step (key : Bytes) (blk : State) (n : Nat) (hn : n < 10) (s : Quad)
    (h : st s = shiftRows (subBytes (rounds (ofBytes key) blk (n + 1)))) :
    st (decRound s (invMixQuad (rkey key (n + 1)))) =
      shiftRows (subBytes (rounds (ofBytes key) blk n)) := by
  rw [st_decRound, h, ishift_isub, st_invMixQuad, ← imixColumns_add, st_rkey _ _ (by omega), rounds,
    add_cancel, imixColumns_mix]

theorem decrypt_encrypt (key blk : Bytes) (h : blk.length = 16) :
    decrypt key (encrypt key blk) = blk := by
  have h9 : st (load (encrypt key blk) (rkey key 10)) =
      shiftRows (subBytes (rounds (ofBytes key) (ofBytes blk) 9)) := by
    rw [st_load, encrypt_eq, Spec.AES.encrypt, ofBytes_toBytes, st_rkey _ _ (by omega), cipher,
      add_cancel]
  have h8 := st_dec_step key _ 8 (by omega) _ h9
  have h7 := st_dec_step key _ 7 (by omega) _ h8
  have h6 := st_dec_step key _ 6 (by omega) _ h7
  have h5 := st_dec_step key _ 5 (by omega) _ h6
  have h4 := st_dec_step key _ 4 (by omega) _ h5
  have h3 := st_dec_step key _ 3 (by omega) _ h4
  have h2 := st_dec_step key _ 2 (by omega) _ h3
  have h1 := st_dec_step key _ 1 (by omega) _ h2
  have h0 := st_dec_step key _ 0 (by omega) _ h1
  clear h1 h2 h3 h4 h5 h6 h7 h8 h9
  rw [decrypt, keySetupDec_eq, decryptRk, roundLoop_eq]
  simp only [List.getD_cons_zero, List.getD_cons_succ]
  rw [store_eq, st_decLast, h0, ishift_isub, st_rkey _ _ (by omega)]
  rw [rounds, roundKey, add_cancel, toBytes_ofBytes _ h]

theorem encrypt_length (key blk : Bytes) : (encrypt key blk).length = 16 := rfl
theorem decrypt_length (key blk : Bytes) : (decrypt key blk).length = 16 := rfl

end Owamp.Rijndael
