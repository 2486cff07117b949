import Verif.Model.RijndaelTables
/-!
# Model of `owamp/rijndael-alg-fst.c` and `owamp/rijndael-api-fst.c`

Only 128-bit keys (10 rounds) are modelled: every caller in owamp passes 128. `FULL_UNROLL` is not
defined anywhere in the build, so the looped version of the rounds is modelled. The round key array
`rk[4*(Nr+1)]` is a list of `Nr+1` quads of words.
-/
namespace Owamp.Rijndael

/-- Four consecutive words: a round key, or the cipher state `s0..s3` / `t0..t3`. -/
structure Quad where
  a : U32
  b : U32
  c : U32
  d : U32
deriving DecidableEq, Repr

instance : Inhabited Quad := ⟨⟨0, 0, 0, 0⟩⟩

/-- Table lookup `T[i]`. Every index in the code is masked to 8 bits, so it is always in range. -/
def lut (t : List U32) (i : U32) : U32 := t.getD i.toNat 0

/-- `rcon[]` (rijndael-alg-fst.c:708-712). -/
def rcon : List U32 :=
  [0x01000000#32, 0x02000000#32, 0x04000000#32, 0x08000000#32, 0x10000000#32, 0x20000000#32,
   0x40000000#32, 0x80000000#32, 0x1B000000#32, 0x36000000#32]

/-- `GETU32(pt)` (rijndael-alg-fst.c:720) at byte offset `o`. -/
def getu32 (pt : Bytes) (o : Nat) : U32 :=
  ((pt.getD o 0).setWidth 32 <<< 24) ^^^ ((pt.getD (o + 1) 0).setWidth 32 <<< 16)
    ^^^ ((pt.getD (o + 2) 0).setWidth 32 <<< 8) ^^^ (pt.getD (o + 3) 0).setWidth 32

/-- `PUTU32(ct, st)` (rijndael-alg-fst.c:721): the four bytes it stores. -/
def putu32 (st : U32) : Bytes :=
  [(st >>> 24).setWidth 8, (st >>> 16).setWidth 8, (st >>> 8).setWidth 8, st.setWidth 8]

/-- One pass of the 128-bit key expansion loop (rijndael-alg-fst.c:745-754). -/
def expandStep (r : Quad) (rc : U32) : Quad :=
  let temp := r.d
  let a := r.a ^^^ (lut Te4 ((temp >>> 16) &&& 0xff#32) &&& 0xff000000#32)
    ^^^ (lut Te4 ((temp >>> 8) &&& 0xff#32) &&& 0x00ff0000#32)
    ^^^ (lut Te4 (temp &&& 0xff#32) &&& 0x0000ff00#32)
    ^^^ (lut Te4 (temp >>> 24) &&& 0x000000ff#32) ^^^ rc
  let b := r.b ^^^ a
  let c := r.c ^^^ b
  let d := r.d ^^^ c
  ⟨a, b, c, d⟩

/-- The expansion loop (rijndael-alg-fst.c:744-759) over the round constants. -/
def expandLoop (r : Quad) : List U32 → List Quad
  | [] => [r]
  | rc :: rcs => r :: expandLoop (expandStep r rc) rcs

/-- `rijndaelKeySetupEnc` (rijndael-alg-fst.c:729-760) for `keyBits == 128`. -/
def keySetupEnc (key : Bytes) : List Quad :=
  expandLoop ⟨getu32 key 0, getu32 key 4, getu32 key 8, getu32 key 12⟩ rcon

/-- The inverse MixColumn of one key word (rijndael-alg-fst.c:843-847). -/
def invMixWord (w : U32) : U32 :=
  lut Td0 (lut Te4 (w >>> 24) &&& 0xff#32) ^^^ lut Td1 (lut Te4 ((w >>> 16) &&& 0xff#32) &&& 0xff#32)
    ^^^ lut Td2 (lut Te4 ((w >>> 8) &&& 0xff#32) &&& 0xff#32) ^^^ lut Td3 (lut Te4 (w &&& 0xff#32) &&& 0xff#32)

/-- The loop of rijndael-alg-fst.c:841-863 over the round keys but the first and the last. -/
def invMixKeys : List Quad → List Quad
  | [] => []
  | [k] => [k]
  | k :: k' :: ks =>
    ⟨invMixWord k.a, invMixWord k.b, invMixWord k.c, invMixWord k.d⟩ :: invMixKeys (k' :: ks)

/-- `rijndaelKeySetupDec` (rijndael-alg-fst.c:821-865). The swap loop 834-839 exchanges quads `i` and
`Nr-i`, which is list reversal. -/
def keySetupDec (key : Bytes) : List Quad :=
  match (keySetupEnc key).reverse with
  | [] => []
  | k :: ks => k :: invMixKeys ks

/-- One encryption round (rijndael-alg-fst.c:965-988 and 995-1018). -/
def encRound (s k : Quad) : Quad :=
  ⟨lut Te0 (s.a >>> 24) ^^^ lut Te1 ((s.b >>> 16) &&& 0xff#32) ^^^ lut Te2 ((s.c >>> 8) &&& 0xff#32)
      ^^^ lut Te3 (s.d &&& 0xff#32) ^^^ k.a,
   lut Te0 (s.b >>> 24) ^^^ lut Te1 ((s.c >>> 16) &&& 0xff#32) ^^^ lut Te2 ((s.d >>> 8) &&& 0xff#32)
      ^^^ lut Te3 (s.a &&& 0xff#32) ^^^ k.b,
   lut Te0 (s.c >>> 24) ^^^ lut Te1 ((s.d >>> 16) &&& 0xff#32) ^^^ lut Te2 ((s.a >>> 8) &&& 0xff#32)
      ^^^ lut Te3 (s.b &&& 0xff#32) ^^^ k.c,
   lut Te0 (s.d >>> 24) ^^^ lut Te1 ((s.a >>> 16) &&& 0xff#32) ^^^ lut Te2 ((s.b >>> 8) &&& 0xff#32)
      ^^^ lut Te3 (s.c &&& 0xff#32) ^^^ k.d⟩

/-- The last encryption round (rijndael-alg-fst.c:1025-1051). -/
def encLast (t k : Quad) : Quad :=
  ⟨(lut Te4 (t.a >>> 24) &&& 0xff000000#32) ^^^ (lut Te4 ((t.b >>> 16) &&& 0xff#32) &&& 0x00ff0000#32)
      ^^^ (lut Te4 ((t.c >>> 8) &&& 0xff#32) &&& 0x0000ff00#32)
      ^^^ (lut Te4 (t.d &&& 0xff#32) &&& 0x000000ff#32) ^^^ k.a,
   (lut Te4 (t.b >>> 24) &&& 0xff000000#32) ^^^ (lut Te4 ((t.c >>> 16) &&& 0xff#32) &&& 0x00ff0000#32)
      ^^^ (lut Te4 ((t.d >>> 8) &&& 0xff#32) &&& 0x0000ff00#32)
      ^^^ (lut Te4 (t.a &&& 0xff#32) &&& 0x000000ff#32) ^^^ k.b,
   (lut Te4 (t.c >>> 24) &&& 0xff000000#32) ^^^ (lut Te4 ((t.d >>> 16) &&& 0xff#32) &&& 0x00ff0000#32)
      ^^^ (lut Te4 ((t.a >>> 8) &&& 0xff#32) &&& 0x0000ff00#32)
      ^^^ (lut Te4 (t.b &&& 0xff#32) &&& 0x000000ff#32) ^^^ k.c,
   (lut Te4 (t.d >>> 24) &&& 0xff000000#32) ^^^ (lut Te4 ((t.a >>> 16) &&& 0xff#32) &&& 0x00ff0000#32)
      ^^^ (lut Te4 ((t.b >>> 8) &&& 0xff#32) &&& 0x0000ff00#32)
      ^^^ (lut Te4 (t.c &&& 0xff#32) &&& 0x000000ff#32) ^^^ k.d⟩

/-- One decryption round (rijndael-alg-fst.c:1153-1176 and 1183-1206). -/
def decRound (s k : Quad) : Quad :=
  ⟨lut Td0 (s.a >>> 24) ^^^ lut Td1 ((s.d >>> 16) &&& 0xff#32) ^^^ lut Td2 ((s.c >>> 8) &&& 0xff#32)
      ^^^ lut Td3 (s.b &&& 0xff#32) ^^^ k.a,
   lut Td0 (s.b >>> 24) ^^^ lut Td1 ((s.a >>> 16) &&& 0xff#32) ^^^ lut Td2 ((s.d >>> 8) &&& 0xff#32)
      ^^^ lut Td3 (s.c &&& 0xff#32) ^^^ k.b,
   lut Td0 (s.c >>> 24) ^^^ lut Td1 ((s.b >>> 16) &&& 0xff#32) ^^^ lut Td2 ((s.a >>> 8) &&& 0xff#32)
      ^^^ lut Td3 (s.d &&& 0xff#32) ^^^ k.c,
   lut Td0 (s.d >>> 24) ^^^ lut Td1 ((s.c >>> 16) &&& 0xff#32) ^^^ lut Td2 ((s.b >>> 8) &&& 0xff#32)
      ^^^ lut Td3 (s.a &&& 0xff#32) ^^^ k.d⟩

/-- The last decryption round (rijndael-alg-fst.c:1213-1239). -/
def decLast (t k : Quad) : Quad :=
  ⟨(lut Td4 (t.a >>> 24) &&& 0xff000000#32) ^^^ (lut Td4 ((t.d >>> 16) &&& 0xff#32) &&& 0x00ff0000#32)
      ^^^ (lut Td4 ((t.c >>> 8) &&& 0xff#32) &&& 0x0000ff00#32)
      ^^^ (lut Td4 (t.b &&& 0xff#32) &&& 0x000000ff#32) ^^^ k.a,
   (lut Td4 (t.b >>> 24) &&& 0xff000000#32) ^^^ (lut Td4 ((t.a >>> 16) &&& 0xff#32) &&& 0x00ff0000#32)
      ^^^ (lut Td4 ((t.d >>> 8) &&& 0xff#32) &&& 0x0000ff00#32)
      ^^^ (lut Td4 (t.c &&& 0xff#32) &&& 0x000000ff#32) ^^^ k.b,
   (lut Td4 (t.c >>> 24) &&& 0xff000000#32) ^^^ (lut Td4 ((t.b >>> 16) &&& 0xff#32) &&& 0x00ff0000#32)
      ^^^ (lut Td4 ((t.a >>> 8) &&& 0xff#32) &&& 0x0000ff00#32)
      ^^^ (lut Td4 (t.d &&& 0xff#32) &&& 0x000000ff#32) ^^^ k.c,
   (lut Td4 (t.d >>> 24) &&& 0xff000000#32) ^^^ (lut Td4 ((t.c >>> 16) &&& 0xff#32) &&& 0x00ff0000#32)
      ^^^ (lut Td4 ((t.b >>> 8) &&& 0xff#32) &&& 0x0000ff00#32)
      ^^^ (lut Td4 (t.a &&& 0xff#32) &&& 0x000000ff#32) ^^^ k.d⟩

/-- The round loop (rijndael-alg-fst.c:963-1019 and 1151-1207) with `r = Nr >> 1`: each pass does
one round with `rk[4..7]`, advances `rk` by 8, stops when `--r == 0`, otherwise does a round with
`rk[0..3]`. `p` is the position of `rk` in quads. Returns `t` and the final position. -/
def roundLoop (rnd : Quad → Quad → Quad) (rk : List Quad) : Nat → Quad → Nat → Quad × Nat
  | 0, s, p => (s, p)
  | r + 1, s, p =>
    let t := rnd s (rk.getD (p + 1) default)
    let p := p + 2
    if r = 0 then (t, p) else roundLoop rnd rk r (rnd t (rk.getD p default)) p

/-- The state loaded from a block with the first round key added
(rijndael-alg-fst.c:884-887, 1072-1075). -/
def load (blk : Bytes) (k : Quad) : Quad :=
  ⟨getu32 blk 0 ^^^ k.a, getu32 blk 4 ^^^ k.b, getu32 blk 8 ^^^ k.c, getu32 blk 12 ^^^ k.d⟩

/-- The 16 bytes stored by the four `PUTU32` of rijndael-alg-fst.c:1031-1052, 1219-1240. -/
def store (s : Quad) : Bytes := putu32 s.a ++ putu32 s.b ++ putu32 s.c ++ putu32 s.d

/-- `rijndaelEncrypt` (rijndael-alg-fst.c:867-1053) with `Nr = 10`. -/
def encryptRk (rk : List Quad) (pt : Bytes) : Bytes :=
  let r := roundLoop encRound rk (10 >>> 1) (load pt (rk.getD 0 default)) 0
  store (encLast r.1 (rk.getD r.2 default))

/-- `rijndaelDecrypt` (rijndael-alg-fst.c:1055-1241) with `Nr = 10`. -/
def decryptRk (rk : List Quad) (ct : Bytes) : Bytes :=
  let r := roundLoop decRound rk (10 >>> 1) (load ct (rk.getD 0 default)) 0
  store (decLast r.1 (rk.getD r.2 default))

/-- Encryption of one block under a binary key: `bytes2Key`/`rijndaelKeySetupEnc`, then
`rijndaelEncrypt` (rijndael-api-fst.c:221-228). -/
def encrypt (key blk : Bytes) : Bytes := encryptRk (keySetupEnc key) blk

/-- Decryption of one block under a binary key. -/
def decrypt (key blk : Bytes) : Bytes := decryptRk (keySetupDec key) blk

end Owamp.Rijndael
