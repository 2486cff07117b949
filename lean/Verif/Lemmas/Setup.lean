import Verif.Spec.Setup
import Verif.Lemmas.RijndaelBij
import Verif.Lemmas.Stream
/-!
# Lemmas for connection set-up
-/
namespace Owamp.Cbc
open Owamp.Rijndael

theorem xorBlock_comm (a b : Bytes) : xorBlock a b = xorBlock b a := by
  unfold xorBlock
  rw [List.zipWith_comm]
  congr 1
  funext x y
  exact BitVec.xor_comm _ _

theorem encLoop_decLoop (key : Bytes) (n : Nat) (iv x : Bytes) (hx : x.length = 16 * n) (hi : iv.length = 16) :
    (encLoop key n iv (decLoop key n iv x).1).1 = x := by
  induction n generalizing iv x with
  | zero =>
    have : x = [] := List.length_eq_zero_iff.1 (by omega)
    subst this; rfl
  | succ n ih =>
    simp only [encLoop, decLoop]
    have hg : (get x 0 16).length = 16 := get_length _ _ _ (by omega)
    have hd := Rijndael.decrypt_length key (get x 0 16)
    have hxl : (xorBlock (decrypt key (get x 0 16)) iv).length = 16 := by
      rw [xorBlock_length _ _ (by omega), hi]
    rw [get_zero_append _ _ _ hxl.symm, List.drop_left' hxl, xorBlock_xorBlock _ _ (by omega),
      encrypt_decrypt _ _ hg, ih _ _ (by simp; omega) hg]
    simp [get]

end Owamp.Cbc

namespace Owamp.Ctl
open Owamp.Spec.Channel Owamp.Spec.Setup

theorem inSet_iff (i : Nat) (hi : i < 32) (s : U32) : InSet (BitVec.twoPow 32 i) s ↔ s.getLsbD i = true := by
  unfold InSet
  rw [BitVec.and_twoPow]
  split
  · simp_all
  · rename_i h
    simp only [h]
    constructor
    · intro e
      have := congrArg (fun x : U32 => x.getLsbD i) e
      simp [BitVec.getLsbD_twoPow, hi] at this
    · intro h; cases h

theorem and_ne_iff (i : Nat) (hi : i < 32) (s : U32) : s &&& BitVec.twoPow 32 i ≠ 0#32 ↔ s.getLsbD i = true := by
  rw [BitVec.and_twoPow]
  split
  · rename_i h
    simp only [h, iff_true]
    intro e
    have := congrArg (fun x : U32 => x.getLsbD i) e
    simp [BitVec.getLsbD_twoPow, hi] at this
  · rename_i h; simp_all

theorem inSet_ne (m : U32) (i : Nat) (hi : i < 32) (hm : m = BitVec.twoPow 32 i) (s : U32) : InSet m s ↔ s &&& m ≠ 0#32 := by
  rw [hm, inSet_iff i hi, and_ne_iff i hi]

theorem bit_of_mode (tw : Bool) (m : U32) (h : IsMode tw m) : ∃ i, i < 4 ∧ m = BitVec.twoPow 32 i := by
  rcases h with h | h | h | ⟨_, h⟩
  · exact ⟨0, by omega, h⟩
  · exact ⟨1, by omega, h⟩
  · exact ⟨2, by omega, h⟩
  · exact ⟨3, by omega, h⟩

theorem inSet_and (tw : Bool) (m a b : U32) (h : IsMode tw m) : InSet m (a &&& b) ↔ InSet m a ∧ InSet m b := by
  obtain ⟨i, hi, rfl⟩ := bit_of_mode tw m h
  rw [inSet_iff i (by omega), inSet_iff i (by omega), inSet_iff i (by omega)]
  simp

theorem inSet_open (tw : Bool) (m a : U32) (h : IsMode tw m) : InSet m (a &&& ~~~ 14#32) ↔ InSet m a ∧ m = 1#32 := by
  have e1 : InSet 1#32 (~~~ 14#32) := by unfold InSet; decide
  have e2 : ¬ InSet 2#32 (~~~ 14#32) := by unfold InSet; decide
  have e3 : ¬ InSet 4#32 (~~~ 14#32) := by unfold InSet; decide
  have e4 : ¬ InSet 8#32 (~~~ 14#32) := by unfold InSet; decide
  rw [inSet_and tw m _ _ h]
  rcases h with h | h | h | ⟨_, h⟩ <;> subst h <;> simp_all

theorem cipher_of_mode (tw : Bool) (m : U32) (h : IsMode tw m) : cipherMode m = true ↔ Ciphered m := by
  rcases h with h | h | h | ⟨_, h⟩ <;> subst h <;> simp [cipherMode, Ciphered]

theorem tryMode_cases (a : Bool) (p : Ask) (m : U32) (next : Choice) :
    (a = true ∧ p = .yes ∧ tryMode a p m next = .mode m) ∨ (a = true ∧ p = .error ∧ tryMode a p m next = .error) ∨
    ((a = true → p = .no) ∧ tryMode a p m next = next) := by
  unfold tryMode
  cases a <;> cases p <;> simp

/-- What the selection returns: the strongest mode that is not refused. -/
theorem choose_cases (tw : Bool) (avail : U32) (ask : U32 → Ask) :
    ((∀ m, IsMode tw m → InSet m avail → ask m = .no) ∧ chooseMode tw avail ask = .none) ∨
    ∃ m, IsMode tw m ∧ InSet m avail ∧ (∀ m', IsMode tw m' → InSet m' avail → rank m < rank m' → ask m' = .no) ∧
      ((ask m = .yes ∧ chooseMode tw avail ask = .mode m) ∨ (ask m = .error ∧ chooseMode tw avail ask = .error)) := by
  have i1 := inSet_ne 1#32 0 (by omega) rfl avail
  have i2 := inSet_ne 2#32 1 (by omega) rfl avail
  have i4 := inSet_ne 4#32 2 (by omega) rfl avail
  have i8 := inSet_ne 8#32 3 (by omega) rfl avail
  unfold chooseMode
  generalize hn1 : tryMode (decide (avail &&& 1#32 ≠ 0)) (ask 1#32) 1#32 .none = n1
  generalize hn2 : tryMode (decide (tw = true ∧ avail &&& 8#32 ≠ 0)) (ask 8#32) 8#32 n1 = n2
  generalize hn3 : tryMode (decide (avail &&& 2#32 ≠ 0)) (ask 2#32) 2#32 n2 = n3
  have c4 := tryMode_cases (decide (avail &&& 4#32 ≠ 0)) (ask 4#32) 4#32 n3
  have c2 := tryMode_cases (decide (avail &&& 2#32 ≠ 0)) (ask 2#32) 2#32 n2
  have c8 := tryMode_cases (decide (tw = true ∧ avail &&& 8#32 ≠ 0)) (ask 8#32) 8#32 n1
  have c1 := tryMode_cases (decide (avail &&& 1#32 ≠ 0)) (ask 1#32) 1#32 .none
  rw [hn1] at c1
  rw [hn2] at c8
  rw [hn3] at c2
  generalize tryMode (decide (avail &&& 4#32 ≠ 0)) (ask 4#32) 4#32 n3 = n4 at *
  clear hn1 hn2 hn3
  simp only [decide_eq_true_eq] at c1 c2 c4 c8
  simp only [show (0 : U32) = 0#32 from rfl, ← i1, ← i2, ← i4, ← i8] at c1 c2 c4 c8
  clear i1 i2 i4 i8
  rcases c4 with ⟨a, b, c⟩ | ⟨a, b, c⟩ | ⟨n4', e4⟩
  · refine Or.inr ⟨4#32, by simp [IsMode], a, ?_, Or.inl ⟨b, c⟩⟩
    intro m' hm' _ hr
    rcases hm' with h | h | h | ⟨_, h⟩ <;> subst h <;> exact absurd hr (by decide)
  · refine Or.inr ⟨4#32, by simp [IsMode], a, ?_, Or.inr ⟨b, c⟩⟩
    intro m' hm' _ hr
    rcases hm' with h | h | h | ⟨_, h⟩ <;> subst h <;> exact absurd hr (by decide)
  rcases c2 with ⟨a, b, c⟩ | ⟨a, b, c⟩ | ⟨n2', e2⟩
  · refine Or.inr ⟨2#32, by simp [IsMode], a, ?_, Or.inl ⟨b, by rw [e4, c]⟩⟩
    intro m' hm' hs hr
    rcases hm' with h | h | h | ⟨_, h⟩ <;> subst h <;> first | exact n4' hs | exact absurd hr (by decide)
  · refine Or.inr ⟨2#32, by simp [IsMode], a, ?_, Or.inr ⟨b, by rw [e4, c]⟩⟩
    intro m' hm' hs hr
    rcases hm' with h | h | h | ⟨_, h⟩ <;> subst h <;> first | exact n4' hs | exact absurd hr (by decide)
  rcases c8 with ⟨⟨t, a⟩, b, c⟩ | ⟨⟨t, a⟩, b, c⟩ | ⟨n8', e8⟩
  · refine Or.inr ⟨8#32, by simp [IsMode, t], a, ?_, Or.inl ⟨b, by rw [e4, e2, c]⟩⟩
    intro m' hm' hs hr
    rcases hm' with h | h | h | ⟨_, h⟩ <;> subst h <;>
      first | exact n4' hs | exact n2' hs | exact absurd hr (by decide)
  · refine Or.inr ⟨8#32, by simp [IsMode, t], a, ?_, Or.inr ⟨b, by rw [e4, e2, c]⟩⟩
    intro m' hm' hs hr
    rcases hm' with h | h | h | ⟨_, h⟩ <;> subst h <;>
      first | exact n4' hs | exact n2' hs | exact absurd hr (by decide)
  rcases c1 with ⟨a, b, c⟩ | ⟨a, b, c⟩ | ⟨n1', e1⟩
  · refine Or.inr ⟨1#32, by simp [IsMode], a, ?_, Or.inl ⟨b, by rw [e4, e2, e8, c]⟩⟩
    intro m' hm' hs hr
    rcases hm' with h | h | h | ⟨t, h⟩ <;> subst h <;>
      first | exact n4' hs | exact n2' hs | exact n8' ⟨t, hs⟩ | exact absurd hr (by decide)
  · refine Or.inr ⟨1#32, by simp [IsMode], a, ?_, Or.inr ⟨b, by rw [e4, e2, e8, c]⟩⟩
    intro m' hm' hs hr
    rcases hm' with h | h | h | ⟨t, h⟩ <;> subst h <;>
      first | exact n4' hs | exact n2' hs | exact n8' ⟨t, hs⟩ | exact absurd hr (by decide)
  · refine Or.inl ⟨?_, by rw [e4, e2, e8, e1]⟩
    intro m' hm' hs
    rcases hm' with h | h | h | ⟨t, h⟩ <;> subst h
    · exact n1' hs
    · exact n2' hs
    · exact n4' hs
    · exact n8' ⟨t, hs⟩

theorem writeN_done (c c' : Conn) (bs : Bytes) (h : writeN c bs = (.done, c')) :
    c' = { c with out := c.out ++ bs, faults := c.faults.tail } := by
  unfold writeN at h
  split at h
  · simp at h
  · simp at h
  · simp only [Prod.mk.injEq, true_and] at h
    exact h.symm

theorem setup_split (bs : Bytes) (h : bs.length = 164) :
    bs = setupLayout (get32 bs 0) (get bs 4 80) (get bs 84 64) (get bs 148 16) := by
  have e := get_all bs 164 (by omega)
  rw [get_pieces bs 0 [4, 80, 64, 16] 164 rfl] at e
  unfold setupLayout
  rw [enc_get32 _ _ (by omega)]
  conv => lhs; rw [← e]
  simp [pieces]

theorem greeting_split (bs : Bytes) (modes count : U32) (ch salt : Bytes) (hc : ch.length = 16) (hs : salt.length = 16)
    (h : bs = greetingLayout modes ch salt count) :
    get32 bs 12 = modes ∧ get bs 16 16 = ch ∧ get bs 32 16 = salt ∧ get32 bs 48 = count := by
  subst h
  unfold greetingLayout
  simp only [List.append_assoc]
  refine ⟨?_, ?_, ?_, ?_⟩ <;> fields [hc, hs]

theorem setup_inj (m m' : U32) (u u' t t' iv iv' : Bytes) (hu : u.length = 80) (hu' : u'.length = 80)
    (ht : t.length = 64) (ht' : t'.length = 64) (rest rest' : Bytes) (hi : iv.length = 16) (hi' : iv'.length = 16)
    (h : setupLayout m u t iv ++ rest = setupLayout m' u' t' iv' ++ rest') :
    m = m' ∧ u = u' ∧ t = t' ∧ iv = iv' ∧ rest = rest' := by
  have h0 := List.append_inj h (by simp [setupLayout, *])
  obtain ⟨h0, hr⟩ := h0
  unfold setupLayout at h0
  obtain ⟨h1, h2⟩ := List.append_inj' h0 (by omega)
  obtain ⟨h3, h4⟩ := List.append_inj' h1 (by omega)
  obtain ⟨h5, h6⟩ := List.append_inj' h3 (by omega)
  refine ⟨?_, h6, h4, h2, hr⟩
  rw [← dec_enc32 m, h5, dec_enc32]

/-- The greeting is written before anything is read. -/
theorem greeting_ran (c c' : Conn) (g : Greeting) (hm : c.msg.length = 400) (hc : g.challenge.length = 16)
    (hs : g.salt.length = 16) (h : writeServerGreeting c g = (some (), c')) :
    ∃ m, m.length = 400 ∧ c.state = .invalid ∧
      c' = { c with
        state := .setupOnly, msg := m, faults := c.faults.tail,
        out := c.out ++ greetingLayout g.modes g.challenge g.salt g.count } := by
  have e : get (put32 (put (put (put32 (put c.msg 0 (zeros 64)) 12 g.modes) 16 g.challenge) 32 g.salt) 48 g.count) 0 64
      = greetingLayout g.modes g.challenge g.salt g.count := by
    rw [get_pieces _ 0 [12, 4, 16, 16, 4, 12] 64 rfl]
    fields
    simp [greetingLayout]
  unfold writeServerGreeting at h
  by_cases h0 : c.state = .invalid
  · simp only [h0, ne_eq, not_true_eq_false, if_false, e] at h
    split at h
    · rename_i c1 hw
      have := writeN_done _ _ _ hw
      simp only [Prod.mk.injEq, true_and] at h
      refine ⟨put32 (put (put (put32 (put c.msg 0 (zeros 64)) 12 g.modes) 16 g.challenge) 32 g.salt) 48 g.count, ?_, h0, ?_⟩
      · simp (disch := blen) only [put32, put_length]; exact hm
      · rw [← h, this, Conn.setState]
    · simp at h
  · rw [if_pos h0] at h
    simp at h

/-- What a successful read of the set-up response returns. -/
theorem setup_read (c c' : Conn) (s : Setup) (hm : c.msg.length = 400) (h : readSetupResponse c = (some s, c')) :
    ∃ bs rest m fs, bs.length = 164 ∧ c.inp = bs ++ rest ∧ m.length = 400 ∧ c.state = .setupOnly ∧
      s = ⟨get32 bs 0, get bs 84 64, get bs 148 16⟩ ∧ (c.faults = [] → fs = []) ∧
      c' = { c with inp := rest, msg := m, userid := get bs 4 80, faults := fs } := by
  unfold readSetupResponse at h
  by_cases h0 : c.state = .setupOnly
  · simp only [h0, ne_eq, not_true_eq_false, if_false] at h
    split at h
    · rename_i bs c1 hr
      have hr0 := hr
      obtain ⟨h1, h2, fs, h3⟩ := readN_full _ _ _ _ hr
      have hl : bs.length = 164 := by rw [h2]; simp; omega
      simp only [Prod.mk.injEq, Option.some.injEq] at h
      obtain ⟨hs, hc⟩ := h
      have hmm : c1.msg = c.msg := by rw [h3]
      have e : ∀ o n, o + n ≤ 164 → get (put c1.msg 0 bs) o n = get bs o n := by
        intro o n ho
        rw [get_put_inside _ _ _ _ _ (by omega) (by omega) (by omega), Nat.sub_zero]
      have e4 : get32 (put c1.msg 0 bs) 0 = get32 bs 0 := by unfold get32; rw [e _ _ (by omega)]
      rw [e4, e _ _ (by omega), e _ _ (by omega)] at hs
      rw [e _ _ (by omega)] at hc
      refine ⟨bs, c.inp.drop 164, put c1.msg 0 bs, fs, hl, ?_, ?_, h0, hs.symm, ?_, ?_⟩
      · rw [h2, List.take_append_drop]
      · rw [put_length _ _ _ (by rw [hmm, hm]; omega), hmm, hm]
      · intro hf
        have := readN_ok c hf (c.inp.take 164) (c.inp.drop 164) 164 (by simp; omega) (by rw [List.take_append_drop])
        rw [this] at hr0
        have h4 := congrArg Conn.faults (Prod.mk.inj hr0).2
        rw [h3] at h4
        exact h4.symm
      · rw [← hc]
        subst h3
        rfl
    · simp at h
  · rw [if_pos h0] at h
    simp at h

/-- A successful accept: the greeting went out, a response was read and found good. -/
theorem accept_ran (K : Cbc.Kdf) (e : AcceptEnv) (S S' : Conn) (hm : S.msg.length = 400) (hc : e.challenge.length = 16)
    (hs : e.salt.length = 16) (h : controlAccept K e S = (true, S')) :
    ∃ m keyid token iv rest mm fs, keyid.length = 80 ∧ token.length = 64 ∧ iv.length = 16 ∧ mm.length = 400 ∧
      S.inp = setupLayout m keyid token iv ++ rest ∧ e.offered ≠ 0 ∧ (S.faults = [] → fs = []) ∧
      decideAccept K e token { S with
        state := .setupOnly, msg := mm, inp := rest, userid := keyid, mode := m, readIV := iv, faults := fs,
        out := S.out ++ greetingLayout e.offered e.challenge e.salt e.count } = (true, S') := by
  unfold controlAccept at h
  split at h
  · simp at h
  · rename_i u c1 hg
    obtain ⟨m1, hm1, h0, e1⟩ := greeting_ran S c1 ⟨e.offered, e.challenge, e.salt, e.count⟩ hm hc hs hg
    split at h
    · simp at h
    · rename_i hoff
      split at h
      · simp at h
      · rename_i s c2 hr
        obtain ⟨bs, rest, mm, fs, hbl, hin, hmm, _, hs', hf, e2⟩ := setup_read c1 c2 s (by rw [e1]; exact hm1) hr
        subst e1 e2 hs'
        refine ⟨get32 bs 0, get bs 4 80, get bs 84 64, get bs 148 16, rest, mm, fs, get_length _ _ _ (by omega),
          get_length _ _ _ (by omega), get_length _ _ _ (by omega), hmm, ?_, hoff, ?_, h⟩
        · rw [← setup_split bs hbl]; exact hin
        · intro hSf; apply hf; show S.faults.tail = []; rw [hSf]; rfl

/-- Conditions under which a response is accepted. -/
theorem decide_ran (K : Cbc.Kdf) (e : AcceptEnv) (token : Bytes) (c c' : Conn) (h : decideAccept K e token c = (true, c')) :
    IsMode c.twoway c.mode ∧ ∃ c1, authenticate K e token c = (true, c1) ∧
      e.policy c1.mode (if c1.cipher then some c1.userid else none) = .yes ∧
      writeServerStart c1 .accept e.uptime = (some (), c') := by
  unfold decideAccept at h
  split at h
  · simp at h
  · rename_i h1
    split at h
    · simp at h
    · split at h
      · simp at h
      · rename_i c1 ha
        refine ⟨?_, c1, ha, ?_⟩
        · unfold IsMode
          by_cases m1 : c.mode = 1#32
          · simp [m1]
          by_cases m2 : c.mode = 2#32
          · simp [m2]
          by_cases m4 : c.mode = 4#32
          · simp [m4]
          by_cases m8 : c.twoway = true ∧ c.mode = 8#32
          · exact Or.inr (Or.inr (Or.inr m8))
          · exfalso
            apply h1
            refine ⟨m1, ?_, m2, m4⟩
            by_cases ht : c.twoway = true
            · exact Or.inr fun h => m8 ⟨ht, h⟩
            · exact Or.inl ht
        · split at h
          · simp at h
          · simp at h
          · rename_i hp
            split at h
            · rename_i u c2 hw
              simp only [Prod.mk.injEq, true_and] at h
              rw [← h]
              exact ⟨hp, hw⟩
            · simp at h

/-- Authentication succeeds in a mode without cipher, or with the right pass-phrase. -/
theorem auth_ran (K : Cbc.Kdf) (e : AcceptEnv) (token : Bytes) (c c' : Conn) (h : authenticate K e token c = (true, c')) :
    (c.cipher = false ∧ c' = c) ∨
    (c.cipher = true ∧ ∃ pf iv, e.getPF (cstr c.userid) = .known pf ∧ e.iv = some iv ∧ e.kdfOk = true ∧
      e.challenge = get (Cbc.decryptToken K pf e.salt e.count token) 0 16 ∧
      c' = { c with
        writeIV := iv, aesKey := get (Cbc.decryptToken K pf e.salt e.count token) 16 16,
        hmacKey := get (Cbc.decryptToken K pf e.salt e.count token) 32 32, sendAcc := [], recvAcc := [] }) := by
  unfold authenticate at h
  cases hc : c.cipher
  · simp only [hc] at h
    exact Or.inl ⟨rfl, by simpa using h.symm⟩
  · right
    simp only [hc] at h
    refine ⟨rfl, ?_⟩
    simp only [not_true_eq_false, if_false] at h
    split at h
    · simp at h
    · split at h <;> simp at h
    · rename_i pf hpf
      split at h
      · simp at h
      · rename_i hk
        split at h
        · simp at h
        · rename_i hch
          split at h
          · simp at h
          · rename_i iv hiv
            simp only [Prod.mk.injEq, true_and] at h
            exact ⟨pf, iv, hpf, hiv, by simpa using hk, by simpa using hch, h.symm⟩

theorem token_plain (K : Cbc.Kdf) (pf salt : Bytes) (count : U32) (token ch : Bytes) (ht : token.length = 64)
    (h : ch = get (Cbc.decryptToken K pf salt count token) 0 16) :
    token = tokenFor K pf salt count ch (get (Cbc.decryptToken K pf salt count token) 16 16)
      (get (Cbc.decryptToken K pf salt count token) 32 32) := by
  have hz : (zeros 16).length = 16 := zeros_length _
  have hb : token.length * 8 / 128 = 4 := by omega
  have hl := (Cbc.decLoop_length (K.derive pf salt count.toNat) 4 (zeros 16) token hz (by omega)).1
  have hd : Cbc.decryptToken K pf salt count token = (Cbc.decLoop (K.derive pf salt count.toNat) 4 (zeros 16) token).1 := by
    unfold Cbc.decryptToken Cbc.blockDecrypt; rw [hb]
  rw [← hd] at hl
  have hp : ch ++ get (Cbc.decryptToken K pf salt count token) 16 16 ++ get (Cbc.decryptToken K pf salt count token) 32 32
      = Cbc.decryptToken K pf salt count token := by
    rw [h]
    generalize Cbc.decryptToken K pf salt count token = t at *
    have e := get_all t 64 (by omega)
    rw [get_pieces t 0 [16, 16, 32] 64 rfl] at e
    conv => rhs; rw [← e]
    simp [pieces]
  unfold tokenFor
  rw [hp, hd, ← Cbc.encLoop_cbc _ 4 _ _ (by rw [← hd]; omega), Cbc.encLoop_decLoop _ _ _ _ (by omega) hz]

/-- What the positive server start leaves alone. -/
theorem start_ran (c c' : Conn) (up : U64) (h : writeServerStart c .accept up = (some (), c')) :
    c'.mode = c.mode ∧ c'.aesKey = c.aesKey ∧ c'.hmacKey = c.hmacKey ∧ c'.inp = c.inp ∧ c'.state = .requestOnly ∧
      c'.twoway = c.twoway ∧ c'.userid = c.userid ∧ ∃ more, c'.out = c.out ++ more := by
  unfold writeServerStart at h
  by_cases h0 : c.state = .setupOnly
  · simp only [h0, ne_eq, not_true_eq_false, if_false, if_true] at h
    split at h
    · rename_i c1 hw
      have := writeN_done _ _ _ hw
      simp only [Prod.mk.injEq, true_and] at h
      rw [← h, this]
      clear hw this h
      unfold sendHmacAdd
      cases hc : c.cipher
      · have hc2 : ∀ m s, Conn.cipher { c with msg := m, state := s } = false := fun _ _ => hc
        simp only [hc2, Bool.false_eq_true, if_false]
        exact ⟨trivial, trivial, trivial, trivial, trivial, trivial, trivial, _, rfl⟩
      · have hc2 : ∀ m s, Conn.cipher { c with msg := m, state := s } = true := fun _ _ => hc
        have hc3 : ∀ m s t, Conn.cipher { c with msg := m, state := s, sendAcc := t } = true := fun _ _ _ => hc
        simp only [hc2, hc3, if_true]
        exact ⟨trivial, trivial, trivial, trivial, trivial, trivial, trivial, _, rfl⟩
    · simp at h
  · rw [if_pos h0] at h
    simp at h

end Owamp.Ctl
