import Verif.Model.Broker
/-!
# Lemmas about the messages between the daemon and its processes
-/
namespace Owamp.Policy

theorem pow4 : 256 ^ 4 = 2 ^ 32 := by decide +kernel
theorem pow8 : 256 ^ 8 = 2 ^ 64 := by decide +kernel

@[simp] theorem hostEnc_length (big : Bool) (n x : Nat) : (hostEnc big n x).length = n := by
  unfold hostEnc; cases big <;> simp

@[simp] theorem word_length (big : Bool) (x : U32) : (word big x).length = 4 := hostEnc_length _ _ _

theorem hostDec_hostEnc (big : Bool) (n x : Nat) : hostDec big (hostEnc big n x) = x % 256 ^ n := by
  unfold hostEnc hostDec
  cases big
  · rw [if_neg Bool.false_ne_true, if_neg Bool.false_ne_true, List.reverse_reverse, beDec_beEnc]
  · rw [if_pos rfl, if_pos rfl, beDec_beEnc]

theorem hostEnc_hostDec (big : Bool) (b : Bytes) : hostEnc big b.length (hostDec big b) = b := by
  unfold hostEnc hostDec
  cases big
  · rw [if_neg Bool.false_ne_true, if_neg Bool.false_ne_true]
    have := beEnc_beDec b.reverse
    rw [List.length_reverse] at this
    rw [this, List.reverse_reverse]
  · rw [if_pos rfl, if_pos rfl, beEnc_beDec]

theorem hostDec_lt (big : Bool) (b : Bytes) : hostDec big b < 256 ^ b.length := by
  have h := hostDec_hostEnc big b.length (hostDec big b)
  rw [hostEnc_hostDec] at h
  rw [h]
  exact Nat.mod_lt _ (Nat.pow_pos (by decide))

theorem wordAt_word (big : Bool) (pre post : Bytes) (x : U32) (i : Nat) (h : pre.length = 4 * i) :
    wordAt big (pre ++ (word big x ++ post)) i = x := by
  unfold wordAt
  rw [← h, List.drop_left, List.take_left' (word_length big x), word, hostDec_hostEnc, pow4, Nat.mod_eq_of_lt x.isLt, BitVec.ofNat_toNat,
    BitVec.setWidth_eq]

theorem word_wordAt (big : Bool) (b : Bytes) (i : Nat) (h : 4 * i + 4 ≤ b.length) :
    word big (wordAt big b i) = (b.drop (4 * i)).take 4 := by
  have hl : ((b.drop (4 * i)).take 4).length = 4 := by rw [List.length_take, List.length_drop]; omega
  have hlt := hostDec_lt big ((b.drop (4 * i)).take 4)
  have he := hostEnc_hostDec big ((b.drop (4 * i)).take 4)
  unfold word wordAt
  generalize (b.drop (4 * i)).take 4 = c at *
  rw [hl] at he hlt
  rw [pow4] at hlt
  rw [BitVec.toNat_ofNat, Nat.mod_eq_of_lt hlt, he]

theorem hostEnc_at (big : Bool) (b : Bytes) (i : Nat) (h : i + 8 ≤ b.length) :
    hostEnc big 8 (BitVec.ofNat 64 (hostDec big ((b.drop i).take 8))).toNat = (b.drop i).take 8 := by
  have hl : ((b.drop i).take 8).length = 8 := by rw [List.length_take, List.length_drop]; omega
  have hlt := hostDec_lt big ((b.drop i).take 8)
  have he := hostEnc_hostDec big ((b.drop i).take 8)
  generalize (b.drop i).take 8 = c at *
  rw [hl] at he hlt
  rw [pow8] at hlt
  rw [BitVec.toNat_ofNat, Nat.mod_eq_of_lt hlt, he]

theorem hostDec_at (big : Bool) (pre post : Bytes) (v : U64) (i : Nat) (h : pre.length = i) :
    BitVec.ofNat 64 (hostDec big (((pre ++ (hostEnc big 8 v.toNat ++ post)).drop i).take 8)) = v := by
  rw [← h, List.drop_left, List.take_left' (hostEnc_length big 8 v.toNat), hostDec_hostEnc, pow8, Nat.mod_eq_of_lt v.isLt, BitVec.ofNat_toNat,
    BitVec.setWidth_eq]

theorem wordAt_head (big : Bool) (post : Bytes) (x : U32) : wordAt big (word big x ++ post) 0 = x := wordAt_word big [] post x 0 rfl

theorem wordAt_last (big : Bool) (pre : Bytes) (x : U32) (i : Nat) (h : pre.length = 4 * i) : wordAt big (pre ++ word big x) i = x := by
  have := wordAt_word big pre [] x i h
  rwa [List.append_nil] at this

theorem wordAt_only (big : Bool) (x : U32) : wordAt big (word big x) 0 = x := wordAt_last big [] x 0 rfl

attribute [local irreducible] word hostEnc wordAt hostDec

theorem readn_append (b : Bytes) (rest : Bytes) (c : Bool) : readn b.length ⟨b ++ rest, c⟩ = .got b ⟨rest, c⟩ := by
  unfold readn
  rw [if_pos (by simp), List.take_left, List.drop_left]

theorem readn_got {n : Nat} {s : Source} {b : Bytes} {rest : Source} (h : readn n s = .got b rest) :
    b.length = n ∧ s.data = b ++ rest.data ∧ s.closed = rest.closed := by
  unfold readn at h
  split at h
  · cases h
    exact ⟨by rw [List.length_take]; omega, (List.take_append_drop n s.data).symm, rfl⟩
  · split at h <;> cases h

theorem split28 {b : Bytes} (h : b.length = 28) : b = b.take 4 ++ (b.drop 4).take 4 ++ (b.drop 8).take 4 ++ (b.drop 12).take 4 ++
    (b.drop 16).take 8 ++ (b.drop 24).take 4 := by
  rw [← List.take_add, ← List.take_add, ← List.take_add, ← List.take_add, ← List.take_add, List.take_of_length_le (by omega)]

theorem split12 {b : Bytes} (h : b.length = 12) : b = b.take 4 ++ (b.drop 4).take 4 ++ (b.drop 8).take 4 := by
  rw [← List.take_add, ← List.take_add, List.take_of_length_le (by omega)]

theorem queryFrame_length (big : Bool) (q l : U32) (v : U64) : (queryFrame big q l v).length = 28 := by
  unfold queryFrame; simp

theorem response_length (big : Bool) (m : U32) : (response big m).length = 12 := by
  unfold response; simp

theorem readQuery_frame (big : Bool) (q l : U32) (v : U64) (hq : q = mesgRequest ∨ q = mesgRelease ∨ q = mesgClaim) (rest : Bytes)
    (c : Bool) : readQuery big ⟨queryFrame big q l v ++ rest, c⟩ = .query q l v ⟨rest, c⟩ := by
  unfold readQuery
  have h := readn_append (queryFrame big q l v) rest c
  rw [queryFrame_length] at h
  rw [h]
  dsimp only
  have e0 : wordAt big (queryFrame big q l v) 0 = mesgMark := by
    unfold queryFrame; simp only [List.append_assoc]; exact wordAt_head big _ _
  have e1 : wordAt big (queryFrame big q l v) 1 = mesgResource := by
    unfold queryFrame; simp only [List.append_assoc]; exact wordAt_word big (word big mesgMark) _ _ 1 (by simp)
  have e2 : wordAt big (queryFrame big q l v) 2 = q := by
    unfold queryFrame; simp only [List.append_assoc]
    rw [← List.append_assoc]; exact wordAt_word big (word big mesgMark ++ word big mesgResource) _ _ 2 (by simp)
  have e3 : wordAt big (queryFrame big q l v) 3 = l := by
    unfold queryFrame; simp only [List.append_assoc]
    rw [← List.append_assoc, ← List.append_assoc]
    exact wordAt_word big (word big mesgMark ++ word big mesgResource ++ word big q) _ _ 3 (by simp)
  have e4 : BitVec.ofNat 64 (hostDec big (((queryFrame big q l v).drop 16).take 8)) = v := by
    unfold queryFrame
    rw [List.append_assoc (bs := hostEnc big 8 v.toNat)]
    exact hostDec_at big (word big mesgMark ++ word big mesgResource ++ word big q ++ word big l) _ v 16 (by simp)
  have e6 : wordAt big (queryFrame big q l v) 6 = mesgMark := by
    unfold queryFrame
    exact wordAt_last big (word big mesgMark ++ word big mesgResource ++ word big q ++ word big l ++ hostEnc big 8 v.toNat) mesgMark 6 (by simp)
  rw [e0, e1, e2, e3, e4, e6, if_neg (by simp), if_pos hq]

theorem readQuery_some {big : Bool} {s : Source} {q l : U32} {v : U64} {rest : Source} (h : readQuery big s = .query q l v rest) :
    s.data = queryFrame big q l v ++ rest.data ∧ (q = mesgRequest ∨ q = mesgRelease ∨ q = mesgClaim) ∧ s.closed = rest.closed := by
  unfold readQuery at h
  split at h
  · cases h
  · cases h
  · rename_i b r hr
    obtain ⟨h1, h2, h3⟩ := readn_got hr
    split at h
    · cases h
    · rename_i hm
      split at h
      · rename_i hq
        injection h with a1 a2 a3 a4
        subst a4
        refine ⟨?_, by rw [← a1]; exact hq, h3⟩
        rw [h2]
        congr 1
        rw [not_or, not_or, Decidable.not_not, Decidable.not_not, Decidable.not_not] at hm
        obtain ⟨m0, m6, m1⟩ := hm
        have w0 := word_wordAt big b 0 (by omega)
        have w1 := word_wordAt big b 1 (by omega)
        have w2 := word_wordAt big b 2 (by omega)
        have w3 := word_wordAt big b 3 (by omega)
        have w6 := word_wordAt big b 6 (by omega)
        have w4 := hostEnc_at big b 16 (by omega)
        rw [m0] at w0; rw [m1] at w1; rw [a1] at w2; rw [a2] at w3; rw [a3] at w4; rw [m6] at w6
        refine (split28 h1).trans ?_
        unfold queryFrame
        rw [Nat.mul_zero, List.drop_zero] at w0
        rw [← w0, ← w1, ← w2, ← w3, ← w4, ← w6]
      · cases h

theorem readResponse_frame (big : Bool) (m : U32) (rest : Bytes) (c : Bool) :
    readResponse big ⟨response big m ++ rest, c⟩ = (m, some ⟨rest, c⟩) := by
  unfold readResponse
  have h := readn_append (response big m) rest c
  rw [response_length] at h
  rw [h]
  dsimp only
  have e0 : wordAt big (response big m) 0 = mesgMark := by
    unfold response; simp only [List.append_assoc]; exact wordAt_head big _ _
  have e1 : wordAt big (response big m) 1 = m := by
    unfold response; simp only [List.append_assoc]; exact wordAt_word big (word big mesgMark) _ _ 1 (by simp)
  have e2 : wordAt big (response big m) 2 = mesgMark := by
    unfold response
    exact wordAt_last big (word big mesgMark ++ word big m) mesgMark 2 (by simp)
  rw [e0, e1, e2, if_neg (by simp)]

/-- An answer other than the invalid one is only read from an answer that was sent. -/
theorem readResponse_some {big : Bool} {s : Source} {m : U32} {r : Option Source} (h : readResponse big s = (m, r)) (hm : m ≠ mesgInvalid) :
    ∃ rest, r = some rest ∧ s.data = response big m ++ rest.data := by
  unfold readResponse at h
  split at h
  · rename_i b rest hr
    obtain ⟨h1, h2, h3⟩ := readn_got hr
    split at h
    · injection h with a1 a2; exact absurd a1.symm hm
    · rename_i hb
      injection h with a1 a2
      refine ⟨rest, a2.symm, ?_⟩
      rw [h2]; congr 1
      rw [not_or, Decidable.not_not, Decidable.not_not] at hb
      have w0 := word_wordAt big b 0 (by omega)
      have w1 := word_wordAt big b 1 (by omega)
      have w2 := word_wordAt big b 2 (by omega)
      rw [hb.1] at w0; rw [a1] at w1; rw [hb.2] at w2
      refine (split12 h1).trans ?_
      unfold response
      rw [Nat.mul_zero, List.drop_zero] at w0
      rw [← w0, ← w1, ← w2]
  · injection h with a1 a2; exact absurd a1.symm hm

theorem readName_frame (name : Bytes) (h0 : 0#8 ∉ name) (rest : Bytes) (k : Nat) (hk : name.length < k) :
    readName k (name ++ 0#8 :: rest) = some (name, rest) := by
  induction name generalizing k with
  | nil =>
    cases k with
    | zero => exact absurd hk (Nat.not_lt_zero _)
    | succ k => rfl
  | cons b name ih =>
    cases k with
    | zero => exact absurd hk (Nat.not_lt_zero _)
    | succ k =>
      rw [List.cons_append, readName, if_neg (by rintro rfl; exact h0 List.mem_cons_self),
        ih (fun h => h0 (List.mem_cons_of_mem _ h)) k (by simpa using hk)]

theorem readName_some {k : Nat} {s name rest : Bytes} (h : readName k s = some (name, rest)) :
    s = name ++ 0#8 :: rest ∧ 0#8 ∉ name ∧ name.length < k := by
  induction k generalizing s name with
  | zero => cases h
  | succ k ih =>
    cases s with
    | nil => cases h
    | cons b s =>
      rw [readName] at h
      split at h
      · rename_i hb; cases h; rw [hb]; exact ⟨rfl, by simp, Nat.succ_pos _⟩
      · rename_i hb
        split at h
        · cases h
        · rename_i n r hn
          cases h
          obtain ⟨h1, h2, h3⟩ := ih hn
          refine ⟨by rw [h1]; rfl, fun hh => ?_, by simpa using h3⟩
          rcases List.mem_cons.1 hh with h | h
          · exact hb h.symm
          · exact h2 h

theorem readClass_frame (big : Bool) (name : Bytes) (h0 : 0#8 ∉ name) (hl : name.length ≤ 80) (rest : Bytes) (c : Bool) :
    ∃ f, classFrame big name = some f ∧ f.length ≤ 93 ∧ readClass big ⟨f ++ rest, c⟩ = .named name ⟨rest, c⟩ := by
  unfold classFrame
  rw [if_pos (by unfold maxClassLen; omega)]
  refine ⟨_, rfl, by simp; omega, ?_⟩
  unfold readClass
  have hr : readn 8 ⟨word big mesgMark ++ word big mesgClass ++ name ++ [0] ++ word big mesgMark ++ rest, c⟩ =
      .got (word big mesgMark ++ word big mesgClass) ⟨name ++ 0#8 :: (word big mesgMark ++ rest), c⟩ := by
    have := readn_append (word big mesgMark ++ word big mesgClass) (name ++ 0#8 :: (word big mesgMark ++ rest)) c
    rw [List.length_append, word_length, word_length] at this
    rw [← this]
    simp
  rw [hr]
  dsimp only
  have e0 : wordAt big (word big mesgMark ++ word big mesgClass) 0 = mesgMark := wordAt_head big _ _
  have e1 : wordAt big (word big mesgMark ++ word big mesgClass) 1 = mesgClass := by
    exact wordAt_last big (word big mesgMark) mesgClass 1 (by simp)
  rw [e0, e1, if_neg (by simp), readName_frame name h0 _ _ (by unfold maxClassLen; omega)]
  dsimp only
  have h4 := readn_append (word big mesgMark) rest c
  rw [word_length] at h4
  rw [h4]
  dsimp only
  have e2 : wordAt big (word big mesgMark) 0 = mesgMark := wordAt_only big mesgMark
  rw [e2, if_neg (by simp)]

theorem readClass_some {big : Bool} {s : Source} {name : Bytes} {rest : Source} (h : readClass big s = .named name rest) :
    ∃ f, classFrame big name = some f ∧ s.data = f ++ rest.data ∧ 0#8 ∉ name ∧ name.length ≤ 80 := by
  unfold readClass at h
  split at h
  · cases h
  · cases h
  · rename_i b r hr
    obtain ⟨h1, h2, _⟩ := readn_got hr
    split at h
    · cases h
    · rename_i hm
      split at h
      · cases h
      · rename_i n tail hn
        split at h
        · rename_i m r2 h4
          obtain ⟨g1, g2, _⟩ := readn_got h4
          split at h
          · cases h
          · rename_i hm2
            injection h with a1 a2
            subst a1 a2
            obtain ⟨n1, n2, n3⟩ := readName_some hn
            have hle : n.length ≤ 80 := by unfold maxClassLen at n3; omega
            refine ⟨_, if_pos (by unfold maxClassLen; omega), ?_, n2, hle⟩
            rw [not_or, Decidable.not_not, Decidable.not_not] at hm
            rw [Decidable.not_not] at hm2
            have w0 := word_wordAt big b 0 (by omega)
            have w1 := word_wordAt big b 1 (by omega)
            have w2 := word_wordAt big m 0 (by omega)
            rw [hm.1] at w0; rw [hm.2] at w1; rw [hm2] at w2
            rw [List.drop_zero] at w0 w2
            have hb : b = word big mesgMark ++ word big mesgClass := by
              rw [w0, w1, ← List.take_add, List.take_of_length_le (by omega)]
            have hmm : m = word big mesgMark := by rw [w2, List.take_of_length_le (by omega)]
            dsimp only at g2
            rw [h2, n1, g2, hb, hmm]
            simp
        · cases h

end Owamp.Policy
