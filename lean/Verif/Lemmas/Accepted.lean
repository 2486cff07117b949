import Verif.Lemmas.Stream
import Verif.Lemmas.Request
/-!
# What a successful read says about the bytes received
-/
namespace Owamp.Ctl
open Owamp.Spec.Channel Owamp.Spec.Request Owamp.Codec

/-- Fields that reading does not change. -/
structure Kept (c c' : Conn) : Prop where
  state : c'.state = c.state
  mode : c'.mode = c.mode
  twoway : c'.twoway = c.twoway
  key : c'.hmacKey = c.hmacKey
  aes : c'.aesKey = c.aesKey
  len : c.msg.length = 400 → c'.msg.length = 400

theorem Kept.cipher {c c' : Conn} (h : Kept c c') : c'.cipher = c.cipher := by
  unfold Conn.cipher; rw [h.mode]

theorem Kept.refl (c : Conn) : Kept c c := ⟨rfl, rfl, rfl, rfl, rfl, id⟩

theorem Kept.trans {a b c : Conn} (h : Kept a b) (k : Kept b c) : Kept a c :=
  ⟨k.state.trans h.state, k.mode.trans h.mode, k.twoway.trans h.twoway, k.key.trans h.key, k.aes.trans h.aes,
    fun x => k.len (h.len x)⟩

theorem Took.kept {c c' : Conn} {off n : Nat} (h : Took c c' off n) (ho : off + 16 * n ≤ 400) : Kept c c' := by
  obtain ⟨iv, inp, fs, e⟩ := h.same
  refine ⟨by rw [e], by rw [e], by rw [e], by rw [e], by rw [e], fun hm => ?_⟩
  rw [h.msg, put_length _ _ _ (by simp; have := h.len; omega)]; exact hm

theorem Took.acc {c c' : Conn} {off n : Nat} (h : Took c c' off n) : c'.recvAcc = c.recvAcc := by
  obtain ⟨iv, inp, fs, e⟩ := h.same
  rw [e]

/-- A connection after text was read and added to the MAC. -/
theorem recvHmacAdd_kept (c : Conn) (t : Bytes) :
    Kept c (recvHmacAdd c t) ∧ plainIn (recvHmacAdd c t) = plainIn c ∧ (IVok c → IVok (recvHmacAdd c t)) ∧
    (recvHmacAdd c t).msg = c.msg ∧
    (c.cipher = true → (recvHmacAdd c t).recvAcc = c.recvAcc ++ t) := by
  unfold recvHmacAdd
  split
  · exact ⟨⟨rfl, rfl, rfl, rfl, rfl, id⟩, rfl, id, rfl, fun _ => rfl⟩
  · rename_i h
    exact ⟨Kept.refl c, rfl, id, rfl, fun hc => absurd hc h⟩

theorem recvCheck_true (H : Mac) (c c' : Conn) (d : Bytes) (h : recvCheck H c d = (true, c')) :
    Kept c c' ∧ plainIn c' = plainIn c ∧ (IVok c → IVok c') ∧ c'.msg = c.msg ∧
    (c.cipher = true → d = (H.hash c.hmacKey c.recvAcc).take 16 ∧ c'.recvAcc = []) := by
  unfold recvCheck at h
  split at h
  · rename_i hc
    simp only [Prod.mk.injEq, decide_eq_true_eq] at h
    obtain ⟨h1, h2⟩ := h
    subst h2
    exact ⟨⟨rfl, rfl, rfl, rfl, rfl, id⟩, rfl, id, rfl, fun _ => ⟨h1, rfl⟩⟩
  · rename_i hc
    simp only [Prod.mk.injEq, true_and] at h
    subst h
    exact ⟨Kept.refl c, rfl, id, rfl, fun x => absurd x hc⟩

/-- A slot block and the slot it stands for. -/
def SlotIs (b : Bytes) (s : Sched.Slot) : Prop :=
  (get b 0 1 = [0#8] ∧ s = .randExp (get64 b 8)) ∨ (get b 0 1 = [1#8] ∧ s = .literal (get64 b 8))

theorem decodeSlot_some (b : Bytes) (hb : b.length = 16) (s : Sched.Slot) (h : decodeSlot b = some s) : SlotIs b s := by
  have e : Time.decodeTimeStamp (get b 8 8) = get64 b 8 := by
    rw [Time.decodeTimeStamp_eq _ (by rw [get_length _ _ _ (by omega)]; omega)]
    unfold get64
    rw [get_get _ _ _ _ _ (by omega)]
  have e8 : ∀ x, get8 b 0 = x → get b 0 1 = [x] := by
    intro x hx
    rw [← enc8_eq, ← hx, enc_get8 _ _ (by omega)]
  unfold decodeSlot at h
  simp only [e] at h
  split at h
  · rename_i h0
    simp only [Option.some.injEq] at h
    exact Or.inl ⟨e8 _ h0, h.symm⟩
  · split at h
    · rename_i h0
      simp only [Option.some.injEq] at h
      exact Or.inr ⟨e8 _ h0, h.symm⟩
    · simp at h

theorem readSlotLoop_some (n : Nat) : ∀ (c c' : Conn) (ss : List Sched.Slot), IVok c → c.msg.length = 400 →
    readSlotLoop c n = (some ss, c') →
    ss.length = n ∧ 16 * n ≤ (plainIn c).length ∧ plainIn c' = (plainIn c).drop (16 * n) ∧ IVok c' ∧ Kept c c' ∧
    (c.cipher = true → c'.recvAcc = c.recvAcc ++ (plainIn c).take (16 * n)) ∧
    ∀ i (h : i < ss.length), SlotIs (get (plainIn c) (16 * i) 16) ss[i] := by
  induction n with
  | zero =>
    intro c c' ss hv hm h
    simp only [readSlotLoop, Prod.mk.injEq, Option.some.injEq] at h
    obtain ⟨h1, h2⟩ := h
    subst h1; subst h2
    exact ⟨rfl, by simp, by simp, hv, Kept.refl c, fun _ => by simp, fun i hi => by simp at hi⟩
  | succ n ih =>
    intro c c' ss hv hm h
    rw [readSlotLoop] at h
    split at h
    · rename_i c1 hr
      have T := recvBlocks_took c c1 0 1 hv hr
      have K1 := T.kept (by omega)
      obtain ⟨K2, P2, V2, M2, R2⟩ := recvHmacAdd_kept c1 (get c1.msg 0 16)
      have hl1 := T.len
      have hg : get c1.msg 0 16 = get (plainIn c) 0 16 := by
        rw [T.msg, get_put_same _ _ _ _ (by simp; omega) (by omega)]
        simp [get]
      simp only [M2] at h
      split at h
      · simp at h
      · rename_i s hs
        rw [hg] at hs
        have hs := decodeSlot_some _ (get_length _ _ _ (by omega)) s hs
        split at h
        · simp at h
        · rename_i ss' c2 hl
          simp only [Prod.mk.injEq, Option.some.injEq] at h
          obtain ⟨h1, h2⟩ := h
          subst h1; subst h2
          obtain ⟨q1, q2, q3, q4, q5, q6, q7⟩ := ih _ _ _ (V2 T.iv) (K2.len (K1.len hm)) hl
          rw [P2, T.rest] at q2 q3 q6 q7
          have K := (K1.trans K2).trans q5
          simp only [List.length_drop] at q2
          refine ⟨by simp [q1], by omega, ?_, q4, K, ?_, ?_⟩
          · rw [q3, List.drop_drop]; congr 1; omega
          · intro hc
            have hc1 : c1.cipher = true := by rw [K1.cipher]; exact hc
            rw [q6 (by rw [K2.cipher]; exact hc1), R2 hc1, T.acc, List.append_assoc]
            congr 1
            rw [hg, show 16 * (n + 1) = 16 + 16 * n by omega, List.take_add]
            rfl
          · intro i hi
            cases i with
            | zero => exact hs
            | succ i =>
              have := q7 i (by simpa using hi)
              rw [show get ((plainIn c).drop (16 * 1)) (16 * i) 16 = get (plainIn c) (16 * (i + 1)) 16 by
                unfold get; rw [List.drop_drop]; congr 2; omega] at this
              exact this
    · simp at h

end Owamp.Ctl
