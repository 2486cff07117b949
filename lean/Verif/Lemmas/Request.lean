import Verif.Lemmas.Text
import Verif.Spec.Request
/-!
# Test requests
-/
namespace Owamp.Ctl
open Owamp.Spec.Channel Owamp.Spec.Request Owamp.Codec

theorem linkLocal_iff (a : BitVec 128) : linkLocal a = true ↔ isLinkLocal a := by
  unfold linkLocal isLinkLocal
  rw [decide_eq_true_iff]
  have h1 : (BitVec.extractLsb' 118 10 a).toNat = a.toNat / 2 ^ 118 := by
    rw [BitVec.extractLsb'_toNat, Nat.shiftRight_eq_div_pow]
    apply Nat.mod_eq_of_lt
    have := a.isLt
    omega
  rw [← h1]
  exact ⟨fun h => BitVec.eq_of_toNat_eq h, fun h => by rw [h]; rfl⟩

theorem put_get_self (m : Bytes) (o n : Nat) (h : o + n ≤ m.length) : put m o (get m o n) = m := by
  unfold put
  rw [get_length _ _ _ h]
  unfold get
  rw [← List.take_add, List.take_append_drop]

theorem slotLayout_length (s : Sched.Slot) (h : Known s) : (slotLayout s).length = 16 := by
  cases s <;> simp_all [slotLayout, Known]

theorem encodeSlot_ok (s : Sched.Slot) (h : Known s) : encodeSlot s = some (slotLayout s) := by
  cases s with
  | randExp t =>
    refine congrArg some ?_
    rw [← get_all (put _ _ _) 16 (by simp (disch := blen) [put_length, encTime_eq, put8]),
      get_pieces _ 0 [1, 7, 8] 16 rfl]
    rw [encTime_eq]
    fields
    simp [slotLayout, enc8_eq]
  | literal t =>
    refine congrArg some ?_
    rw [← get_all (put _ _ _) 16 (by simp (disch := blen) [put_length, encTime_eq, put8]),
      get_pieces _ 0 [1, 7, 8] 16 rfl]
    rw [encTime_eq]
    fields
    simp [slotLayout, enc8_eq]
  | other _ => exact h.elim

theorem decodeSlot_ok (s : Sched.Slot) (h : Known s) : decodeSlot (slotLayout s) = some s := by
  cases s with
  | randExp t =>
    simp only [decodeSlot, slotLayout, ← enc8_eq, List.append_assoc]
    fields
    simp [decTime_enc]
  | literal t =>
    simp only [decodeSlot, slotLayout, ← enc8_eq, List.append_assoc]
    fields
    simp [decTime_enc]
  | other _ => exact h.elim

theorem slotsText_length (ss : List Sched.Slot) (h : ∀ s ∈ ss, Known s) :
    (slotsText ss).length = 16 * ss.length := by
  induction ss with
  | nil => rfl
  | cons s ss ih =>
    simp only [slotsText, List.map_cons, List.flatten_cons, List.length_append, List.length_cons] at *
    rw [slotLayout_length s (h s (by simp)), ih (fun x hx => h x (by simp [hx]))]; omega

theorem wr_nil (c : Conn) : c.wr [] = [] := by
  unfold Conn.wr wire; split <;> rfl
theorem sentText_nil (c : Conn) (h : c.faults = []) : c.sentText [] c.msg = c := by
  refine conn_ext _ _ rfl rfl rfl rfl rfl rfl rfl ?_ ?_ rfl rfl rfl ?_ h.symm
  · show wireIV _ _ _ _ = _; unfold wireIV; split <;> rfl
  · show (if c.cipher then c.sendAcc ++ [] else c.sendAcc) = _; simp
  · show c.out ++ c.wr [] = _; rw [wr_nil, List.append_nil]
theorem gotText_nil (c : Conn) (h : c.faults = []) : c.gotText [] c.msg c.inp = c := by
  refine conn_ext _ _ rfl rfl rfl rfl rfl rfl ?_ rfl rfl ?_ rfl rfl rfl h.symm
  · show wireIV _ _ _ _ = _; unfold wireIV; split <;> rfl
  · show (if c.cipher then c.recvAcc ++ [] else c.recvAcc) = _; simp

theorem wr_length (c : Conn) (p : Bytes) (n : Nat) (h : p.length = 16 * n) : (c.wr p).length = 16 * n :=
  wire_length _ _ _ _ _ h

theorem wr_append (c : Conn) (p q m : Bytes) (k n : Nat) (hp : p.length = 16 * k) (hq : q.length = 16 * n) :
    c.wr (p ++ q) = c.wr p ++ (c.sentText p m).wr q := wire_append _ _ _ _ _ k n hp hq

theorem write_slots (ss : List Sched.Slot) : ∀ A : Conn, Ready A → (∀ s ∈ ss, Known s) →
    ∃ m, m.length = 400 ∧ writeSlots A ss = (some (), A.sentText (slotsText ss) m) := by
  induction ss with
  | nil =>
    intro A rA _
    exact ⟨A.msg, rA.2.1, by rw [writeSlots]; exact congrArg _ (sentText_nil A rA.1).symm⟩
  | cons s ss ih =>
    intro A rA hs
    have hk := hs s (by simp)
    have hl := slotLayout_length s hk
    have hss : ∀ x ∈ ss, Known x := fun x hx => hs x (by simp [hx])
    have hput : (put A.msg 0 (slotLayout s)).length = 400 := by
      rw [put_length _ _ _ (by have := rA.2.1; omega)]; exact rA.2.1
    let m1 := put (put A.msg 0 (slotLayout s)) 0 (A.wr (slotLayout s))
    have hm1 : m1.length = 400 := by
      have h1 := wr_length A (slotLayout s) 1 hl
      simp only [m1]
      rw [put_length _ _ _ (by omega)]; exact hput
    obtain ⟨m, hm, hw⟩ := ih (A.sentText (slotLayout s) m1) (ready_sentText A rA _ _ hm1) hss
    refine ⟨m, hm, ?_⟩
    rw [writeSlots, encodeSlot_ok s hk]
    simp only
    rw [sendText_ok _ (by exact rA.1)]
    have := sentText_append A (slotLayout s) (slotsText ss) m1 m 1 ss.length hl (slotsText_length ss hss)
    rw [this] at hw
    exact hw

theorem read_slots (ss : List Sched.Slot) : ∀ (A B : Conn) (rest : Bytes), Ready A → Ready B → Linked A B →
    (∀ s ∈ ss, Known s) → B.inp = A.wr (slotsText ss) ++ rest →
    ∃ m, m.length = 400 ∧ readSlotLoop B ss.length = (some ss, B.gotText (slotsText ss) m rest) := by
  induction ss with
  | nil =>
    intro A B rest rA rB L _ hi
    refine ⟨B.msg, rB.2.1, ?_⟩
    have e : slotsText [] = [] := rfl
    rw [e, wr_nil, List.nil_append] at hi
    rw [e, ← hi, gotText_nil B rB.1]; rfl
  | cons s ss ih =>
    intro A B rest rA rB L hs hi
    have hk := hs s (by simp)
    have hl := slotLayout_length s hk
    have hss : ∀ x ∈ ss, Known x := fun x hx => hs x (by simp [hx])
    have hsl := slotsText_length ss hss
    have e : slotsText (s :: ss) = slotLayout s ++ slotsText ss := rfl
    rw [e, wr_append A _ _ A.msg 1 ss.length hl hsl, List.append_assoc] at hi
    have hmB := rB.2.1
    let m1 := put B.msg 0 (slotLayout s)
    have hm1 : m1.length = 400 := by
      simp only [m1]; rw [put_length _ _ _ (by omega)]; exact hmB
    let r1 := (A.sentText (slotLayout s) A.msg).wr (slotsText ss) ++ rest
    obtain ⟨m, hm, hw⟩ := ih (A.sentText (slotLayout s) A.msg) (B.gotText (slotLayout s) m1 r1) rest
      (ready_sentText A rA _ _ rA.2.1) (ready_gotText B rB _ _ _ hm1) (linked_text A B L _ _ _ _) hss rfl
    refine ⟨m, hm, ?_⟩
    rw [List.length_cons, readSlotLoop, recv_step A B rA rB L.1 (slotLayout s) r1 0 1 hl hi]
    have hg : get (B.got 0 (slotLayout s) r1).msg 0 16 = slotLayout s := by
      show get (put B.msg 0 (slotLayout s)) 0 16 = _
      rw [get_put_same _ _ _ _ hl (by omega)]
    have hg2 : get (B.gotText (slotLayout s) m1 r1).msg 0 16 = slotLayout s := hg
    simp only [hg, gotText_ok]
    rw [show put B.msg 0 (slotLayout s) = m1 from rfl, hg2, decodeSlot_ok s hk]
    simp only [hw]
    rw [gotText_append B _ _ _ _ _ _ 1 ss.length hl hsl, e]

theorem enc128_length (x : BitVec 128) : (enc128 x).length = 16 := by simp [enc128]
theorem dec_enc128 (x : BitVec 128) : BitVec.ofNat 128 (beDec (enc128 x)) = x := by
  unfold enc128
  rw [beDec_beEnc, Nat.mod_eq_of_lt (by exact x.isLt)]
  apply BitVec.eq_of_toNat_eq; rw [BitVec.toNat_ofNat, Nat.mod_eq_of_lt x.isLt]

/-- The two address fields as written. -/
def addrs (a : ReqArgs) : Bytes :=
  if a.zeroAddr then zeros 32 else addrField a.sender ++ addrField a.receiver

theorem addrField_length (x y : SockAddr) (h : sameFamily x y) : (addrField x).length = 16 ∧ (addrField y).length = 16 := by
  cases x <;> cases y <;> simp_all [sameFamily, addrField]

theorem addrs_length (a : ReqArgs) (h : sameFamily a.sender a.receiver) : (addrs a).length = 32 := by
  have := addrField_length _ _ h
  unfold addrs; split
  · simp
  · rw [List.length_append]; omega

theorem encodeAddrs_ok (L : Nat) (hL : 112 ≤ L) (m : Bytes) (a : ReqArgs) (hm : m.length = L) (h : sameFamily a.sender a.receiver) :
    ∃ m', encodeAddrs m a = some m' ∧ m'.length = L ∧
      get m' 1 1 = [Spec.Channel.SockAddr.ipvn a.sender] ∧
      get m' 12 36 = enc16 (Spec.Channel.SockAddr.port a.sender) ++ enc16 (Spec.Channel.SockAddr.port a.receiver) ++ addrs a ∧
      (∀ o n, o + n ≤ 1 ∨ 48 ≤ o ∨ (2 ≤ o ∧ o + n ≤ 12) → o + n ≤ L → get m' o n = get m o n) := by
  unfold encodeAddrs addrs
  rcases hs : a.sender with ⟨sa, sp⟩ | ⟨sa, sp, ss⟩ | _ | _ <;> rcases hr : a.receiver with ⟨ra, rp⟩ | ⟨ra, rp, rs⟩ | _ | _ <;>
    simp only [hs, hr, sameFamily] at h
  · have e0 : enc32 0#32 = zeros 4 := rfl
    refine ⟨_, rfl, ?_, ?_, ?_, ?_⟩
    · simp (disch := blen) only [put8, put16, put32, put_length]; exact hm
    · fields; simp [Spec.Channel.SockAddr.ipvn, enc8_eq]
    · rw [get_pieces _ 12 [2, 2, 4, 12, 4, 12] 36 rfl]
      fields
      cases a.zeroAddr
      · simp [Spec.Channel.SockAddr.port, addrField]
      · simp only [if_true, e0, Spec.Channel.SockAddr.port]; simp [zeros]
    · rintro o n (ho | ho | ho) ho2
      · simp (disch := blen) only [put8, put16, put32, get_put_before, enc8_length, enc16_length, enc32_length]
      · simp (disch := blen) only [put8, put16, put32, get_put_after]
      · simp (disch := (first | blen | (simp (disch := blen) only [zeros_length, enc8_length, enc16_length, enc32_length]; omega))) only [put8, put16, put32, get_put_before, get_put_after]
  · have hl1 := enc128_length sa
    have hl2 := enc128_length ra
    refine ⟨_, rfl, ?_, ?_, ?_, ?_⟩
    · cases a.zeroAddr <;> simp (disch := blen) only [put8, put16, put32, put_length, Bool.false_eq_true, if_true, if_false] <;> exact hm
    · cases a.zeroAddr <;> simp only [if_true, if_false, Bool.false_eq_true] <;> fields [hl1, hl2] <;> simp [Spec.Channel.SockAddr.ipvn, enc8_eq]
    · rw [get_pieces _ 12 [2, 2, 16, 16] 36 rfl]
      cases a.zeroAddr
      · simp only [Bool.false_eq_true, if_false]
        fields [hl1, hl2]
        simp [Spec.Channel.SockAddr.port, addrField, enc128]
      · simp only [if_true]
        fields
        simp only [Spec.Channel.SockAddr.port]
        simp [zeros]
    · generalize hx : (if a.zeroAddr = true then zeros 16 else enc128 sa) = x
      generalize hy : (if a.zeroAddr = true then zeros 16 else enc128 ra) = y
      have hxl : x.length = 16 := by rw [← hx]; split <;> simp [hl1]
      have hyl : y.length = 16 := by rw [← hy]; split <;> simp [hl2]
      clear hx hy hs hr
      rintro o n (ho | ho | ho) ho2
      · simp (disch := blen) only [put8, put16, put32, get_put_before, enc8_length, enc16_length, enc32_length]
      · simp (disch := blen) only [put8, put16, put32, get_put_after]
      · simp (disch := (first | blen | (simp (disch := blen) only [zeros_length, enc8_length, enc16_length, enc32_length]; omega))) only [put8, put16, put32, get_put_before, get_put_after]

theorem put_getD (m : Bytes) (o : Nat) (s : Option Bytes) (h : o + 16 ≤ m.length) :
    (s.elim m fun s => put m o s) = put m o (s.getD (get m o 16)) := by
  cases s
  · exact (put_get_self m o 16 h).symm
  · rfl

theorem encodePreamble_any (L : Nat) (hL : 112 ≤ L) (m : Bytes) (tw : Bool) (a : ReqArgs) (hm : m.length = L)
    (h : sameFamily a.sender a.receiver) (hsid : ∀ s, a.sid = some s → s.length = 16)
    (hc : tw = true ∨ a.confSender = true ∨ a.confReceiver = true)
    (hn : tw = true ∨ (a.spec.npackets ≠ 0 ∧ a.spec.slots ≠ [])) :
    ∃ m', encodePreamble m tw a = some m' ∧ m'.length = L ∧
      get m' 0 112 = requestLayout tw a (a.sid.getD (get m 48 16)) ++ zeros 16 := by
  have hf1 : a.sender.family = a.receiver.family := by
    revert h; cases a.sender <;> cases a.receiver <;> simp [sameFamily, SockAddr.family]
  have hf2 : a.sender.family = 4 ∨ a.sender.family = 6 := by
    revert h; cases a.sender <;> cases a.receiver <;> simp [sameFamily, SockAddr.family]
  unfold encodePreamble
  rw [if_neg (by rcases hc with h | h | h <;> simp [h]), if_neg (by simp [hf1]),
    if_neg (by omega), if_neg (by rcases hn with h | ⟨h1, h2⟩ <;> simp_all)]
  extract_lets m1 m2 m3 m4 m5
  have hm5 : m5.length = L := by
    simp (disch := blen) only [m5, m4, m3, m2, m1, put8, put16, put32, put_length]; exact hm
  obtain ⟨m6, e1, e2, e3, e4, e5⟩ := encodeAddrs_ok L hL m5 a hm5 h
  rw [e1]
  simp only
  rw [put_getD m6 48 a.sid (by omega)]
  have hst : get m6 48 16 = get m 48 16 := by
    rw [e5 48 16 (by omega) (by omega)]
    simp only [m5, m4, m3, m2, m1]; fields
  rw [hst]
  generalize hsd : a.sid.getD (get m 48 16) = sid
  have hsl : sid.length = 16 := by
    rw [← hsd]
    cases hs : a.sid with
    | none => simp; exact get_length _ _ _ (by omega)
    | some s => exact hsid s hs
  have hx1 : (get m6 0 1) = enc8 (if tw = true then 5#8 else 1#8) := by
    rw [e5 0 1 (by omega) (by omega)]; simp only [m5, m4, m3, m2, m1]; fields
  have hx2 : (get m6 2 1) = enc8 (if a.confSender = true ∧ ¬ tw = true then 1#8 else 0#8) := by
    rw [e5 2 1 (by omega) (by omega)]; simp only [m5, m4, m3, m2, m1]; fields
  have hx3 : (get m6 3 1) = enc8 (if a.confReceiver = true ∧ ¬ tw = true then 1#8 else 0#8) := by
    rw [e5 3 1 (by omega) (by omega)]; simp only [m5, m4, m3, m2, m1]; fields
  have hx4 : (get m6 4 4) = enc32 (if tw = true then 0#32 else BitVec.ofNat 32 a.spec.slots.length) := by
    rw [e5 4 4 (by omega) (by omega)]; simp only [m5, m4, m3, m2, m1]; fields
  have hx5 : (get m6 8 4) = enc32 (if tw = true then 0#32 else a.spec.npackets) := by
    rw [e5 8 4 (by omega) (by omega)]; simp only [m5, m4, m3, m2, m1]; fields
  clear_value m5
  simp only [encTime_eq]
  refine ⟨_, rfl, ?_, ?_⟩
  · simp (disch := blen) only [put32, put_length]; exact e2
  · rw [get_pieces _ 0 [1, 1, 1, 1, 4, 4, 36, 16, 4, 8, 8, 4, 24] 112 rfl]
    fields [hsl]
    rw [hx1, hx2, hx3, hx4, hx5, e3, e4]
    simp only [requestLayout, addrs, enc8_eq, List.append_assoc]
    rfl

theorem requestLayout_length (tw : Bool) (a : ReqArgs) (sid : Bytes) (hs : sid.length = 16)
    (h : sameFamily a.sender a.receiver) : (requestLayout tw a sid).length = 96 := by
  have := addrs_length a h
  unfold addrs at this
  simp only [requestLayout, List.length_append, List.length_cons, List.length_nil, enc16_length, enc32_length,
    enc64_length, zeros_length, this, hs]

theorem encodePreamble_ok (m : Bytes) (tw : Bool) (a : ReqArgs) (hm : m.length = 400)
    (h : sameFamily a.sender a.receiver) (hsid : ∀ s, a.sid = some s → s.length = 16)
    (hc : tw = true ∨ a.confSender = true ∨ a.confReceiver = true)
    (hn : tw = true ∨ (a.spec.npackets ≠ 0 ∧ a.spec.slots ≠ [])) :
    ∃ m', encodePreamble m tw a = some m' ∧ m'.length = 400 ∧
      get m' 0 96 = requestLayout tw a (a.sid.getD (get m 48 16)) := by
  obtain ⟨m', h1, h2, h3⟩ := encodePreamble_any 400 (by omega) m tw a hm h hsid hc hn
  refine ⟨m', h1, h2, ?_⟩
  have hl : (a.sid.getD (get m 48 16)).length = 16 := by
    cases hs : a.sid with
    | none => simp; exact get_length _ _ _ (by omega)
    | some s => exact hsid s hs
  have := get_get m' 0 112 0 96 (by omega)
  rw [h3, get_zero_append _ _ _ (requestLayout_length _ _ _ hl h).symm] at this
  exact this.symm

theorem decodePreamble_congr (req tw : Bool) (m m' : Bytes) (h : ∀ o n, o + n ≤ 96 → get m o n = get m' o n) :
    decodePreamble req m tw = decodePreamble req m' tw := by
  unfold decodePreamble get8 get16 get32 get128
  rw [h 1 1 (by omega), h 2 1 (by omega), h 3 1 (by omega), h 4 4 (by omega), h 8 4 (by omega), h 12 2 (by omega),
    h 14 2 (by omega), h 16 16 (by omega), h 16 4 (by omega), h 32 16 (by omega), h 32 4 (by omega), h 48 16 (by omega),
    h 64 4 (by omega), h 68 8 (by omega), h 76 8 (by omega), h 84 4 (by omega)]

/-- What the server reads of an address before scopes are filled in. -/
def bare (zero ours : Bool) : SockAddr → SockAddr
  | .v4 a p => .v4 (if zero then 0 else a) (if ours then 0 else p)
  | .v6 a p _ => .v6 (if zero then 0 else a) (if ours then 0 else p) 0
  | x => x

set_option maxHeartbeats 400000 in
theorem decodePreamble_ok (req tw : Bool) (a : ReqArgs) (sid : Bytes) (hs : sid.length = 16)
    (h : sameFamily a.sender a.receiver) (hc : tw = true ∨ a.confSender = true ∨ a.confReceiver = true) :
    decodePreamble req (requestLayout tw a sid) tw =
      (true,
        { sender := bare a.zeroAddr (req && a.confSender && !tw) a.sender
          receiver := bare a.zeroAddr (req && a.confReceiver && !tw) a.receiver
          confSender := a.confSender && !tw
          confReceiver := a.confReceiver && !tw
          sid := sid
          nslots := if tw then 0 else BitVec.ofNat 32 a.spec.slots.length
          npackets := if tw then 0 else a.spec.npackets
          padding := a.spec.padding
          startTime := a.spec.startTime
          lossTimeout := a.spec.lossTimeout
          typeP := a.spec.typeP }) := by
  have hal := addrs_length a h
  have e : requestLayout tw a sid =
      enc8 (if tw = true then 5#8 else 1#8) ++ (enc8 (Spec.Channel.SockAddr.ipvn a.sender) ++
        (enc8 (if a.confSender = true ∧ ¬ tw = true then 1#8 else 0#8) ++
        (enc8 (if a.confReceiver = true ∧ ¬ tw = true then 1#8 else 0#8) ++
        (enc32 (if tw = true then 0#32 else BitVec.ofNat 32 a.spec.slots.length) ++
        (enc32 (if tw = true then 0#32 else a.spec.npackets) ++
        (enc16 (Spec.Channel.SockAddr.port a.sender) ++ (enc16 (Spec.Channel.SockAddr.port a.receiver) ++
        (addrs a ++ (sid ++ (enc32 a.spec.padding ++ (enc64 a.spec.startTime ++ (enc64 a.spec.lossTimeout ++
        (enc32 a.spec.typeP ++ zeros 8))))))))))))) := by
    simp only [requestLayout, addrs, enc8_eq, List.append_assoc]
  rw [e]
  generalize hR : enc8 _ ++ _ = R
  have g1 : get R 1 1 = enc8 (Spec.Channel.SockAddr.ipvn a.sender) := by subst hR; fields
  have g2 : get R 2 1 = enc8 (if a.confSender = true ∧ ¬ tw = true then 1#8 else 0#8) := by subst hR; fields
  have g3 : get R 3 1 = enc8 (if a.confReceiver = true ∧ ¬ tw = true then 1#8 else 0#8) := by subst hR; fields
  have g4 : get R 4 4 = enc32 (if tw = true then 0#32 else BitVec.ofNat 32 a.spec.slots.length) := by subst hR; fields
  have g5 : get R 8 4 = enc32 (if tw = true then 0#32 else a.spec.npackets) := by subst hR; fields
  have g6 : get R 12 2 = enc16 (Spec.Channel.SockAddr.port a.sender) := by subst hR; fields
  have g7 : get R 14 2 = enc16 (Spec.Channel.SockAddr.port a.receiver) := by subst hR; fields
  have g8 : get R 16 16 = get (addrs a) 0 16 := by subst hR; fields
  have g9 : get R 16 4 = get (addrs a) 0 4 := by subst hR; fields
  have g10 : get R 32 16 = get (addrs a) 16 16 := by subst hR; fields
  have g11 : get R 32 4 = get (addrs a) 16 4 := by subst hR; fields
  have g12 : get R 48 16 = sid := by subst hR; fields [hal, hs]
  have g13 : get R 64 4 = enc32 a.spec.padding := by subst hR; fields [hal, hs]
  have g14 : get R 68 8 = enc64 a.spec.startTime := by subst hR; fields [hal, hs]
  have g15 : get R 76 8 = enc64 a.spec.lossTimeout := by subst hR; fields [hal, hs]
  have g16 : get R 84 4 = enc32 a.spec.typeP := by subst hR; fields [hal, hs]
  clear hR e
  unfold decodePreamble get128 get8 get16 get32
  simp only [g1, g2, g3, g4, g5, g6, g7, g8, g9, g10, g11, g12, g13, g14, g15, g16, dec_enc8, dec_enc16, dec_enc32,
    decTime_enc]
  have hb1 : (if a.confSender = true ∧ ¬ tw = true then 1#8 else 0#8) ≠ 0#8 ↔ (a.confSender && !tw) = true := by
    cases a.confSender <;> cases tw <;> simp
  have hb2 : (if a.confReceiver = true ∧ ¬ tw = true then 1#8 else 0#8) ≠ 0#8 ↔ (a.confReceiver && !tw) = true := by
    cases a.confReceiver <;> cases tw <;> simp
  simp only [hb1, hb2, Bool.decide_eq_true]
  rw [if_neg (by rcases hc with h | h | h <;> simp [h] <;> cases tw <;> simp),
    if_neg (by cases tw <;> simp), if_neg (by cases tw <;> simp)]
  have e0 : enc32 0#32 = zeros 4 := rfl
  have z16 : BitVec.ofNat 128 (beDec (zeros 16)) = 0 := by decide
  have z4 : BitVec.ofNat 32 (beDec (zeros 4)) = 0 := by decide
  rcases hs' : a.sender with ⟨sa, sp⟩ | ⟨sa, sp, ss⟩ | _ | _ <;>
    rcases hr' : a.receiver with ⟨ra, rp⟩ | ⟨ra, rp, rs⟩ | _ | _ <;> simp only [hs', hr', sameFamily] at h
  · have k : a.zeroAddr = false → get (addrs a) 0 4 = enc32 sa ∧ get (addrs a) 16 4 = enc32 ra := by
      intro hz
      simp only [addrs, hz, hs', hr', addrField, Bool.false_eq_true, if_false]
      constructor <;> fields
    have k' : a.zeroAddr = true → get (addrs a) 0 4 = zeros 4 ∧ get (addrs a) 16 4 = zeros 4 := by
      intro hz
      simp only [addrs, hz, if_true]
      constructor <;> fields
    rw [if_neg (by rw [show Spec.Channel.SockAddr.ipvn (.v4 sa sp) = 4#8 from rfl]; decide), if_pos (by rw [show Spec.Channel.SockAddr.ipvn (.v4 sa sp) = 4#8 from rfl]; decide)]
    cases hz : a.zeroAddr
    · simp [k hz, bare, Spec.Channel.SockAddr.port, dec_enc32, Bool.and_assoc]
    · simp [k' hz, bare, Spec.Channel.SockAddr.port, z4, Bool.and_assoc]
  · have k : a.zeroAddr = false → get (addrs a) 0 16 = enc128 sa ∧ get (addrs a) 16 16 = enc128 ra := by
      intro hz
      have h1 := enc128_length sa
      have h2 := enc128_length ra
      simp only [addrs, hz, hs', hr', addrField, Bool.false_eq_true, if_false]
      change get (enc128 sa ++ enc128 ra) 0 16 = _ ∧ get (enc128 sa ++ enc128 ra) 16 16 = _
      rw [get_zero_append _ _ _ h1.symm, get_append_right _ _ _ _ (by omega), h1, Nat.sub_self,
        get_all _ _ (by omega)]
      exact ⟨rfl, rfl⟩
    have k' : a.zeroAddr = true → get (addrs a) 0 16 = zeros 16 ∧ get (addrs a) 16 16 = zeros 16 := by
      intro hz
      simp only [addrs, hz, if_true]
      constructor <;> fields
    rw [if_pos (by rw [show Spec.Channel.SockAddr.ipvn (.v6 sa sp ss) = 6#8 from rfl]; decide)]
    cases hz : a.zeroAddr
    · simp [k hz, bare, Spec.Channel.SockAddr.port, dec_enc128, Bool.and_assoc]
    · simp [k' hz, bare, Spec.Channel.SockAddr.port, z16, Bool.and_assoc]

end Owamp.Ctl
