import Verif.Lemmas.Accepted
import Verif.Props.Protocol
/-!
# C11: test requests
-/
namespace Owamp.Props
open Owamp.Ctl Owamp.Spec.Channel Owamp.Spec.Request Owamp.Codec

/-- The server's reader, as a function of the connection. -/
def serverReads (H : Mac) (remote loc : SockAddr) (c : Conn) : Option (TestReq × Accept) × Conn :=
  match readTestRequest H true remote loc c with
  | (r, acc, c) => (r.map (·, acc), c)

theorem setLLScope_bare (remote x : SockAddr) (zero ours : Bool) (h : scopeKnown remote zero x) :
    setLLScope remote (bare zero ours x) = some (seen remote zero ours x) := by
  rcases x with ⟨a, p⟩ | ⟨a, p, s⟩ | _ | _
  · rfl
  · cases zero
    · simp only [bare, seen, setLLScope, Bool.false_eq_true, if_false]
      by_cases hl : isLinkLocal a
      · obtain ⟨c, p', s', e, hc⟩ := h rfl hl
        subst e
        rw [if_pos ((linkLocal_iff a).2 hl)]
        simp only
        rw [if_pos ((linkLocal_iff c).2 hc), if_pos hl]
      · rw [if_neg (fun x => hl ((linkLocal_iff a).1 x)), if_neg hl]
    · have h0 : ¬ isLinkLocal 0 := by decide
      have h1 : linkLocal 0 = false := by decide
      simp only [bare, seen, setLLScope, if_true, h1, Bool.false_eq_true, if_false, h0]
  · rfl
  · rfl

theorem tag_after (H : Mac) (A : Conn) (m p m' : Bytes) (k : Nat) :
    tag H ((A.sentMsg H m k).sentText p m') [] = tag H { A with sendAcc := [] } p := by
  unfold tag
  have h1 : ((A.sentMsg H m k).sentText p m').cipher = A.cipher := rfl
  have h2 : Conn.cipher { A with sendAcc := [] } = A.cipher := rfl
  rw [h1, h2]
  cases hc : A.cipher
  · rfl
  · have h3 : ((A.sentMsg H m k).sentText p m').sendAcc = p := by
      show (if A.cipher then (if A.cipher then [] else A.sendAcc) ++ p else _) = p
      rw [hc]; rfl
    rw [h3]
    simp [Conn.sentText, Conn.sentMsg, Conn.sent]

/-- C11: whatever one-way request the client sends, the server reads the same parameters and the same
slots; the only differences are those listed in `seen`. -/
theorem C11_request (H : Mac) (remote loc : SockAddr) (A B : Conn) (rA : Ready A) (rB : Ready B) (L : Linked A B)
    (a : ReqArgs) (hfam : sameFamily a.sender a.receiver) (hsid : ∀ s, a.sid = some s → s.length = 16)
    (hconf : a.confSender = true ∨ a.confReceiver = true) (hn : a.spec.npackets ≠ 0) (hne : a.spec.slots ≠ [])
    (hlen : a.spec.slots.length < 2 ^ 32) (hk : ∀ s ∈ a.spec.slots, Known s)
    (hs1 : scopeKnown remote a.zeroAddr a.sender) (hs2 : scopeKnown remote a.zeroAddr a.receiver)
    (hA : A.state.request = true) (hAp : A.state.isPending = false) (hAw : A.twoway = false)
    (hB : B.state.request = true) (hBr : B.state.isReading = false) (hBt : B.state.test = false)
    (hBw : B.twoway = false) :
    let sid := a.sid.getD (get A.msg 48 16)
    let body := requestLayout false a sid
    let slots := slotsText a.spec.slots
    Delivers A B (writeTestRequest H · a) (afterType .test (serverReads H remote loc))
      (sealed A (body ++ tag H A body ++ (slots ++ tag H { A with sendAcc := [] } slots)))
      (⟨seen remote a.zeroAddr a.confSender a.sender, seen remote a.zeroAddr a.confReceiver a.receiver,
        a.confSender, a.confReceiver, sid, a.spec⟩, .accept)
      { A.state with acceptSession := true }
      { B.state with testRequest := false, testRequestSlots := false, acceptSession := true } := by
  intro sid body slots
  obtain ⟨m, hm1, hm2, hm3⟩ := encodePreamble_ok A.msg false a rA.2.1 hfam hsid (Or.inr hconf) (Or.inr ⟨hn, hne⟩)
  have hsl : sid.length = 16 := by
    show (a.sid.getD (get A.msg 48 16)).length = 16
    cases hs : a.sid with
    | none => exact get_length _ _ _ (by have := rA.2.1; omega)
    | some s => exact hsid s hs
  have hbl : body.length = 16 * 6 := by
    have : get m 0 96 = body := hm3
    rw [← this, get_length _ _ _ (by omega)]
  have hst : slots.length = 16 * a.spec.slots.length := slotsText_length a.spec.slots hk
  have hpl := plain_length H A body 6 hbl
  obtain ⟨s1, s2, s3⟩ := send_msg H A rA m body 6 (by omega) hm2 hm3
  let A1 := A.sentMsg H m 6
  obtain ⟨m2, hm2l, hw⟩ := write_slots a.spec.slots A1 s3 hk
  let A2 := A1.sentText slots m2
  have rA2 : Ready A2 := ready_sentText A1 s3 _ _ hm2l
  let d := tag H A2 []
  have hd : d = tag H { A with sendAcc := [] } slots := tag_after H A m slots m2 6
  have hdl : d.length = 16 * 1 := tag_length _ _ _
  let m3 := put (put m2 0 d) 0 (A2.wr d)
  have hm3l : m3.length = 400 := by
    have := wr_length A2 d 1 hdl
    have h1 : (put m2 0 d).length = 400 := by rw [put_length _ _ _ (by omega)]; exact hm2l
    simp only [m3]; rw [put_length _ _ _ (by omega)]; exact h1
  have hAt : sendBlocks { (sendDigest H A2).2 with msg := put (sendDigest H A2).2.msg 0 (sendDigest H A2).1 }
      (sendDigest H A2).1 = (.done, A2.sentTag d m3) := by
    have := sendTag_ok H A2 rA2.1 (put m2 0 d)
    have hdig : (sendDigest H A2).1 = d ∧ (sendDigest H A2).2.msg = m2 := by
      unfold sendDigest
      split
      · rename_i hc
        exact ⟨by simp [d, tag, hc], rfl⟩
      · rename_i hc
        exact ⟨by simp [d, tag, hc], rfl⟩
    rw [hdig.1, hdig.2]
    rw [hdig.1] at this
    exact this
  have hwire : sealed A (body ++ tag H A body ++ (slots ++ tag H { A with sendAcc := [] } slots)) =
      sealed A (plain H A body) ++ (A1.wr slots ++ A2.wr d) := by
    rw [← hd, sealed_eq A (plain H A body ++ (slots ++ d)) (7 + (a.spec.slots.length + 1))
      (by simp only [List.length_append, hbl, tag_length, hst, hdl]; omega),
      wire_append _ _ _ _ _ 7 (a.spec.slots.length + 1) hpl (by rw [List.length_append, hst, hdl]; omega),
      sealed_eq A (plain H A body) 7 hpl]
    refine congrArg _ ?_
    have e := wr_append A1 slots d m2 a.spec.slots.length 1 hst hdl
    rw [← e]
    have hg : get m 0 (16 * 6) = body := hm3
    show wire A.cipher A.aesKey (wireIV A.cipher A.aesKey A.writeIV (body ++ tag H A body)) _ =
      wire A.cipher A.aesKey (wireIV A.cipher A.aesKey A.writeIV (get m 0 (16 * 6) ++ tag H A (get m 0 (16 * 6)))) _
    rw [hg]
  refine ⟨(A2.sentTag d m3).setState { A.state with acceptSession := true }, ?_, ?_, rfl,
    ready_sentTag A2 rA2 _ _ hm3l, rfl, ?_⟩
  · unfold writeTestRequest
    simp only [hA, hAp, hAw, not_true_eq_false, Bool.false_eq_true, or_self, if_false, hm1]
    rw [s1]
    have hw1 : A1.twoway = false := hAw
    simp only [show (A.sentMsg H m 6).twoway = false from hAw, Bool.false_eq_true, if_false]
    rw [hw]
    simp only
    rw [hAt]
    show _ = (some (), (A2.sentTag d m3).setState _)
    simp [Conn.setState, A2, A1, Conn.sentTag, Conn.sentText, Conn.sentMsg, Conn.sent, hA]
  · rw [hwire]
    show A1.out ++ A1.wr slots ++ A2.wr d = _
    rw [show A1.out = _ from s2]; simp only [List.append_assoc]
  · intro rest hi
    rw [hwire, List.append_assoc, List.append_assoc] at hi
    have hty : get body 0 1 = [typeCode .test] := by
      show get (requestLayout false a sid) 0 1 = _
      simp only [requestLayout, List.append_assoc]
      rfl
    obtain ⟨B1, B2, g1, g2, g3, g4, g5, g6, g7, g8, g9, g10, g11, g12⟩ :=
      recv_req H A B rA rB L m body (A1.wr slots ++ (A2.wr d ++ rest)) 5 .test (by omega) hm2 hm3 hB hBr (by decide)
        (by simp [hBt]) hty hi
    let B3 := B2.checked.setState { B.state with testRequest := false, testRequestSlots := true }
    have rB3 : Ready B3 := g10
    have L3 : Linked A1 B3 := g11
    obtain ⟨m4, hm4, hr⟩ := read_slots a.spec.slots A1 B3 (A2.wr d ++ rest) s3 rB3 L3 hk g7
    let B4 := B3.gotText slots m4 (A2.wr d ++ rest)
    have rB4 : Ready B4 := ready_gotText B3 rB3 _ _ _ hm4
    have L4 : Linked A2 B4 := linked_text A1 B3 L3 _ _ _ _
    have hrt := recv_step A2 B4 rA2 rB4 L4.1 d rest 0 1 hdl rfl
    have hct := gotTag_ok H A2 B4 L4.1 0 rest
    have hm5 : (put m4 0 d).length = 400 := by rw [put_length _ _ _ (by omega)]; exact hm4
    have rBt := ready_gotTag B4 rB4 d (put m4 0 d) rest hm5
    have LT := linked_tag A2 B4 L4 d m3 (put m4 0 d) rest
    refine ⟨(B4.gotTag d (put m4 0 d) rest).setState
      { B.state with testRequest := false, testRequestSlots := false, acceptSession := true }, ?_, rfl, g8,
      rBt, rfl, LT⟩
    have hdec : decodePreamble true B2.checked.msg false = _ :=
      (decodePreamble_congr true false _ body g12).trans (decodePreamble_ok true false a sid hsl hfam (Or.inr hconf))
    have hgd : get (B4.got 0 d rest).msg 0 16 = d := by
      show get (put m4 0 d) 0 16 = d
      rw [get_put_same _ _ _ _ hdl (by omega)]
    unfold afterType serverReads
    rw [g1]
    simp only [if_true]
    unfold readTestRequest
    have hw1 : B1.twoway = false := by rw [g5, hBw]
    have hw2 : B2.checked.twoway = false := g9.trans hBw
    have hs1' : B1.state.testRequest = true := by rw [g4]; rfl
    simp only [hw1, Bool.false_eq_true, if_false, hs1', not_true_eq_false, if_true]
    rw [g2]
    simp only
    rw [g3]
    simp only [hw2, hdec, not_true_eq_false, false_and, if_false, Bool.true_and, Bool.not_false, Bool.and_true,
      setLLScope_bare remote a.sender a.zeroAddr a.confSender hs1,
      setLLScope_bare remote a.receiver a.zeroAddr a.confReceiver hs2, Bool.false_eq_true]
    have hstate : B2.checked.state = typeState .test B.state := g6
    have hB3 : B2.checked.setState { B2.checked.state with testRequest := false, testRequestSlots := true } = B3 := by
      rw [hstate]; rfl
    rw [hB3]
    have hw3 : B3.twoway = false := hw2
    simp only [hw3, Bool.false_eq_true, if_false]
    unfold readSlots
    have hs3 : B3.state.testRequestSlots = true := rfl
    have hnat : (BitVec.ofNat 32 a.spec.slots.length).toNat = a.spec.slots.length := by
      rw [BitVec.toNat_ofNat]; exact Nat.mod_eq_of_lt hlen
    simp only [hs3, not_true_eq_false, if_false, hnat]
    rw [hr]
    simp only
    rw [hrt]
    simp only
    rw [hgd, hct]
    rfl


theorem setIfUnspec_eq (ctl x : SockAddr) : setIfUnspec ctl x = filledIn ctl x := by
  cases x <;> cases ctl <;> simp only [setIfUnspec, filledIn]
  · split <;> rfl
  · split <;> rfl

/-- C11 for a two-way request: addresses, padding, times and type of service arrive; an address left
out is replaced by that of the control connection. -/
theorem C11_request_twoway (H : Mac) (remote loc : SockAddr) (A B : Conn) (rA : Ready A) (rB : Ready B)
    (L : Linked A B) (a : ReqArgs) (hfam : sameFamily a.sender a.receiver)
    (hsid : ∀ s, a.sid = some s → s.length = 16)
    (hs1 : scopeKnown remote a.zeroAddr a.sender) (hs2 : scopeKnown remote a.zeroAddr a.receiver)
    (hA : A.state.request = true) (hAp : A.state.isPending = false) (hAw : A.twoway = true)
    (hB : B.state.request = true) (hBr : B.state.isReading = false) (hBt : B.state.test = false)
    (hBw : B.twoway = true) :
    let body := requestLayout true a (a.sid.getD (get A.msg 48 16))
    Delivers A B (writeTestRequest H · a) (afterType .testTW (serverReads H remote loc))
      (sealed A (body ++ tag H A body))
      (⟨filledIn remote (seen remote a.zeroAddr false a.sender), filledIn loc (seen remote a.zeroAddr false a.receiver),
        false, false, zeros 16, { a.spec with npackets := 0, slots := [] }⟩, .accept)
      { A.state with acceptSession := true }
      { B.state with testRequest := false, testRequestSlots := true, testRequestTW := true, acceptSession := true } := by
  intro body
  obtain ⟨m, hm1, hm2, hm3⟩ := encodePreamble_ok A.msg true a rA.2.1 hfam hsid (Or.inl rfl) (Or.inl rfl)
  have hsl : (a.sid.getD (get A.msg 48 16)).length = 16 := by
    cases hs : a.sid with
    | none => exact get_length _ _ _ (by have := rA.2.1; omega)
    | some s => exact hsid s hs
  obtain ⟨s1, s2, s3⟩ := send_msg H A rA m body 6 (by omega) hm2 hm3
  refine ⟨(A.sentMsg H m 6).setState { A.state with acceptSession := true }, ?_, s2, rfl, s3, rfl, ?_⟩
  · unfold writeTestRequest
    simp only [hA, hAp, hAw, not_true_eq_false, Bool.false_eq_true, or_self, if_false, hm1]
    rw [s1]
    simp only [show (A.sentMsg H m 6).twoway = true from hAw, if_true]
    simp [Conn.setState, Conn.sentMsg, Conn.sent, hA]
  · intro rest hi
    have hty : get body 0 1 = [typeCode .testTW] := by
      show get (requestLayout true a _) 0 1 = _
      simp only [requestLayout, List.append_assoc]
      rfl
    obtain ⟨B1, B2, g1, g2, g3, g4, g5, g6, g7, g8, g9, g10, g11, g12⟩ :=
      recv_req H A B rA rB L m body rest 5 .testTW (by omega) hm2 hm3 hB hBr (by decide)
        (by simp [hBt]) hty hi
    refine ⟨B2.checked.setState { B.state with
        testRequest := false, testRequestSlots := true, testRequestTW := true, acceptSession := true }, ?_, g7, g8,
      g10, rfl, g11⟩
    have hdec : decodePreamble true B2.checked.msg true = _ :=
      (decodePreamble_congr true true _ body g12).trans (decodePreamble_ok true true a _ hsl hfam (Or.inl rfl))
    unfold afterType serverReads
    rw [g1]
    simp only [if_true]
    unfold readTestRequest
    have hw1 : B1.twoway = true := by rw [g5, hBw]
    have hw2 : B2.checked.twoway = true := g9.trans hBw
    have hs1' : B1.state.testRequestTW = true := by rw [g4]; rfl
    simp only [hw1, if_false, hs1', not_true_eq_false, if_true]
    rw [g2]
    simp only
    rw [g3]
    simp only [hw2, hdec, not_true_eq_false, false_and, if_false, Bool.true_and, Bool.not_true, Bool.and_false,
      setLLScope_bare remote a.sender a.zeroAddr false hs1,
      setLLScope_bare remote a.receiver a.zeroAddr false hs2, if_true]
    have hstate : B2.checked.state = typeState .testTW B.state := g6
    have hw3 : ∀ s, (B2.checked.setState s).twoway = true := fun _ => hw2
    simp only [hw3, if_true, setIfUnspec_eq]
    simp only [Option.map_some]
    rw [hstate]
    rfl

/-- C11, refusal, over every byte stream: a one-way request is only accepted when its digest and the
digest after the slots are right, its slots are exactly as many as it announces, and each is of a
known kind. What is missing for the full C11: reserved bytes, see
`C11_reserved_bytes_are_not_checked`. -/
theorem C11_accepted_partial (H : Mac) (remote loc : SockAddr) (c c' : Conn) (r : TestReq) (acc : Accept)
    (hv : IVok c) (hm : c.msg.length = 400) (htw : c.twoway = false)
    (h : readTestRequest H true remote loc c = (some r, acc, c')) :
    let P := plainIn c
    let body := get c.msg 0 16 ++ P.take 80
    let n := r.spec.slots.length
    acc = .accept ∧ 96 + 16 * n + 16 ≤ P.length ∧
    DigestOf H c body (get P 80 16) ∧
    DigestOf H { c with recvAcc := [] } (get P 96 (16 * n)) (get P (96 + 16 * n) 16) ∧
    n = (get32 body 4).toNat ∧ (get8 body 2 ≠ 0 ∨ get8 body 3 ≠ 0) ∧
    ∀ i (hi : i < n), SlotIs (get P (96 + 16 * i) 16) r.spec.slots[i] := by
  intro P body n
  unfold readTestRequest at h
  simp only [htw, Bool.false_eq_true, if_false, if_true] at h
  split at h
  · simp at h
  rename_i hst
  split at h
  · rename_i c0 c1 hr
    have T := recvBlocks_took c c1 16 6 hv hr
    have K1 := T.kept (by omega)
    have hl := T.len
    split at h
    · simp at h
    · rename_i c2 hck
      unfold checkMsg at hck
      obtain ⟨K2, P2, V2, M2, R2⟩ := recvHmacAdd_kept c1 (get c1.msg 0 (16 * 6))
      obtain ⟨K3, P3, V3, M3, R3⟩ := recvCheck_true H _ c2 _ hck
      have K13 := (K1.trans K2).trans K3
      have hw2 : c2.twoway = false := K13.twoway.trans htw
      have hmsg : get c2.msg 0 96 = body := by
        rw [M3, M2, T.msg, get_split _ 0 96 16 (by omega), get_put_before _ _ _ _ _ (by omega) (by simp; omega),
          Nat.zero_add, get_put_inside _ _ _ _ _ (by omega) (by simp; omega) (by omega)]
        simp [get, body, P, List.take_take]
      have hdig : get c1.msg (16 * 6) 16 = get P 80 16 := by
        rw [T.msg, get_put_inside _ _ _ _ _ (by omega) (by simp; omega) (by omega)]
        simp [get, P, List.drop_take, List.take_take]
      have hf : ∀ o k, o + k ≤ 96 → get c2.msg o k = get body o k := by
        intro o k hk
        rw [← hmsg, get_get _ _ _ _ _ (by omega), Nat.zero_add]
      simp only [hw2, and_true, Bool.false_eq_true, if_false] at h
      split at h
      · simp at h
      rename_i hd1
      split at h
      · simp at h
      rename_i snd hsnd
      split at h
      · simp at h
      rename_i rcv hrcv
      have hw3 : ∀ s, (c2.setState s).twoway = false := fun _ => hw2
      simp only [hw3, Bool.false_eq_true, if_false] at h
      split at h
      · simp at h
      rename_i ss c4 hsl
      simp only [Prod.mk.injEq, Option.some.injEq] at h
      obtain ⟨h1, h2, h3⟩ := h
      subst h1
      unfold readSlots at hsl
      split at hsl
      · simp at hsl
      split at hsl
      · simp at hsl
      rename_i ss2 c5 hloop
      have hP2 : plainIn c2 = P.drop 96 := by rw [P3, P2, T.rest]
      have e0 : ∀ s, plainIn (c2.setState s) = P.drop 96 := fun s => hP2
      obtain ⟨q1, q2, q3, q4, q5, q6, q7⟩ := readSlotLoop_some _ _ _ _ (by exact V3 (V2 T.iv))
        (by exact K13.len hm) hloop
      rw [e0] at q2 q3 q6 q7
      simp only [List.length_drop] at q2
      split at hsl
      · rename_i c6 hr6
        have T6 := recvBlocks_took _ c6 0 1 q4 hr6
        have K6 := T6.kept (by omega)
        have hl6 := T6.len
        rw [q3] at hl6
        simp only [List.length_drop] at hl6
        split at hsl
        · rename_i c7 hck7
          simp only [Prod.mk.injEq, Option.some.injEq] at hsl
          have hss : ss2 = ss := hsl.1
          subst hss
          obtain ⟨K7, P7, V7, M7, R7⟩ := recvCheck_true H _ c7 _ hck7
          have hn : n = (get32 body 4).toNat := by
            have : (decodePreamble true c2.msg false).2.nslots = get32 body 4 := by
              unfold decodePreamble get32
              rw [hf 4 4 (by omega)]
              dsimp only
              split
              · rfl
              split
              · rfl
              split
              · rfl
              split
              · rfl
              split <;> rfl
            rw [← this]; exact q1
          have hconf : get8 body 2 ≠ 0 ∨ get8 body 3 ≠ 0 := by
            apply Classical.byContradiction
            intro hno
            apply hd1
            have h2 : get8 c2.msg 2 = get8 body 2 := by unfold get8; rw [hf 2 1 (by omega)]
            have h3 : get8 c2.msg 3 = get8 body 3 := by unfold get8; rw [hf 3 1 (by omega)]
            have hno1 : get8 body 2 = 0#8 := Classical.byContradiction fun x => hno (Or.inl x)
            have hno2 : get8 body 3 = 0#8 := Classical.byContradiction fun x => hno (Or.inr x)
            unfold decodePreamble
            rw [h2, h3, hno1, hno2]
            simp
          have hn' : (decodePreamble true c2.msg false).2.nslots.toNat = n := q1.symm
          rw [hn'] at q2 q3 q6 hl6
          refine ⟨h2.symm, by omega, ?_, ?_, hn, hconf, ?_⟩
          · intro hc
            have hc1 : c1.cipher = true := by rw [K1.cipher]; exact hc
            have := (R3 (by rw [K2.cipher]; exact hc1)).1
            rw [R2 hc1, hdig, K2.key, K1.key, T.acc] at this
            rw [this]
            have : get c1.msg 0 (16 * 6) = body := by rw [← hmsg, M3, M2]
            rw [this]
          · intro hc
            have hc : c.cipher = true := hc
            have hc2 : c2.cipher = true := by rw [K13.cipher]; exact hc
            have hc5 : c5.cipher = true := by rw [q5.cipher]; exact hc2
            have hc6 : c6.cipher = true := by rw [K6.cipher]; exact hc5
            have hd := (R7 hc6).1
            have ha : c2.recvAcc = [] := by
              exact (R3 (by rw [K2.cipher, K1.cipher]; exact hc)).2
            rw [K6.key, q5.key, T6.acc, q6 hc2] at hd
            have hm5 : c5.msg.length = 400 := q5.len (K13.len hm)
            rw [show get c6.msg 0 16 = get P (96 + 16 * n) 16 by
              rw [T6.msg, get_put_same _ _ _ _ (by simp [q3]; omega) (by omega), q3]
              simp [get, List.drop_drop]] at hd
            rw [hd]
            show List.take 16 (H.hash c2.hmacKey (c2.recvAcc ++ _)) = List.take 16 (H.hash c.hmacKey ([] ++ _))
            rw [ha, K13.key]
            simp [get]
          · intro i hi
            have := q7 i hi
            rw [show get (P.drop 96) (16 * i) 16 = get P (96 + 16 * i) 16 by
              unfold get; rw [List.drop_drop]] at this
            exact this
        · simp at hsl
      · simp at hsl
  · simp at h

/-- A request for which the server is to receive. -/
def demoReq : ReqArgs :=
  { sender := .v4 0x0a000001#32 8000#16, receiver := .v4 0x0a000002#32 8001#16, confSender := false
    confReceiver := true, zeroAddr := false, sid := some (List.replicate 16 3#8)
    spec := ⟨7#64, 8#64, 0#32, 10#32, 100#32, [.randExp 9#64, .literal 10#64]⟩ }

example (H : Mac) (remote loc : SockAddr) := C11_request H remote loc demoA demoB demo_linked.1 demo_linked.2.1
  demo_linked.2.2.1 demoReq trivial (fun _ h => by cases h; rfl) (Or.inr rfl) (by decide) (by simp [demoReq])
  (by decide) (by intro s hs; simp [demoReq] at hs; rcases hs with rfl | rfl <;> trivial) trivial trivial rfl rfl rfl rfl
  rfl rfl rfl
example (H : Mac) (remote loc : SockAddr) := C11_request_twoway H remote loc { demoA with twoway := true }
  { demoB with twoway := true } demo_linked.1 demo_linked.2.1 demo_linked.2.2.1 { demoReq with zeroAddr := true }
  trivial (fun _ h => by cases h; rfl) trivial trivial rfl rfl rfl rfl rfl rfl rfl

/-- The rest of a request in open mode, with given bytes in the field that must be zero (bytes 88 to 95)
and in the reserved part of its slot. -/
def rawRequest (mbz slotMbz : Bytes) : Bytes :=
  [10, 0, 0, 1] ++ zeros 12 ++ [10, 0, 0, 2] ++ zeros 12 ++ zeros 16 ++ enc32 0 ++ enc64 7 ++ enc64 8 ++ enc32 0
    ++ mbz ++ zeros 16 ++ [1] ++ slotMbz ++ enc64 9 ++ zeros 16

/-- A server that has read the first block of that request. -/
def rawServer (mbz slotMbz : Bytes) : Conn :=
  { demoB with
    mode := 1#32, state := { request := true, testRequest := true }
    msg := put (zeros 400) 0 ([1, 4, 0, 1] ++ enc32 1 ++ enc32 100 ++ enc16 8000 ++ enc16 8001)
    inp := rawRequest mbz slotMbz }

set_option maxRecDepth 100000 in
/-- C11 is false in one point: a request whose reserved bytes are set is accepted like one with zeros
there. -/
theorem C11_reserved_bytes_are_not_checked (H : Mac) (remote loc : SockAddr) :
    (readTestRequest H true remote loc (rawServer (List.replicate 8 255#8) (List.replicate 7 255#8))).1 =
      some ⟨.v4 0x0a000001#32 8000#16, .v4 0x0a000002#32 0#16, false, true, zeros 16,
        ⟨7, 8, 0, 0, 100, [.literal 9]⟩⟩ := by
  rfl

set_option maxRecDepth 100000 in
/-- `C11_accepted_partial` applies to it. -/
example (H : Mac) (remote loc : SockAddr) : ∃ c' r acc,
    IVok (rawServer (zeros 8) (zeros 7)) ∧ (rawServer (zeros 8) (zeros 7)).msg.length = 400 ∧
    (rawServer (zeros 8) (zeros 7)).twoway = false ∧
    readTestRequest H true remote loc (rawServer (zeros 8) (zeros 7)) = (some r, acc, c') := by
  refine ⟨_, _, _, fun h => ?_, rfl, rfl, rfl⟩
  exact absurd h (by decide)

end Owamp.Props
