import Verif.Lemmas.Channel
import Verif.Lemmas.Time
/-!
# Delivery of whole messages
-/
namespace Owamp.Ctl
open Owamp.Spec.Channel

theorem getAcceptType_code (a : Accept) : getAcceptType a.code = a := by cases a <;> rfl

theorem encTime_eq (t : U64) : Codec.encTime t = enc64 t := Time.encodeTimeStamp_eq _

theorem decTime_enc (t : U64) : Time.decodeTimeStamp (enc64 t) = t := by
  rw [Time.decodeTimeStamp_eq _ (by simp)]
  fields

theorem got_field (H : Mac) (A B : Conn) (rB : Ready B) (body rest : Bytes) (k : Nat) (hk : 16 * (k + 1) ≤ 400)
    (hb : body.length = 16 * k) (o n : Nat) (h : o + n ≤ 16 * k) :
    get (B.got 0 (plain H A body) rest).msg o n = get body o n := by
  have hpl := plain_length H A body k hb
  show get (put B.msg 0 (plain H A body)) o n = _
  rw [get_put_inside _ _ _ _ _ (by omega) (by omega) (by have := rB.2.1; omega), Nat.sub_zero,
    get_append_left _ _ _ _ (by omega)]

/-- Sending side of a message with digest. -/
theorem send_msg (H : Mac) (A : Conn) (rA : Ready A) (m body : Bytes) (k : Nat) (hk : 16 * (k + 1) ≤ 400)
    (hm : m.length = 400) (hb : get m 0 (16 * k) = body) :
    sendMsg H A m k = (.done, A.sentMsg H m k) ∧
    (A.sentMsg H m k).out = A.out ++ sealed A (plain H A body) ∧ Ready (A.sentMsg H m k) := by
  subst hb
  exact ⟨sendMsg_ok H A rA.1 m k (by omega), sentMsg_out H A m k (by omega), ready_sentMsg H A rA m k hm hk⟩

/-- Receiving side of a message read in one go. -/
theorem recv_msg (H : Mac) (A B : Conn) (rA : Ready A) (rB : Ready B) (L : Linked A B) (m body rest : Bytes) (k : Nat)
    (hk : 16 * (k + 1) ≤ 400) (hm : m.length = 400) (hb : get m 0 (16 * k) = body)
    (hi : B.inp = sealed A (plain H A body) ++ rest) :
    recvBlocks B 0 (k + 1) = (.done, B.got 0 (plain H A body) rest) ∧
    checkMsg H (B.got 0 (plain H A body) rest) k = (true, (B.got 0 (plain H A body) rest).checked) ∧
    Ready (B.got 0 (plain H A body) rest).checked ∧
    Linked (A.sentMsg H m k) (B.got 0 (plain H A body) rest).checked ∧
    ∀ o n, o + n ≤ 16 * k → get (B.got 0 (plain H A body) rest).checked.msg o n = get body o n := by
  have hbl : body.length = 16 * k := by rw [← hb]; exact get_length _ _ _ (by omega)
  refine ⟨recv_whole H A B rA rB L.1 body rest k hbl hi, check_got H A B L.1 body k rest B.state hbl, ?_, ?_, ?_⟩
  · have := ready_got B rB 0 (plain H A body) rest (by rw [plain_length H A body k hbl]; omega)
    exact this
  · exact linked_msg H A B L m k rest B.state _ (by rw [hb])
  · exact got_field H A B rB body rest k hk hbl

/-- The state bit `readRequestType` sets for a type. -/
def typeState (t : ReqType) (s : CState) : CState :=
  match t with
  | .test => { s with testRequest := true }
  | .startSessions => { s with startSessions := true }
  | .stopSessions => { s with stopSessions := true }
  | .fetchSession => { s with fetchSession := true }
  | .testTW => { s with testRequestTW := true }
  | _ => s

def typeCode : ReqType → Byte
  | .test => 1#8
  | .startSessions => 2#8
  | .stopSessions => 3#8
  | .fetchSession => 4#8
  | .testTW => 5#8
  | _ => 0#8

theorem readRequestType_ok (c c' : Conn) (t : ReqType) (hr : c.state.request = true) (hn : c.state.isReading = false)
    (ht : typeCode t ≠ 0) (hs : (t = .stopSessions) = (c.state.test = true)) (h : recvBlocks c 0 1 = (.done, c'))
    (hst : c'.state = c.state) (hm : get8 c'.msg 0 = typeCode t) :
    readRequestType c = (t, c'.setState (typeState t c.state)) := by
  unfold readRequestType
  rw [h]
  cases hT : c.state.test <;> simp only [hT] at hs <;>
    cases t <;> simp_all [typeCode, typeState]

/-- Receiving side of a request: type first, then the rest. -/
theorem recv_req (H : Mac) (A B : Conn) (rA : Ready A) (rB : Ready B) (L : Linked A B) (m body rest : Bytes) (k : Nat)
    (t : ReqType) (hk : 16 * (k + 2) ≤ 400) (hm : m.length = 400) (hb : get m 0 (16 * (k + 1)) = body)
    (hr : B.state.request = true) (hn : B.state.isReading = false)
    (ht : typeCode t ≠ 0) (hs : (t = .stopSessions) = (B.state.test = true)) (hty : get body 0 1 = [typeCode t])
    (hi : B.inp = sealed A (plain H A body) ++ rest) :
    ∃ B1 B2, readRequestType B = (t, B1) ∧ recvBlocks B1 16 (k + 1) = (.done, B2) ∧
    checkMsg H B2 (k + 1) = (true, B2.checked) ∧ B1.state = typeState t B.state ∧ B1.twoway = B.twoway ∧
    B2.state = typeState t B.state ∧ B2.inp = rest ∧ B2.out = B.out ∧ B2.twoway = B.twoway ∧
    Ready B2.checked ∧ Linked (A.sentMsg H m (k + 1)) B2.checked ∧
    ∀ o n, o + n ≤ 16 * (k + 1) → get B2.checked.msg o n = get body o n := by
  have hbl : body.length = 16 * (k + 1) := by rw [← hb]; exact get_length _ _ _ (by omega)
  have hpl := plain_length H A body (k + 1) hbl
  obtain ⟨rest1, h1, h2⟩ := recv_first H A B rA rB L.1 body rest k hbl hi
  refine ⟨(B.got 0 (get (plain H A body) 0 16) rest1).setState (typeState t B.state),
    (B.got 0 (plain H A body) rest).setState (typeState t B.state),
    readRequestType_ok B _ t hr hn ht hs h1 rfl ?_, h2 _, check_got H A B L.1 body (k + 1) rest _ hbl,
    rfl, rfl, rfl, rfl, rfl, rfl, ?_, linked_msg H A B L m (k + 1) rest _ _ (by rw [hb]), ?_⟩
  · show BitVec.ofNat 8 (beDec (get (put B.msg 0 (get (plain H A body) 0 16)) 0 1)) = _
    have hgl : (get (plain H A body) 0 16).length = 16 := get_length _ _ _ (by omega)
    rw [get_put_inside _ _ _ _ _ (by omega) (by omega) (by have := rB.2.1; omega), get_get _ _ _ _ _ (by omega),
      get_append_left _ _ _ _ (by omega), Nat.sub_zero, hty, ← enc8_eq, dec_enc8]
  · exact ready_got B rB 0 (plain H A body) rest (by omega)
  · exact got_field H A B rB body rest (k + 1) (by omega) hbl

end Owamp.Ctl
