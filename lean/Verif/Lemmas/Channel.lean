import Verif.Lemmas.Cbc
/-!
# The channel: what the send and receive functions do when the socket does not fail
-/
namespace Owamp.Ctl
open Owamp.Spec.Channel

/-- Bytes on the socket for plaintext `p`. -/
def wire (cph : Bool) (key iv p : Bytes) : Bytes := if cph then (Cbc.blockEncrypt key iv p).1 else p
/-- IV afterwards. -/
def wireIV (cph : Bool) (key iv p : Bytes) : Bytes := if cph then (Cbc.blockEncrypt key iv p).2 else iv

theorem wire_length (cph : Bool) (key iv p : Bytes) (n : Nat) (h : p.length = 16 * n) :
    (wire cph key iv p).length = 16 * n := by
  unfold wire; split
  · exact Cbc.blockEncrypt_length _ _ _ _ h
  · exact h

theorem wireIV_length (cph : Bool) (key iv p : Bytes) (h : iv.length = 16) :
    (wireIV cph key iv p).length = 16 := by
  unfold wireIV; split
  · exact Cbc.blockEncrypt_iv_length _ _ _ h
  · exact h

theorem wire_append (cph : Bool) (key iv a b : Bytes) (k n : Nat) (ha : a.length = 16 * k) (hb : b.length = 16 * n) :
    wire cph key iv (a ++ b) = wire cph key iv a ++ wire cph key (wireIV cph key iv a) b := by
  unfold wire wireIV; split
  · rw [Cbc.blockEncrypt_append _ _ _ _ k n ha hb]
  · rfl

theorem wireIV_append (cph : Bool) (key iv a b : Bytes) (k n : Nat) (ha : a.length = 16 * k) (hb : b.length = 16 * n) :
    wireIV cph key iv (a ++ b) = wireIV cph key (wireIV cph key iv a) b := by
  unfold wireIV; split
  · rw [Cbc.blockEncrypt_append _ _ _ _ k n ha hb]
  · rfl

theorem sealed_eq (c : Conn) (p : Bytes) (n : Nat) (h : p.length = 16 * n) :
    sealed c p = wire c.cipher c.aesKey c.writeIV p := by
  unfold sealed wire; split
  · rw [Cbc.blockEncrypt_cbc _ _ _ n h]
  · rfl

/-- Bytes `c` sends for `p`. -/
def Conn.wr (c : Conn) (p : Bytes) : Bytes := wire c.cipher c.aesKey c.writeIV p
/-- `c` after sending `p` from a buffer of its own. -/
def Conn.sent (c : Conn) (p : Bytes) : Conn :=
  { c with writeIV := wireIV c.cipher c.aesKey c.writeIV p, out := c.out ++ c.wr p, faults := [] }
/-- Bytes `c` must receive to read `p`. -/
def Conn.rd (c : Conn) (p : Bytes) : Bytes := wire c.cipher c.aesKey c.readIV p
/-- `c` after reading `p` into `msg` at `off`. -/
def Conn.got (c : Conn) (off : Nat) (p rest : Bytes) : Conn :=
  { c with readIV := wireIV c.cipher c.aesKey c.readIV p, inp := rest, msg := put c.msg off p, faults := [] }

theorem writeN_ok (c : Conn) (h : c.faults = []) (bs : Bytes) :
    writeN c bs = (.done, { c with out := c.out ++ bs, faults := [] }) := by
  unfold writeN; rw [h]; rfl

theorem readN_ok (c : Conn) (h : c.faults = []) (p rest : Bytes) (n : Nat) (hn : p.length = n)
    (hi : c.inp = p ++ rest) : readN c n = (.full p, { c with inp := rest, faults := [] }) := by
  unfold readN; rw [h, hi]; subst hn
  simp

theorem sendBuf_ok (c : Conn) (h : c.faults = []) (p : Bytes) :
    sendBuf c p = (.done, c.wr p, c.sent p) := by
  unfold sendBuf Conn.wr Conn.sent wire wireIV
  split
  · rename_i hc
    dsimp only
    rw [writeN_ok _ (by exact h)]
    simp [Conn.wr, wire, hc]
  · rename_i hc
    dsimp only
    rw [writeN_ok _ (by exact h)]
    simp [Conn.wr, wire, hc]

theorem sendBlocks_ok (c : Conn) (h : c.faults = []) (p : Bytes) :
    sendBlocks c p = (.done, { c.sent p with msg := put c.msg 0 (c.wr p) }) := by
  unfold sendBlocks; rw [sendBuf_ok c h]

theorem recvBlocks_ok (c : Conn) (h : c.faults = []) (off n : Nat) (p rest : Bytes) (hp : p.length = 16 * n)
    (hiv : c.cipher = true → c.readIV.length = 16) (hi : c.inp = c.rd p ++ rest) :
    recvBlocks c off n = (.done, c.got off p rest) := by
  unfold recvBlocks
  rw [readN_ok c h (c.rd p) rest (n * 16) (by rw [Conn.rd, wire_length _ _ _ _ n hp]; omega) hi]
  by_cases hc : c.cipher = true
  · have hc' : Conn.cipher { c with inp := rest, faults := [] } = true := hc
    simp only [hc', if_true, Conn.rd, wire, hc, Conn.got, wireIV]
    rw [Cbc.blockDecrypt_blockEncrypt _ _ _ n hp (hiv hc)]
  · have hc2 : c.cipher = false := by simpa using hc
    have hc' : Conn.cipher { c with inp := rest, faults := [] } = false := hc2
    simp [hc', Conn.rd, wire, hc2, Conn.got, wireIV]

/-- The digest `c` puts after `body`, in explicit form. -/
theorem sendDigest_add (H : Mac) (c : Conn) (body : Bytes) :
    sendDigest H (sendHmacAdd c body) = (tag H c body, { c with sendAcc := if c.cipher then [] else c.sendAcc }) := by
  unfold sendDigest sendHmacAdd tag
  by_cases hc : c.cipher = true
  · have hc' : Conn.cipher { c with sendAcc := c.sendAcc ++ body } = true := hc
    simp [hc, hc']
  · simp [hc]

theorem tag_length (H : Mac) (c : Conn) (body : Bytes) : (tag H c body).length = 16 := by
  unfold tag; split
  · simp [H.len]
  · simp

/-- `c` after `sendMsg`. -/
def Conn.sentMsg (H : Mac) (c : Conn) (m : Bytes) (k : Nat) : Conn :=
  let p := get m 0 (16 * k) ++ tag H c (get m 0 (16 * k))
  { c.sent p with
    sendAcc := if c.cipher then [] else c.sendAcc
    msg := put m 0 (c.wr p) }

theorem sendMsg_ok (H : Mac) (c : Conn) (h : c.faults = []) (m : Bytes) (k : Nat) (hm : 16 * (k + 1) ≤ m.length) :
    sendMsg H c m k = (.done, c.sentMsg H m k) := by
  unfold sendMsg
  simp only [sendDigest_add]
  rw [sendBlocks_ok _ (by exact h)]
  have htl : (tag H { c with msg := m } (get m 0 (16 * k))).length = 16 := tag_length _ _ _
  have hp : get (put m (16 * k) (tag H { c with msg := m } (get m 0 (16 * k)))) 0 (16 * (k + 1))
      = get m 0 (16 * k) ++ tag H c (get m 0 (16 * k)) := by
    rw [get_split _ 0 _ (16 * k) (by omega), get_put_before _ _ _ _ _ (by omega) (by omega), Nat.zero_add,
      get_put_same _ _ _ _ (by rw [htl]; omega) (by omega)]
    rfl
  rw [hp]
  unfold Conn.sentMsg
  have hput : ∀ w : Bytes, w.length = 16 * (k + 1) →
      put (put m (16 * k) (tag H { c with msg := m } (get m 0 (16 * k)))) 0 w = put m 0 w := by
    intro w hw
    unfold put
    simp only [List.take_zero, List.nil_append, Nat.zero_add]
    congr 1
    rw [List.append_assoc, List.drop_append, List.drop_eq_nil_of_le (by simp; omega), List.nil_append,
      List.drop_append, List.drop_eq_nil_of_le (by simp; omega), List.nil_append, List.drop_drop]
    congr 1
    simp only [List.length_take]
    omega
  have hwl : (c.wr (get m 0 (16 * k) ++ tag H c (get m 0 (16 * k)))).length = 16 * (k + 1) := by
    apply wire_length
    rw [List.length_append, tag_length, get_length _ _ _ (by omega)]; omega
  refine congrArg (Prod.mk Wr.done) ?_
  have := hput _ hwl
  simp only [Conn.sent, Conn.wr] at this ⊢
  show Conn.mk _ _ _ _ _ _ _ _ _ _ _ _ _ _ = Conn.mk _ _ _ _ _ _ _ _ _ _ _ _ _ _
  congr 1

/-- What `checkMsg` leaves. -/
def Conn.checked (c : Conn) : Conn := { c with recvAcc := if c.cipher then [] else c.recvAcc }

theorem checkMsg_ok (H : Mac) (c : Conn) (k : Nat)
    (hd : c.cipher = true → get c.msg (16 * k) 16 = (H.hash c.hmacKey (c.recvAcc ++ get c.msg 0 (16 * k))).take 16) :
    checkMsg H c k = (true, c.checked) := by
  unfold checkMsg recvCheck recvHmacAdd Conn.checked
  by_cases hc : c.cipher = true
  · have hc' : Conn.cipher { c with recvAcc := c.recvAcc ++ get c.msg 0 (16 * k) } = true := hc
    simp [hc, hc', hd hc]
  · simp [hc]

end Owamp.Ctl

namespace Owamp.Ctl
open Owamp.Spec.Channel

theorem InStep.rd_eq_wr {A B : Conn} (h : InStep A B) (p : Bytes) : B.rd p = A.wr p := by
  unfold Conn.rd Conn.wr wire
  rw [← h.1]
  split
  · rename_i hc
    obtain ⟨h1, _, h3, _⟩ := h.2 hc
    rw [h1, h3]
  · rfl

theorem InStep.readIV_length {A B : Conn} (h : InStep A B) (rA : Ready A) (hc : B.cipher = true) :
    B.readIV.length = 16 := by
  rw [← h.1] at hc
  rw [← (h.2 hc).2.2.1]; exact rA.2.2

theorem InStep.wireIV_eq {A B : Conn} (h : InStep A B) (hc : A.cipher = true) (p : Bytes) :
    wireIV A.cipher A.aesKey A.writeIV p = wireIV B.cipher B.aesKey B.readIV p := by
  obtain ⟨h1, _, h3, _⟩ := h.2 hc
  rw [← h.1, h1, h3]

theorem got_got (B : Conn) (p1 p2 rest1 rest : Bytes) (s : CState) (off k n : Nat) (h1 : p1.length = 16 * k)
    (h2 : p2.length = 16 * n) (hb : off + p1.length ≤ B.msg.length) :
    ((B.got off p1 rest1).setState s).got (off + 16 * k) p2 rest = (B.got off (p1 ++ p2) rest).setState s := by
  unfold Conn.got Conn.setState
  have e1 : put (put B.msg off p1) (off + 16 * k) p2 = put B.msg off (p1 ++ p2) :=
    put_put_adjacent _ _ _ _ _ (by rw [h1]) hb
  have e2 := wireIV_append B.cipher B.aesKey B.readIV p1 p2 k n h1 h2
  show Conn.mk _ _ _ _ _ _ _ _ _ _ _ _ _ _ = Conn.mk _ _ _ _ _ _ _ _ _ _ _ _ _ _
  congr 1
  exact e2.symm

theorem rd_split (B : Conn) (p1 p2 rest1 : Bytes) (s : CState) (off k n : Nat) (h1 : p1.length = 16 * k)
    (h2 : p2.length = 16 * n) :
    B.rd (p1 ++ p2) = B.rd p1 ++ ((B.got off p1 rest1).setState s).rd p2 := by
  unfold Conn.rd
  rw [wire_append _ _ _ _ _ k n h1 h2]; rfl

theorem ready_got (B : Conn) (rB : Ready B) (off : Nat) (p rest : Bytes) (h : off + p.length ≤ 400) :
    Ready (B.got off p rest) := by
  refine ⟨rfl, ?_, rB.2.2⟩
  show (put B.msg off p).length = 400
  rw [put_length _ _ _ (by rw [rB.2.1]; exact h)]; exact rB.2.1

/-- Plaintext of a message: body and digest. -/
abbrev plain (H : Mac) (A : Conn) (body : Bytes) : Bytes := body ++ tag H A body

theorem plain_length (H : Mac) (A : Conn) (body : Bytes) (k : Nat) (h : body.length = 16 * k) :
    (plain H A body).length = 16 * (k + 1) := by
  rw [List.length_append, tag_length, h]; omega

theorem ready_sentMsg (H : Mac) (A : Conn) (rA : Ready A) (m : Bytes) (k : Nat) (hm : m.length = 400)
    (hk : 16 * (k + 1) ≤ 400) : Ready (A.sentMsg H m k) := by
  refine ⟨rfl, ?_, wireIV_length _ _ _ _ rA.2.2⟩
  show (put m 0 _).length = 400
  have hl : (A.wr (get m 0 (16 * k) ++ tag H A (get m 0 (16 * k)))).length = 16 * (k + 1) := by
    apply wire_length
    exact plain_length _ _ _ _ (get_length _ _ _ (by omega))
  rw [put_length _ _ _ (by omega)]; exact hm

theorem sentMsg_out (H : Mac) (A : Conn) (m : Bytes) (k : Nat) (hm : 16 * k ≤ m.length) :
    (A.sentMsg H m k).out = A.out ++ sealed A (plain H A (get m 0 (16 * k))) := by
  rw [sealed_eq A _ (k + 1) (plain_length _ _ _ _ (get_length _ _ _ (by omega)))]; rfl

theorem linked_msg (H : Mac) (A B : Conn) (L : Linked A B) (m : Bytes) (k : Nat) (rest : Bytes) (s : CState)
    (p : Bytes) (hp : p = plain H A (get m 0 (16 * k))) :
    Linked (A.sentMsg H m k) ((B.got 0 p rest).setState s).checked := by
  subst hp
  obtain ⟨L1, L2⟩ := L
  constructor
  · refine ⟨L1.1, fun hc => ?_⟩
    have hc : A.cipher = true := hc
    obtain ⟨h1, h2, h3, h4⟩ := L1.2 hc
    refine ⟨h1, h2, InStep.wireIV_eq L1 hc _, ?_⟩
    show (if A.cipher then [] else A.sendAcc) = if B.cipher then [] else B.recvAcc
    rw [← L1.1, hc]; rfl
  · exact L2

/-- The peer's check succeeds. -/
theorem check_got (H : Mac) (A B : Conn) (L : InStep A B) (body : Bytes) (k : Nat) (rest : Bytes) (s : CState)
    (hb : body.length = 16 * k) :
    checkMsg H ((B.got 0 (plain H A body) rest).setState s) k =
      (true, ((B.got 0 (plain H A body) rest).setState s).checked) := by
  apply checkMsg_ok
  intro hc
  have hc : B.cipher = true := hc
  have hA : A.cipher = true := by rw [L.1]; exact hc
  obtain ⟨h1, h2, h3, h4⟩ := L.2 hA
  have hpl := plain_length H A body k hb
  show get (put B.msg 0 (plain H A body)) (16 * k) 16 =
    (H.hash B.hmacKey (B.recvAcc ++ get (put B.msg 0 (plain H A body)) 0 (16 * k))).take 16
  rw [get_put_inside _ _ _ _ _ (by omega) (by omega) (by omega),
    get_put_inside _ _ _ _ _ (by omega) (by omega) (by omega), Nat.sub_zero, Nat.sub_zero,
    get_zero_append _ _ _ hb.symm, get_append_right _ _ _ _ (by omega), hb, Nat.sub_self,
    get_all _ _ (by rw [tag_length]; omega)]
  unfold tag
  rw [hA, if_pos rfl, h2, h4]

/-- A message read in one go. -/
theorem recv_whole (H : Mac) (A B : Conn) (rA : Ready A) (rB : Ready B) (L : InStep A B) (body rest : Bytes)
    (k : Nat) (hb : body.length = 16 * k) (hi : B.inp = sealed A (plain H A body) ++ rest) :
    recvBlocks B 0 (k + 1) = (.done, B.got 0 (plain H A body) rest) := by
  have hpl := plain_length H A body k hb
  apply recvBlocks_ok B rB.1 _ _ _ _ hpl (fun hc => InStep.readIV_length L rA hc)
  rw [hi, sealed_eq A _ _ hpl, InStep.rd_eq_wr L]; rfl

/-- The first block of a request. -/
theorem recv_first (H : Mac) (A B : Conn) (rA : Ready A) (rB : Ready B) (L : InStep A B) (body rest : Bytes)
    (k : Nat) (hb : body.length = 16 * (k + 1)) (hi : B.inp = sealed A (plain H A body) ++ rest) :
    ∃ rest1, recvBlocks B 0 1 = (.done, B.got 0 (get (plain H A body) 0 16) rest1) ∧
      ∀ s, recvBlocks ((B.got 0 (get (plain H A body) 0 16) rest1).setState s) 16 (k + 1) =
        (.done, (B.got 0 (plain H A body) rest).setState s) := by
  have hpl := plain_length H A body (k + 1) hb
  let p1 := get (plain H A body) 0 16
  let p2 := get (plain H A body) 16 (16 * (k + 1))
  have e : plain H A body = p1 ++ p2 := by
    have e1 := get_split (plain H A body) 0 (16 * (k + 1 + 1)) 16 (by omega)
    rw [get_all _ _ (by omega)] at e1
    have e2 : 16 * (k + 1 + 1) - 16 = 16 * (k + 1) := by omega
    rw [e2] at e1
    exact e1
  have h1 : p1.length = 16 * 1 := get_length _ _ _ (by omega)
  have h2 : p2.length = 16 * (k + 1) := get_length _ _ _ (by omega)
  have hin : B.inp = B.rd (p1 ++ p2) ++ rest := by
    rw [hi, ← e, InStep.rd_eq_wr L, sealed_eq A _ _ hpl]; rfl
  refine ⟨((B.got 0 p1 []).setState B.state).rd p2 ++ rest, ?_, ?_⟩
  · apply recvBlocks_ok B rB.1 _ _ _ _ h1 (fun hc => InStep.readIV_length L rA hc)
    rw [hin, rd_split B p1 p2 [] B.state 0 1 (k + 1) h1 h2, List.append_assoc]
  · intro s
    have hfin : recvBlocks ((B.got 0 p1 (((B.got 0 p1 []).setState B.state).rd p2 ++ rest)).setState s) 16 (k + 1)
        = (.done, (((B.got 0 p1 (((B.got 0 p1 []).setState B.state).rd p2 ++ rest)).setState s)).got 16 p2 rest) := by
      apply recvBlocks_ok _ rfl _ _ _ _ h2
      · intro hc
        exact wireIV_length _ _ _ _ (InStep.readIV_length L rA hc)
      · rfl
    refine hfin.trans (congrArg (Prod.mk RdBlk.done) ?_)
    have hg := got_got B p1 p2 (((B.got 0 p1 []).setState B.state).rd p2 ++ rest) rest s 0 1 (k + 1) h1 h2
      (by have := rB.2.1; omega)
    rw [e]
    exact hg

end Owamp.Ctl
