import Verif.Lemmas.Message
/-!
# Text under the MAC sent and received in several pieces, and the digest after it
-/
namespace Owamp.Ctl
open Owamp.Spec.Channel

/-- `c` after sending `p` with `p` added to the MAC; `m` is what is left in `msg`. -/
def Conn.sentText (c : Conn) (p m : Bytes) : Conn :=
  { c with
    writeIV := wireIV c.cipher c.aesKey c.writeIV p, out := c.out ++ c.wr p, faults := []
    sendAcc := if c.cipher then c.sendAcc ++ p else c.sendAcc, msg := m }

/-- `c` after receiving `p` with `p` added to the MAC. -/
def Conn.gotText (c : Conn) (p m rest : Bytes) : Conn :=
  { c with
    readIV := wireIV c.cipher c.aesKey c.readIV p, inp := rest, faults := []
    recvAcc := if c.cipher then c.recvAcc ++ p else c.recvAcc, msg := m }

/-- `c` after sending the digest `d`. -/
def Conn.sentTag (c : Conn) (d m : Bytes) : Conn :=
  { c with
    writeIV := wireIV c.cipher c.aesKey c.writeIV d, out := c.out ++ c.wr d, faults := []
    sendAcc := if c.cipher then [] else c.sendAcc, msg := m }

/-- `c` after receiving and checking the digest `d`. -/
def Conn.gotTag (c : Conn) (d m rest : Bytes) : Conn :=
  { c with
    readIV := wireIV c.cipher c.aesKey c.readIV d, inp := rest, faults := []
    recvAcc := if c.cipher then [] else c.recvAcc, msg := m }

theorem conn_ext (a b : Conn) (h1 : a.state = b.state) (h2 : a.mode = b.mode) (h3 : a.twoway = b.twoway)
    (h4 : a.userid = b.userid) (h5 : a.aesKey = b.aesKey) (h6 : a.hmacKey = b.hmacKey) (h7 : a.readIV = b.readIV)
    (h8 : a.writeIV = b.writeIV) (h9 : a.sendAcc = b.sendAcc) (h10 : a.recvAcc = b.recvAcc) (h11 : a.msg = b.msg)
    (h12 : a.inp = b.inp) (h13 : a.out = b.out) (h14 : a.faults = b.faults) : a = b := by
  cases a; cases b; simp_all

theorem sentText_append (c : Conn) (p q m m' : Bytes) (k n : Nat) (hp : p.length = 16 * k) (hq : q.length = 16 * n) :
    (c.sentText p m).sentText q m' = c.sentText (p ++ q) m' := by
  have h1 := wireIV_append c.cipher c.aesKey c.writeIV p q k n hp hq
  have h2 := wire_append c.cipher c.aesKey c.writeIV p q k n hp hq
  refine conn_ext _ _ rfl rfl rfl rfl rfl rfl rfl h1.symm ?_ rfl rfl rfl ?_ rfl
  · show (if c.cipher then (if c.cipher then c.sendAcc ++ p else c.sendAcc) ++ q else _) = if c.cipher then _ else _
    cases hc : c.cipher <;> simp [Conn.sentText, hc]
  · show c.out ++ c.wr p ++ wire _ _ _ q = c.out ++ wire _ _ _ _
    rw [h2, List.append_assoc]; rfl

theorem gotText_append (c : Conn) (p q m m' r r' : Bytes) (k n : Nat) (hp : p.length = 16 * k) (hq : q.length = 16 * n) :
    (c.gotText p m r).gotText q m' r' = c.gotText (p ++ q) m' r' := by
  have h1 := wireIV_append c.cipher c.aesKey c.readIV p q k n hp hq
  refine conn_ext _ _ rfl rfl rfl rfl rfl rfl h1.symm rfl rfl ?_ rfl rfl rfl rfl
  show (if c.cipher then (if c.cipher then c.recvAcc ++ p else c.recvAcc) ++ q else _) = if c.cipher then _ else _
  cases hc : c.cipher <;> simp [Conn.gotText, hc]

theorem sendText_ok (c : Conn) (h : c.faults = []) (p : Bytes) :
    sendBlocks (sendHmacAdd c p) p = (.done, c.sentText p (put c.msg 0 (c.wr p))) := by
  rw [sendBlocks_ok _ (by unfold sendHmacAdd; split <;> exact h)]
  refine congrArg (Prod.mk Wr.done) ?_
  unfold sendHmacAdd
  split <;> rename_i hc <;>
    refine conn_ext _ _ rfl rfl rfl rfl rfl rfl rfl rfl ?_ rfl rfl rfl rfl rfl <;>
    simp [Conn.sent, Conn.sentText, hc]

theorem gotText_ok (c : Conn) (off : Nat) (p rest : Bytes) :
    recvHmacAdd (c.got off p rest) p = c.gotText p (put c.msg off p) rest := by
  unfold recvHmacAdd
  have : (c.got off p rest).cipher = c.cipher := rfl
  rw [this]
  split <;> rename_i hc <;>
    refine conn_ext _ _ rfl rfl rfl rfl rfl rfl rfl rfl rfl ?_ rfl rfl rfl rfl <;>
    simp [Conn.got, Conn.gotText, hc]

theorem ready_sentText (A : Conn) (rA : Ready A) (p m : Bytes) (hm : m.length = 400) : Ready (A.sentText p m) :=
  ⟨rfl, hm, wireIV_length _ _ _ _ rA.2.2⟩
theorem ready_gotText (B : Conn) (rB : Ready B) (p m r : Bytes) (hm : m.length = 400) : Ready (B.gotText p m r) :=
  ⟨rfl, hm, rB.2.2⟩
theorem ready_sentTag (A : Conn) (rA : Ready A) (p m : Bytes) (hm : m.length = 400) : Ready (A.sentTag p m) :=
  ⟨rfl, hm, wireIV_length _ _ _ _ rA.2.2⟩
theorem ready_gotTag (B : Conn) (rB : Ready B) (p m r : Bytes) (hm : m.length = 400) : Ready (B.gotTag p m r) :=
  ⟨rfl, hm, rB.2.2⟩

theorem linked_text (A B : Conn) (L : Linked A B) (p m m' r : Bytes) : Linked (A.sentText p m) (B.gotText p m' r) := by
  obtain ⟨L1, L2⟩ := L
  refine ⟨⟨L1.1, fun hc => ?_⟩, L2⟩
  have hc : A.cipher = true := hc
  obtain ⟨h1, h2, h3, h4⟩ := L1.2 hc
  refine ⟨h1, h2, InStep.wireIV_eq L1 hc _, ?_⟩
  show (if A.cipher then A.sendAcc ++ p else A.sendAcc) = if B.cipher then B.recvAcc ++ p else B.recvAcc
  rw [← L1.1, hc, h4]

theorem linked_tag (A B : Conn) (L : Linked A B) (p m m' r : Bytes) : Linked (A.sentTag p m) (B.gotTag p m' r) := by
  obtain ⟨L1, L2⟩ := L
  refine ⟨⟨L1.1, fun hc => ?_⟩, L2⟩
  have hc : A.cipher = true := hc
  obtain ⟨h1, h2, h3, h4⟩ := L1.2 hc
  refine ⟨h1, h2, InStep.wireIV_eq L1 hc _, ?_⟩
  show (if A.cipher then [] else A.sendAcc) = if B.cipher then [] else B.recvAcc
  rw [← L1.1, hc]; rfl

theorem recv_step (A B : Conn) (rA : Ready A) (rB : Ready B) (L : InStep A B) (p rest : Bytes) (off n : Nat)
    (hp : p.length = 16 * n) (hi : B.inp = A.wr p ++ rest) : recvBlocks B off n = (.done, B.got off p rest) := by
  apply recvBlocks_ok B rB.1 _ _ _ _ hp (fun hc => InStep.readIV_length L rA hc)
  rw [hi, InStep.rd_eq_wr L]

theorem sendTag_ok (H : Mac) (c : Conn) (h : c.faults = []) (m : Bytes) :
    sendBlocks { (sendDigest H c).2 with msg := m } (sendDigest H c).1 =
      (.done, c.sentTag (tag H c []) (put m 0 (c.wr (tag H c [])))) := by
  have hd : sendDigest H c = (tag H c [], { c with sendAcc := if c.cipher then [] else c.sendAcc }) := by
    have := sendDigest_add H c []
    have e : sendHmacAdd c [] = c := by unfold sendHmacAdd; split <;> simp
    rwa [e] at this
  rw [hd, sendBlocks_ok _ (by exact h)]
  rfl

theorem gotTag_ok (H : Mac) (A B : Conn) (L : InStep A B) (off : Nat) (rest : Bytes) :
    recvCheck H (B.got off (tag H A []) rest) (tag H A []) =
      (true, B.gotTag (tag H A []) (put B.msg off (tag H A [])) rest) := by
  unfold recvCheck
  have e : (B.got off (tag H A []) rest).cipher = B.cipher := rfl
  have hl := L.1
  cases hc : B.cipher
  · rw [e, hc]
    simp [Conn.got, Conn.gotTag, hc]
  · rw [hc] at hl
    obtain ⟨h1, h2, h3, h4⟩ := L.2 hl
    rw [e, hc]
    simp only [if_true]
    refine Prod.ext ?_ ?_
    · show decide (tag H A [] = (H.hash B.hmacKey B.recvAcc).take 16) = true
      unfold tag
      simp [hl, h2, h4]
    · simp [Conn.got, Conn.gotTag, hc]

end Owamp.Ctl
