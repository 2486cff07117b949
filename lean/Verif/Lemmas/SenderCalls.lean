import Verif.Props.Sender
import Verif.Spec.Receiver
import Verif.Lemmas.Receiver
/-!
# What is in the packets a sender sent
-/
namespace Owamp.Sender
open Owamp.Num64 Owamp.Time Owamp.Pkt Owamp.Ctl Owamp.Codec Owamp.Spec Owamp.Spec.Sender Owamp.Spec.Receiver

/-- The receiver with keys `ep` reads number and time of the call from its bytes. -/
def Reads (H : Mac) (f : Fmt) (ep : Ep) (len : Nat) (x : Call) : Prop :=
  x.bytes.length = len ∧ ∃ P, openPacket H f ep x.bytes = .plain P ∧ (seqOf P).toNat = x.seq ∧ timeOf f P = stampOf x.time

def CallsInv (Q : TimeParts → Prop) (H : Mac) (f : Fmt) (ep : Ep) (len : Nat) (s : St) : Prop :=
  s.buf.length = len ∧ s.i < 2 ^ 32 ∧ ∀ x ∈ s.calls, Reads H f ep len x ∧ Q x.time

theorem prep_calls (c : Cfg) (s : St) : (prep c s).buf = s.buf ∧ (prep c s).i = s.i ∧ (prep c s).calls = s.calls := by
  unfold prep
  dsimp only
  split <;> exact ⟨rfl, rfl, rfl⟩

theorem advance_calls {Q : TimeParts → Prop} {H : Mac} {f : Fmt} {ep : Ep} {len : Nat} (c : Cfg) (s : St) (h : CallsInv Q H f ep len s) : CallsInv Q H f ep len (advance c s) := by
  have hi : (s.i + 1) % 2 ^ 32 < 2 ^ 32 := Nat.mod_lt _ (by decide)
  unfold advance
  dsimp only
  split
  · obtain ⟨p1, p2, p3⟩ := prep_calls c { s with i := (s.i + 1) % 2 ^ 32 }
    exact ⟨by rw [p1]; exact h.1, by rw [p2]; exact hi, by rw [p3]; exact h.2.2⟩
  · exact ⟨h.1, hi, h.2.2⟩

/-- Number and time in what `sendPacket` makes. -/
def Makes (c : Cfg) (ep : Ep) (len : Nat) : Prop :=
  ∀ (buf : Bytes) (i : Nat) (t : TimeStamp), buf.length = len → ∃ pkt P, sendPacket c.H c.fmt c.ep buf (c.pad i) (BitVec.ofNat 32 i) t = some pkt ∧
    pkt.length = len ∧ openPacket c.H c.fmt ep pkt = .plain P ∧ seqOf P = BitVec.ofNat 32 i ∧ timeOf c.fmt P = t.owptime

theorem turn_calls (Q : TimeParts → Prop) (c : Cfg) (ep : Ep) (len : Nat) (hm : Makes c ep len) (t : Tick) (hq : ∀ r, t.clock = some r → Q r.time) (s : St) (h : CallsInv Q c.H c.fmt ep len s) :
    CallsInv Q c.H c.fmt ep len (turn c t s) := by
  unfold turn
  split
  · exact h
  · split
    · exact h
    · rename_i r hr
      split
      · split
        · exact advance_calls c _ ⟨h.1, h.2.1, h.2.2⟩
        · unfold transmit
          dsimp only
          obtain ⟨pkt, P, m1, m2, m3, m4, m5⟩ := hm s.buf s.i { timespecToTimestamp s.stamp r.time (some r.err) (some s.last) with sync := r.sync } h.1
          rw [m1]
          dsimp only
          have hnew : ∀ res, CallsInv Q c.H c.fmt ep len { s with stamp := { timespecToTimestamp s.stamp r.time (some r.err) (some s.last) with sync := r.sync }, last := r.err, buf := pkt, calls := s.calls ++ [⟨s.i, r.time, pkt, res⟩] } := by
            intro res
            refine ⟨m2, h.2.1, ?_⟩
            intro x hx
            rcases List.mem_append.1 hx with hx | hx
            · exact h.2.2 x hx
            · rw [List.mem_singleton.1 hx]
              refine ⟨⟨m2, P, m3, ?_, ?_⟩, hq r hr⟩
              · rw [m4, BitVec.toNat_ofNat, Nat.mod_eq_of_lt h.2.1]
              · rw [m5]; exact Recv.stamp_owptime _ _ _ _
          split
          · exact ⟨m2, h.2.1, h.2.2⟩
          · cases ht : t.send with
            | nobufs => exact hnew .nobufs
            | fatal => exact ⟨(hnew .fatal).1, (hnew .fatal).2.1, (hnew .fatal).2.2⟩
            | _ => exact advance_calls c _ (hnew _)
      · split
        · exact h
        · exact h

theorem run_calls (Q : TimeParts → Prop) (c : Cfg) (ep : Ep) (len : Nat) (hm : Makes c ep len) (ts : List Tick) (hq : ∀ t ∈ ts, ∀ r, t.clock = some r → Q r.time) (s : St) (h : CallsInv Q c.H c.fmt ep len s) :
    CallsInv Q c.H c.fmt ep len (run c s ts) := by
  induction ts generalizing s with
  | nil => exact h
  | cons t ts ih =>
    refine ih (fun t' ht' => hq t' (by simp [ht'])) (step c s t) ?_
    unfold step
    split
    · exact turn_calls Q c ep len hm t (hq t (by simp)) s h
    · unfold lingerTurn
      dsimp only
      repeat' split
      all_goals exact h
    · exact h

theorem init_calls (Q : TimeParts → Prop) (c : Cfg) (ep : Ep) (len : Nat) (ctx : Sched.Ctx) (buf : Bytes) (stamp : TimeStamp) (hb : buf.length = len) :
    CallsInv Q c.H c.fmt ep len (init c ctx buf stamp) := by
  unfold init
  dsimp only
  split
  · refine ⟨?_, ?_, ?_⟩
    · rw [(prep_calls c _).1]; exact hb
    · rw [(prep_calls c _).2.1]; show 0 < 2 ^ 32; decide
    · rw [(prep_calls c _).2.2]; intro x hx; cases hx
  · exact ⟨hb, by show 0 < 2 ^ 32; decide, fun x hx => by cases hx⟩

end Owamp.Sender
