import Verif.Lemmas.ReceiverOrder
import Verif.Props.Records
/-!
# What a receiver records can be stored
-/
namespace Owamp.Recv
open Owamp.Num64 Owamp.Time Owamp.Pkt Owamp.Codec Owamp.Spec.Receiver

/-- Every record can be encoded. -/
def Enc (es : List Entry) : Prop := ∀ e ∈ es, (encodeDataRec e.data).isSome = true

theorem Enc.add {es : List Entry} (h : Enc es) (e : Entry) (he : (encodeDataRec e.data).isSome = true) : Enc (es ++ [e]) := by
  intro x hx
  rcases List.mem_append.1 hx with hx | hx
  · exact h x hx
  · rw [List.mem_singleton.1 hx]; exact he

theorem writeRec_enc (c : Cfg) (r : DataRec) (now : TimeParts) (s s1 : St) (h : writeRec c r now s = some s1) (hE : Enc s.entries) : Enc s1.entries := by
  have e := writeRec_eq c r now s s1 h
  subst e
  unfold writeRec at h
  split at h
  · rename_i hh
    rw [Bool.and_eq_true] at hh
    exact hE.add _ hh.1
  · cases h

theorem pop_entries (c : Cfg) (x : Node) (rest : List Node) (s s2 : St) (h : pop c x rest s = some s2) : s2.entries = s.entries := by
  unfold pop at h
  split at h
  · cases h; rfl
  · split at h
    · obtain ⟨r, _, e⟩ := Option.map_eq_some_iff.1 h
      rw [← e]
    · cases h; rfl

theorem flush_enc (c : Cfg) (usr2 : Nat → Bool) (clock : TimeParts) (n : Nat) :
    ∀ (j : Nat) (cur : TimeParts) (s : St), Enc s.entries → Enc (flush c usr2 clock n j cur s).2.entries := by
  induction n with
  | zero => intro j cur s h; exact h
  | succ n ih =>
    intro j cur s h
    rw [flush]
    split
    · exact h
    · rename_i b rest hq
      dsimp only
      generalize (if usr2 j = true then _ else cur) = cur'
      split
      · have hx : ∀ s1, (if b.hit = true then some s else writeRec c (lostRec c b s.stamp) clock s) = some s1 → Enc s1.entries := by
          intro s1 h1
          split at h1
          · cases h1; exact h
          · exact writeRec_enc c _ _ _ _ h1 h
        generalize (if b.hit = true then some s else writeRec c (lostRec c b s.stamp) clock s) = o at hx
        cases o with
        | none => exact h
        | some s1 =>
          dsimp only
          have h1 := hx s1 rfl
          cases hp : pop c b rest s1 with
          | none => exact h1
          | some s2 =>
            have h2 : Enc s2.entries := by rw [pop_entries c b rest s1 s2 hp]; exact h1
            dsimp only
            split
            · exact h2
            · exact ih _ _ _ h2
      · exact h

theorem judge_enc (c : Cfg) (P : Bytes) (ttl : Byte) (now : TimeParts) (s : St) (h : Enc s.entries) : Enc (judge c P ttl now s).entries := by
  unfold judge
  dsimp only
  split
  · exact h
  · cases hq : s.q with
    | nil => exact h
    | cons b rest =>
      dsimp only
      split
      · exact h
      · split
        · exact h
        · split
          · exact h
          · split
            · exact h
            · split
              · exact h
              · split
                · exact h
                · cases hw : writeRec c _ now _ with
                  | none => exact h
                  | some s1 => exact writeRec_enc c _ _ _ _ hw h

theorem turn_enc (c : Cfg) (a : Arrival) (s : St) (h : Enc s.entries) : Enc (turn c a s).entries := by
  rcases turn_cases c a s with ⟨e1, _⟩ | ⟨r, _, ⟨e1, _⟩ | ⟨_, _, peer, bytes, ttl, e1⟩⟩
  · rw [e1]; exact h
  · rw [e1]; exact flush_enc c a.usr2 r.time _ 0 r.time _ h
  · have h2 : Enc (stampFlush c a.usr2 r s).2.entries := flush_enc c a.usr2 r.time _ 0 r.time _ h
    rw [e1]
    unfold examine
    split
    · exact h2
    · split
      · exact h2
      · exact h2
      · exact judge_enc c _ ttl _ _ h2

theorem run_enc (c : Cfg) (as : List Arrival) : ∀ s : St, Enc s.entries → Enc (run c s as).entries := by
  induction as with
  | nil => intro s h; exact h
  | cons a as ih =>
    intro s h
    refine ih (step c s a) ?_
    unfold step
    split
    · exact turn_enc c a s h
    · exact h

theorem init_enc (c : Cfg) (ctx : Sched.Ctx) (clock : Option Owamp.Sender.Reading) (usr2 : Nat → Bool) (stamp : TimeStamp) :
    Enc (init c ctx clock usr2 stamp).entries := by
  have hn : Enc [] := by intro e he; cases he
  unfold init
  dsimp only
  split
  · exact hn
  · split
    · exact hn
    · unfold firstFlush
      split
      · exact hn
      · rename_i r
        have hg : ∀ S : St, Enc S.entries → Enc (afterFlush (stampFlush c usr2 r S) id).entries := by
          intro S hS
          have hf : Enc (stampFlush c usr2 r S).2.entries := flush_enc c usr2 r.time _ 0 r.time _ hS
          unfold afterFlush
          split <;> exact hf
        exact hg _ hn

end Owamp.Recv

namespace Owamp.Props
open Owamp.Codec Owamp.Time

/-- A time as it is read back from a file: the scale has six bits there. -/
def storedTime (t : TimeStamp) : TimeStamp := { t with scale := t.scale &&& 0x3F#8 }

/-- A record as it is read back. (A lost record's send time has the scale 64, and is read back with scale 0.) -/
def stored (r : DataRec) : DataRec := { r with send := storedTime r.send, recv := storedTime r.recv }

theorem storedTime_err (t : TimeStamp) : encodeErrEstimate (storedTime t) = encodeErrEstimate t := by
  unfold encodeErrEstimate storedTime
  dsimp only
  rw [BitVec.and_assoc, BitVec.and_self]

theorem stored_encode (r : DataRec) : encodeDataRec (stored r) = encodeDataRec r := by
  unfold encodeDataRec
  dsimp only
  rw [show encodeErrEstimate (stored r).send = encodeErrEstimate r.send from storedTime_err _,
    show encodeErrEstimate (stored r).recv = encodeErrEstimate r.recv from storedTime_err _]
  rfl

theorem storedTime_stamp (t : TimeStamp) (h : (encodeErrEstimate t).isSome = true) : Stamp (storedTime t) := by
  unfold encodeErrEstimate at h
  split at h
  · cases h
  · rename_i hm
    refine ⟨hm, ?_⟩
    show (t.scale &&& 0x3F#8).toNat < 64
    rw [BitVec.toNat_and]
    exact Nat.lt_of_le_of_lt Nat.and_le_right (by decide)

theorem stored_stamp (r : DataRec) (h : (encodeDataRec r).isSome = true) : Stamp (stored r).send ∧ Stamp (stored r).recv := by
  unfold encodeDataRec at h
  dsimp only at h
  cases h1 : encodeErrEstimate r.send with
  | none => rw [h1] at h; cases h
  | some e =>
    rw [h1] at h
    dsimp only at h
    cases h2 : encodeErrEstimate r.recv with
    | none => rw [h2] at h; cases h
    | some e' => exact ⟨storedTime_stamp _ (by rw [h1]; rfl), storedTime_stamp _ (by rw [h2]; rfl)⟩

theorem stored_self (r : DataRec) (h : Stamp r.send ∧ Stamp r.recv) : stored r = r := by
  have ht : ∀ t : TimeStamp, Stamp t → storedTime t = t := by
    intro t ht
    unfold storedTime
    have hb : ∀ b : BitVec 8, b.toNat < 64 → b &&& 0x3F#8 = b := by
      intro b hb
      apply BitVec.eq_of_toNat_eq
      rw [BitVec.toNat_and]
      show b.toNat &&& (2 ^ 6 - 1) = _
      rw [Nat.and_two_pow_sub_one_eq_mod]
      exact Nat.mod_eq_of_lt hb
    rw [hb _ ht.2]
  unfold stored
  rw [ht _ h.1, ht _ h.2]

end Owamp.Props
