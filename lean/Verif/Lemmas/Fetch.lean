import Verif.Spec.Fetch
import Verif.Lemmas.DataFile
import Verif.Props.Request
/-!
# Lemmas about fetching
-/
namespace Owamp.Fetch
open Owamp.Codec Owamp.Ctl Owamp.File Owamp.Spec.DataFile Owamp.Spec.Channel Owamp.Spec.Fetch

/-- Filled up with zeros to whole blocks. -/
def padded (b : Bytes) : Bytes := b ++ zeros ((16 - b.length % 16) % 16)

theorem padded_length (b : Bytes) : ∃ n, (padded b).length = 16 * n := by
  refine ⟨(b.length + 15) / 16, ?_⟩
  unfold padded
  rw [List.length_append, zeros_length]
  omega

theorem padded_size (b : Bytes) : (padded b).length = 16 * ((b.length + 15) / 16) := by
  unfold padded
  rw [List.length_append, zeros_length]
  omega

theorem padded_block (a b : Bytes) (n : Nat) (ha : a.length = 16 * n) : padded (a ++ b) = a ++ padded b := by
  unfold padded
  rw [List.length_append, List.append_assoc]
  congr 3
  omega

theorem sentText_empty (c : Conn) (h : c.faults = []) (m : Bytes) : c.sentText [] m = { c with msg := m } := by
  refine conn_ext _ _ rfl rfl rfl rfl rfl rfl rfl ?_ ?_ rfl rfl rfl ?_ h.symm
  · show wireIV _ _ _ _ = _; unfold wireIV; split <;> rfl
  · show (if c.cipher then c.sendAcc ++ [] else c.sendAcc) = _; simp
  · show c.out ++ c.wr [] = _; rw [wr_nil, List.append_nil]

theorem sentText_msg (c : Conn) (p m m' : Bytes) : ({ c with msg := m' } : Conn).sentText p m = c.sentText p m := rfl

theorem send_text (A : Conn) (rA : Ready A) (p : Bytes) (n : Nat) (hp : p.length = 16 * n) (hn : n ≤ 25) :
    ∃ m, m.length = 400 ∧ sendText A p = (.done, A.sentText p m) := by
  have h1 := wr_length A p n hp
  have hm := rA.2.1
  refine ⟨put (put A.msg 0 p) 0 (A.wr p), ?_, ?_⟩
  · rw [put_length _ _ _ (by rw [put_length _ _ _ (by omega)]; omega), put_length _ _ _ (by omega)]; exact hm
  · unfold sendText
    rw [sendText_ok _ (by exact rA.1)]
    rfl

theorem send_tag (H : Mac) (A : Conn) (rA : Ready A) :
    ∃ m, m.length = 400 ∧ sendTag H A = (some (), A.sentTag (tag H A []) m) := by
  have hl := tag_length H A []
  have hw := wr_length A (tag H A []) 1 hl
  have hm := rA.2.1
  have hd : sendDigest H A = (tag H A [], { A with sendAcc := if A.cipher then [] else A.sendAcc }) := by
    have := sendDigest_add H A []
    have e : sendHmacAdd A [] = A := by unfold sendHmacAdd; split <;> simp
    rwa [e] at this
  refine ⟨put (put A.msg 0 (tag H A [])) 0 (A.wr (tag H A [])), ?_, ?_⟩
  · rw [put_length _ _ _ (by rw [put_length _ _ _ (by omega)]; omega), put_length _ _ _ (by omega)]; exact hm
  · unfold sendTag
    have := sendTag_ok H A rA.1 (put A.msg 0 (tag H A []))
    have e1 : (sendDigest H A).1 = tag H A [] := by rw [hd]
    have e2 : (sendDigest H A).2.msg = A.msg := by rw [hd]
    rw [e2]
    rw [e1] at this ⊢
    rw [this]

theorem read_tag (H : Mac) (A B : Conn) (rA : Ready A) (rB : Ready B) (L : Linked A B) (rest : Bytes)
    (hi : B.inp = A.wr (tag H A []) ++ rest) :
    ∃ m, m.length = 400 ∧ readTag H B = (some (), B.gotTag (tag H A []) m rest) := by
  have hl := tag_length H A []
  have hm := rB.2.1
  refine ⟨put B.msg 0 (tag H A []), by rw [put_length _ _ _ (by omega)]; exact hm, ?_⟩
  unfold readTag
  rw [recv_step A B rA rB L.1 (tag H A []) rest 0 1 hl hi]
  have hg : get (B.got 0 (tag H A []) rest).msg 0 16 = tag H A [] := by
    show get (put B.msg 0 (tag H A [])) 0 16 = _
    rw [get_put_same _ _ _ _ hl (by omega)]
  simp only
  rw [hg, gotTag_ok H A B L.1 0 rest]

/-- Blocks of the file go out unchanged. -/
theorem copy_blocks (k : Nat) : ∀ (A : Conn) (f T : Bytes) (pos t : Nat), Ready A → T.length = 16 * k →
    get f pos (16 * k) = T → pos + 16 * k ≤ f.length → t ≤ 16 → (k = 0 ∨ 0 < t) →
    ∃ m, m.length = 400 ∧ copyBlocks A f pos (16 * k + t) = (some (pos + 16 * k, t), A.sentText T m) := by
  induction k with
  | zero =>
    intro A f T pos t rA hT _ _ ht _
    have : T = [] := List.length_eq_zero_iff.1 hT
    subst this
    refine ⟨A.msg, rA.2.1, ?_⟩
    rw [copyBlocks, if_neg (by omega), sentText_nil A rA.1]
    simp
  | succ k ih =>
    intro A f T pos t rA hT hg hf ht hk
    have hk : 0 < t := by omega
    have hsp := get_split f pos (16 * (k + 1)) 16 (by omega)
    rw [hg, show 16 * (k + 1) - 16 = 16 * k by omega] at hsp
    have hb : (get f pos 16).length = 16 * 1 := get_length _ _ _ (by omega)
    have hr : (get f (pos + 16) (16 * k)).length = 16 * k := get_length _ _ _ (by omega)
    obtain ⟨m1, hm1, e1⟩ := send_text A rA _ 1 hb (by omega)
    obtain ⟨m, hm, e⟩ := ih (A.sentText (get f pos 16) m1) f _ (pos + 16) t (ready_sentText A rA _ _ hm1) hr rfl
      (by omega) ht (Or.inr hk)
    refine ⟨m, hm, ?_⟩
    rw [copyBlocks, if_pos (by omega), rd_ok _ _ _ (by omega)]
    simp only
    rw [e1]
    simp only
    rw [show 16 * (k + 1) + t - 16 = 16 * k + t by omega, e, sentText_append A _ _ m1 m 1 k hb hr, ← hsp,
      show pos + 16 + 16 * k = pos + 16 * (k + 1) by omega]

/-- The skip ranges as they are sent: filled up to a block. -/
theorem copy_padded (A : Conn) (rA : Ready A) (f sk : Bytes) (pos : Nat) (hg : get f pos sk.length = sk)
    (hf : pos + sk.length ≤ f.length) :
    ∃ p t c, copyBlocks A f pos sk.length = (some (p, t), c) ∧
      ∃ m, m.length = 400 ∧ sendRest c f p t = (some (), A.sentText (padded sk) m) := by
  have key : ∃ k t, sk.length = 16 * k + t ∧ t ≤ 16 ∧ (k = 0 ∨ 0 < t) :=
    ⟨(sk.length - 1) / 16, sk.length - 16 * ((sk.length - 1) / 16), by omega, by omega, by omega⟩
  obtain ⟨k, t, h1, h2, h3⟩ := key
  have hs1 := get_split f pos sk.length (16 * k) (by omega)
  rw [hg] at hs1
  have ha : (get f pos (16 * k)).length = 16 * k := get_length _ _ _ (by omega)
  obtain ⟨m1, hm1, e1⟩ := copy_blocks k A f _ pos t rA ha rfl (by omega) h2 h3
  rw [← h1] at e1
  have rA1 := ready_sentText A rA (get f pos (16 * k)) _ hm1
  refine ⟨_, _, _, e1, ?_⟩
  have hl : sk.length - 16 * k = t := by omega
  rw [hl] at hs1
  have hb : (get f (pos + 16 * k) t).length = t := get_length _ _ _ (by omega)
  have hp : padded sk = get f pos (16 * k) ++ padded (get f (pos + 16 * k) t) := by
    rw [← padded_block _ _ k ha, ← hs1]
  unfold sendRest
  by_cases ht : 0 < t
  · rw [if_pos ht, rd_ok _ _ _ (by omega)]
    have hz : get f (pos + 16 * k) t ++ zeros (16 - t) = padded (get f (pos + 16 * k) t) := by
      unfold padded
      rw [hb]
      congr 2
      omega
    have hl16 : (get f (pos + 16 * k) t ++ zeros (16 - t)).length = 16 * 1 := by
      rw [List.length_append, hb, zeros_length]; omega
    obtain ⟨m2, hm2, e2⟩ := send_text _ rA1 _ 1 hl16 (by omega)
    refine ⟨m2, hm2, ?_⟩
    simp only
    rw [e2]
    simp only
    rw [sentText_append A _ _ m1 m2 k 1 ha hl16, hz, ← hp]
  · rw [if_neg ht]
    refine ⟨m1, hm1, ?_⟩
    have ht0 : t = 0 := by omega
    subst ht0
    have hnil : get f (pos + 16 * k) 0 = [] := List.length_eq_zero_iff.1 hb
    rw [hp, hnil]
    simp [padded, zeros]

/-- The client reads just those blocks. -/
theorem read_skips (n : Nat) : ∀ (sk : Bytes), sk.length ≤ n → ∀ (A B : Conn) (rest : Bytes), Ready A → Ready B → Linked A B →
    B.inp = A.wr (padded sk) ++ rest →
    ∃ m, m.length = 400 ∧ readSkipBytes B sk.length = (some sk, B.gotText (padded sk) m rest) := by
  induction n with
  | zero =>
    intro sk hn A B rest rA rB L hi
    have : sk = [] := List.length_eq_zero_iff.1 (by omega)
    subst this
    have e : padded [] = [] := rfl
    rw [e, wr_nil, List.nil_append] at hi
    refine ⟨B.msg, rB.2.1, ?_⟩
    rw [readSkipBytes, if_neg (by simp), if_neg (by simp), e, ← hi, gotText_nil B rB.1]
  | succ n ih =>
    intro sk hn A B rest rA rB L hi
    have hmB := rB.2.1
    by_cases h16 : 16 < sk.length
    · have hsk : sk = sk.take 16 ++ sk.drop 16 := (List.take_append_drop 16 sk).symm
      have hl : (sk.take 16).length = 16 * 1 := by rw [List.length_take]; omega
      have hp : padded sk = sk.take 16 ++ padded (sk.drop 16) := by
        rw [← padded_block _ _ 1 hl, List.take_append_drop]
      obtain ⟨j, hj⟩ := padded_length (sk.drop 16)
      rw [hp, wr_append A _ _ A.msg 1 j hl hj, List.append_assoc] at hi
      let m1 := put B.msg 0 (sk.take 16)
      have hm1 : m1.length = 400 := by simp only [m1]; rw [put_length _ _ _ (by omega)]; exact hmB
      let r1 := (A.sentText (sk.take 16) A.msg).wr (padded (sk.drop 16)) ++ rest
      obtain ⟨m, hm, e⟩ := ih (sk.drop 16) (by rw [List.length_drop]; omega) (A.sentText (sk.take 16) A.msg)
        (B.gotText (sk.take 16) m1 r1) rest (ready_sentText A rA _ _ rA.2.1) (ready_gotText B rB _ _ _ hm1)
        (linked_text A B L _ _ _ _) rfl
      refine ⟨m, hm, ?_⟩
      rw [readSkipBytes, if_pos h16, recv_step A B rA rB L.1 (sk.take 16) r1 0 1 hl hi]
      have hg : get (B.got 0 (sk.take 16) r1).msg 0 16 = sk.take 16 := by
        show get (put B.msg 0 (sk.take 16)) 0 16 = _
        rw [get_put_same _ _ _ _ (by omega) (by omega)]
      simp only
      rw [hg, gotText_ok, show put B.msg 0 (sk.take 16) = m1 from rfl,
        show sk.length - 16 = (sk.drop 16).length by rw [List.length_drop], e]
      simp only [List.take_append_drop]
      rw [gotText_append B _ _ m1 m r1 rest 1 j hl hj, ← hp]
    · by_cases h0 : sk.length = 0
      · have : sk = [] := List.length_eq_zero_iff.1 h0
        exact ih sk (by omega) A B rest rA rB L hi
      · have hpl : (padded sk).length = 16 * 1 := by
          unfold padded; rw [List.length_append, zeros_length]; omega
        let m1 := put B.msg 0 (padded sk)
        have hm1 : m1.length = 400 := by simp only [m1]; rw [put_length _ _ _ (by omega)]; exact hmB
        refine ⟨m1, hm1, ?_⟩
        rw [readSkipBytes, if_neg h16, if_pos h0, recv_step A B rA rB L.1 (padded sk) rest 0 1 hpl hi]
        have hg : get (B.got 0 (padded sk) rest).msg 0 16 = padded sk := by
          show get (put B.msg 0 (padded sk)) 0 16 = _
          rw [get_put_same _ _ _ _ (by omega) (by omega)]
        have hg2 : get (B.got 0 (padded sk) rest).msg 0 sk.length = sk := by
          show get (put B.msg 0 (padded sk)) 0 sk.length = _
          rw [get_put_inside _ _ _ _ _ (by omega) (by omega) (by omega), Nat.sub_self]
          unfold padded
          rw [get_zero_append _ _ _ rfl]
        simp only
        rw [hg, hg2, gotText_ok]

/-- The client reads the records. -/
theorem read_records (n : Nat) : ∀ (bs : Bytes), bs.length = 25 * n → ∀ (A B : Conn) (rest : Bytes), Ready A → Ready B →
    Linked A B → B.inp = A.wr (padded bs) ++ rest →
    ∃ m, m.length = 400 ∧ readRecords B n = (some bs, B.gotText (padded bs) m rest) := by
  induction n using Nat.strongRecOn with
  | _ n ih =>
    intro bs hb A B rest rA rB L hi
    have hmB := rB.2.1
    by_cases h16 : 16 ≤ n
    · have hl : (bs.take 400).length = 16 * 25 := by rw [List.length_take]; omega
      have hp : padded bs = bs.take 400 ++ padded (bs.drop 400) := by
        rw [← padded_block _ _ 25 hl, List.take_append_drop]
      obtain ⟨j, hj⟩ := padded_length (bs.drop 400)
      rw [hp, wr_append A _ _ A.msg 25 j hl hj, List.append_assoc] at hi
      let m1 := put B.msg 0 (bs.take 400)
      have hm1 : m1.length = 400 := by simp only [m1]; rw [put_length _ _ _ (by omega)]; exact hmB
      let r1 := (A.sentText (bs.take 400) A.msg).wr (padded (bs.drop 400)) ++ rest
      obtain ⟨m, hm, e⟩ := ih (n - 16) (by omega) (bs.drop 400) (by rw [List.length_drop]; omega)
        (A.sentText (bs.take 400) A.msg) (B.gotText (bs.take 400) m1 r1) rest (ready_sentText A rA _ _ rA.2.1)
        (ready_gotText B rB _ _ _ hm1) (linked_text A B L _ _ _ _) rfl
      refine ⟨m, hm, ?_⟩
      rw [readRecords, if_pos h16, recv_step A B rA rB L.1 (bs.take 400) r1 0 25 hl hi]
      have hg : get (B.got 0 (bs.take 400) r1).msg 0 400 = bs.take 400 := by
        show get (put B.msg 0 (bs.take 400)) 0 400 = _
        rw [get_put_same _ _ _ _ (by omega) (by omega)]
      simp only
      rw [hg, gotText_ok, show put B.msg 0 (bs.take 400) = m1 from rfl, e]
      simp only [List.take_append_drop]
      rw [gotText_append B _ _ m1 m r1 rest 25 j hl hj, ← hp]
    · by_cases h0 : n = 0
      · subst h0
        have : bs = [] := List.length_eq_zero_iff.1 (by omega)
        subst this
        have e : padded [] = [] := rfl
        rw [e, wr_nil, List.nil_append] at hi
        refine ⟨B.msg, rB.2.1, ?_⟩
        rw [readRecords, if_neg (by omega), if_neg (by simp), e, ← hi, gotText_nil B rB.1]
      · have hpl : (padded bs).length = 16 * (n * 25 / 16 + 1) := by
          unfold padded; rw [List.length_append, zeros_length, hb, Nat.mul_comm n 25]
          have : 25 * n % 16 ≠ 0 := by omega
          omega
        let m1 := put B.msg 0 (padded bs)
        have hm1 : m1.length = 400 := by simp only [m1]; rw [put_length _ _ _ (by omega)]; exact hmB
        refine ⟨m1, hm1, ?_⟩
        rw [readRecords, if_neg h16, if_pos h0, recv_step A B rA rB L.1 (padded bs) rest 0 _ hpl hi]
        have hg : get (B.got 0 (padded bs) rest).msg 0 ((n * 25 / 16 + 1) * 16) = padded bs := by
          show get (put B.msg 0 (padded bs)) 0 ((n * 25 / 16 + 1) * 16) = _
          rw [get_put_same _ _ _ _ (by omega) (by omega)]
        have hg2 : get (B.got 0 (padded bs) rest).msg 0 (25 * n) = bs := by
          show get (put B.msg 0 (padded bs)) 0 (25 * n) = _
          rw [get_put_inside _ _ _ _ _ (by omega) (by omega) (by omega), Nat.sub_self]
          unfold padded
          rw [get_zero_append _ _ _ hb.symm]
        simp only
        rw [hg, hg2, gotText_ok]

/-! ## The records on the server -/

/-- The records as bytes. -/
def flat (rs : List DataRec) : Bytes := (rs.map Props.recLayout).flatten

theorem flat_append (a b : List DataRec) : flat (a ++ b) = flat a ++ flat b := by simp [flat]

theorem flat_length (rs : List DataRec) (hd : ∀ r ∈ rs, Props.Stamp r.send ∧ Props.Stamp r.recv) :
    (flat rs).length = 25 * rs.length :=
  flatten_map_length Props.recLayout 25 rs (fun r hr => (Props.C12_record_partial r (hd r hr).1 (hd r hr).2).2.1)

/-- `maxiseen` after some records. -/
def maxAfter (m : U32) (rs : List DataRec) : U32 := rs.foldl nextMax m

theorem out_iff (first last : U32) (r : DataRec) :
    (r.seq < first ∨ last < r.seq) ↔ ¬ (first.toNat ≤ r.seq.toNat ∧ r.seq.toNat ≤ last.toNat) := by
  rw [BitVec.lt_def, BitVec.lt_def]; omega

theorem feed_count (rs : List DataRec) : ∀ s : DoData, s.send = false →
    feed doRecord rs s =
      (.ok, { s with count := s.count + (inRange s.first s.last rs).length, maxSeen := maxAfter s.maxSeen rs }) := by
  induction rs with
  | nil => intro s _; rfl
  | cons r rs ih =>
    intro s hs
    by_cases ho : r.seq < s.first ∨ s.last < r.seq
    · have e : doRecord s r = (0, { s with maxSeen := nextMax s.maxSeen r }) := by
        unfold doRecord; rw [if_pos ho]
      have hf : inRange s.first s.last (r :: rs) = inRange s.first s.last rs :=
        List.filter_cons_of_neg (by rw [decide_eq_true_iff]; exact (out_iff _ _ _).1 ho)
      rw [feed, e, if_pos rfl, hf]
      exact ih { s with maxSeen := nextMax s.maxSeen r } hs
    · have e : doRecord s r = (0, { s with maxSeen := nextMax s.maxSeen r, count := s.count + 1 }) := by
        unfold doRecord; rw [if_neg ho, if_neg (by simp [hs])]
      have hf : inRange s.first s.last (r :: rs) = r :: inRange s.first s.last rs :=
        List.filter_cons_of_pos (by
          rw [decide_eq_true_iff]; exact Decidable.not_not.1 (mt (out_iff _ _ _).2 ho))
      rw [feed, e, if_pos rfl, hf]
      refine (ih { s with maxSeen := nextMax s.maxSeen r, count := s.count + 1 } hs).trans
        (congrArg (Prod.mk Parsed.ok) ?_)
      have : s.count + 1 + (inRange s.first s.last rs).length = s.count + (r :: inRange s.first s.last rs).length := by
        rw [List.length_cons]; omega
      simp only [maxAfter, List.foldl_cons, this]

theorem feed_send (rs : List DataRec) : ∀ (s : DoData) (pend : List DataRec), s.send = true → Ready s.c →
    (∀ r ∈ rs, Props.Stamp r.send ∧ Props.Stamp r.recv) → (∀ r ∈ pend, Props.Stamp r.send ∧ Props.Stamp r.recv) →
    pend.length = s.inbuf → s.inbuf < 16 → get s.c.msg 0 (25 * s.inbuf) = flat pend →
    ∃ (s' : DoData) (full pend' : List DataRec) (m : Bytes) (k : Nat), feed doRecord rs s = (.ok, s') ∧
      s'.count = s.count + (inRange s.first s.last rs).length ∧
      pend ++ inRange s.first s.last rs = full ++ pend' ∧ full.length = 16 * k ∧
      pend'.length = s'.inbuf ∧ s'.inbuf < 16 ∧ m.length = 400 ∧ s'.c = s.c.sentText (flat full) m ∧
      get m 0 (25 * s'.inbuf) = flat pend' := by
  induction rs with
  | nil =>
    intro s pend hs rc _ _ hp hi hg
    refine ⟨s, [], pend, s.c.msg, 0, rfl, rfl, by simp [inRange], rfl, hp, hi, rc.2.1, ?_, hg⟩
    show s.c = s.c.sentText [] s.c.msg
    rw [sentText_nil _ rc.1]
  | cons r rs ih =>
    intro s pend hs rc hr hpd hp hi hg
    have hrs : ∀ x ∈ rs, Props.Stamp x.send ∧ Props.Stamp x.recv := fun x hx => hr x (by simp [hx])
    have hmc := rc.2.1
    by_cases ho : r.seq < s.first ∨ s.last < r.seq
    · have e : doRecord s r = (0, { s with maxSeen := nextMax s.maxSeen r }) := by
        unfold doRecord; rw [if_pos ho]
      have hf : inRange s.first s.last (r :: rs) = inRange s.first s.last rs :=
        List.filter_cons_of_neg (by rw [decide_eq_true_iff]; exact (out_iff _ _ _).1 ho)
      rw [feed, e, if_pos rfl, hf]
      exact ih { s with maxSeen := nextMax s.maxSeen r } pend hs rc hrs hpd hp hi hg
    · have hf : inRange s.first s.last (r :: rs) = r :: inRange s.first s.last rs :=
        List.filter_cons_of_pos (by
          rw [decide_eq_true_iff]; exact Decidable.not_not.1 (mt (out_iff _ _ _).2 ho))
      obtain ⟨hst, hst2⟩ := hr r (by simp)
      obtain ⟨henc, hel, _⟩ := Props.C12_record_partial r hst hst2
      let m1 := put s.c.msg (s.inbuf * 25) (Props.recLayout r)
      let s1 : DoData := { s with maxSeen := nextMax s.maxSeen r, count := s.count + 1, inbuf := s.inbuf + 1
                                  c := { s.c with msg := m1 } }
      have e : doRecord s r = flushFull s1 := by
        unfold doRecord; rw [if_neg ho, if_pos hs, henc]
      have hm1 : m1.length = 400 := by
        simp only [m1]; rw [put_length _ _ _ (by omega)]; exact hmc
      have hg1 : get m1 0 (25 * (s.inbuf + 1)) = flat (pend ++ [r]) := by
        rw [get_split m1 0 (25 * (s.inbuf + 1)) (25 * s.inbuf) (by omega), flat_append, ← hg]
        congr 1
        · simp only [m1]; rw [get_put_before _ _ _ _ _ (by omega) (by omega)]
        · rw [show 25 * (s.inbuf + 1) - 25 * s.inbuf = 25 by omega, Nat.zero_add, Nat.mul_comm 25]
          simp only [m1]; rw [get_put_same _ _ _ _ hel (by omega)]
          simp [flat]
      have hpd1 : ∀ x ∈ pend ++ [r], Props.Stamp x.send ∧ Props.Stamp x.recv := by
        intro x hx
        rcases List.mem_append.1 hx with h | h
        · exact hpd x h
        · rw [List.mem_singleton.1 h]; exact ⟨hst, hst2⟩
      have hpl1 : (pend ++ [r]).length = s.inbuf + 1 := by rw [List.length_append, hp]; rfl
      by_cases hfull : s.inbuf + 1 = 16
      · have hfl := flat_length _ hpd1
        rw [hpl1] at hfl
        obtain ⟨m2, hm2, e2⟩ := send_text { s.c with msg := m1 } ⟨rc.1, hm1, rc.2.2⟩ (flat (pend ++ [r])) 25 (by omega) (by omega)
        let s2 : DoData := { s1 with c := s.c.sentText (flat (pend ++ [r])) m2, inbuf := 0 }
        have ef : flushFull s1 = (0, s2) := by
          unfold flushFull
          rw [if_pos hfull]
          have : get s1.c.msg 0 400 = flat (pend ++ [r]) := by
            rw [← hg1, hfull]
          rw [this]
          show (match sendText { s.c with msg := m1 } (flat (pend ++ [r])) with
            | (.done, c) => _
            | (_, c) => _) = _
          rw [e2]
          rfl
        obtain ⟨s', full, pend', m, k, h1, h2, h3, h4, h5, h6, h7, h8, h9⟩ :=
          ih s2 [] hs (ready_sentText s.c rc _ _ hm2) hrs (by simp) rfl (by show 0 < 16; omega) (by simp [flat, s2, get])
        refine ⟨s', pend ++ [r] ++ full, pend', m, k + 1, ?_, ?_, ?_, ?_, h5, h6, h7, ?_, h9⟩
        · rw [feed, e, ef, if_pos rfl]; exact h1
        · rw [h2, hf]
          show s.count + 1 + _ = _
          rw [List.length_cons]
          show s.count + 1 + (inRange s.first s.last rs).length = _
          omega
        · rw [hf]
          have h3 : inRange s.first s.last rs = full ++ pend' := by simpa using h3
          rw [h3]; simp
        · rw [List.length_append, hpl1, h4]; omega
        · rw [h8]
          show (s.c.sentText (flat (pend ++ [r])) m2).sentText (flat full) m = _
          have hfull' : ∀ x ∈ full, Props.Stamp x.send ∧ Props.Stamp x.recv := by
            intro x hx
            have h3 : inRange s.first s.last rs = full ++ pend' := by simpa using h3
            have : x ∈ inRange s.first s.last rs := by rw [h3]; exact List.mem_append_left _ hx
            exact hrs x (List.mem_filter.1 this).1
          rw [sentText_append s.c _ _ m2 m 25 (25 * k) (by omega) (by rw [flat_length full hfull', h4]; omega), ← flat_append]
      · have ef : flushFull s1 = (0, s1) := by
          unfold flushFull
          rw [if_neg hfull, if_neg (by show ¬ s.inbuf + 1 > 16; omega)]
        obtain ⟨s', full, pend', m, k, h1, h2, h3, h4, h5, h6, h7, h8, h9⟩ :=
          ih s1 (pend ++ [r]) hs ⟨rc.1, hm1, rc.2.2⟩ hrs hpd1 hpl1 (by show s.inbuf + 1 < 16; omega) hg1
        refine ⟨s', full, pend', m, k, ?_, ?_, ?_, h4, h5, h6, h7, h8, h9⟩
        · rw [feed, e, ef, if_pos rfl]; exact h1
        · rw [h2, hf]
          show s.count + 1 + (inRange s.first s.last rs).length = _
          rw [List.length_cons]; omega
        · rw [hf, ← h3]
          show _ = pend ++ [r] ++ inRange s.first s.last rs
          simp

theorem max_after (rs : List DataRec) : ∀ m : U32,
    (maxAfter m rs).toNat = ((rs.filter fun r => decide (r.recv.owptime ≠ 0)).map fun r => r.seq.toNat).foldl max m.toNat := by
  induction rs with
  | nil => intro m; rfl
  | cons r rs ih =>
    intro m
    show (maxAfter (nextMax m r) rs).toNat = _
    rw [ih]
    by_cases hl : r.recv.owptime = 0
    · have e : nextMax m r = m := by unfold nextMax; rw [if_neg (by simp [hl])]
      rw [e, List.filter_cons_of_neg (by simp [hl])]
    · rw [List.filter_cons, if_pos (decide_eq_true hl)]
      have e : (nextMax m r).toNat = max m.toNat r.seq.toNat := by
        unfold nextMax
        by_cases hm : m < r.seq
        · rw [if_pos ⟨hm, hl⟩]; rw [BitVec.lt_def] at hm; omega
        · rw [if_neg (by simp [hm])]; rw [BitVec.lt_def] at hm; omega
      rw [e]; rfl

/-- What is left in the buffer, filled up to a block. -/
theorem flush_rest (s : DoData) (pend : List DataRec) (rc : Ready s.c)
    (hpd : ∀ r ∈ pend, Props.Stamp r.send ∧ Props.Stamp r.recv) (hp : pend.length = s.inbuf) (hi : s.inbuf < 16)
    (hg : get s.c.msg 0 (25 * s.inbuf) = flat pend) :
    ∃ m, m.length = 400 ∧ flushRest s = (some (), s.c.sentText (padded (flat pend)) m) := by
  have hl := flat_length pend hpd
  unfold flushRest
  by_cases h0 : s.inbuf = 0
  · rw [if_neg (by simp [h0])]
    have : pend = [] := List.length_eq_zero_iff.1 (by omega)
    subst this
    refine ⟨s.c.msg, rc.2.1, ?_⟩
    show _ = (some (), s.c.sentText [] s.c.msg)
    rw [sentText_nil _ rc.1]
  · rw [if_pos h0, Nat.mul_comm s.inbuf 25, hg]
    have hz : flat pend ++ zeros ((25 * s.inbuf / 16 + 1) * 16 - 25 * s.inbuf) = padded (flat pend) := by
      unfold padded
      rw [hl, hp]
      congr 2
      have : 25 * s.inbuf % 16 ≠ 0 := by omega
      omega
    rw [hz]
    have hpl : (padded (flat pend)).length = 16 * (25 * s.inbuf / 16 + 1) := by
      rw [← hz, List.length_append, zeros_length, hl, hp]
      omega
    obtain ⟨m, hm, e⟩ := send_text s.c rc _ _ hpl (by omega)
    exact ⟨m, hm, by rw [e]⟩

/-! ## What passes between the two ends -/

/-- The server goes from `A` to `A'` by sending `w`. -/
structure Carried (A A' : Conn) (w : Bytes) : Prop where
  out : A'.out = A.out ++ w
  inp : A'.inp = A.inp
  ready : Ready A'
  state : A'.state = A.state
  twoway : A'.twoway = A.twoway

/-- The client reads `w` with `rd` and gets `v`. -/
def Heard {β : Type} (A A' : Conn) (w : Bytes) (rd : Conn → Option β × Conn) (v : β) : Prop :=
  ∀ B rest, Ready B → Linked A B → B.inp = w ++ rest →
    ∃ B', rd B = (some v, B') ∧ B'.inp = rest ∧ B'.out = B.out ∧ Ready B' ∧ B'.state = B.state ∧ B'.twoway = B.twoway ∧
      Linked A' B'

theorem carried_text (A : Conn) (rA : Ready A) (p m : Bytes) (hm : m.length = 400) : Carried A (A.sentText p m) (A.wr p) :=
  ⟨rfl, rfl, ready_sentText A rA p m hm, rfl, rfl⟩

theorem Carried.trans {A A' A'' : Conn} {w w' : Bytes} (h : Carried A A' w) (h' : Carried A' A'' w') :
    Carried A A'' (w ++ w') :=
  ⟨by rw [h'.out, h.out, List.append_assoc], h'.inp.trans h.inp, h'.ready, h'.state.trans h.state, h'.twoway.trans h.twoway⟩

/-- A digest travels. -/
theorem tag_travels (H : Mac) (A : Conn) (rA : Ready A) :
    ∃ A' w, sendTag H A = (some (), A') ∧ w.length = 16 ∧ Carried A A' w ∧ Heard A A' w (readTag H) () := by
  obtain ⟨m, hm, e⟩ := send_tag H A rA
  refine ⟨_, A.wr (tag H A []), e, wr_length A _ 1 (tag_length H A []), ⟨rfl, rfl, ready_sentTag A rA _ _ hm, rfl, rfl⟩, ?_⟩
  intro B rest rB L hi
  obtain ⟨m', hm', e'⟩ := read_tag H A B rA rB L rest hi
  exact ⟨_, e', rfl, rfl, ready_gotTag B rB _ _ _ hm', rfl, rfl, linked_tag A B L _ _ _ _⟩

theorem skips_heard (A : Conn) (rA : Ready A) (sk m : Bytes) :
    Heard A (A.sentText (padded sk) m) (A.wr (padded sk)) (readSkipBytes · sk.length) sk := by
  intro B rest rB L hi
  obtain ⟨m', hm', e'⟩ := read_skips sk.length sk (Nat.le_refl _) A B rest rA rB L hi
  exact ⟨_, e', rfl, rfl, ready_gotText B rB _ _ _ hm', rfl, rfl, linked_text A B L _ _ _ _⟩

theorem records_heard (A : Conn) (rA : Ready A) (bs m : Bytes) (n : Nat) (hb : bs.length = 25 * n) :
    Heard A (A.sentText (padded bs) m) (A.wr (padded bs)) (readRecords · n) bs := by
  intro B rest rB L hi
  obtain ⟨m', hm', e'⟩ := read_records n bs hb A B rest rA rB L hi
  exact ⟨_, e', rfl, rfl, ready_gotText B rB _ _ _ hm', rfl, rfl, linked_text A B L _ _ _ _⟩

/-! ## A stored session -/

/-- What the server finds in the header of a stored session, with the records counted. -/
structure Found (f : Bytes) (p : Init) (h : HdrIn) (fin : Bool) (next : U32) (skips : List Skip) (rs : List DataRec) : Prop where
  version : p.version = 3
  recSize : p.recSize = 25
  finished : p.finished = if fin then 1 else 2
  nextIs : p.next = next
  nskip : p.nskip = BitVec.ofNat 32 skips.length
  ndata : p.ndata.toNat = rs.length
  osetData : p.osetData = (headerEnd h.spec.slots.length : Nat)
  osetSkip : p.osetSkip = if fin then ((headerEnd h.spec.slots.length + 25 * rs.length : Nat) : Int) else 0
  pieces : ∃ fixed tail, fixed.length = 40 ∧ f = fixed ++ requestPart h.args h.sid ++ flat rs ++ tail ∧
    (fin = true → tail = (skips.map encodeSkip).flatten) ∧ (fin = false → skips = [])

theorem headerEnd_lt (h : HdrIn) (hs : Storable h) : headerEnd h.spec.slots.length < 2 ^ 33 := by
  have := hs.few
  unfold headerEnd
  omega

theorem stored_header (E : Env) (first last : U32) (f : Bytes) (h : HdrIn) (fin : Bool) (next : U32) (skips : List Skip)
    (rs : List DataRec) (hst : Stored f h fin next skips rs) (hf : ∀ n, E.file n = f) (hl : ∀ n, E.lock n = .got)
    (hfull : first = 0 ∧ last = 0xFFFFFFFF#32 → fin = true) :
    ∃ p, header E first last 0 0 0 = .ok (f, p) ∧ Found f p h fin next skips rs := by
  obtain ⟨nd, os, tail, hfe, h1, h2⟩ := hst.file
  have hHl := headerEnd_lt h hst.header
  have hrl := requestPart_length h hst.header
  have hfl := flat_length rs hst.records
  obtain ⟨H, hH⟩ : ∃ H, H = headerEnd h.spec.slots.length := ⟨_, rfl⟩
  rw [← hH] at hfe h1 hHl
  have hHn : (BitVec.ofNat 64 H).toNat = H := by rw [BitVec.toNat_ofNat]; exact Nat.mod_eq_of_lt (by omega)
  have hosl : os.toNat < 2 ^ 63 := by
    cases fin with
    | true => rw [(h1 rfl).2.2]; have := hst.nrecs; omega
    | false => rw [(h2 rfl).2.1]; decide
  have hlen : f.length = H + 25 * rs.length + tail.length := by
    rw [hfe]
    simp only [List.length_append, fixedLayout_length, hrl]
    have : ((rs.map Props.recLayout).flatten).length = 25 * rs.length := hfl
    rw [this, hH]
    unfold headerEnd; omega
  have hri := readInitial_fixed 3 (if fin then 1 else 2) next (BitVec.ofNat 32 skips.length) nd os (BitVec.ofNat 64 H)
    (requestPart h.args h.sid ++ (rs.map Props.recLayout).flatten ++ tail) (Or.inl rfl) hosl (by rw [hHn]; omega)
  rw [hHn] at hri
  have hfe' : f = fixedLayout 3 (if fin then 1 else 2) next (BitVec.ofNat 32 skips.length) nd os (BitVec.ofNat 64 H) ++
      (requestPart h.args h.sid ++ (rs.map Props.recLayout).flatten ++ tail) := by
    rw [hfe]; simp only [List.append_assoc]
  rw [← hfe'] at hri
  have hpieces : ∃ fixed tail, fixed.length = 40 ∧ f = fixed ++ requestPart h.args h.sid ++ flat rs ++ tail ∧
      (fin = true → tail = (skips.map encodeSkip).flatten) ∧ (fin = false → skips = []) :=
    ⟨_, tail, fixedLayout_length 3 (if fin then 1 else 2) next (BitVec.ofNat 32 skips.length) nd os (BitVec.ofNat 64 H), hfe,
      fun e => (h1 e).2.1, fun e => (h2 e).1⟩
  obtain ⟨q, hq⟩ : ∃ q : Init, q =
      { version := (3#32 : U32).toNat, recSize := if (3#32 : U32) = 3#32 then 25 else 50
        finished := finishedType (if fin then 1 else 2 : U32).toNat, next := next, nskip := BitVec.ofNat 32 skips.length
        ndata := nd, osetSkip := (os.toNat : Int), osetData := (H : Int), hdrLen := (H : Int) } := ⟨_, rfl⟩
  have hri' : readInitial f = some q := hri.trans (congrArg some hq.symm)
  clear hri
  have hqv : q.version = 3 := by rw [hq]; rfl
  have hqf : q.finished = if fin then 1 else 2 := by rw [hq]; cases fin <;> rfl
  cases fin with
  | true =>
    obtain ⟨a, b, c⟩ := h1 rfl
    refine ⟨q, ?_, ?_⟩
    · rw [header, hf 0, hri']
      simp only
      rw [if_neg (by rw [hqv]; decide), if_neg (by rw [hqf]; decide), if_pos (by rw [hqf]; decide)]
    · subst hq
      exact ⟨rfl, rfl, rfl, rfl, rfl, a, by rw [hH], by rw [c, hH]; rfl, hpieces⟩
  | false =>
    obtain ⟨a, b, c⟩ := h2 rfl
    refine ⟨{ q with ndata := countRecs f q }, ?_, ?_⟩
    · rw [header, hf 0, hri']
      simp only
      rw [if_neg (by rw [hqv]; decide), if_neg (by rw [hqf]; decide), if_neg (by rw [hqf]; decide), hl 0]
      simp only
      rw [hf 1, hri']
      simp only
      rw [if_neg (by intro hc; exact absurd (hfull ⟨hc.1, hc.2.1⟩) (by decide))]
    · refine ⟨by rw [hq]; rfl, by rw [hq]; rfl, by rw [hq]; rfl, by rw [hq], by rw [hq], ?_, by rw [hq, hH], by rw [hq, b]; rfl,
        hpieces⟩
      show (countRecs f q).toNat = _
      unfold countRecs
      rw [hq]
      dsimp only
      by_cases hz : nd = 0
      · rw [if_pos hz, hlen]
        show (BitVec.ofInt 32 (Int.tdiv ((H + 25 * rs.length + tail.length : Nat) - (H : Nat)) ((25 : Nat) : Int))).toNat = _
        rw [nat_tdiv _ _ _ (by omega), ofInt_nat, BitVec.toNat_ofNat]
        have ht : tail.length < 25 := by
          rcases c with c | c
          · exact c.2
          · exact absurd hz c.1
        rw [show (H + 25 * rs.length + tail.length - H) / 25 = rs.length by omega]
        exact Nat.mod_eq_of_lt hst.nrecs
      · rw [if_neg hz]
        rcases c with c | c
        · exact absurd c.1 hz
        · exact c.2

theorem inRange_all (rs : List DataRec) : inRange 0 0xFFFFFFFF#32 rs = rs := by
  unfold inRange
  rw [List.filter_eq_self]
  intro r _
  have := r.seq.isLt
  exact decide_eq_true ⟨Nat.zero_le _, by show r.seq.toNat ≤ 4294967295; omega⟩

theorem inRange_length_le (first last : U32) (rs : List DataRec) : (inRange first last rs).length ≤ rs.length :=
  List.length_filter_le _ _

theorem parse_at (f fixed tail : Bytes) (p : Init) (h : HdrIn) (hs : Storable h) (rs : List DataRec)
    (hd : ∀ r ∈ rs, Props.Stamp r.send ∧ Props.Stamp r.recv) (hv : p.version = 3)
    (ho : p.osetData = (headerEnd h.spec.slots.length : Nat)) (hn : p.ndata.toNat = rs.length) (hl : fixed.length = 40)
    (he : f = fixed ++ requestPart h.args h.sid ++ flat rs ++ tail) (s : DoData) :
    parse f p s = feed doRecord rs s := by
  unfold parse
  rw [ho, if_neg (by omega), hv, hn]
  unfold parseRecords
  rw [if_neg (by decide), if_pos rfl]
  have hpre : (fixed ++ requestPart h.args h.sid).length = ((headerEnd h.spec.slots.length : Nat) : Int).toNat := by
    rw [List.length_append, hl, requestPart_length h hs]
    show 40 + (128 + 16 * h.spec.slots.length) = headerEnd h.spec.slots.length
    unfold headerEnd; omega
  rw [← hpre]
  have := parseLoop_feed 25 (decodeDataRec 3) doRecord Props.recLayout rs (fun r hr => by
    have := Props.C12_record_partial r (hd r hr).1 (hd r hr).2
    exact ⟨this.2.1, this.2.2⟩) f (fixed ++ requestPart h.args h.sid) tail rs.length s he (Nat.le_refl _)
  rw [this, List.take_length]

theorem parse_found (f : Bytes) (p : Init) (h : HdrIn) (fin : Bool) (next : U32) (skips : List Skip) (rs : List DataRec)
    (hst : Stored f h fin next skips rs) (hf : Found f p h fin next skips rs) (s : DoData) :
    parse f p s = feed doRecord rs s := by
  obtain ⟨fixed, tail, hl, he, _, _⟩ := hf.pieces
  exact parse_at f fixed tail p h hst.header rs hst.records hf.version hf.osetData hf.ndata hl he s

theorem lastArrived_lt (rs : List DataRec) : (maxAfter 0 rs).toNat = lastArrived rs := max_after rs 0

theorem plan_found (c : Conn) (first last : U32) (f : Bytes) (p : Init) (h : HdrIn) (fin : Bool) (next : U32)
    (skips : List Skip) (rs : List DataRec) (hst : Stored f h fin next skips rs) (hf : Found f p h fin next skips rs) :
    ∃ s, plan c first last f p =
        some ⟨f, p, s, BitVec.ofNat 32 (inRange first (lastSent fin last rs) rs).length⟩ ∧
      s.first = first ∧ s.last = lastSent fin last rs ∧ s.inbuf = 0 ∧ s.count = 0 := by
  unfold plan
  dsimp only
  by_cases hfull : p.finished = 1 ∧ first = 0 ∧ last = 0xFFFFFFFF#32
  · rw [if_pos hfull]
    obtain ⟨h1, h2, h3⟩ := hfull
    have hfin : fin = true := by
      cases fin with
      | true => rfl
      | false => rw [hf.finished] at h1; exact absurd h1 (by decide)
    have hl : lastSent fin last rs = last := by unfold lastSent; rw [hfin]; rfl
    have : p.ndata = BitVec.ofNat 32 rs.length := by rw [← hf.ndata, BitVec.ofNat_toNat, BitVec.setWidth_eq]
    rw [hl, this, show inRange first last rs = rs by rw [h2, h3]; exact inRange_all rs]
    refine ⟨_, rfl, ?_, ?_, ?_, ?_⟩ <;> rfl
  · rw [if_neg hfull]
    rw [parse_found f p h fin next skips rs hst hf, feed_count rs _ rfl]
    simp only [Nat.zero_add]
    by_cases hcut : p.finished ≠ 1 ∧ maxAfter 0 rs < last
    · rw [if_pos hcut, parse_found f p h fin next skips rs hst hf, feed_count rs _ rfl]
      have hfin : fin = false := by
        cases fin with
        | false => rfl
        | true => exact absurd hf.finished hcut.1
      have hl : lastSent fin last rs = maxAfter 0 rs := by
        unfold lastSent
        rw [hfin, if_neg (by decide)]
        have hlt := hcut.2
        rw [BitVec.lt_def, lastArrived_lt] at hlt
        rw [Nat.min_eq_right (Nat.le_of_lt hlt), ← lastArrived_lt, BitVec.ofNat_toNat, BitVec.setWidth_eq]
      simp only [Nat.zero_add]
      rw [hl]
      refine ⟨_, rfl, ?_, ?_, ?_, ?_⟩ <;> rfl
    · rw [if_neg hcut]
      have hl : lastSent fin last rs = last := by
        unfold lastSent
        cases fin with
        | true => rfl
        | false =>
          rw [if_neg (by decide)]
          have h2 : ¬ maxAfter 0 rs < last := fun hh => hcut ⟨by rw [hf.finished]; decide, hh⟩
          rw [BitVec.lt_def, lastArrived_lt] at h2
          rw [Nat.min_eq_left (by omega), BitVec.ofNat_toNat, BitVec.setWidth_eq]
      rw [hl]
      refine ⟨_, rfl, ?_, ?_, ?_, ?_⟩ <;> rfl

/-! ## The parts of the answer -/

/-- The skip ranges that travel: the size is a 32 bit product. -/
def skipBytes (skips : List Skip) : Bytes := ((skips.map encodeSkip).flatten).take ((8 * skips.length) % 2 ^ 32)

theorem skipText_length (skips : List Skip) : ((skips.map encodeSkip).flatten).length = 8 * skips.length :=
  flatten_map_length encodeSkip 8 skips (fun s _ => encodeSkip_length s)

theorem skipBytes_length (skips : List Skip) : (skipBytes skips).length = (8 * skips.length) % 2 ^ 32 := by
  unfold skipBytes
  rw [List.length_take, skipText_length]
  exact Nat.min_eq_left (Nat.mod_le _ _)

/-- The skip ranges and their digest travel. -/
theorem skips_travel (H : Mac) (A : Conn) (rA : Ready A) (f : Bytes) (p : Init) (h : HdrIn) (fin : Bool) (next : U32)
    (skips : List Skip) (rs : List DataRec) (hst : Stored f h fin next skips rs) (hf : Found f p h fin next skips rs) :
    ∃ A' A'' w w', sendSkips H A f p = (some (), A'') ∧ w.length = 16 * (((8 * skips.length) % 2 ^ 32 + 15) / 16) ∧
      w'.length = 16 ∧ Carried A A' w ∧ Carried A' A'' w' ∧
      Heard A A' w (readSkipBytes · ((8 * skips.length) % 2 ^ 32)) (skipBytes skips) ∧ Heard A' A'' w' (readTag H) () := by
  have hlen := skipBytes_length skips
  by_cases hz : skips = []
  · obtain ⟨A'', w, e, hwl, c, hh⟩ := tag_travels H A rA
    refine ⟨A, A'', [], w, ?_, by rw [hz]; rfl, hwl, ⟨by simp, rfl, rA, rfl, rfl⟩, c, ?_, hh⟩
    · unfold sendSkips
      rw [hf.nskip, hz, if_neg (by intro hh; exact hh.2 rfl)]
      exact e
    · intro B rest rB L hi
      refine ⟨B, ?_, hi, rfl, rB, rfl, rfl, L⟩
      subst hz
      show readSkipBytes B 0 = (some [], B)
      rw [readSkipBytes]
      rfl
  · have hfin : fin = true := by
      cases fin with
      | true => rfl
      | false => obtain ⟨_, _, _, _, _, h5⟩ := hf.pieces; exact absurd (h5 rfl) hz
    obtain ⟨fixed, tail, hl, he, ht, _⟩ := hf.pieces
    have ht := ht hfin
    have hpos : 0 < skips.length := List.length_pos_iff.2 hz
    have hns : p.nskip.toNat = skips.length := by
      rw [hf.nskip, BitVec.toNat_ofNat]; exact Nat.mod_eq_of_lt hst.nskips
    have hpre : (fixed ++ requestPart h.args h.sid ++ flat rs).length = headerEnd h.spec.slots.length + 25 * rs.length := by
      rw [List.length_append, List.length_append, hl, requestPart_length h hst.header, flat_length rs hst.records]
      unfold headerEnd; omega
    have hos : p.osetSkip = ((headerEnd h.spec.slots.length + 25 * rs.length : Nat) : Int) := by
      rw [hf.osetSkip, hfin]; rfl
    have htl : tail.length = 8 * skips.length := by rw [ht, skipText_length]
    have hg : get f (headerEnd h.spec.slots.length + 25 * rs.length) (skipBytes skips).length = skipBytes skips := by
      rw [he, get_append_right _ _ _ _ (by omega), hpre, Nat.sub_self, ht, hlen]
      unfold skipBytes get
      rw [List.drop_zero]
    have hfl : headerEnd h.spec.slots.length + 25 * rs.length + (skipBytes skips).length ≤ f.length := by
      rw [he, List.length_append, hpre, hlen, htl]
      have := Nat.mod_le (8 * skips.length) (2 ^ 32)
      exact Nat.add_le_add_left this _
    obtain ⟨p', t, c1, e1, m, hm, e2⟩ := copy_padded A rA f (skipBytes skips) _ hg hfl
    have cA := carried_text A rA (padded (skipBytes skips)) m hm
    obtain ⟨A'', w, e, hwl, c, hh⟩ := tag_travels H _ cA.ready
    refine ⟨_, A'', _, w, ?_, hlen ▸ wr_length A _ _ (padded_size _), hwl, cA, c, hlen ▸ skips_heard A rA (skipBytes skips) m, hh⟩
    unfold sendSkips
    rw [if_pos ⟨by rw [hf.finished, hfin]; decide, by intro hh; rw [hh] at hns; simp at hns; omega⟩, hos,
      if_neg (by omega), hns, Nat.mul_comm skips.length 8, ← hlen]
    show (match copyBlocks A f (headerEnd h.spec.slots.length + 25 * rs.length) (skipBytes skips).length with
      | (none, c) => (none, c)
      | (some (pos, tr), c) =>
        match sendRest c f pos tr with
        | (none, c) => (none, c)
        | (some _, c) => sendTag H c) = _
    rw [e1]
    simp only
    rw [e2]
    exact e

/-- The records travel. -/
theorem data_travel (A : Conn) (rA : Ready A) (f : Bytes) (p : Init) (h : HdrIn) (fin : Bool) (next : U32)
    (skips : List Skip) (rs : List DataRec) (hst : Stored f h fin next skips rs) (hf : Found f p h fin next skips rs)
    (s : DoData) (hi : s.inbuf = 0) (hc : s.count = 0) (n : Nat) (hn : n = (inRange s.first s.last rs).length) :
    ∃ A' w, sendData A ⟨f, p, s, BitVec.ofNat 32 n⟩ = (some (), A') ∧ w.length = 16 * ((25 * n + 15) / 16) ∧ Carried A A' w ∧
      Heard A A' w (readRecords · n) (flat (inRange s.first s.last rs)) := by
  have hrng : ∀ r ∈ inRange s.first s.last rs, Props.Stamp r.send ∧ Props.Stamp r.recv :=
    fun r hr => hst.records r (List.mem_filter.1 hr).1
  have hfl := flat_length _ hrng
  have hnl : n < 2 ^ 32 := by
    rw [hn]; exact Nat.lt_of_le_of_lt (inRange_length_le _ _ _) hst.nrecs
  have hnn : (BitVec.ofNat 32 n).toNat = n := by rw [BitVec.toNat_ofNat]; exact Nat.mod_eq_of_lt hnl
  by_cases hz : n = 0
  · refine ⟨A, [], ?_, by rw [hz]; rfl, ⟨by simp, rfl, rA, rfl, rfl⟩, ?_⟩
    · unfold sendData; subst hz; rfl
    · intro B rest rB L hb
      refine ⟨B, ?_, hb, rfl, rB, rfl, rfl, L⟩
      have : inRange s.first s.last rs = [] := by
        apply List.length_eq_zero_iff.1; omega
      rw [this, hz]
      show readRecords B 0 = (some [], B)
      rw [readRecords]
      rfl
  · obtain ⟨s', full, pend, m, k, e1, e2, e3, e4, e5, e6, e7, e8, e9⟩ :=
      feed_send rs { s with c := A, send := true } [] rfl rA hst.records (by simp) hi.symm (by show s.inbuf < 16; omega)
        (by show get A.msg 0 (25 * s.inbuf) = _; rw [hi]; simp [flat, get])
    rw [List.nil_append] at e3
    have hmem : ∀ r ∈ pend, Props.Stamp r.send ∧ Props.Stamp r.recv := fun r hr => hrng r (by
      show r ∈ inRange s.first s.last rs
      have : inRange s.first s.last rs = full ++ pend := e3
      rw [this]; exact List.mem_append_right _ hr)
    have hmem' : ∀ r ∈ full, Props.Stamp r.send ∧ Props.Stamp r.recv := fun r hr => hrng r (by
      show r ∈ inRange s.first s.last rs
      have : inRange s.first s.last rs = full ++ pend := e3
      rw [this]; exact List.mem_append_left _ hr)
    have rs' : Ready s'.c := by rw [e8]; exact ready_sentText A rA _ _ e7
    obtain ⟨m', hm', e10⟩ := flush_rest s' pend rs' hmem e5 e6 (by rw [e8]; exact e9)
    have hff : (flat full).length = 16 * (25 * k) := by rw [flat_length full hmem', e4]; omega
    obtain ⟨j, hj⟩ := padded_length (flat pend)
    have hall : s'.c.sentText (padded (flat pend)) m' = A.sentText (padded (flat (inRange s.first s.last rs))) m' := by
      have : inRange s.first s.last rs = full ++ pend := e3
      rw [this, flat_append, padded_block _ _ _ hff, e8]
      exact sentText_append A _ _ _ _ (25 * k) j hff hj
    refine ⟨_, _, ?_, ?_, carried_text A rA (padded (flat (inRange s.first s.last rs))) m' hm', ?_⟩
    rotate_left
    · rw [wr_length A _ _ (padded_size _), hfl, hn]
    rotate_left
    · unfold sendData
      rw [if_neg (by intro hh; have := congrArg BitVec.toNat hh; rw [hnn] at this; exact hz this)]
      dsimp only
      rw [parse_found f p h fin next skips rs hst hf, e1]
      simp only
      rw [if_neg (by rw [e2, hnn]; show ¬ (s.count + (inRange s.first s.last rs).length ≠ n); omega), e10, hall]
    · exact records_heard A rA _ m' n (by rw [hfl, hn])

/-- What the client makes of the test request of the session. -/
def requestOf (remote : SockAddr) (h : HdrIn) : TestReq :=
  ⟨Spec.Request.seen remote false false h.sender, Spec.Request.seen remote false false h.receiver, h.confSender,
    h.confReceiver, h.sid, h.spec⟩

/-- The test request travels. -/
theorem request_travels (H : Mac) (remote loc : SockAddr) (A : Conn) (rA : Ready A) (f : Bytes) (p : Init) (h : HdrIn)
    (fin : Bool) (next : U32) (skips : List Skip) (rs : List DataRec) (hst : Stored f h fin next skips rs)
    (hf : Found f p h fin next skips rs) (hs1 : Spec.Request.scopeKnown remote false h.sender)
    (hs2 : Spec.Request.scopeKnown remote false h.receiver) :
    ∃ A' w, sendRequest H A f p = (some (), A') ∧ w.length = 112 + 16 * h.spec.slots.length + 16 ∧ Carried A A' w ∧
      ∀ B rest, Ready B → Linked A B → B.twoway = false → B.state.testRequest = true → B.inp = w ++ rest →
        ∃ B', readTestRequest H false remote loc B = (some (requestOf remote h), .accept, B') ∧ B'.inp = rest ∧
          B'.out = B.out ∧ Ready B' ∧ B'.twoway = false ∧
          B'.state = { B.state with testRequest := false, testRequestSlots := false, fetching := true } ∧ Linked A' B' := by
  have hS := hst.header
  have hone := hst.oneway
  have hargs : h.args.confSender = h.confSender := by simp [HdrIn.args, hone]
  obtain ⟨fixed, tail, hl, he, _, _⟩ := hf.pieces
  obtain ⟨body, hbody⟩ : ∃ body, body = Spec.Channel.requestLayout false h.args h.sid := ⟨_, rfl⟩
  obtain ⟨slots, hslots⟩ : ∃ slots, slots = Spec.Request.slotsText h.spec.slots := ⟨_, rfl⟩
  have hbl : body.length = 96 := by rw [hbody]; exact requestLayout_length false h.args h.sid hS.sid hS.family
  have hsl : slots.length = 16 * h.spec.slots.length := by rw [hslots]; exact slotsText_length _ hS.known
  have hep : f = fixed ++ (body ++ zeros 16) ++ (slots ++ (zeros 16 ++ (flat rs ++ tail))) := by
    rw [he, hbody, hslots]; simp only [requestPart, List.append_assoc]; rfl
  have hrl := flat_length rs hst.records
  have hr1 : rd f 40 112 = some (body ++ zeros 16) := by
    rw [rd_ok _ _ _ (by rw [hep]; simp only [List.length_append, zeros_length, hbl, hl]; omega)]
    · rw [hep, List.append_assoc, get_append_right _ _ _ _ (by omega), hl, Nat.sub_self,
        get_zero_append _ _ _ (by simp only [List.length_append, zeros_length, hbl])]
  obtain ⟨m, hm⟩ : ∃ m, m = put A.msg 0 (body ++ zeros 16) := ⟨_, rfl⟩
  have hml : m.length = 400 := by
    rw [hm, put_length _ _ _ (by simp only [List.length_append, zeros_length, hbl]; have := rA.2.1; omega)]; exact rA.2.1
  have hmb : get m 0 (16 * 6) = body := by
    rw [hm, get_put_inside _ _ _ _ _ (by omega) (by simp only [List.length_append, zeros_length, hbl]; omega)
      (by have := rA.2.1; omega), Nat.sub_zero,
      get_zero_append _ _ _ hbl.symm]
  obtain ⟨s1, s2, s3⟩ := send_msg H A rA m body 6 (by omega) hml hmb
  have htr : (trSize p).toNat = 16 * h.spec.slots.length + 16 := by
    unfold trSize
    dsimp only
    rw [hf.osetData, hf.osetSkip]
    have hE : headerEnd h.spec.slots.length = 168 + 16 * h.spec.slots.length := by unfold headerEnd; omega
    rw [hE]
    cases fin with
    | true =>
      simp only [if_true]
      rw [if_pos (by omega), if_pos (by omega)]
      omega
    | false =>
      simp only [Bool.false_eq_true, if_false, ne_eq, not_true_eq_false]
      rw [if_pos (by omega)]
      omega
  have hfx : (fixed ++ (body ++ zeros 16)).length = 152 := by
    simp only [List.length_append, zeros_length, hbl, hl]
  obtain ⟨m2, hm2, e2⟩ := copy_blocks h.spec.slots.length (A.sentMsg H m 6) f slots 152 16 s3 hsl
    (by rw [hep, get_append_right _ _ _ _ (by omega), hfx, Nat.sub_self, get_zero_append _ _ _ hsl.symm])
    (by rw [hep, List.length_append, hfx, List.length_append, hsl]; omega) (by omega) (by omega)
  have c1 : Carried A (A.sentMsg H m 6) (sealed A (plain H A body)) := ⟨s2, rfl, s3, rfl, rfl⟩
  have c2 := carried_text (A.sentMsg H m 6) s3 slots m2 hm2
  obtain ⟨A3, w3, e3, hw3l, c3, h3⟩ := tag_travels H _ c2.ready
  refine ⟨A3, _, ?_, ?_, (c1.trans c2).trans c3, ?_⟩
  · unfold sendRequest
    rw [hr1]
    simp only
    rw [← hm, s1]
    simp only
    rw [htr, e2]
    exact e3
  · have hpl := plain_length H A body 6 hbl
    rw [List.length_append, List.length_append, hw3l, wr_length _ _ _ hsl, sealed_eq A _ 7 hpl,
      show (wire A.cipher A.aesKey A.writeIV (plain H A body)).length = 16 * 7 from wr_length A _ 7 hpl]
  · intro B rest rB L hw ht hi
    rw [List.append_assoc, List.append_assoc] at hi
    have hb16 : body.length = 16 * (5 + 1) := hbl
    obtain ⟨rest1, r1, r2⟩ := recv_first H A B rA rB L.1 body ((A.sentMsg H m 6).wr slots ++ (w3 ++ rest)) 5 hb16 hi
    obtain ⟨_, g2, g3, g4, g5⟩ := recv_msg H A B rA rB L m body ((A.sentMsg H m 6).wr slots ++ (w3 ++ rest)) 6 (by omega) hml hmb hi
    obtain ⟨B2, hB2⟩ : ∃ B2, B2 = (B.got 0 (plain H A body) ((A.sentMsg H m 6).wr slots ++ (w3 ++ rest))).checked := ⟨_, rfl⟩
    have hst2 : B2.state = B.state := by rw [hB2]; rfl
    have htw2 : B2.twoway = false := by rw [hB2]; exact hw
    have hin2 : B2.inp = (A.sentMsg H m 6).wr slots ++ (w3 ++ rest) := by rw [hB2]; rfl
    have hout2 : B2.out = B.out := by rw [hB2]; rfl
    rw [← hB2] at g2 g3 g4 g5
    obtain ⟨B3, hB3⟩ : ∃ B3, B3 = B2.setState { B2.state with testRequest := false, testRequestSlots := true } := ⟨_, rfl⟩
    have rB3 : Ready B3 := by rw [hB3]; exact g3
    have L3 : Linked (A.sentMsg H m 6) B3 := by rw [hB3]; exact g4
    have hin3 : B3.inp = (A.sentMsg H m 6).wr (Spec.Request.slotsText h.spec.slots) ++ (w3 ++ rest) := by
      rw [hB3, ← hslots]; exact hin2
    obtain ⟨m4, hm4, hr⟩ := read_slots h.spec.slots (A.sentMsg H m 6) B3 (w3 ++ rest) s3 rB3 L3 hS.known hin3
    rw [← hslots] at hr
    have rB4 := ready_gotText B3 rB3 slots m4 (w3 ++ rest) hm4
    have L4 := linked_text (A.sentMsg H m 6) B3 L3 slots m2 m4 (w3 ++ rest)
    obtain ⟨B5, t1, t2, t3, t4, t5, t6, t7⟩ := h3 _ rest rB4 L4 rfl
    refine ⟨B5.setState { B.state with testRequest := false, testRequestSlots := false, fetching := true }, ?_, t2, ?_, t4,
      ?_, rfl, t7⟩
    · have hcf : false = true ∨ h.args.confSender = true ∨ h.args.confReceiver = true := by
        rcases hS.conf with x | x | x
        · rw [hone] at x; exact absurd x (by decide)
        · exact Or.inr (Or.inl (by rw [hargs]; exact x))
        · exact Or.inr (Or.inr x)
      rw [hbody] at g5
      have hdec : decodePreamble false B2.msg false = _ :=
        (decodePreamble_congr false false _ _ g5).trans (decodePreamble_ok false false h.args h.sid hS.sid hS.family hcf)
      unfold readTestRequest
      simp only [hw, Bool.false_eq_true, if_false, ht, not_true_eq_false]
      rw [r1]
      simp only
      rw [show recvBlocks (B.got 0 (get (plain H A body) 0 16) rest1) 16 6 = _ from r2 _]
      simp only
      rw [show checkMsg H ((B.got 0 (plain H A body) ((A.sentMsg H m 6).wr slots ++ (w3 ++ rest))).setState B.state) 6 =
          (true, B2) from g2]
      simp only [htw2, hdec, Bool.false_and, and_false, if_false, Bool.false_eq_true]
      rw [show setLLScope remote (bare h.args.zeroAddr false h.args.sender) = _ from
          Props.setLLScope_bare remote h.sender false false hs1]
      simp only
      rw [show setLLScope remote (bare h.args.zeroAddr false h.args.receiver) = _ from
          Props.setLLScope_bare remote h.receiver false false hs2]
      simp only
      rw [← hB3]
      have hw3 : B3.twoway = false := by rw [hB3]; exact htw2
      simp only [hw3, Bool.false_eq_true, if_false]
      unfold Ctl.readSlots
      have hs3 : B3.state.testRequestSlots = true := by rw [hB3]; rfl
      have hnat : (BitVec.ofNat 32 h.args.spec.slots.length).toNat = h.spec.slots.length := by
        rw [BitVec.toNat_ofNat]; exact Nat.mod_eq_of_lt (by have := hS.few; show h.spec.slots.length < 2 ^ 32; omega)
      simp only [hs3, not_true_eq_false, if_false, hnat]
      rw [hr]
      simp only
      unfold readTag at t1
      cases hrb : recvBlocks (B3.gotText slots m4 (w3 ++ rest)) 0 1 with
      | mk res cc =>
        rw [hrb] at t1
        cases res with
        | done =>
          simp only at t1 ⊢
          cases hck : recvCheck H cc (get cc.msg 0 16) with
          | mk ok c5 =>
            rw [hck] at t1
            cases ok with
            | false => simp at t1
            | true =>
              simp only [Prod.mk.injEq] at t1 ⊢
              rw [t1.2]
              refine ⟨?_, trivial, ?_⟩
              · unfold requestOf HdrIn.args
                simp [hone]
              · have hs5 : B5.state = { B.state with testRequest := false, testRequestSlots := true } := by
                  rw [t5]; show B3.state = _; rw [hB3]; show { B2.state with testRequest := false, testRequestSlots := true } = _
                  rw [hst2]
                rw [hs5]
                rfl
        | closed => simp at t1
        | intr => simp at t1
        | err => simp at t1
    · show B5.out = _
      rw [t3]; show B3.out = _; rw [hB3]; exact hout2
    · show B5.twoway = _
      rw [t6]; show B3.twoway = _; rw [hB3]; exact htw2

theorem recvBlocks_twoway (c : Conn) (o n : Nat) : (recvBlocks c o n).2.twoway = c.twoway := by
  unfold recvBlocks readN
  split <;> rename_i e <;> (repeat' split at e) <;> simp only [Prod.mk.injEq] at e <;> obtain ⟨_, rfl⟩ := e <;>
    (try split) <;> rfl

theorem writeN_twoway (c : Conn) (b : Bytes) : (writeN c b).2.twoway = c.twoway := by
  unfold writeN; split <;> rfl

theorem sendBlocks_twoway (c : Conn) (b : Bytes) : (sendBlocks c b).2.twoway = c.twoway := by
  unfold sendBlocks sendBuf
  dsimp only
  split
  · exact writeN_twoway _ _
  · exact writeN_twoway _ _

theorem sendMsg_twoway (H : Mac) (c : Conn) (m : Bytes) (k : Nat) : (sendMsg H c m k).2.twoway = c.twoway := by
  unfold sendMsg
  rw [sendBlocks_twoway]
  unfold sendDigest sendHmacAdd
  dsimp only
  repeat' split
  all_goals rfl

theorem checkMsg_twoway (H : Mac) (c : Conn) (k : Nat) : (checkMsg H c k).2.twoway = c.twoway := by
  unfold checkMsg recvCheck recvHmacAdd
  repeat' split
  all_goals rfl

theorem writeFetchSession_twoway (H : Mac) (c c' : Conn) (first last : U32) (sid : Bytes)
    (h : writeFetchSession H c first last sid = (some (), c')) : c'.twoway = c.twoway := by
  unfold writeFetchSession at h
  split at h
  · simp at h
  · split at h
    · simp at h
    · dsimp only at h
      split at h
      · rename_i e
        simp only [Prod.mk.injEq, true_and] at h
        rw [← h]
        have := sendMsg_twoway H c (put (put32 (put32 (put (put8 c.msg 0 4#8) 1 (zeros 7)) 8 first) 12 last) 16 sid) 2
        rw [e] at this
        exact this
      · simp at h

theorem readFetchAck_twoway (H : Mac) (c c' : Conn) (a : FetchAck) (h : readFetchAck H c = (some a, c')) :
    c'.twoway = c.twoway := by
  unfold readFetchAck at h
  split at h
  · simp at h
  · split at h
    · rename_i c1 e
      have h1 : c1.twoway = c.twoway := by have := recvBlocks_twoway c 0 2; rw [e] at this; exact this
      split at h
      · simp at h
      · rename_i c2 e2
        have h2 : c2.twoway = c1.twoway := by have := checkMsg_twoway H c1 1; rw [e2] at this; exact this
        dsimp only at h
        split at h
        · simp at h
        · simp only [Prod.mk.injEq] at h
          rw [← h.2, ← h1, ← h2]
          repeat' split
          all_goals rfl
    · simp at h

theorem writeFetchAck_twoway (H : Mac) (c c' : Conn) (a : FetchAck) (h : writeFetchAck H c a = (some (), c')) :
    c'.twoway = c.twoway := by
  unfold writeFetchAck at h
  split at h
  · simp at h
  · dsimp only at h
    split at h
    · simp at h
    · rename_i e
      have := congrArg (fun x => x.2.twoway) e
      dsimp only at this
      rw [sendMsg_twoway] at this
      simp only [Prod.mk.injEq, true_and] at h
      rw [← h, this]
      split <;> rfl
    · simp at h

theorem readFetchSession_twoway (H : Mac) (c c' : Conn) (a : U32 × U32 × Bytes)
    (h : afterType .fetchSession (readFetchSession H) c = (some a, c')) : c'.twoway = c.twoway := by
  unfold afterType at h
  have h0 : (readRequestType c).2.twoway = c.twoway := by
    unfold readRequestType
    split
    · rfl
    · have h1 := recvBlocks_twoway c 0 1
      split <;> rename_i e <;> rw [e] at h1 <;> rw [← h1]
      · dsimp only
        repeat' split
        all_goals rfl
      all_goals rfl
  cases hr : readRequestType c with
  | mk t c0 =>
    rw [hr] at h h0
    simp only at h h0
    split at h
    · rw [← h0]
      unfold readFetchSession at h
      split at h
      · simp at h
      · split at h
        · simp at h
        · split at h
          · simp at h
          · rename_i c1 e
            have h1 : c1.twoway = c0.twoway := by have := recvBlocks_twoway c0 16 2; rw [e] at this; exact this
            split at h
            · simp at h
            · rename_i c2 e2
              have h2 : c2.twoway = c1.twoway := by have := checkMsg_twoway H c1 2; rw [e2] at this; exact this
              split at h
              · simp at h
              · simp only [Prod.mk.injEq] at h
                rw [← h.2, ← h1, ← h2]
                rfl
          · simp at h
    · simp at h

/-- The acknowledgement of a session that is sent. -/
def ackOf (fin : Bool) (next : U32) (skips : List Skip) (n : Nat) : FetchAck :=
  { accept := .accept, finished := if fin then 1#8 else 2#8, nextSeq := next, nskips := BitVec.ofNat 32 skips.length
    nrecs := BitVec.ofNat 32 n }

/-- The file that the client writes. -/
def fetchedFile (remote : SockAddr) (h : HdrIn) (fin : Bool) (next : U32) (skips : List Skip) (ws : List DataRec) : Bytes :=
  (hdrOf (ackOf fin next skips ws.length) (requestOf remote h)).fixed ++
    requestPart (hdrOf (ackOf fin next skips ws.length) (requestOf remote h)).args h.sid ++ skipBytes skips ++ flat ws

theorem seen_family (remote a b : SockAddr) (h : Spec.Request.sameFamily a b) :
    Spec.Request.sameFamily (Spec.Request.seen remote false false a) (Spec.Request.seen remote false false b) := by
  cases a <;> cases b <;> exact h

theorem storable_fetched (remote : SockAddr) (h : HdrIn) (hs : Storable h) (hone : h.twoway = false) (a : FetchAck) :
    Storable (hdrOf a (requestOf remote h)) :=
  ⟨seen_family remote _ _ hs.family, hs.sid,
    by rcases hs.conf with x | x | x
       · rw [hone] at x; exact absurd x (by decide)
       · exact Or.inr (Or.inl x)
       · exact Or.inr (Or.inr x),
    hs.packets, hs.slots, hs.known, hs.few⟩

/-- After the test request. -/
theorem body_read (H : Mac) (remote : SockAddr) (junk : Bytes) (hj : junk.length = 112) (h : HdrIn) (hS : Storable h)
    (hone : h.twoway = false) (fin : Bool) (next : U32) (skips : List Skip) (hk : skips.length < 2 ^ 32)
    (ws : List DataRec) (hws : ws.length < 2 ^ 32) (A A1 A2 A3 A4 : Conn) (w1 w2 w3 w4 : Bytes)
    (h1 : Heard A A1 w1 (readSkipBytes · ((8 * skips.length) % 2 ^ 32)) (skipBytes skips))
    (h2 : Heard A1 A2 w2 (readTag H) ()) (h3 : Heard A2 A3 w3 (readRecords · ws.length) (flat ws))
    (h4 : Heard A3 A4 w4 (readTag H) ()) (B : Conn) (rest : Bytes) (rB : Ready B) (L : Linked A B)
    (hi : B.inp = w1 ++ (w2 ++ (w3 ++ (w4 ++ rest)))) :
    ∃ B', readBody H junk B (ackOf fin next skips ws.length) (requestOf remote h) =
        (.fetched (BitVec.ofNat 32 ws.length) (fetchedFile remote h fin next skips ws), B') ∧
      B'.inp = rest ∧ B'.out = B.out ∧ Ready B' ∧ B'.state = { B.state with fetching := false, request := true } ∧
      B'.twoway = B.twoway ∧ Linked A4 B' := by
  obtain ⟨B1, a1, b1, c1, d1, e1, f1, g1⟩ := h1 B _ rB L hi
  obtain ⟨B2, a2, b2, c2, d2, e2, f2, g2⟩ := h2 B1 _ d1 g1 b1
  obtain ⟨B3, a3, b3, c3, d3, e3, f3, g3⟩ := h3 B2 _ d2 g2 b2
  obtain ⟨B4, a4, b4, c4, d4, e4, f4, g4⟩ := h4 B3 _ d3 g3 b3
  dsimp only at a1 a3
  refine ⟨B4.setState { B.state with fetching := false, request := true }, ?_, b4, ?_, d4, rfl,
    f4.trans (f3.trans (f2.trans f1)), g4⟩
  · have k1 : ((ackOf fin next skips ws.length).nskips.toNat * 8) % 2 ^ 32 = (8 * skips.length) % 2 ^ 32 := by
      show ((BitVec.ofNat 32 skips.length).toNat * 8) % 2 ^ 32 = _
      rw [BitVec.toNat_ofNat, Nat.mod_eq_of_lt hk, Nat.mul_comm]
    have k2 : (ackOf fin next skips ws.length).nrecs.toNat = ws.length := by
      show (BitVec.ofNat 32 ws.length).toNat = _
      rw [BitVec.toNat_ofNat, Nat.mod_eq_of_lt hws]
    unfold readBody
    rw [k1, a1]
    simp only
    rw [a2]
    simp only
    rw [k2, a3]
    simp only
    rw [a4]
    simp only
    rw [writeHeader_eq junk _ hj (storable_fetched remote h hS hone _), e4, e3, e2, e1]
    rfl
  · show B4.out = _
    rw [c4, c3, c2, c1]

/-- The answer travels and makes the client's file. -/
theorem answer_travels (H : Mac) (remote loc : SockAddr) (junk : Bytes) (hj : junk.length = 112) (A B : Conn) (rA : Ready A)
    (rB : Ready B) (L : Linked A B) (f : Bytes) (p : Init) (h : HdrIn)
    (fin : Bool) (next : U32) (skips : List Skip) (rs : List DataRec) (hst : Stored f h fin next skips rs)
    (hf : Found f p h fin next skips rs) (hs1 : Spec.Request.scopeKnown remote false h.sender)
    (hs2 : Spec.Request.scopeKnown remote false h.receiver) (hA : A.state.fetchAck = true)
    (hBw : B.twoway = false) (hB : B.state.fetchAck = true)
    (s : DoData) (hi : s.inbuf = 0) (hc : s.count = 0) (ws : List DataRec) (hn : ws = inRange s.first s.last rs) :
    ∃ A' w, answer H A ⟨f, p, s, BitVec.ofNat 32 ws.length⟩ = (some (), A') ∧
      w.length = 16 * (12 + h.spec.slots.length + ((8 * skips.length) % 2 ^ 32 + 15) / 16 + (25 * ws.length + 15) / 16) ∧
      A'.out = A.out ++ w ∧ A'.inp = A.inp ∧
      Ready A' ∧ A'.state = { A.state with fetchAck := false, fetching := false, request := true } ∧ A'.twoway = A.twoway ∧
      ∀ rest, B.inp = w ++ rest →
        ∃ B', readAnswer H remote loc junk B =
            (.fetched (BitVec.ofNat 32 ws.length) (fetchedFile remote h fin next skips ws), B') ∧
          B'.inp = rest ∧ B'.out = B.out ∧ Ready B' ∧
          B'.state = { B.state with fetchAck := false, fetchSession := false, testRequest := false,
                                    testRequestSlots := false, fetching := false, request := true } ∧
          B'.twoway = false ∧ Linked A' B' := by
  have hack : ({ accept := .accept, finished := BitVec.ofNat 8 p.finished, nextSeq := if p.finished ≠ 0 then p.next else 0
                 nskips := if p.finished ≠ 0 then p.nskip else 0, nrecs := BitVec.ofNat 32 ws.length } : FetchAck) =
      ackOf fin next skips ws.length := by
    unfold ackOf
    rw [hf.finished, hf.nextIs, hf.nskip]
    cases fin <;> rfl
  obtain ⟨a, ha⟩ : ∃ a, a = ackOf fin next skips ws.length := ⟨_, rfl⟩
  have hfz : a.finished ≠ 0 := by
    rw [ha]; show (if fin then 1#8 else 2#8) ≠ 0; cases fin <;> decide
  have hacc : a.accept = .accept := by rw [ha]; rfl
  obtain ⟨A1, e1, o1, i1, r1, s1, k1⟩ := Props.C10_fetch_ack H A B rA rB L a (by rw [hacc]; decide) hA hB
  rw [if_neg hfz] at k1 o1
  obtain ⟨A2, w2, e2, l2, c2, k2⟩ := request_travels H remote loc A1 r1 f p h fin next skips rs hst hf hs1 hs2
  obtain ⟨A3, A4, w3, w4, e3, l3, l4, c3, c4, k3, k4⟩ := skips_travel H A2 c2.ready f p h fin next skips rs hst hf
  obtain ⟨A5, w5, e5, l5, c5, k5⟩ := data_travel A4 c4.ready f p h fin next skips rs hst hf s hi hc ws.length (by rw [hn])
  obtain ⟨A6, w6, e6, l6, c6, k6⟩ := tag_travels H A5 c5.ready
  have C := (((c2.trans c3).trans c4).trans c5).trans c6
  have hwl : ws.length < 2 ^ 32 := by
    rw [hn]; exact Nat.lt_of_le_of_lt (inRange_length_le _ _ _) hst.nrecs
  refine ⟨A6.setState { A6.state with fetching := false, request := true },
    sealed A (fetchAckLayout a ++ tag H A (fetchAckLayout a)) ++ (w2 ++ w3 ++ w4 ++ w5 ++ w6), ?_, ?_, ?_, ?_, C.ready, ?_,
    C.twoway.trans (writeFetchAck_twoway H A A1 a e1), ?_⟩
  rotate_left
  · have hal : (fetchAckLayout a ++ tag H A (fetchAckLayout a)).length = 16 * 2 := by
      rw [List.length_append, tag_length]; rfl
    rw [sealed_eq A _ 2 hal]
    simp only [List.length_append]
    rw [show (wire A.cipher A.aesKey A.writeIV (fetchAckLayout a ++ tag H A (fetchAckLayout a))).length = 16 * 2 from
      wr_length A _ 2 hal, l2, l3, l4, l5, l6]
    omega
  · show A6.out = _
    rw [C.out, o1, List.append_assoc]
  · exact C.inp.trans i1
  · show { A6.state with fetching := false, request := true } = _
    rw [C.state, s1]
  · intro rest hin
    rw [List.append_assoc] at hin
    obtain ⟨B1, b1, bi, bo, br, bs, bl⟩ := k1 _ hin
    have hb1w : B1.twoway = false := (readFetchAck_twoway H B B1 a b1).trans hBw
    obtain ⟨B2, b2, ci, co, cr, cw, cs, cl⟩ := k2 B1 (w3 ++ (w4 ++ (w5 ++ (w6 ++ rest)))) br bl hb1w
      (by rw [bs]; simp [hacc, hBw]) (by rw [bi]; simp only [List.append_assoc])
    rw [hn.symm] at k5
    obtain ⟨B3, b3, di, dO, dr, ds, dw, dl⟩ := body_read H remote junk hj h hst.header hst.oneway fin next skips hst.nskips ws hwl
      A2 A3 A4 A5 A6 w3 w4 w5 w6 k3 k4 k5 k6 B2 rest cr cl ci
    refine ⟨B3, ?_, di, ?_, dr, ?_, dw.trans cw, dl⟩
    · unfold readAnswer
      rw [b1]
      simp only
      rw [if_neg (by rw [hacc]; simp), b2]
      simp only
      rw [ha, b3]
    · rw [dO, co, bo]
    · rw [ds, cs, bs, hBw]
      simp [hacc]
  · dsimp only at e1
    unfold answer
    dsimp only
    rw [hack, ← ha, e1]
    simp only
    rw [e2]
    simp only
    rw [e3]
    simp only
    rw [e5]
    simp only
    rw [e6]

/-- The whole conversation: request and answer. -/
theorem serve_travels (H : Mac) (E : Env) (remote loc : SockAddr) (junk : Bytes) (hj : junk.length = 112) (A B : Conn)
    (P : Peers A B) (first last : U32) (sid : Bytes) (hsid : sid.length = 16)
    (f : Bytes) (h : HdrIn) (fin : Bool) (next : U32) (skips : List Skip) (rs : List DataRec)
    (hst : Stored f h fin next skips rs) (hE : Grants E first last sid f)
    (hfull : first = 0 ∧ last = 0xFFFFFFFF#32 → fin = true)
    (hs1 : Spec.Request.scopeKnown remote false h.sender) (hs2 : Spec.Request.scopeKnown remote false h.receiver) :
    Conversation H E remote loc junk first last sid A B
      (12 + h.spec.slots.length + ((8 * skips.length) % 2 ^ 32 + 15) / 16 +
        (25 * (inRange first (lastSent fin last rs) rs).length + 15) / 16)
      (.fetched (BitVec.ofNat 32 (inRange first (lastSent fin last rs) rs).length)
        (fetchedFile remote h fin next skips (inRange first (lastSent fin last rs) rs))) := by
  intro restA hin
  obtain ⟨B1, e1, o1, i1, r1, s1, k1⟩ := Props.C10_fetch_session H B A P.readyB P.readyA P.linked first last sid hsid P.requestB
    P.testB P.onewayB P.requestA P.idleA P.testA P.onewayA
  obtain ⟨A1, f1, j1, p1, q1, t1, l1⟩ := k1 restA hin
  obtain ⟨p, hp, hF⟩ := stored_header E first last f h fin next skips rs hst hE.file hE.lock hfull
  obtain ⟨s, hpl, hs⟩ := plan_found A1 first last f p h fin next skips rs hst hF
  dsimp only at e1
  have hB1w : B1.twoway = false := (writeFetchSession_twoway H B B1 first last sid e1).trans P.onewayB
  have hA1w : A1.twoway = false := (readFetchSession_twoway H A A1 _ f1).trans P.onewayA
  obtain ⟨A2, resp, e2, l2, o2, i2, r2, s2, w2, k2⟩ := answer_travels H remote loc junk hj A1 B1 q1 r1 ⟨l1.2, l1.1⟩ f p h fin
    next skips rs hst hF hs1 hs2 (by rw [t1]) hB1w (by rw [s1]) s hs.2.2.1 hs.2.2.2
    (inRange first (lastSent fin last rs) rs) (by rw [hs.1, hs.2.1])
  refine ⟨A2, resp, ?_, l2, ?_, ?_, ?_⟩
  · unfold afterType at f1 ⊢
    cases hrt : readRequestType A with
    | mk t c =>
      rw [hrt] at f1
      simp only at f1 ⊢
      by_cases ht : t = .fetchSession
      · rw [if_pos ht] at f1 ⊢
        unfold serve
        rw [f1]
        simp only
        rw [hE.policy]
        simp only
        rw [if_pos hE.opens, hp]
        simp only
        rw [hpl]
        exact e2
      · rw [if_neg ht] at f1
        simp at f1
  · rw [o2, p1]
  · rw [i2, j1]
  · intro restB hi
    obtain ⟨B2, b1, b2, b3, b4, b5, b6, b7⟩ := k2 restB (by rw [i1]; exact hi)
    refine ⟨B2, ?_, ?_, b2, ⟨r2, b4, ⟨b7.2, b7.1⟩, ?_, ?_, ?_, w2.trans hA1w, ?_, ?_, b6⟩⟩
    · unfold fetch
      rw [if_neg (by rw [P.onewayB]; decide), e1]
      exact b1
    · rw [b3, o1]; rfl
    · rw [s2]
    · have := P.idleA
      rw [s2, t1]
      simp only [CState.isReading, Bool.or_eq_false_iff] at this ⊢
      exact ⟨⟨⟨this.1.1.1, this.1.1.2⟩, this.1.2⟩, trivial⟩
    · rw [s2, t1]; exact P.testA
    · rw [b5]
    · rw [b5, s1]; exact P.testB

/-- The conversation when the server refuses. -/
theorem refuse_travels (H : Mac) (E : Env) (remote loc : SockAddr) (junk : Bytes) (A B : Conn)
    (P : Peers A B) (first last : U32) (sid : Bytes) (hsid : sid.length = 16)
    (hE : ∀ c : Conn, ∃ a, a ≠ .accept ∧ a ≠ .invalid ∧ ∀ c0 : Conn,
      readFetchSession H c0 = (some (first, last, sid), c) → serve H E c0 = refuse H c a) :
    Conversation H E remote loc junk first last sid A B 2 .refused := by
  intro restA hin
  obtain ⟨B1, e1, o1, i1, r1, s1, k1⟩ := Props.C10_fetch_session H B A P.readyB P.readyA P.linked first last sid hsid P.requestB
    P.testB P.onewayB P.requestA P.idleA P.testA P.onewayA
  obtain ⟨A1, f1, j1, p1, q1, t1, l1⟩ := k1 restA hin
  dsimp only at e1
  have hB1w : B1.twoway = false := (writeFetchSession_twoway H B B1 first last sid e1).trans P.onewayB
  have hA1w : A1.twoway = false := (readFetchSession_twoway H A A1 _ f1).trans P.onewayA
  obtain ⟨a, ha1, ha2, ha3⟩ := hE A1
  obtain ⟨k, hk⟩ : ∃ k : FetchAck, k = { accept := a, finished := 0, nextSeq := 0, nskips := 0, nrecs := 0 } := ⟨_, rfl⟩
  have hka : k.accept = a := by rw [hk]
  obtain ⟨A2, e2, o2, i2, r2, s2, k2⟩ := Props.C10_fetch_ack H A1 B1 q1 r1 ⟨l1.2, l1.1⟩ k (by rw [hka]; exact ha2)
    (by rw [t1]) (by rw [s1])
  have hkz : (if k.finished = 0 then { k with nextSeq := 0, nskips := 0 } else k) = k := by rw [hk]; rfl
  rw [hkz] at o2 k2
  dsimp only at e2
  have hal : (fetchAckLayout k ++ tag H A1 (fetchAckLayout k)).length = 16 * 2 := by
    rw [List.length_append, tag_length]; rfl
  refine ⟨A2, _, ?_, ?_, o2.trans (by rw [p1]), by rw [i2, j1], ?_⟩
  · unfold afterType at f1 ⊢
    cases hrt : readRequestType A with
    | mk t c =>
      rw [hrt] at f1
      simp only at f1 ⊢
      by_cases ht : t = .fetchSession
      · rw [if_pos ht] at f1 ⊢
        rw [ha3 c f1]
        unfold refuse
        rw [← hk, e2]
      · rw [if_neg ht] at f1
        simp at f1
  · rw [sealed_eq A1 _ 2 hal]
    exact wr_length A1 _ 2 hal
  · intro restB hi
    obtain ⟨B2, b1, b2, b3, b4, b5, b6⟩ := k2 restB (by rw [i1]; exact hi)
    have hb2w : B2.twoway = false := (readFetchAck_twoway H B1 B2 k b1).trans hB1w
    have hA2w : A2.twoway = false := (writeFetchAck_twoway H A1 A2 k e2).trans hA1w
    refine ⟨B2, ?_, ?_, b2, ⟨r2, b4, ⟨b6.2, b6.1⟩, ?_, ?_, ?_, hA2w, ?_, ?_, hb2w⟩⟩
    · unfold fetch
      rw [if_neg (by rw [P.onewayB]; decide), e1]
      simp only
      unfold readAnswer
      rw [b1]
      simp only
      rw [if_pos (by rw [hka]; exact ha1)]
    · rw [b3, o1]; rfl
    · rw [s2, hka]; simp [ha1]
    · have := P.idleA
      rw [s2, t1]
      simp only [CState.isReading, Bool.or_eq_false_iff] at this ⊢
      exact ⟨⟨⟨this.1.1.1, this.1.1.2⟩, this.1.2⟩, trivial⟩
    · rw [s2, t1]; exact P.testA
    · rw [b5, hka]; simp [ha1]
    · rw [b5, s1]; exact P.testB

/-! ## The fetched file -/

theorem noScope_seen (remote a : SockAddr) : noScope (Spec.Request.seen remote false false a) = noScope a := by
  cases a <;> rfl

theorem skipLoop_ok (sk : List Skip) : ∀ (f pre rest : Bytes), f = pre ++ (sk.map encodeSkip).flatten ++ rest →
    skipLoop f pre.length sk.length = some sk := by
  induction sk with
  | nil => intro f pre rest _; rfl
  | cons a sk ih =>
    intro f pre rest hf
    have hl := encodeSkip_length a
    have e : f = pre ++ (encodeSkip a ++ ((sk.map encodeSkip).flatten ++ rest)) := by
      rw [hf]; simp only [List.map_cons, List.flatten_cons, List.append_assoc]
    have hg : get f pre.length 8 = encodeSkip a := by
      rw [e, get_append_right _ _ _ _ (Nat.le_refl _), Nat.sub_self, get_zero_append _ _ _ hl.symm]
    have hr := ih f (pre ++ encodeSkip a) rest (by rw [e]; simp only [List.append_assoc])
    rw [List.length_append, hl] at hr
    have hlen : pre.length + 8 ≤ f.length := by rw [e]; simp only [List.length_append]; omega
    rw [List.length_cons, skipLoop, rd_ok _ _ _ hlen, hg]
    simp only [Option.bind_some]
    rw [hr]
    have : decodeSkip (encodeSkip a) = a := by
      unfold decodeSkip encodeSkip get32 put32
      have l1 : (put (zeros 8) 0 (enc32 a.first)).length = 8 := by rw [put_length _ _ _ (by simp)]; simp
      rw [get_put_before _ _ _ _ _ (by omega) (by rw [l1]; simp), get_put_same _ _ _ _ (by simp) (by simp),
        get_put_same _ _ _ _ (by simp) (by rw [l1]; simp), dec_enc32, dec_enc32]
    simp [this]

end Owamp.Fetch
