import Verif.Lemmas.Raw
import Verif.Lemmas.StatsParse
import Verif.Lemmas.TwStatsParse
import Verif.Spec.Verbose
/-! # Lemmas for the lines about single packets -/
namespace Owamp.Verbose
open Owamp.Codec Owamp.Policy Owamp.Print Owamp.Spec.Raw Owamp.Spec.Print Owamp.Spec.Verbose Owamp.Spec.DataFile

/-! ## Lines -/

theorem lines_flatMap {α : Type} (g : α → Bytes) (l : List α) (h : ∀ a ∈ l, ∃ b, g a = b ++ [10#8] ∧ 10#8 ∉ b) :
    linesOf (l.flatMap g) = l.map fun a => (g a).dropLast := by
  unfold linesOf
  have : split 10#8 (l.flatMap g) = (l.map fun a => (g a).dropLast) ++ [[]] := by
    induction l with
    | nil => rfl
    | cons a l ih =>
      obtain ⟨b, e, hb⟩ := h a (by simp)
      rw [List.flatMap_cons, e, List.append_assoc, List.singleton_append, split_piece _ _ _ hb, ih (fun x hx => h x (by simp [hx])), List.map_cons, e]
      simp
  rw [this, List.dropLast_concat]

theorem no_break_text (s : List Char) (h : (text s).all (· != 10#8) = true) : 10#8 ∉ text s := by
  intro m
  have := List.all_eq_true.1 h _ m
  simp at this

theorem no_break_digits (n : Nat) : 10#8 ∉ digits n := (Owamp.Raw.word_of_number _ _ (Owamp.Raw.digits_number n)).2

theorem asInt_small (n : U32) (h : n.toNat < 2 ^ 31) : asInt n = digits n.toNat := by
  unfold asInt signed
  have : n.toInt = (n.toNat : Int) := BitVec.toInt_eq_toNat_of_lt (by omega)
  rw [this, if_neg (by omega)]
  rfl

theorem no_break_asInt (n : U32) : 10#8 ∉ asInt n := (signed_plain _).2

/-- The number, as it is padded, and the blank after it. -/
theorem about_left (n : Nat) (w : Bytes) : About (t ['s','e','q','_','n','o','='] ++ left10 n ++ 32#8 :: w) n w := by
  refine ⟨digits n, List.replicate (10 - (digits n).length) 32#8 ++ [32#8], ?_, Owamp.Raw.digits_number n, by simp, ?_⟩
  · unfold left10; simp
  · intro b hb
    rcases List.mem_append.1 hb with h | h
    · exact (List.mem_replicate.1 h).2
    · exact List.mem_singleton.1 h

theorem about_int (n : U32) (h : n.toNat < 2 ^ 31) (w : Bytes) : About (t ['s','e','q','_','n','o','='] ++ asInt n ++ 32#8 :: w) n.toNat w := by
  refine ⟨digits n.toNat, [32#8], ?_, Owamp.Raw.digits_number _, by simp, by simp⟩
  rw [asInt_small n h]; simp

theorem no_break_left (n : Nat) (w : Bytes) (hw : 10#8 ∉ w) : 10#8 ∉ t ['s','e','q','_','n','o','='] ++ left10 n ++ 32#8 :: w := by
  unfold left10
  simp only [List.mem_append, List.mem_cons, List.mem_replicate, not_or]
  exact ⟨⟨no_break_text _ (by decide), no_break_digits n, fun h => absurd h.2 (by decide)⟩, by decide, hw⟩

theorem no_break_int (n : U32) (w : Bytes) (hw : 10#8 ∉ w) : 10#8 ∉ t ['s','e','q','_','n','o','='] ++ asInt n ++ 32#8 :: w := by
  simp only [List.mem_append, List.mem_cons, not_or]
  exact ⟨⟨no_break_text _ (by decide), no_break_asInt n⟩, by decide, hw⟩

/-! ## One-way sessions -/

/-- The line of a record that counts. -/
def entry (F : Fmt) (unix : Bool) (c : Stats.Cfg) (r : DataRec) : Bytes :=
  if Stats.isLost r then lostLine r.seq else gotLine F unix r (c.delay r.send r.recv)

/-- A line, but for the newline, is the number and what is said. -/
theorem entry_eq (F : Fmt) (unix : Bool) (c : Stats.Cfg) (r : DataRec) :
    entry F unix c r = (if ¬ Spec.Stats.Lost r ∧ (r.send.sync = true ∧ r.recv.sync = true) ∧ unix = true
      then t ['s','e','q','_','n','o','='] ++ asInt r.seq ++ 32#8 :: told F unix c.delay r
      else t ['s','e','q','_','n','o','='] ++ left10 r.seq.toNat ++ 32#8 :: told F unix c.delay r) ++ [10#8] := by
  have sp : ∀ s : List Char, text (' ' :: s) = 32#8 :: text s := fun s => rfl
  unfold entry told
  by_cases hl : Spec.Stats.Lost r
  · rw [if_pos ((Stats.isLost_iff r).2 hl), if_neg (fun h => h.1 hl), if_pos hl]
    unfold lostLine
    simp only [t, sp, List.append_assoc, List.cons_append]
  · rw [if_neg (fun h => hl ((Stats.isLost_iff r).1 h)), if_neg (c := Spec.Stats.Lost r) hl]
    unfold gotLine
    by_cases hs : r.send.sync = true ∧ r.recv.sync = true
    · rw [if_pos (by simp [hs.1, hs.2]), if_pos (c := r.send.sync = true ∧ r.recv.sync = true) hs]
      cases unix with
      | true =>
        rw [if_pos rfl, if_pos ⟨hl, hs, rfl⟩, if_pos rfl]
        simp only [t, sp, List.append_assoc, List.cons_append, Stats.stampError, errorOf]
      | false =>
        rw [if_neg (by decide), if_neg (fun h => by cases h.2.2), if_neg (by decide)]
        simp only [t, sp, List.append_assoc, List.cons_append, Stats.stampError, errorOf]
    · rw [if_neg (by simpa using hs), if_neg (c := r.send.sync = true ∧ r.recv.sync = true) hs, if_neg (fun h => hs h.2.1)]
      simp only [t, sp, List.append_assoc, List.cons_append]

theorem told_no_break (F : Fmt) (hF : NoBreak F) (unix : Bool) (delay : Time.TimeStamp → Time.TimeStamp → Int) (r : DataRec) : 10#8 ∉ told F unix delay r := by
  have T := no_break_text
  unfold told
  split
  · exact T _ (by decide)
  · split
    · split
      · simp only [List.mem_append, not_or]
        exact ⟨⟨⟨⟨⟨⟨⟨⟨⟨⟨⟨T _ (by decide), hF.exact _⟩, T _ (by decide)⟩, hF.unit⟩, T _ (by decide)⟩, hF.err _⟩, T _ (by decide)⟩, hF.unit⟩, T _ (by decide)⟩, hF.unix _⟩, T _ (by decide)⟩, hF.unix _⟩
      · simp only [List.mem_append, not_or]
        exact ⟨⟨⟨⟨⟨⟨⟨⟨⟨T _ (by decide), hF.delay _⟩, T _ (by decide)⟩, hF.unit⟩, by decide⟩, T _ (by decide)⟩, hF.err _⟩, T _ (by decide)⟩, hF.unit⟩, T _ (by decide)⟩
    · simp only [List.mem_append, not_or]
      exact ⟨⟨⟨⟨⟨T _ (by decide), hF.delay _⟩, T _ (by decide)⟩, hF.unit⟩, by decide⟩, T _ (by decide)⟩

theorem entry_line (F : Fmt) (hF : NoBreak F) (unix : Bool) (c : Stats.Cfg) (r : DataRec) (hn : Small unix r.seq) :
    (∃ b, entry F unix c r = b ++ [10#8] ∧ 10#8 ∉ b) ∧ Line F unix c.delay (entry F unix c r).dropLast r := by
  have hb := told_no_break F hF unix c.delay r
  refine ⟨⟨_, entry_eq F unix c r, ?_⟩, ?_⟩
  · split
    · exact no_break_int _ _ hb
    · exact no_break_left _ _ hb
  · rw [entry_eq, List.dropLast_concat]
    unfold Line
    split
    · rename_i h; exact about_int _ (hn h.2.2) _
    · exact about_left _ _

theorem process_fst (F : Fmt) (unix : Bool) (c : Stats.Cfg) (s : Stats.St) (r : DataRec) : (process F unix c s r).1 = Stats.process c s r := by
  unfold process Stats.process
  dsimp only
  split
  · rfl
  · split
    · rename_i h; rw [h]
    · rename_i h; rw [h]; dsimp only
      split
      · rename_i h; rw [h]
      · rename_i h; rw [h]; dsimp only
        split
        · rfl
        · split <;> rfl

/-- A record that is refused prints nothing. -/
theorem process_error (F : Fmt) (unix : Bool) (c : Stats.Cfg) (s : Stats.St) (r : DataRec) (x : Stats.Bad) (h : Stats.process c s r = .error x) :
    (process F unix c s r).2 = [] := by
  rw [← process_fst F unix] at h
  unfold process at h ⊢
  dsimp only at h ⊢
  split
  · rfl
  · rename_i h1
    rw [if_neg h1] at h
    split
    · rfl
    · rename_i h2; rw [h2] at h; dsimp only at h
      split
      · rfl
      · rename_i h3; rw [h3] at h; dsimp only at h
        split
        · rfl
        · rename_i h4
          rw [if_neg h4] at h
          split
          · rename_i h5
            rw [if_pos h5] at h
            dsimp only at h ⊢
            split
            · rfl
            · rename_i h6
              rw [Stats.addLost, if_neg h6] at h
              cases h
          · rename_i h5
            rw [if_neg h5] at h
            dsimp only at h ⊢
            split
            · rfl
            · rename_i h6
              rw [Stats.addGot, if_neg h6] at h
              dsimp only at h
              split at h <;> cases h

/-- A record that is taken prints its line if it counts, and nothing if not. -/
theorem process_ok (F : Fmt) (unix : Bool) (c : Stats.Cfg) (c0 : Sched.Ctx) (ds : List Nat) (b : Nat) (D : List DataRec) (s : Stats.St) (r : DataRec)
    (hw : Stats.Win c c0 ds b s) (hm : Stats.Marks c b D s) (hN : ds.length < 2 ^ 32)
    (s' : Stats.St) (h : Stats.process c s r = .ok s') :
    (process F unix c s r).2 = if Spec.Stats.Within s.first s.last r ∧ ¬ Spec.Stats.Skipped c.skips r.seq.toNat then entry F unix c r else [] := by
  obtain ⟨s1, hs1⟩ : ∃ s1, s1 = Stats.place c s r := ⟨_, rfl⟩
  have hw1 : Stats.Win c c0 ds b s1 := by
    have := hw.clock
    rw [hs1]
    exact ⟨⟨this.idx, this.time, this.used, this.rest, this.le⟩, hw.chain, hw.ne, hw.lo, hw.fits, hw.all⟩
  have hm1 : Stats.Marks c b D s1 := by rw [hs1]; exact ⟨hm.marks, hm.beyond, hm.done, hm.lost, hm.dups, hm.excl, hm.short⟩
  have hf1 : s1.first = s.first := by rw [hs1]; rfl
  have hl1 : s1.last = s.last := by rw [hs1]; rfl
  by_cases hin : Spec.Stats.Within s.first s.last r
  · obtain ⟨p, hp⟩ : ∃ p : Stats.Node → Bool, p = (if Stats.isLost r then fun n => decide (n.seq < r.seq.toNat) else Stats.expired c r) := ⟨_, rfl⟩
    have hpP : ∀ n : Stats.Node, n.sched = Stats.tm c ds (n.seq + 1) → p n = decide (Stats.Gone c ds r n.seq) := by
      intro n hn
      rw [hp]
      by_cases hl : Spec.Stats.Lost r
      · rw [if_pos ((Stats.isLost_iff r).2 hl)]
        simp [Stats.Gone, hl]
      · rw [if_neg (fun h => hl ((Stats.isLost_iff r).1 h))]
        unfold Stats.expired Stats.Gone Spec.Stats.InTime Num64.sub Num64.u64
        apply decide_eq_decide.2
        rw [hn, if_neg hl]
        omega
    have hnr : ¬ (r.seq.toNat < s1.first ∨ r.seq.toNat ≥ s1.last) := by
      rw [hf1, hl1]; have h1 := hin.1; have h2 := hin.2; omega
    rw [← process_fst F unix] at h
    have h0 : process F unix c s r = if r.seq.toNat < s1.first ∨ r.seq.toNat ≥ s1.last then (.ok s1, []) else
        match Stats.flushWhile c (if Stats.isLost r then fun n => decide (n.seq < r.seq.toNat) else Stats.expired c r) (s1.last + 2) s1 with
        | .error x => (.error x, [])
        | .ok s =>
          match Stats.packetGet c r.seq.toNat s with
          | .error x => (.error x, [])
          | .ok (n, s) =>
            if Stats.skipped c.skips s.iskip r.seq.toNat then (.ok s, [])
            else if Stats.isLost r then (Stats.addLost r n s, if n.seen ≠ 0 then [] else lostLine r.seq)
            else (Stats.addGot c r n s, if n.lost then [] else gotLine F unix r (c.delay r.send r.recv)) := by rw [hs1]; rfl
    rw [if_neg hnr, ← hp] at h0
    rcases Stats.flushWhile_spec c c0 ds D p (fun k => decide (Stats.Gone c ds r k)) hpP hN (s1.last + 2) b s1 hw1 hm1 (by omega) with
      ⟨a1, _⟩ | ⟨b', s2, a1, a2, a3, a4, a5, a6, a7⟩
    · rw [h0, a1] at h; cases h
    · rw [a1] at h0
      dsimp only at h0
      obtain ⟨g1, g2⟩ := Stats.packetGet_spec c c0 ds b' r.seq.toNat s2 a5 (by rw [a7.first, hf1]; exact hin.1) (by rw [a7.last, hl1]; exact hin.2)
      by_cases hlt : r.seq.toNat < b'
      · rw [h0, g1 hlt] at h; cases h
      · obtain ⟨n, s3, new, k1, k2, k3, k4, k5, k6, k7, k8, k9, k10, _⟩ := g2 (by omega)
        rw [k1] at h0
        dsimp only at h0
        have hm3 := Stats.Marks.extend a6 k2 k3 k6 k7 k8 k9 k10
        have hsk := Stats.skipped_iff c.skips s3.iskip r.seq.toNat b' (by omega) hm3.done
        by_cases hskip : Spec.Stats.Skipped c.skips r.seq.toNat
        · rw [h0, if_pos (hsk.2 hskip), if_neg (fun hh => hh.2 hskip)]
        · rw [if_neg (fun hh => hskip (hsk.1 hh))] at h0
          rw [if_pos ⟨hin, hskip⟩]
          rw [h0] at h ⊢
          unfold entry
          by_cases hl : Stats.isLost r = true
          · rw [if_pos hl] at h ⊢
            rw [if_pos hl]
            dsimp only at h ⊢
            by_cases hz : n.seen ≠ 0
            · rw [Stats.addLost, if_pos hz] at h; cases h
            · rw [if_neg hz]
          · rw [if_neg hl] at h ⊢
            rw [if_neg hl]
            dsimp only at h ⊢
            by_cases hz : n.lost = true
            · rw [Stats.addGot, if_pos hz] at h; cases h
            · rw [if_neg hz]
  · rw [if_neg (fun hh => hin hh.1)]
    have : r.seq.toNat < s.first ∨ r.seq.toNat ≥ s.last := by unfold Spec.Stats.Within at hin; omega
    unfold process
    dsimp only
    rw [if_pos this]

theorem counted_cons (skips : List Skip) (f l : Nat) (r : DataRec) (rs : List DataRec) :
    Spec.Stats.counted skips f l (r :: rs) =
      (if Spec.Stats.Within f l r ∧ ¬ Spec.Stats.Skipped skips r.seq.toNat then [r] else []) ++ Spec.Stats.counted skips f l rs := by
  unfold Spec.Stats.counted
  rw [List.filter_cons]
  by_cases h : Spec.Stats.Within f l r ∧ ¬ Spec.Stats.Skipped skips r.seq.toNat
  · rw [if_pos h, if_pos (by simpa using h)]; rfl
  · rw [if_neg h, if_neg (by simpa using h)]; rfl

/-- The callback over the records: the state is as without output, and the lines are those of the records taken. -/
theorem run_out (F : Fmt) (unix : Bool) (c : Stats.Cfg) (c0 : Sched.Ctx) (ds : List Nat) (hN : ds.length < 2 ^ 32) (rs : List DataRec) :
    ∀ (D : List DataRec) (b : Nat) (s : Stats.St) (out : Bytes), Stats.Win c c0 ds b s → Stats.Marks c b D s → (D ++ rs).length < 2 ^ 32 →
      ∃ p q, rs = p ++ q ∧ feed (callback F unix c) rs (.ok s, out) =
          ((feed (Stats.callback c) rs (.ok s)).1, (feed (Stats.callback c) rs (.ok s)).2,
            out ++ (Spec.Stats.counted c.skips s.first s.last p).flatMap (entry F unix c)) ∧
        ((feed (Stats.callback c) rs (.ok s)).1 = .ok → q = []) := by
  induction rs with
  | nil =>
    intro D b s out _ _ _
    exact ⟨[], [], rfl, by simp [feed, Spec.Stats.counted], fun _ => rfl⟩
  | cons r rs ih =>
    intro D b s out hw hm hD
    have hlen : (D ++ [r]).length < 2 ^ 32 := by simp only [List.length_append, List.length_cons, List.length_nil] at hD ⊢; omega
    rcases Stats.process_spec c c0 ds b D s r hw hm hN hlen with ⟨e1, e2, e3⟩ | ⟨b', s', e1, e2, e3, e4, e5, e6⟩
    · have h1 : Stats.callback c (.ok s) r = (-1, .error .refused) := by unfold Stats.callback; dsimp only; rw [e1]
      have h2 : callback F unix c (.ok s, out) r = (-1, .error .refused, out) := by
        unfold callback
        dsimp only
        rw [process_fst, e1, process_error F unix c s r _ e1]
        simp
      refine ⟨[], r :: rs, rfl, ?_, ?_⟩
      · rw [feed, feed, h1, h2]
        dsimp only
        rw [if_neg (by decide), if_pos (by decide), if_neg (by decide), if_pos (by decide)]
        simp [Spec.Stats.counted]
      · rw [feed, h1, if_neg (by decide), if_pos (by decide)]
        intro h; cases h
    · have h1 : Stats.callback c (.ok s) r = (0, .ok s') := by unfold Stats.callback; dsimp only; rw [e1]
      have h2 : callback F unix c (.ok s, out) r = (0, .ok s', out ++ (process F unix c s r).2) := by
        unfold callback
        dsimp only
        rw [process_fst, e1]
      obtain ⟨f1, f2⟩ := Stats.figure_first c D r s
      have hf : s'.first = s.first := by rw [e5.first, f1]
      have hl : s'.last = s.last := by rw [e5.last, f2]
      obtain ⟨p, q, i1, i2, i3⟩ := ih (D ++ [r]) b' s' (out ++ (process F unix c s r).2) e3 e4 (by simpa using hD)
      refine ⟨r :: p, q, by rw [i1]; rfl, ?_, ?_⟩
      · rw [feed, feed, h1, h2, if_pos rfl, if_pos rfl]
        dsimp only
        rw [i2, hf, hl, counted_cons, process_ok F unix c c0 ds b D s r hw hm hN s' e1]
        by_cases hc : Spec.Stats.Within s.first s.last r ∧ ¬ Spec.Stats.Skipped c.skips r.seq.toNat
        · rw [if_pos hc, if_pos hc]; simp
        · rw [if_neg hc, if_neg hc]; simp
      · rw [feed, h1, if_pos rfl]; exact i3

/-! ## Two-way sessions -/

theorem twLine_eq (F : Fmt) (unix : Bool) (c : TwStats.Cfg) (r : TWDataRec) :
    twLine F unix c r = (if ¬ Spec.TwStats.Lost r ∧ unix = true
      then t ['s','e','q','_','n','o','='] ++ asInt r.sent.seq ++ 32#8 :: toldTW F unix c r
      else t ['s','e','q','_','n','o','='] ++ left10 r.sent.seq.toNat ++ 32#8 :: toldTW F unix c r) ++ [10#8] := by
  have sp : ∀ s : List Char, text (' ' :: s) = 32#8 :: text s := fun s => rfl
  have cl : ∀ s : List Char, text (')' :: s) = 41#8 :: text s := fun s => rfl
  have hlost : TwStats.isLost r = true ↔ Spec.TwStats.Lost r := by simp [TwStats.isLost, Spec.TwStats.Lost]
  unfold twLine toldTW
  by_cases hl : Spec.TwStats.Lost r
  · rw [if_pos (hlost.2 hl), if_neg (fun h => h.1 hl), if_pos hl]
    unfold lostLine
    simp only [t, sp, List.append_assoc, List.cons_append]
  · rw [if_neg (fun h => hl (hlost.1 h)), if_neg (c := Spec.TwStats.Lost r) hl]
    have he : (TwStats.errors r).getD 0 0 = errorOf r.sent.send + errorOf r.sent.recv + errorOf r.reflected.send + errorOf r.reflected.recv := by
      unfold TwStats.errors errorOf
      simp only [List.getD_cons_zero, Stats.stampError]
      omega
    have d0 : (TwStats.delays c r).getD 0 0 = Spec.TwStats.trip c r := rfl
    have d1 : (TwStats.delays c r).getD 1 0 = Spec.TwStats.out c r := rfl
    have d2 : (TwStats.delays c r).getD 2 0 = Spec.TwStats.back c r := rfl
    have d3 : (TwStats.delays c r).getD 3 0 = Spec.TwStats.held c r := rfl
    unfold replyLine
    rw [d0, d1, d2, d3, he]
    cases unix with
    | true =>
      rw [if_pos rfl, if_pos ⟨hl, rfl⟩]
      simp only [t, sp, cl, part, if_true, List.append_assoc, List.cons_append]
      rfl
    | false =>
      rw [if_neg (by decide), if_neg (fun h => by cases h.2)]
      simp only [t, sp, cl, part, List.append_assoc, List.cons_append, Bool.false_eq_true, if_false, List.append_nil]

theorem toldTW_no_break (F : Fmt) (hF : NoBreak F) (unix : Bool) (c : TwStats.Cfg) (r : TWDataRec) : 10#8 ∉ toldTW F unix c r := by
  have T := no_break_text
  have hD : ∀ d, 10#8 ∉ (if unix then F.exact else F.delay) d := by
    intro d
    cases unix
    · exact hF.delay d
    · exact hF.exact d
  unfold toldTW
  split
  · exact T _ (by decide)
  · dsimp only
    simp only [List.mem_append, not_or]
    refine ⟨⟨⟨⟨⟨⟨⟨⟨⟨⟨⟨⟨⟨⟨⟨⟨⟨⟨⟨⟨⟨⟨?_, hD _⟩, ?_⟩, hF.unit⟩, ?_⟩, hD _⟩, ?_⟩, hF.unit⟩, ?_⟩, hD _⟩, ?_⟩, hF.unit⟩, ?_⟩, hD _⟩, ?_⟩, hF.unit⟩, ?_⟩, ?_⟩, hF.err _⟩, ?_⟩, hF.unit⟩, ?_⟩, ?_⟩
    all_goals first
      | exact T _ (by decide)
      | skip
    · split
      · exact T _ (by decide)
      · decide
    · split
      · simp only [List.mem_append, not_or]
        exact ⟨⟨⟨⟨⟨⟨⟨T _ (by decide), hF.unix _⟩, T _ (by decide)⟩, hF.unix _⟩, T _ (by decide)⟩, hF.unix _⟩, T _ (by decide)⟩, hF.unix _⟩
      · simp

theorem twLine_line (F : Fmt) (hF : NoBreak F) (unix : Bool) (c : TwStats.Cfg) (r : TWDataRec) (hn : Small unix r.sent.seq) :
    (∃ b, twLine F unix c r = b ++ [10#8] ∧ 10#8 ∉ b) ∧ LineTW F unix c (twLine F unix c r).dropLast r := by
  have hb := toldTW_no_break F hF unix c r
  refine ⟨⟨_, twLine_eq F unix c r, ?_⟩, ?_⟩
  · split
    · exact no_break_int _ _ hb
    · exact no_break_left _ _ hb
  · rw [twLine_eq, List.dropLast_concat]
    unfold LineTW
    split
    · rename_i h; exact about_int _ (hn h.2) _
    · exact about_left _ _

theorem processTW_fst (F : Fmt) (unix : Bool) (c : TwStats.Cfg) (s : TwStats.St) (r : TWDataRec) : (processTW F unix c s r).1 = TwStats.process c s r := by
  unfold processTW
  split <;> (rename_i h; rw [h])

theorem processAllTW_fst (F : Fmt) (unix : Bool) (c : TwStats.Cfg) (rs : List TWDataRec) : ∀ s,
    (processAllTW F unix c s rs).1 = TwStats.processAll c s rs := by
  induction rs with
  | nil => intro s; rfl
  | cons r rs ih =>
    intro s
    rw [processAllTW, TwStats.processAll, processTW_fst]
    split
    · rename_i h; rw [h]
    · rename_i h; rw [h]; dsimp only; exact ih _

theorem parseTW_fst (F : Fmt) (unix : Bool) (c : TwStats.Cfg) (rs : List TWDataRec) (oset first last : Nat) :
    (parseTW F unix c rs oset first last).1 = TwStats.parse c rs oset first last := by
  unfold parseTW TwStats.parse
  split
  · rename_i h; rw [h]
  · rename_i h; rw [h]; dsimp only
    rw [processAllTW_fst]
    split
    · rename_i h; rw [h]
    · rename_i h; rw [h]; dsimp only
      split
      · rename_i h; rw [h]
      · rename_i h; rw [h]

/-- Nothing that is done for a record changes the range. -/
theorem flushF_range (c : TwStats.Cfg) (s s' : TwStats.St) (g : Bool) (h : TwStats.flushF c s = .ok (g, s')) : s'.first = s.first ∧ s'.last = s.last := by
  unfold TwStats.flushF at h
  split at h
  · cases h; exact ⟨rfl, rfl⟩
  · dsimp only at h
    split at h
    · cases h
    · cases h; exact ⟨rfl, rfl⟩

theorem flushB_range (c : TwStats.Cfg) (s s' : TwStats.St) (g : Bool) (h : TwStats.flushB c s = .ok (g, s')) : s'.first = s.first ∧ s'.last = s.last := by
  unfold TwStats.flushB at h
  split at h
  · cases h; exact ⟨rfl, rfl⟩
  · dsimp only at h
    split at h
    · cases h
    · split at h
      · cases h
      · cases h; exact ⟨rfl, rfl⟩

theorem flushWhile_range (flush : TwStats.St → Except Stats.Bad (Bool × TwStats.St)) (p : TwStats.St → Bool)
    (hf : ∀ s s' g, flush s = .ok (g, s') → s'.first = s.first ∧ s'.last = s.last) (n : Nat) : ∀ s s',
    TwStats.flushWhile flush p n s = .ok s' → s'.first = s.first ∧ s'.last = s.last := by
  induction n with
  | zero => intro s s' h; cases h
  | succ n ih =>
    intro s s' h
    rw [TwStats.flushWhile] at h
    split at h
    · split at h
      · cases h
      · cases h
      · rename_i s1 h1
        obtain ⟨a, b⟩ := hf _ _ _ h1
        obtain ⟨a', b'⟩ := ih _ _ h
        exact ⟨a'.trans a, b'.trans b⟩
    · cases h; exact ⟨rfl, rfl⟩

theorem process_range (c : TwStats.Cfg) (s s' : TwStats.St) (r : TWDataRec) (h : TwStats.process c s r = .ok s') : s'.first = s.first ∧ s'.last = s.last := by
  unfold TwStats.process at h
  dsimp only at h
  split at h
  · cases h; exact ⟨rfl, rfl⟩
  · split at h
    · cases h
    · rename_i s1 h1
      obtain ⟨a1, b1⟩ := flushWhile_range _ _ (flushF_range c) _ _ _ h1
      split at h
      · cases h
      · rename_i s2 h2
        obtain ⟨a2, b2⟩ := flushWhile_range _ _ (flushB_range c) _ _ _ h2
        have e1 : s2.first = s.first := a2.trans a1
        have e2 : s2.last = s.last := b2.trans b1
        split at h
        · cases h
        · split at h
          · unfold TwStats.addLost at h
            split at h
            · cases h
            · cases h; exact ⟨e1, e2⟩
          · unfold TwStats.addGot at h
            split at h
            · cases h
            · split at h
              · cases h
              · split at h
                · cases h
                · cases h
                  obtain ⟨f1, f2, _⟩ := TwStats.figures_frame c r _ _
                  exact ⟨f1.trans e1, f2.trans e2⟩

/-- The lines of a two-way session. -/
theorem processAllTW_out (c : TwStats.Cfg) (rs : List TWDataRec) (F : Fmt) (unix : Bool) : ∀ s,
    ∃ p q, rs = p ++ q ∧ (processAllTW F unix c s rs).2 = (Spec.TwStats.within s.first s.last p).flatMap (twLine F unix c) ∧
      (∀ s', TwStats.processAll c s rs = .ok s' → q = []) := by
  induction rs with
  | nil => intro s; exact ⟨[], [], rfl, rfl, fun _ _ => rfl⟩
  | cons r rs ih =>
    intro s
    cases hp : TwStats.process c s r with
    | error x =>
      have h2 : (processTW F unix c s r) = (.error x, []) := by unfold processTW; rw [hp]
      refine ⟨[], r :: rs, rfl, ?_, fun s' hs => ?_⟩
      · rw [processAllTW, h2]; rfl
      · rw [TwStats.processAll, hp] at hs; cases hs
    | ok s1 =>
      have h2 : (processTW F unix c s r) = (.ok s1, if r.sent.seq.toNat < s.first ∨ r.sent.seq.toNat ≥ s.last then [] else twLine F unix c r) := by
        unfold processTW; rw [hp]
      obtain ⟨k1, k2⟩ := process_range c s s1 r hp
      obtain ⟨p, q, i1, i2, i3⟩ := ih s1
      refine ⟨r :: p, q, by rw [i1]; rfl, ?_, fun s' hs => ?_⟩
      · rw [processAllTW, h2]
        dsimp only
        rw [i2, k1, k2]
        unfold Spec.TwStats.within
        rw [List.filter_cons]
        by_cases hr : s.first ≤ Spec.TwStats.seqOf r ∧ Spec.TwStats.seqOf r < s.last
        · rw [if_neg (by unfold Spec.TwStats.seqOf at hr; omega), if_pos (by simpa using hr)]; rfl
        · rw [if_pos (by unfold Spec.TwStats.seqOf at hr; omega), if_neg (by simpa using hr)]; rfl
      · rw [TwStats.processAll, hp] at hs
        exact i3 s' hs

end Owamp.Verbose
