import Verif.Lemmas.Verbose
import Verif.Props.Stats
import Verif.Props.TwStats
/-!
# C95: the lines about single packets agree with the file and with the summary
-/
namespace Owamp.Props
open Owamp.Codec Owamp.Policy Owamp.Print Owamp.Spec.Raw Owamp.Spec.Verbose Owamp.Spec.DataFile
open StatSession (Object)

/-- `OWPStatsParse` with output, when the file has the records `rs` from offset `oset` on: the summary, and what was printed. -/
def StatSession.shown (x : StatSession) (F : Verbose.Fmt) (unix : Bool) (rs : List DataRec) (s : Stats.St) (oset first last : Nat) :
    Except Stats.Bad Stats.St × Bytes :=
  Verbose.parse F unix x.c (fun proc s => feed proc rs s) s oset first last

/-- How printing and summary go together, whatever the records. -/
theorem shown_spec (x : StatSession) (F : Verbose.Fmt) (unix : Bool) (s : Stats.St) (hs : Object x s) (rs : List DataRec) (hrs : rs.length < 2 ^ 32)
    (oset first last : Nat) (hr : x.Range first last) :
    (x.shown F unix rs s oset first last).1 = x.summary rs s oset first last ∧
    ∃ p q, rs = p ++ q ∧ (x.shown F unix rs s oset first last).2 = (x.about first last p).flatMap (Verbose.entry F unix x.c) ∧
      ((∃ s', x.summary rs s oset first last = .ok s') → q = []) := by
  obtain ⟨ds, h1, h2, h3⟩ := C06_schedule x.c.E x.sid _ x.c0 x.sched
  obtain ⟨g1, g2⟩ := StatSession.the_delays x ds ⟨h3, h2⟩
  obtain ⟨⟨m, hm⟩, _⟩ := StatSession.object_inv x s hs ds g1 g2
  have hN : ds.length < 2 ^ 32 := by rw [g2]; exact x.c.npackets.isLt
  by_cases hz : s.used = true ∧ first = 0
  · have hb : ∃ e, Stats.begin x.c s oset first last = .error e := by
      have := StatSession.used_zero x rs s m ds g1 g2 hm hz.1 oset last (by rw [← hz.2]; exact hr)
      rw [← hz.2] at this
      unfold StatSession.summary Stats.parse at this
      cases hb : Stats.begin x.c s oset first last with
      | error e => exact ⟨e, rfl⟩
      | ok s1 =>
        exfalso
        have hu := hz.1
        have h0 := hz.2
        subst h0
        unfold Stats.begin at hb
        dsimp only at hb
        generalize (if last = 2 ^ 32 - 1 then x.c.npackets.toNat else last) = L at hb
        rw [if_pos (c := 0 = 0 ∨ 0 < s.isctx) (Or.inl rfl)] at hb
        by_cases hL : 0 > L ∨ L > x.c.npackets.toNat
        · rw [if_pos hL] at hb; cases hb
        · rw [if_neg hL] at hb
          split at hb
          · cases hb
          · rename_i s2 h2
            have hk : s2.used = true := by
              have key : ∀ n (a b : Stats.St), Stats.advance x.c n a = .ok b → b.used = a.used := by
                intro n
                induction n with
                | zero => intro a b h; cases h; rfl
                | succ n ih =>
                  intro a b h
                  rw [Stats.advance] at h
                  split at h
                  · cases h
                  · have := ih _ _ h; exact this
              exact (key _ _ _ h2).trans hu
            rw [if_pos ⟨hk, Nat.le_refl 0⟩] at hb
            cases hb
    obtain ⟨e, hb⟩ := hb
    refine ⟨?_, [], rs, rfl, ?_, ?_⟩
    · unfold StatSession.shown Verbose.parse StatSession.summary Stats.parse; rw [hb]
    · unfold StatSession.shown Verbose.parse; rw [hb]; rfl
    · rintro ⟨s', h⟩; unfold StatSession.summary Stats.parse at h; rw [hb] at h; cases h
  · obtain ⟨s0, b1, b2, b3, b4, _⟩ := Stats.begin_spec x.c x.sid x.slots x.c0 x.sched ds g1 g2 m s hm oset first last
      (by cases hu : s.used with
          | false => exact Or.inl rfl
          | true => exact Or.inr (Nat.pos_of_ne_zero fun h => hz ⟨hu, h⟩)) hr.1 hr.2
    obtain ⟨p, q, e1, e2, e3⟩ := Verbose.run_out F unix x.c x.c0 ds hN rs [] first s0 [] b3 b4 (by simpa using hrs)
    rw [b2.first, b2.last, List.nil_append] at e2
    refine ⟨?_, p, q, e1, ?_, ?_⟩
    · unfold StatSession.shown Verbose.parse StatSession.summary Stats.parse
      rw [b1]
      dsimp only
      rw [e2]
      rcases hf : feed (Stats.callback x.c) rs (.ok s0) with ⟨st, ex⟩
      cases st <;> cases ex <;> rfl
    · unfold StatSession.shown Verbose.parse
      rw [b1]
      dsimp only
      rw [e2]
      rcases hf : feed (Stats.callback x.c) rs (.ok s0) with ⟨st, ex⟩
      cases st <;> cases ex <;> rfl
    · rintro ⟨s', h⟩
      apply e3
      unfold StatSession.summary Stats.parse at h
      rw [b1] at h
      dsimp only at h
      rcases hf : feed (Stats.callback x.c) rs (.ok s0) with ⟨st, ex⟩
      rw [hf] at h
      cases st <;> cases ex <;> first | rfl | cases h

/-- **C95.** Printing the packets does not change the summary. When it succeeds there is one line for each record that the summary is about, in
the order of the file: the number of the packet, then that it was lost or its delay, and for synchronised clocks the error. (With UNIX times,
numbers from 2^31 on are printed wrong: `C95_unix_negative`.) -/
theorem C95_lines_partial (x : StatSession) (F : Verbose.Fmt) (hF : NoBreak F) (unix : Bool) (s s' : Stats.St) (hs : Object x s) (rs : List DataRec)
    (hrs : rs.length < 2 ^ 32) (hn : ∀ r ∈ rs, Small unix r.seq) (oset first last : Nat) (hr : x.Range first last)
    (hp : x.summary rs s oset first last = .ok s') :
    (x.shown F unix rs s oset first last).1 = .ok s' ∧
      Match (Line F unix x.c.delay) (linesOf (x.shown F unix rs s oset first last).2) (x.about first last rs) := by
  obtain ⟨h1, p, q, h2, h3, h4⟩ := shown_spec x F unix s hs rs hrs oset first last hr
  rw [h4 ⟨s', hp⟩, List.append_nil] at h2
  subst h2
  refine ⟨h1.trans hp, ?_⟩
  have hm : ∀ r ∈ x.about first last rs, Small unix r.seq := fun r hr => hn r (List.mem_filter.1 hr).1
  rw [h3, Verbose.lines_flatMap _ _ fun r hr => (Verbose.entry_line F hF unix x.c r (hm r hr)).1]
  exact Raw.match_map _ _ _ fun r hr => (Verbose.entry_line F hF unix x.c r (hm r hr)).2

/-- C95: when it fails, the same failure is reported as without printing, and the lines are those of a first part of the records. -/
theorem C95_failed_partial (x : StatSession) (F : Verbose.Fmt) (hF : NoBreak F) (unix : Bool) (s : Stats.St) (hs : Object x s) (rs : List DataRec)
    (hrs : rs.length < 2 ^ 32) (hn : ∀ r ∈ rs, Small unix r.seq) (oset first last : Nat) (hr : x.Range first last) (e : Stats.Bad)
    (hp : x.summary rs s oset first last = .error e) :
    (x.shown F unix rs s oset first last).1 = .error e ∧
      ∃ p q, rs = p ++ q ∧ Match (Line F unix x.c.delay) (linesOf (x.shown F unix rs s oset first last).2) (x.about first last p) := by
  obtain ⟨h1, p, q, h2, h3, _⟩ := shown_spec x F unix s hs rs hrs oset first last hr
  refine ⟨h1.trans hp, p, q, h2, ?_⟩
  have hm : ∀ r ∈ x.about first last p, Small unix r.seq := fun r hr => hn r (by rw [h2]; exact List.mem_append_left _ (List.mem_filter.1 hr).1)
  rw [h3, Verbose.lines_flatMap _ _ fun r hr => (Verbose.entry_line F hF unix x.c r (hm r hr)).1]
  exact Raw.match_map _ _ _ fun r hr => (Verbose.entry_line F hF unix x.c r (hm r hr)).2

/-- C95 for two-way sessions: one line for each record of the range, up to the first that is refused. -/
theorem C95_twoway_partial (c : TwStats.Cfg) (F : Verbose.Fmt) (hF : NoBreak F) (unix : Bool) (rs : List TWDataRec)
    (hn : ∀ r ∈ rs, Small unix r.sent.seq) (oset first last : Nat) (hr : TwRange c first last) :
    (Verbose.parseTW F unix c rs oset first last).1 = TwStats.parse c rs oset first last ∧
      ∃ p q, rs = p ++ q ∧ Match (LineTW F unix c) (linesOf (Verbose.parseTW F unix c rs oset first last).2) (twAbout c first last p) ∧
        (∀ s, TwStats.parse c rs oset first last = .ok s → q = []) := by
  refine ⟨Verbose.parseTW_fst F unix c rs oset first last, ?_⟩
  obtain ⟨s0, e1, e2, e3, e4, e5⟩ := TwStats.start_spec c oset first last hr.1 hr.2
  obtain ⟨p, q, h1, h2, h3⟩ := Verbose.processAllTW_out c rs F unix s0
  have hout : (Verbose.parseTW F unix c rs oset first last).2 = (twAbout c first last p).flatMap (Verbose.twLine F unix c) := by
    unfold Verbose.parseTW
    rw [e1]
    dsimp only
    unfold twAbout
    rw [e2, e3] at h2
    rw [← h2]
    split
    · rfl
    · split <;> rfl
  refine ⟨p, q, h1, ?_, fun s hs => ?_⟩
  · have hm : ∀ r ∈ twAbout c first last p, Small unix r.sent.seq := fun r hr => hn r (by rw [h1]; exact List.mem_append_left _ (List.mem_filter.1 hr).1)
    rw [hout, Verbose.lines_flatMap _ _ fun r hr => (Verbose.twLine_line F hF unix c r (hm r hr)).1]
    exact Raw.match_map _ _ _ fun r hr => (Verbose.twLine_line F hF unix c r (hm r hr)).2
  · unfold TwStats.parse at hs
    rw [e1] at hs
    dsimp only at hs
    cases hp : TwStats.processAll c s0 rs with
    | error x => rw [hp] at hs; cases hs
    | ok s1 => exact h3 s1 hp

/-- With UNIX times the line of packet 2^31 begins with a negative number, and so does not read as one about the packet. -/
theorem C95_unix_negative (F : Verbose.Fmt) (r : DataRec) (d : Int) (hn : r.seq = 0x80000000#32) (hs : r.send.sync = true ∧ r.recv.sync = true) :
    (∃ rest, Verbose.gotLine F true r d = text ['s','e','q','_','n','o','=','-','2','1','4','7','4','8','3','6','4','8'] ++ rest) ∧
      ¬ ∃ n w, About (Verbose.gotLine F true r d) n w := by
  have key : ∃ rest, Verbose.gotLine F true r d = text ['s','e','q','_','n','o','=','-','2','1','4','7','4','8','3','6','4','8'] ++ rest := by
    unfold Verbose.gotLine
    rw [if_pos (by simp [hs.1, hs.2]), if_pos rfl, hn]
    have : Verbose.asInt 0x80000000#32 = text ['-','2','1','4','7','4','8','3','6','4','8'] := by
      have h1 : (0x80000000#32).toInt = -2147483648 := by decide
      have h2 : ∀ n : Nat, n < 10 → digits n = [BitVec.ofNat 8 (48 + n)] := fun n h => by rw [digits, if_pos h]
      have h3 : ∀ n : Nat, ¬ n < 10 → digits n = digits (n / 10) ++ [BitVec.ofNat 8 (48 + n % 10)] := fun n h => by rw [digits, if_neg h]
      unfold Verbose.asInt signed
      rw [h1, if_pos (by decide), show (-2147483648 : Int).natAbs = 2147483648 from rfl]
      rw [h3 2147483648 (by decide), h3 (2147483648 / 10) (by decide), h3 (2147483648 / 10 / 10) (by decide), h3 (2147483648 / 10 / 10 / 10) (by decide),
        h3 (2147483648 / 10 / 10 / 10 / 10) (by decide), h3 (2147483648 / 10 / 10 / 10 / 10 / 10) (by decide),
        h3 (2147483648 / 10 / 10 / 10 / 10 / 10 / 10) (by decide), h3 (2147483648 / 10 / 10 / 10 / 10 / 10 / 10 / 10) (by decide),
        h3 (2147483648 / 10 / 10 / 10 / 10 / 10 / 10 / 10 / 10) (by decide), h2 (2147483648 / 10 / 10 / 10 / 10 / 10 / 10 / 10 / 10 / 10) (by decide)]
      decide
    rw [this]
    simp only [List.append_assoc]
    exact ⟨_, rfl⟩
  refine ⟨key, ?_⟩
  rintro ⟨n, w, num, blanks, e, ⟨n1, n2, _⟩, _⟩
  obtain ⟨rest, hr⟩ := key
  rw [hr, List.append_assoc, List.append_assoc] at e
  have e' := congrArg (List.drop 7) e
  cases num with
  | nil => exact n1 rfl
  | cons a num =>
    have h1 : (List.drop 7 (text ['s','e','q','_','n','o','='] ++ (a :: num ++ (blanks ++ w)))) = a :: (num ++ (blanks ++ w)) := rfl
    have h2 : (List.drop 7 (text ['s','e','q','_','n','o','=','-','2','1','4','7','4','8','3','6','4','8'] ++ rest)) =
      45#8 :: (text ['2','1','4','7','4','8','3','6','4','8'] ++ rest) := rfl
    rw [h1, h2] at e'
    have ha : a = 45#8 := (List.cons.inj e').1.symm
    have := n2 a (by simp)
    rw [ha] at this
    unfold Spec.Ports.Digit at this
    revert this
    decide

/-- The texts of the examples. -/
def demoVerbose : Verbose.Fmt := ⟨signed, signed, digits, digits, text ['m','s']⟩

theorem demoVerbose_ok : NoBreak demoVerbose where
  delay := fun d => (signed_plain d).2
  exact := fun d => (signed_plain d).2
  err := fun e => (digits_plain e).2
  unix := fun e => (digits_plain e).2
  unit := Verbose.no_break_text _ (by decide)

/-- The session of C50: four lines, of which the last is that of a lost packet. -/
example : (statDemo.shown demoVerbose true statRecords (Stats.create statCfg statDemo.c0) 0 0 (2 ^ 32 - 1)).1 = .ok statAll ∧
    Match (Line demoVerbose true statCfg.delay) (linesOf (statDemo.shown demoVerbose true statRecords (Stats.create statCfg statDemo.c0) 0 0 (2 ^ 32 - 1)).2)
      statRecords := by
  have h := C95_lines_partial statDemo demoVerbose demoVerbose_ok true _ _ .fresh statRecords (by decide) (by unfold Small; decide +kernel) 0 0 (2 ^ 32 - 1)
    stat_range stat_all
  have e : statDemo.about 0 (2 ^ 32 - 1) statRecords = statRecords := by decide +kernel
  rw [e] at h
  exact h

/-- A packet that was lost and then comes: the summary fails, after the line of the loss. -/
example : statDemo.summary [wentMissing 1 32, came 1 32 34 61] (Stats.create statCfg statDemo.c0) 0 0 (2 ^ 32 - 1) = .error .refused := by decide +kernel

example : ∃ p q, twRecords = p ++ q ∧
    Match (LineTW demoVerbose false twDemo) (linesOf (Verbose.parseTW demoVerbose false twDemo twRecords 0 0 (2 ^ 32 - 1)).2) (twAbout twDemo 0 (2 ^ 32 - 1) p) := by
  obtain ⟨p, q, h1, h2, _⟩ := (C95_twoway_partial twDemo demoVerbose demoVerbose_ok false twRecords (fun r _ h => by cases h) 0 0 (2 ^ 32 - 1) twDemo_range).2
  exact ⟨p, q, h1, h2⟩

end Owamp.Props
