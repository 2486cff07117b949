import Verif.Lemmas.Request
import Verif.Lemmas.Stop
/-!
# Stop-sessions from one honest end to the other
-/
namespace Owamp.Ctl
open Owamp.Spec.Channel Owamp.Spec.Stop Owamp.Codec

variable {ρ : Type}

/-- Zeros up to a multiple of 16 of a string of `n` records of 8 bytes. -/
def pad8 (n : Nat) : Bytes := if n % 2 = 0 then [] else zeros 8

theorem send_skips (n : Nat) : ∀ (k : Nat), k ≤ n → ∀ (A : Conn) (d : Bytes), Ready A → d.length = 8 * k →
    ∃ m, m.length = 400 ∧ sendSkips A d (8 * k) = (some (), A.sentText (d ++ pad8 k) m) := by
  induction n with
  | zero =>
    intro k hk A d rA hd
    have : k = 0 := by omega
    subst this
    have : d = [] := List.length_eq_zero_iff.1 (by omega)
    subst this
    refine ⟨A.msg, rA.2.1, ?_⟩
    unfold sendSkips
    simp only [pad8]
    exact congrArg (Prod.mk (some ())) (sentText_nil A rA.1).symm
  | succ n ih =>
    intro k hk A d rA hd
    have step : ∀ b : Bytes, b.length = 16 → ∃ m, m.length = 400 ∧
        sendBlocks (sendHmacAdd { A with msg := put A.msg 0 b } b) b = (.done, A.sentText b m) := by
      intro b hb
      have hw := wr_length A b 1 hb
      have hput : (put A.msg 0 b).length = 400 := by rw [put_length _ _ _ (by have := rA.2.1; omega)]; exact rA.2.1
      refine ⟨put (put A.msg 0 b) 0 (A.wr b), by rw [put_length _ _ _ (by omega)]; exact hput, ?_⟩
      rw [sendText_ok _ (by exact rA.1)]
      rfl
    unfold sendSkips
    by_cases h2 : 16 ≤ 8 * k
    · obtain ⟨m1, hm1, hs⟩ := step (d.take 16) (by simp; omega)
      rw [if_pos h2, if_neg (by omega)]
      dsimp only
      rw [hs]
      have hk2 : 8 * k - 16 = 8 * (k - 2) := by omega
      obtain ⟨m, hm, hw⟩ := ih (k - 2) (by omega) (A.sentText (d.take 16) m1) (d.drop 16) (ready_sentText A rA _ _ hm1)
        (by simp; omega)
      refine ⟨m, hm, ?_⟩
      dsimp only
      rw [hk2, hw]
      have hp : pad8 (k - 2) = pad8 k := by unfold pad8; rw [show (k - 2) % 2 = k % 2 by omega]
      have hpl : ∃ q, (d.drop 16 ++ pad8 (k - 2)).length = 16 * q := by
        refine ⟨(k - 1) / 2, ?_⟩
        rw [List.length_append, List.length_drop]
        unfold pad8
        split
        · simp; omega
        · simp; omega
      obtain ⟨q, hq⟩ := hpl
      rw [sentText_append A _ _ _ _ 1 q (by simp; omega) hq, hp, ← List.append_assoc, List.take_append_drop]
    · rw [if_neg h2]
      have : k = 0 ∨ k = 1 := by omega
      rcases this with rfl | rfl
      · have : d = [] := List.length_eq_zero_iff.1 (by omega)
        subst this
        refine ⟨A.msg, rA.2.1, ?_⟩
        simp only [pad8]
        exact congrArg (Prod.mk (some ())) (sentText_nil A rA.1).symm
      · have ht : d.take 8 = d := List.take_of_length_le (by omega)
        obtain ⟨m1, hm1, hs⟩ := step (d ++ zeros 8) (by simp; omega)
        refine ⟨m1, hm1, ?_⟩
        rw [if_pos (by omega), if_neg (by omega), ht]
        dsimp only
        rw [hs]
        rfl

theorem rangeBytes_length (s : Skip) : (rangeBytes s).length = 8 := by simp [rangeBytes]

theorem ranges_length (ss : List Skip) : ((ss.map rangeBytes).flatten).length = 8 * ss.length := by
  induction ss with
  | nil => rfl
  | cons s ss ih => simp only [List.map_cons, List.flatten_cons, List.length_append, rangeBytes_length, ih, List.length_cons]; omega

theorem skipFile_length (a : Account) : (skipFile a).length = 8 * (a.skips.length + 1) := by
  unfold skipFile
  simp only [List.length_append, enc32_length, ranges_length]; omega

theorem accountText_eq (a : Account) : accountText a = skipFile a ++ pad8 (a.skips.length + 1) := by
  unfold accountText skipFile pad8
  refine congrArg _ ?_
  rcases Nat.mod_two_eq_zero_or_one a.skips.length with h | h
  · rw [if_pos h, if_neg (by omega)]
  · rw [if_neg (by omega), if_pos (by omega)]

theorem accountText_length (a : Account) : (accountText a).length = 16 * (a.skips.length / 2 + 1) := by
  rw [accountText_eq, List.length_append, skipFile_length]
  unfold pad8
  split
  · simp; omega
  · simp; omega

theorem itemText_length (i : Bytes × Account) (h : i.1.length = 16) : (itemText i).length = 16 * (i.2.skips.length / 2 + 2) := by
  unfold itemText
  rw [List.length_append, h, accountText_length]; omega

theorem items_length (is : List (Bytes × Account)) (h : ∀ i ∈ is, i.1.length = 16) :
    ∃ k, ((is.map itemText).flatten).length = 16 * k := by
  induction is with
  | nil => exact ⟨0, rfl⟩
  | cons i is ih =>
    obtain ⟨k, hk⟩ := ih (fun x hx => h x (by simp [hx]))
    refine ⟨i.2.skips.length / 2 + 2 + k, ?_⟩
    rw [List.map_cons, List.flatten_cons, List.length_append, hk, itemText_length i (h i (by simp))]
    omega

/-- The accounts of the sessions that this side sends. -/
def itemsOf (acct : Sess ρ → Account) (ts : List (Sess ρ)) : List (Bytes × Account) :=
  (ts.filter sending).map fun t => (t.sid, acct t)

theorem write_stop_loop (acct : Sess ρ → Account) (ts : List (Sess ρ)) : ∀ A : Conn, Ready A →
    (∀ t ∈ ts, ∀ e, t.ep = some e → e.send = true →
      t.sid.length = 16 ∧ e.skipData = skipFile (acct t) ∧ e.skipSize = (skipFile (acct t)).length) →
    ∃ m ts', m.length = 400 ∧
      writeStopLoop A ts = (some (), A.sentText (((itemsOf acct ts).map itemText).flatten) m, ts') := by
  induction ts with
  | nil =>
    intro A rA _
    exact ⟨A.msg, [], rA.2.1, by rw [writeStopLoop]; exact congrArg (fun x => (some (), x, [])) (sentText_nil A rA.1).symm⟩
  | cons t ts ih =>
    intro A rA h
    have hts : ∀ x ∈ ts, ∀ e, x.ep = some e → e.send = true →
        x.sid.length = 16 ∧ e.skipData = skipFile (acct x) ∧ e.skipSize = (skipFile (acct x)).length :=
      fun x hx => h x (by simp [hx])
    rw [writeStopLoop]
    have skipped : sending t = false → ∃ m ts', m.length = 400 ∧
        (let r := writeStopLoop A ts; ((r.1, r.2.1, t :: r.2.2) : Option Unit × Conn × List (Sess ρ))) =
          (some (), A.sentText (((itemsOf acct (t :: ts)).map itemText).flatten) m, ts') := by
      intro hs
      obtain ⟨m, ts', hm, hw⟩ := ih A rA hts
      refine ⟨m, t :: ts', hm, ?_⟩
      have : itemsOf acct (t :: ts) = itemsOf acct ts := by
        unfold itemsOf; rw [List.filter_cons, if_neg (by simp [hs])]
      rw [this, hw]
    split
    · rename_i he
      exact skipped (by simp [sending, he])
    · rename_i e he
      split
      · rename_i hs
        exact skipped (by simp [sending, he]; simpa using hs)
      · rename_i hs
        have hs : e.send = true := by simpa using hs
        obtain ⟨h1, h2, h3⟩ := h t (by simp) e he hs
        have hsb : sendBuf (sendHmacAdd A t.sid) t.sid = (.done, A.wr t.sid, A.sentText t.sid A.msg) := by
          rw [sendBuf_ok _ (by unfold sendHmacAdd; split <;> exact rA.1)]
          have hwr : (sendHmacAdd A t.sid).wr t.sid = A.wr t.sid := by unfold sendHmacAdd; split <;> rfl
          rw [hwr]
          refine congrArg (fun x => (Wr.done, A.wr t.sid, x)) ?_
          unfold sendHmacAdd
          split <;> rename_i hc <;>
            refine conn_ext _ _ rfl rfl rfl rfl rfl rfl rfl rfl ?_ rfl rfl rfl rfl rfl <;>
            simp [Conn.sent, Conn.sentText, hc]
        rw [hsb]
        dsimp only
        have hl := skipFile_length (acct t)
        have rA1 := ready_sentText A rA t.sid A.msg rA.2.1
        obtain ⟨m1, hm1, hw1⟩ := send_skips _ _ (Nat.le_refl _) (A.sentText t.sid A.msg) (skipFile (acct t)) rA1 hl
        rw [h2, h3, hl, hw1]
        dsimp only
        rw [← accountText_eq, sentText_append A _ _ _ _ 1 _ h1 (accountText_length _)]
        have hit : itemText (t.sid, acct t) = t.sid ++ accountText (acct t) := rfl
        rw [← hit]
        obtain ⟨m, ts', hm, hw⟩ := ih (A.sentText (itemText (t.sid, acct t)) m1) (ready_sentText A rA _ _ hm1) hts
        refine ⟨m, { t with sid := A.wr t.sid } :: ts', hm, ?_⟩
        rw [hw]
        have hlen : ∀ i ∈ itemsOf acct ts, i.1.length = 16 := by
          intro i hi
          simp only [itemsOf, List.mem_map, List.mem_filter] at hi
          obtain ⟨x, ⟨hx, hsx⟩, rfl⟩ := hi
          cases hex : x.ep with
          | none => simp [sending, hex] at hsx
          | some ex => exact (hts x hx ex hex (by simpa [sending, hex] using hsx)).1
        obtain ⟨k, hk⟩ := items_length _ hlen
        have hcons : itemsOf acct (t :: ts) = (t.sid, acct t) :: itemsOf acct ts := by
          unfold itemsOf; rw [List.filter_cons, if_pos (by simp [sending, he, hs])]; rfl
        dsimp only
        rw [sentText_append A _ _ _ _ _ k (itemText_length (t.sid, acct t) h1) hk, hcons, List.map_cons, List.flatten_cons]

theorem decodeSkip_range (s : Skip) : decodeSkip (rangeBytes s) = s := by
  unfold decodeSkip rangeBytes get32
  have h1 : get (enc32 s.first ++ enc32 s.last) 0 4 = enc32 s.first := by fields
  have h2 : get (enc32 s.first ++ enc32 s.last) 4 4 = enc32 s.last := by fields
  rw [h1, h2, dec_enc32, dec_enc32]

/-- The zeros after `n` more records from record `j`. -/
def tailPad (j n : Nat) : Bytes := if (j + n) % 2 = 0 then zeros 8 else []

theorem gotText_self (B : Conn) (rB : Ready B) (rest : Bytes) (h : B.inp = rest) : B.gotText [] B.msg rest = B := by
  rw [← h]; exact gotText_nil B rB.1

theorem read_skips (ss : List Skip) : ∀ (A B : Conn) (f : List FileOp) (j : Nat) (X rest : Bytes),
    Ready A → Ready B → Linked A B → (∀ s ∈ ss, s.first.toNat ≤ s.last.toNat) →
    pend B j ++ X = (ss.map rangeBytes).flatten ++ tailPad j ss.length →
    B.inp = A.wr X ++ rest →
    ∃ m g, m.length = 400 ∧ ((j + ss.length) % 2 = 0 → get m 8 8 = zeros 8) ∧ (∃ k, X.length = 16 * k) ∧
      readSkipLoop goodFile B f ⟨0#32, 0#32⟩ j ss.length =
        (some (f ++ ss.map fun s => .skip (rangeBytes s)), B.gotText X m rest, g) := by
  induction ss with
  | nil =>
    intro A B f j X rest rA rB L _ hX hi
    have hX0 : X = [] ∧ (j % 2 = 0 → get B.msg 8 8 = zeros 8) := by
      unfold pend tailPad at hX
      simp only [List.map_nil, List.flatten_nil, List.nil_append, List.length_nil, Nat.add_zero] at hX
      have hg : (get B.msg 8 8).length = 8 := get_length _ _ _ (by have := rB.2.1; omega)
      split at hX
      · rename_i h0
        have := congrArg List.length hX
        rw [List.length_append, hg, zeros_length] at this
        have hx : X = [] := List.length_eq_zero_iff.1 (by omega)
        subst hx
        rw [List.append_nil] at hX
        exact ⟨rfl, fun _ => hX⟩
      · rename_i h0
        exact ⟨hX, fun h => absurd h h0⟩
    obtain ⟨rfl, h0⟩ := hX0
    rw [wr_nil, List.nil_append] at hi
    refine ⟨B.msg, f, rB.2.1, h0, ⟨0, rfl⟩, ?_⟩
    rw [gotText_self B rB rest hi]
    simp [readSkipLoop]
  | cons s ss ih =>
    intro A B f j X rest rA rB L hs hX hi
    have hs1 := hs s (by simp)
    have hss : ∀ x ∈ ss, x.first.toNat ≤ x.last.toNat := fun x hx => hs x (by simp [hx])
    have hrl := rangeBytes_length s
    have hmB := rB.2.1
    have htp : tailPad j (s :: ss).length = tailPad (j + 1) ss.length := by
      unfold tailPad; rw [List.length_cons, show j + (ss.length + 1) = j + 1 + ss.length by omega]
    rw [htp, List.map_cons, List.flatten_cons, List.append_assoc] at hX
    -- what happens once the record is in `msg`
    have go : ∀ (A1 B1 : Conn) (X1 : Bytes) (f1 : List FileOp), Ready A1 → Ready B1 → Linked A1 B1 →
        get B1.msg ((j + 1) % 2 * 8) 8 = rangeBytes s →
        pend B1 (j + 1) ++ X1 = (ss.map rangeBytes).flatten ++ tailPad (j + 1) ss.length →
        B1.inp = A1.wr X1 ++ rest →
        ∃ m g, m.length = 400 ∧ ((j + (s :: ss).length) % 2 = 0 → get m 8 8 = zeros 8) ∧ (∃ k, X1.length = 16 * k) ∧
          (let rec8 := get B1.msg ((j + 1) % 2 * 8) 8
           let curr := decodeSkip rec8
           if curr.last.toNat < curr.first.toNat then ((none, B1, f) : Option (List FileOp) × Conn × List FileOp) else
           if (0#32 : U32) ≠ 0#32 ∧ curr.first.toNat < (0#32 : U32).toNat then (none, B1, f) else
           match goodFile.skip f rec8 with
           | none => (none, B1, f)
           | some f => readSkipLoop goodFile B1 f ⟨0#32, 0#32⟩ (j + 1) ss.length) =
          (some (f ++ (s :: ss).map fun s => .skip (rangeBytes s)), B1.gotText X1 m rest, g) := by
      intro A1 B1 X1 f1 rA1 rB1 L1 hrec hp1 hi1
      obtain ⟨m, g, h1, h2, h3, h4⟩ := ih A1 B1 (f ++ [.skip (rangeBytes s)]) (j + 1) X1 rest rA1 rB1 L1 hss hp1 hi1
      refine ⟨m, g, h1, ?_, h3, ?_⟩
      · intro h0; apply h2; rw [List.length_cons] at h0; rw [← h0]; congr 1; omega
      · dsimp only
        rw [hrec, decodeSkip_range, if_neg (by omega), if_neg (by simp)]
        have hf : goodFile.skip f (rangeBytes s) = some (f ++ [.skip (rangeBytes s)]) := rfl
        rw [hf]
        dsimp only
        rw [h4]
        simp
    rw [List.length_cons, readSkipLoop]
    rcases Nat.mod_two_eq_zero_or_one j with hj | hj
    · have hj1 : (j + 1) % 2 = 1 := by omega
      have hpB : pend B j = get B.msg 8 8 := by unfold pend; rw [if_pos hj]
      have hg : (get B.msg 8 8).length = 8 := get_length _ _ _ (by omega)
      rw [hpB] at hX
      obtain ⟨e1, e2⟩ := List.append_inj hX (by rw [hg, hrl])
      have hp1 : pend B (j + 1) = [] := by unfold pend; rw [if_neg (by omega)]
      obtain ⟨m, g, h1, h2, h3, h4⟩ := go A B X f rA rB L (by rw [hj1]; exact e1) (by rw [hp1, List.nil_append]; exact e2) hi
      refine ⟨m, g, h1, h2, h3, ?_⟩
      rw [if_neg (show ¬ (j + 1) % 2 * 8 = 0 by omega)]
      exact h4
    · have hj1 : (j + 1) % 2 = 0 := by omega
      have hpB : pend B j = [] := by unfold pend; rw [if_neg (by omega)]
      rw [hpB, List.nil_append] at hX
      -- the block holds this record and the next one or zeros
      have hR : 8 ≤ ((ss.map rangeBytes).flatten ++ tailPad (j + 1) ss.length).length := by
        rw [List.length_append, ranges_length]
        unfold tailPad
        cases ss with
        | nil => simp [hj1]
        | cons _ _ => simp; omega
      generalize hRd : (ss.map rangeBytes).flatten ++ tailPad (j + 1) ss.length = R at hX hR go
      obtain ⟨b, X1, hb, hbX, hbR⟩ : ∃ b X1, b.length = 16 ∧ X = b ++ X1 ∧ get b 0 8 = rangeBytes s ∧ get b 8 8 ++ X1 = R := by
        refine ⟨rangeBytes s ++ R.take 8, R.drop 8, by simp [hrl]; omega, ?_, ?_, ?_⟩
        · rw [hX, List.append_assoc, List.take_append_drop]
        · exact get_zero_append _ _ _ hrl.symm
        · rw [get_append_right _ _ _ _ (by omega), hrl, Nat.sub_self, get_all _ 8 (by simp; omega), List.take_append_drop]
      have hX1 : ∃ k, X1.length = 16 * k := by
        have h1 := congrArg List.length hbX
        have h2 := congrArg List.length hX
        rw [List.length_append] at h1 h2
        have h3 := congrArg List.length hRd
        rw [List.length_append, ranges_length] at h3
        refine ⟨ss.length / 2, ?_⟩
        unfold tailPad at h3
        split at h3
        · rw [zeros_length] at h3; omega
        · rw [List.length_nil] at h3; omega
      obtain ⟨k, hk⟩ := hX1
      rw [hbX, wr_append A _ _ A.msg 1 k hb hk, List.append_assoc] at hi
      let m1 := put B.msg 0 b
      have hm1 : m1.length = 400 := by simp only [m1]; rw [put_length _ _ _ (by omega)]; exact hmB
      let r1 := (A.sentText b A.msg).wr X1 ++ rest
      have hg1 : ∀ o n, o + n ≤ 16 → get m1 o n = get b o n := by
        intro o n h
        show get (put B.msg 0 b) o n = _
        rw [get_put_inside _ _ _ _ _ (by omega) (by omega) (by omega), Nat.sub_zero]
      have hpB1 : pend (B.gotText b m1 r1) (j + 1) = get b 8 8 := by
        unfold pend; rw [if_pos hj1]; exact hg1 8 8 (by omega)
      obtain ⟨m, g, h1, h2, ⟨k2, hk2⟩, h4⟩ := go (A.sentText b A.msg) (B.gotText b m1 r1) X1 f
        (ready_sentText A rA _ _ rA.2.1) (ready_gotText B rB _ _ _ hm1) (linked_text A B L _ _ _ _)
        (by rw [hj1]; exact (hg1 0 8 (by omega)).trans hbR.1) (by rw [hpB1]; exact hbR.2) rfl
      refine ⟨m, g, h1, h2, ⟨1 + k, by rw [hbX, List.length_append]; omega⟩, ?_⟩
      have hmm : get (B.got 0 b r1).msg 0 16 = b := by
        show get (put B.msg 0 b) 0 16 = b
        rw [get_put_same _ _ _ _ hb (by omega)]
      rw [if_pos (show (j + 1) % 2 * 8 = 0 by omega), recv_step A B rA rB L.1 b r1 0 1 hb hi]
      dsimp only
      rw [hmm, gotText_ok, show put B.msg 0 b = m1 from rfl]
      rw [gotText_append B _ _ _ _ _ _ 1 k hb hk] at h4
      rw [hbX]
      exact h4

theorem read_record (a : Account) (A B : Conn) (f : List FileOp) (rest : Bytes) (rA : Ready A) (rB : Ready B)
    (L : Linked A B) (hn : a.skips.length < 2 ^ 32) (hs : ∀ s ∈ a.skips, s.first.toNat ≤ s.last.toNat)
    (hi : B.inp = A.wr (accountText a) ++ rest) :
    ∃ m g, m.length = 400 ∧
      readStopRecord goodFile B f = (some (f ++ recorded a), B.gotText (accountText a) m rest, g) := by
  have hmB := rB.2.1
  have hal := accountText_length a
  let b := (accountText a).take 16
  let X := (accountText a).drop 16
  have hb : b.length = 16 := by simp only [b, List.length_take]; omega
  have hbX : accountText a = b ++ X := (List.take_append_drop _ _).symm
  have hXl : X.length = 16 * (a.skips.length / 2) := by simp only [X, List.length_drop]; omega
  rw [hbX, wr_append A b X A.msg 1 _ hb hXl, List.append_assoc] at hi
  let m1 := put B.msg 0 b
  have hm1 : m1.length = 400 := by simp only [m1]; rw [put_length _ _ _ (by omega)]; exact hmB
  let r1 := (A.sentText b A.msg).wr X ++ rest
  have hg1 : ∀ o n, o + n ≤ 16 → get m1 o n = get b o n := by
    intro o n h
    show get (put B.msg 0 b) o n = _
    rw [get_put_inside _ _ _ _ _ (by omega) (by omega) (by omega), Nat.sub_zero]
  have hgb : ∀ o n, o + n ≤ 16 → get b o n = get (accountText a) o n := by
    intro o n h; rw [hbX, get_append_left _ _ _ _ (by omega)]
  have hacc : accountText a = enc32 a.next ++ (enc32 (BitVec.ofNat 32 a.skips.length) ++ ((a.skips.map rangeBytes).flatten ++ tailPad 0 a.skips.length)) := by
    unfold accountText tailPad; rw [Nat.zero_add]; simp only [List.append_assoc]
  have hnext : get32 m1 0 = a.next := by
    unfold get32
    rw [hg1 0 4 (by omega), hgb 0 4 (by omega), hacc, get_zero_append _ _ _ (by simp), dec_enc32]
  have hnum : get32 m1 4 = BitVec.ofNat 32 a.skips.length := by
    unfold get32
    have : get (accountText a) 4 4 = enc32 (BitVec.ofNat 32 a.skips.length) := by rw [hacc]; fields
    rw [hg1 4 4 (by omega), hgb 4 4 (by omega), this, dec_enc32]
  have hnumN : (get32 m1 4).toNat = a.skips.length := by
    rw [hnum, BitVec.toNat_ofNat, Nat.mod_eq_of_lt hn]
  have hpend : pend (B.gotText b m1 r1) 0 ++ X = (a.skips.map rangeBytes).flatten ++ tailPad 0 a.skips.length := by
    have h0 : pend (B.gotText b m1 r1) 0 = get b 8 8 := hg1 8 8 (by omega)
    have h1 : get b 0 8 ++ (get b 8 8 ++ X) = accountText a := by
      rw [← List.append_assoc, get_concat b 0 8 8, get_all b (8 + 8) (by omega), hbX]
    have h2 : get b 0 8 = enc32 a.next ++ enc32 (BitVec.ofNat 32 a.skips.length) := by
      rw [hgb 0 8 (by omega), hacc, ← List.append_assoc]
      exact get_zero_append _ _ _ (by simp)
    rw [h0]
    rw [h2, hacc, ← List.append_assoc (enc32 a.next)] at h1
    exact List.append_cancel_left h1
  obtain ⟨m, g, h1, h2, -, h4⟩ := read_skips a.skips (A.sentText b A.msg) (B.gotText b m1 r1)
    (f ++ [.start a.next (BitVec.ofNat 32 a.skips.length)]) 0 X rest
    (ready_sentText A rA _ _ rA.2.1) (ready_gotText B rB _ _ _ hm1) (linked_text A B L _ _ _ _) hs hpend rfl
  have hmm : get (B.got 0 b r1).msg 0 16 = b := by
    show get (put B.msg 0 b) 0 16 = b
    rw [get_put_same _ _ _ _ hb (by omega)]
  apply Exists.intro m
  apply Exists.intro
  refine ⟨h1, ?_⟩
  unfold readStopRecord
  rw [recv_step A B rA rB L.1 b r1 0 1 hb hi]
  dsimp only
  rw [hmm, gotText_ok, show put B.msg 0 b = m1 from rfl]
  have e1 : get32 (B.gotText b m1 r1).msg 0 = a.next := hnext
  have e2 : get32 (B.gotText b m1 r1).msg 4 = BitVec.ofNat 32 a.skips.length := hnum
  have e3 : (BitVec.ofNat 32 a.skips.length).toNat = a.skips.length := by rw [← hnum]; exact hnumN
  rw [e1, e2, e3]
  have hst : goodFile.start f a.next (BitVec.ofNat 32 a.skips.length) = some (f ++ [.start a.next (BitVec.ofNat 32 a.skips.length)]) := rfl
  rw [hst]
  dsimp only
  rw [h4]
  dsimp only
  have hz : ¬ (a.skips.length % 2 = 0 ∧ get ((B.gotText b m1 r1).gotText X m rest).msg 8 8 ≠ zeros 8) := by
    rintro ⟨x, y⟩
    exact y (h2 (by omega))
  rw [if_neg hz, gotText_append B _ _ _ _ _ _ 1 _ hb hXl, ← hbX]
  have hfin : ∀ f : List FileOp, goodFile.finish f (BitVec.ofNat 32 a.skips.length) a.next = some (f ++ [.finish (BitVec.ofNat 32 a.skips.length) a.next]) := fun f => rfl
  rw [hfin]
  dsimp only
  rw [show f ++ recorded a = f ++ [.start a.next (BitVec.ofNat 32 a.skips.length)] ++ a.skips.map (fun s => FileOp.skip (rangeBytes s)) ++
    [.finish (BitVec.ofNat 32 a.skips.length) a.next] by simp [recorded]]

theorem find_receiver_ok (sid : Bytes) (l : List (Sess ρ)) (h : sid ∈ l.map Sess.sid) : ∃ b t a, findReceiver sid l = some (b, t, a) := by
  induction l with
  | nil => simp at h
  | cons x l ih =>
    rw [findReceiver]
    by_cases hx : x.sid = sid
    · rw [if_pos hx]; exact ⟨_, _, _, rfl⟩
    · rw [if_neg hx]
      rw [List.map_cons, List.mem_cons] at h
      obtain ⟨b, t, a, e⟩ := ih (h.resolve_left fun e => hx e.symm)
      exact ⟨x :: b, t, a, by rw [e]; rfl⟩

theorem read_stop_loop (is : List (Bytes × Account)) : ∀ (A : Conn) (s : StopAt (List FileOp)) (rest : Bytes),
    Ready A → Ready s.c → Linked A s.c → (s.receivers.map Sess.sid).Perm (is.map Prod.fst) →
    (∀ t ∈ s.receivers, t.ep.isSome) → (s.receivers = [] → s.after = []) →
    (∀ i ∈ is, i.1.length = 16 ∧ i.2.skips.length < 2 ^ 32 ∧ ∀ r ∈ i.2.skips, r.first.toNat ≤ r.last.toNat) →
    s.c.inp = A.wr ((is.map itemText).flatten) ++ rest →
    ∃ (m : Bytes) (claims : List (Sess (List FileOp) × Account)), m.length = 400 ∧ claims.map (fun k => (k.1.sid, k.2)) = is ∧ s.receivers.Perm (claims.map Prod.fst) ∧
      readStopLoop goodFile s is.length =
        (true, ⟨s.c.gotText ((is.map itemText).flatten) m rest, [], (claims.map record).reverse ++ s.tests, []⟩) := by
  induction is with
  | nil =>
    intro A s rest rA rB L hp _ ha _ hi
    have hr : s.receivers = [] := by
      have := hp.length_eq
      simpa using this
    have hA := ha hr
    simp only [List.map_nil, List.flatten_nil, wr_nil, List.nil_append] at hi
    refine ⟨s.c.msg, [], rB.2.1, rfl, by rw [hr]; exact List.Perm.refl _, ?_⟩
    simp only [List.map_nil, List.flatten_nil, List.length_nil, readStopLoop, List.reverse_nil, List.nil_append]
    rw [gotText_self s.c rB rest hi]
    cases s
    simp_all
  | cons i is ih =>
    intro A s rest rA rB L hp hep _ hok hi
    obtain ⟨i1, i2, i3⟩ := hok i (by simp)
    have hok' : ∀ i ∈ is, i.1.length = 16 ∧ i.2.skips.length < 2 ^ 32 ∧ ∀ r ∈ i.2.skips, r.first.toNat ≤ r.last.toNat :=
      fun x hx => hok x (by simp [hx])
    obtain ⟨k, hk⟩ := items_length is (fun x hx => (hok' x hx).1)
    have hil := itemText_length i i1
    have hal := accountText_length i.2
    have hmB := rB.2.1
    have htext : ((i :: is).map itemText).flatten = i.1 ++ (accountText i.2 ++ (is.map itemText).flatten) := by
      rw [List.map_cons, List.flatten_cons, itemText, List.append_assoc]
    have hrl : (accountText i.2 ++ (is.map itemText).flatten).length = 16 * (i.2.skips.length / 2 + 1 + k) := by
      rw [List.length_append, hk, hal]; omega
    rw [htext, wr_append A i.1 _ A.msg 1 _ i1 hrl, List.append_assoc] at hi
    let A1 := A.sentText i.1 A.msg
    have rA1 : Ready A1 := ready_sentText A rA _ _ rA.2.1
    let r1 := A1.wr (accountText i.2 ++ (is.map itemText).flatten) ++ rest
    let m1 := put s.c.msg 0 i.1
    have hm1 : m1.length = 400 := by simp only [m1]; rw [put_length _ _ _ (by omega)]; exact hmB
    let B1 := s.c.gotText i.1 m1 r1
    have rB1 : Ready B1 := ready_gotText s.c rB _ _ _ hm1
    have L1 : Linked A1 B1 := linked_text A s.c L _ _ _ _
    let A2 := A1.sentText (accountText i.2) A.msg
    let r2 := A2.wr ((is.map itemText).flatten) ++ rest
    have hi1 : B1.inp = A1.wr (accountText i.2) ++ r2 := by
      show A1.wr _ ++ rest = _
      rw [wr_append A1 _ _ A.msg _ k hal hk, List.append_assoc]
    obtain ⟨b, t, a, hf⟩ := find_receiver_ok i.1 s.receivers (hp.mem_iff.2 (by simp))
    obtain ⟨f1, f2⟩ := find_receiver _ _ _ _ _ hf
    obtain ⟨e, he⟩ : ∃ e, t.ep = some e := Option.isSome_iff_exists.1 (hep t (by rw [f1]; simp))
    obtain ⟨m2, g2, hm2, hw2⟩ := read_record i.2 A1 B1 e.file r2 rA1 rB1 L1 i2 i3 hi1
    let B2 := B1.gotText (accountText i.2) m2 r2
    have hp2 : ((b ++ a).map Sess.sid).Perm (is.map Prod.fst) := by
      have hmid : (s.receivers.map Sess.sid).Perm (i.1 :: (b ++ a).map Sess.sid) := by
        rw [f1]
        have := (List.perm_middle (l₁ := b) (a := t) (l₂ := a)).map Sess.sid
        rw [List.map_cons, f2] at this
        exact this
      have := hmid.symm.trans hp
      rw [List.map_cons] at this
      exact this.cons_inv
    obtain ⟨m, claims, hm, c1, c2, c3⟩ := ih A2
      ⟨B2, b ++ a, { t with ep := some { e with file := e.file ++ recorded i.2 } } :: s.tests, a⟩ rest
      (ready_sentText A1 rA1 _ _ rA.2.1) (ready_gotText B1 rB1 _ _ _ hm2) (linked_text A1 B1 L1 _ _ _ _) hp2
      (fun x hx => hep x (by rw [f1]; simp at hx ⊢; rcases hx with hx | hx <;> simp [hx]))
      (by intro h; exact (List.append_eq_nil_iff.1 h).2) hok' rfl
    refine ⟨m, (t, i.2) :: claims, hm, by rw [List.map_cons, c1, f2], ?_, ?_⟩
    · rw [f1, List.map_cons]
      exact List.perm_middle.trans (List.Perm.cons t c2)
    · have hmm : get (s.c.got 0 i.1 r1).msg 0 16 = i.1 := by
        show get (put s.c.msg 0 i.1) 0 16 = i.1
        rw [get_put_same _ _ _ _ i1 (by omega)]
      have hmm1 : get B1.msg 0 16 = i.1 := hmm
      rw [List.length_cons, readStopLoop, recv_step A s.c rA rB L.1 i.1 r1 0 1 i1 hi]
      dsimp only
      rw [hmm, gotText_ok]
      rw [show s.c.gotText i.1 (put s.c.msg 0 i.1) r1 = B1 from rfl, hmm1, hf]
      dsimp only
      rw [he]
      dsimp only
      rw [hw2]
      dsimp only
      rw [show B1.gotText (accountText i.2) m2 r2 = B2 from rfl, c3]
      dsimp only
      have hB : B2.gotText ((is.map itemText).flatten) m rest = s.c.gotText (((i :: is).map itemText).flatten) m rest := by
        rw [htext, show B2 = (s.c.gotText i.1 m1 r1).gotText (accountText i.2) m2 r2 from rfl,
          gotText_append s.c _ _ _ _ _ _ 1 _ i1 hal,
          gotText_append s.c _ _ _ _ _ _ (1 + (i.2.skips.length / 2 + 1)) k (by rw [List.length_append, i1, hal]; omega) hk,
          List.append_assoc]
      rw [hB]
      have hrec : record (t, i.2) = { t with ep := some { e with file := e.file ++ recorded i.2 } } := by
        simp [record, he]
      rw [← hrec]
      simp

end Owamp.Ctl
