import Verif.Model.Powstream
import Verif.Spec.Powstream
/-! Lemmas about the model of powstream. -/
namespace Owamp.Pow

theorem walk_sentAt (gap : Nat → U64) (st : U64) : ∀ n pos, walk gap pos n (sentAt gap st pos) = sentAt gap st (pos + n)
  | 0, _ => rfl
  | n + 1, pos => by
    rw [walk, show sentAt gap st pos + gap pos = sentAt gap st (pos + 1) from rfl, walk_sentAt gap st n (pos + 1)]
    congr 1; omega

theorem add_sentAt (gap : Nat → U64) (a b : U64) : ∀ n, a + sentAt gap b n = sentAt gap (a + b) n
  | 0 => rfl
  | n + 1 => by rw [sentAt, sentAt, ← BitVec.add_assoc, add_sentAt gap a b n]

theorem add_zero_sentAt (gap : Nat → U64) (a : U64) (n : Nat) : a + sentAt gap 0 n = sentAt gap a n := by
  rw [add_sentAt]; congr 1; exact BitVec.add_zero a

/-- The last scheduled packet of a session. -/
def endOf (g : Cfg) (sid : Nat) (st : U64) : U64 := sentAt (g.gap sid) st g.npackets

/-- The session has begun, and unless a set-up has failed since then (which does not matter without summaries), `R` holds of its start. -/
def Held (g : Cfg) (sid : Nat) (outs : List Out) (R : U64 → Prop) : Prop :=
  ∃ a b st, outs = a ++ Out.begun sid st :: b ∧ ((g.bucket = 0 ∨ Out.failed ∉ b) → R st)

theorem Held.out {g : Cfg} {sid : Nat} {outs : List Out} {R : U64 → Prop} (h : Held g sid outs R) (o : List Out) : Held g sid (outs ++ o) R := by
  obtain ⟨a, b, st, h1, h2⟩ := h
  refine ⟨a, b ++ o, st, by rw [h1]; simp, fun h => h2 (h.imp id ?_)⟩
  intro h3 h4; exact h3 (List.mem_append.2 (Or.inl h4))

theorem Held.imp {g : Cfg} {sid : Nat} {outs : List Out} {R R' : U64 → Prop} (h : Held g sid outs R) (i : ∀ st, R st → R' st) : Held g sid outs R' := by
  obtain ⟨a, b, st, h1, h2⟩ := h
  exact ⟨a, b, st, h1, fun h => i _ (h2 h)⟩

theorem Held.taint {g : Cfg} {sid : Nat} {outs : List Out} {R : U64 → Prop} (h : Held g sid outs R) (o : List Out) (ho : Out.failed ∈ o) (hb : g.bucket ≠ 0) (R' : U64 → Prop) :
    Held g sid (outs ++ o) R' := by
  obtain ⟨a, b, st, h1, h2⟩ := h
  refine ⟨a, b ++ o, st, by rw [h1]; simp, fun h => ?_⟩
  rcases h with h | h
  · exact absurd h hb
  · exact absurd (List.mem_append.2 (Or.inr ho)) h

/-- The end of the session begun last, if nothing was closed since. -/
def lastEnd (g : Cfg) (outs : List Out) : Option U64 :=
  outs.foldl (fun l o => match o with
    | .begun sid st => some (endOf g sid st)
    | .closed => none
    | _ => l) none

/-- `o` is not the beginning or the end of a session. -/
def Neutral (o : Out) : Prop := o ≠ .closed ∧ ∀ sid st, o ≠ .begun sid st

theorem lastEnd_append (g : Cfg) (a : List Out) (o : Out) : lastEnd g (a ++ [o]) = match o with
    | .begun sid st => some (endOf g sid st)
    | .closed => none
    | _ => lastEnd g a := by
  unfold lastEnd; rw [List.foldl_append]; rfl

theorem lastEnd_neutral (g : Cfg) (a : List Out) {o : Out} (h : Neutral o) : lastEnd g (a ++ [o]) = lastEnd g a := by
  rw [lastEnd_append]
  cases o with
  | begun sid st => exact absurd rfl (h.2 sid st)
  | closed => exact absurd rfl h.1
  | _ => rfl

theorem lastEnd_neutrals (g : Cfg) (a : List Out) : ∀ os : List Out, (∀ o ∈ os, Neutral o) → lastEnd g (a ++ os) = lastEnd g a := by
  intro os
  induction os generalizing a with
  | nil => intro _; rw [List.append_nil]
  | cons o os ih =>
    intro h
    rw [show a ++ o :: os = (a ++ [o]) ++ os by simp, ih _ (fun x hx => h x (List.mem_cons_of_mem _ hx)), lastEnd_neutral g a (h o (List.mem_cons_self))]

/-- `start` follows the session begun last. -/
def Follows (g : Cfg) (outs : List Out) (start : U64) : Prop :=
  ∀ e, lastEnd g outs = some e → start = e ∨ (e < start ∧ Out.tried start ∈ outs)

/-- What is claimed of `o` when `a` has been seen before it. -/
def Claim (g : Cfg) (a : List Out) : Out → Prop
  | .begun _ st => Follows g a st
  | .data sid s e early seqs skips =>
    Held g sid a (fun st => s = st ∧
      if early then ∃ k, maxSends g.npackets skips 0 seqs = some k ∧ e = sentAt (g.gap sid) st (k + 1) else e = endOf g sid st)
  | .whole sid s e early => Held g sid a (fun st => s = st ∧ (early = false → e = endOf g sid st))
  | .summ sid s e lo hi =>
    hi = lo + g.bucket ∧ g.bucket ∣ lo ∧ hi ≤ g.npackets ∧ Held g sid a (fun st => s = sentAt (g.gap sid) st lo ∧ e = sentAt (g.gap sid) st hi)
  | _ => True

/-- All that has been seen is as claimed. -/
def AllOk (g : Cfg) (outs : List Out) : Prop := ∀ a o b, outs = a ++ o :: b → Claim g a o

theorem AllOk.snoc {g : Cfg} {outs : List Out} (h : AllOk g outs) {o : Out} (ho : Claim g outs o) : AllOk g (outs ++ [o]) := by
  intro a o' b e
  rcases List.eq_nil_or_concat b with rfl | ⟨b', x, rfl⟩
  · have := List.append_inj' e rfl
    obtain ⟨rfl, h2⟩ := this
    cases h2; exact ho
  · rw [show a ++ o' :: (b'.concat x) = (a ++ o' :: b') ++ [x] by simp] at e
    have := List.append_inj' e rfl
    exact h a o' b' this.1

theorem AllOk.nil (g : Cfg) : AllOk g [] := by
  intro a o b e
  cases a <;> cases e

/-- The start of the next session of record `c` is as it should be. -/
def NextOk (g : Cfg) (c : Conn) (outs : List Out) : Prop :=
  ∀ e, lastEnd g outs = some e → c.nextSet = true ∧ (c.nextStart = e ∨ (e < c.nextStart ∧ Out.tried c.nextStart ∈ outs))

theorem NextOk.out {g : Cfg} {c : Conn} {outs : List Out} (h : NextOk g c outs) {o : List Out} (ho : ∀ x ∈ o, Neutral x) : NextOk g c (outs ++ o) := by
  intro e he
  rw [lastEnd_neutrals g outs o ho] at he
  obtain ⟨h1, h2⟩ := h e he
  exact ⟨h1, h2.imp id (fun h => ⟨h.1, List.mem_append.2 (Or.inl h.2)⟩)⟩

theorem NextOk.congr {g : Cfg} {c d : Conn} {outs : List Out} (h : NextOk g c outs) (h1 : d.nextSet = c.nextSet) (h2 : d.nextStart = c.nextStart) : NextOk g d outs := by
  intro e he; rw [h1, h2]; exact h e he

theorem NextOk.none {g : Cfg} (c : Conn) {outs : List Out} (h : lastEnd g outs = none) : NextOk g c outs := by
  intro e he; rw [h] at he; cases he

/-- What a record that waits for its turn satisfies. -/
def Fresh (g : Cfg) (c : Conn) (outs : List Out) : Prop :=
  c.packets ≠ 0 → Held g c.sid outs (fun st => c.nextStart = st ∧ c.nextEnd = endOf g c.sid st ∧ c.pos = 0)

/-- The times of the current session. -/
def Cur (g : Cfg) (c : Conn) (outs : List Out) : Prop :=
  Held g c.sid outs (fun st => c.curStart = st ∧ c.curEnd = endOf g c.sid st)

def Writable (g : Cfg) (c : Conn) (outs : List Out) : Prop := c.file = true → c.started = true → Cur g c outs

theorem Fresh.out {g : Cfg} {c : Conn} {outs : List Out} (h : Fresh g c outs) (o : List Out) : Fresh g c (outs ++ o) := fun hp => (h hp).out o
theorem Cur.out {g : Cfg} {c : Conn} {outs : List Out} (h : Cur g c outs) (o : List Out) : Cur g c (outs ++ o) := Held.out h o
theorem Writable.out {g : Cfg} {c : Conn} {outs : List Out} (h : Writable g c outs) (o : List Out) : Writable g c (outs ++ o) := fun a b => (h a b).out o

/-! ### `write_session` -/

theorem neutral_data (sid s e f l k) : Neutral (.data sid s e f l k) := ⟨nofun, fun _ _ => nofun⟩
theorem neutral_whole (sid s e f) : Neutral (.whole sid s e f) := ⟨nofun, fun _ _ => nofun⟩
theorem neutral_summ (sid s e l h) : Neutral (.summ sid s e l h) := ⟨nofun, fun _ _ => nofun⟩
theorem neutral_tried (t) : Neutral (.tried t) := ⟨nofun, fun _ _ => nofun⟩
theorem neutral_failed : Neutral .failed := ⟨nofun, fun _ _ => nofun⟩
theorem neutral_exited : Neutral .exited := ⟨nofun, fun _ _ => nofun⟩
theorem neutral_crashed : Neutral .crashed := ⟨nofun, fun _ _ => nofun⟩

theorem putFiles_ok (g : Cfg) (c : Conn) (stop : U64) (early : Bool) (w : WriteEnv) (outs : List Out) (h : AllOk g outs)
    (hd : Claim g outs (.data c.sid c.curStart stop early w.seqs w.skips)) (hw : Claim g outs (.whole c.sid c.curStart stop early)) :
    AllOk g (outs ++ (putFiles c stop early w).1) ∧ ∀ o ∈ (putFiles c stop early w).1, Neutral o := by
  have hw' : ∀ x, Claim g (outs ++ x) (.whole c.sid c.curStart stop early) := fun x => Held.out hw x
  unfold putFiles
  by_cases h1 : w.data = .linked
  · rw [if_pos h1]
    have h1' : w.data ≠ .exits := by rw [h1]; nofun
    rw [if_neg h1']
    by_cases h2 : w.summ = .linked
    · rw [if_pos h2]
      refine ⟨?_, ?_⟩
      · dsimp only
        rw [← List.append_assoc]
        exact (h.snoc hd).snoc (hw' _)
      · intro o ho
        simp only [List.cons_append, List.nil_append, List.mem_cons, List.not_mem_nil, or_false] at ho
        rcases ho with rfl | rfl
        · exact neutral_data ..
        · exact neutral_whole ..
    · rw [if_neg h2]
      refine ⟨h.snoc hd, ?_⟩
      intro o ho
      simp only [List.append_nil, List.mem_cons, List.not_mem_nil, or_false] at ho
      rw [ho]; exact neutral_data ..
  · rw [if_neg h1]
    by_cases h3 : w.data = .exits
    · rw [if_pos h3]
      refine ⟨by dsimp only; rw [List.append_nil]; exact h, ?_⟩
      intro o ho; cases ho
    · rw [if_neg h3]
      by_cases h2 : w.summ = .linked
      · rw [if_pos h2]
        refine ⟨h.snoc hw, ?_⟩
        intro o ho
        simp only [List.nil_append, List.mem_cons, List.not_mem_nil, or_false] at ho
        rw [ho]; exact neutral_whole ..
      · rw [if_neg h2]
        refine ⟨by dsimp only; rw [List.append_nil, List.append_nil]; exact h, ?_⟩
        intro o ho; cases ho

theorem writeSession_ok (g : Cfg) (c : Conn) (ok newend : Bool) (w : WriteEnv) (outs : List Out) (h : AllOk g outs) (hw : Writable g c outs) :
    let r := writeSession g c ok newend w
    AllOk g (outs ++ r.2.1) ∧ (∀ o ∈ r.2.1, Neutral o) ∧ ∃ p, r.1 = { c with pos := p } := by
  have nothing : AllOk g (outs ++ []) ∧ (∀ o ∈ ([] : List Out), Neutral o) ∧ ∃ p, c = { c with pos := p } :=
    ⟨by rw [List.append_nil]; exact h, nofun, c.pos, rfl⟩
  intro r
  show AllOk g (outs ++ r.2.1) ∧ (∀ o ∈ r.2.1, Neutral o) ∧ ∃ p, r.1 = { c with pos := p }
  have hr : r = writeSession g c ok newend w := rfl
  unfold writeSession at hr
  split at hr
  · rw [hr]; exact nothing
  · rename_i h1
    have hc : Cur g c outs := hw (by cases h : c.file <;> simp_all) (by cases h : c.started <;> simp_all)
    split at hr
    · rw [hr]; exact nothing
    · split at hr
      · rw [hr]; exact nothing
      · split at hr
        · unfold earlyEnd at hr
          split at hr
          · rename_i x1 e1
            rw [hr]; exact nothing
          · rw [hr]; exact nothing
          · rename_i i t e1
            split at e1
            · cases e1
            · split at e1
              · cases e1
              · rename_i k hk
                have e2 := Option.some.inj (Option.some.inj e1)
                obtain ⟨rfl, rfl⟩ := Prod.mk.inj e2
                have key := putFiles_ok g c (walk (g.gap c.sid) 0 (k + 1) c.curStart) true w outs h
                  (Held.imp hc (fun st hst => ⟨hst.1, by
                    rw [if_pos rfl, hst.1]
                    refine ⟨k, hk, ?_⟩
                    have := walk_sentAt (g.gap c.sid) st (k + 1) 0
                    rw [Nat.zero_add] at this
                    exact this⟩))
                  (Held.imp hc (fun st hst => ⟨hst.1, nofun⟩))
                rw [hr]
                exact ⟨key.1, key.2, k + 1, rfl⟩
        · have key := putFiles_ok g c c.curEnd false w outs h
            (Held.imp hc (fun st hst => ⟨hst.1, by rw [if_neg (by decide)]; exact hst.2⟩))
            (Held.imp hc (fun st hst => ⟨hst.1, fun _ => hst.2⟩))
          rw [hr]
          exact ⟨key.1, key.2, c.pos, rfl⟩

/-! ### `ResetSession`, `CloseSessions`, `sig_check` -/

@[simp] theorem set_same (s : St) (i : Bool) (c : Conn) : (s.set i c).conn i = c := by simp [St.set]
@[simp] theorem set_not (s : St) (i : Bool) (c : Conn) : (s.set i c).conn (!i) = s.conn (!i) := by cases i <;> simp [St.set]
@[simp] theorem set_not' (s : St) (i : Bool) (c : Conn) : (s.set (!i) c).conn i = s.conn i := by cases i <;> simp [St.set]
@[simp] theorem set_outs (s : St) (i : Bool) (c : Conn) : (s.set i c).outs = s.outs := rfl
@[simp] theorem set_loc (s : St) (i : Bool) (c : Conn) : (s.set i c).loc = s.loc := rfl
@[simp] theorem set_which (s : St) (i : Bool) (c : Conn) : (s.set i c).which = s.which := rfl
@[simp] theorem out_outs (s : St) (o : List Out) : (s.out o).outs = s.outs ++ o := rfl
@[simp] theorem out_conn (s : St) (o : List Out) : (s.out o).conn = s.conn := rfl
@[simp] theorem out_loc (s : St) (o : List Out) : (s.out o).loc = s.loc := rfl
@[simp] theorem out_which (s : St) (o : List Out) : (s.out o).which = s.which := rfl

theorem reset_ok (g : Cfg) (s : St) (i : Bool) (e : CloseEnv) (h : AllOk g s.outs) (hw : Writable g (s.conn i) s.outs) :
    AllOk g (resetSession g s i e).outs ∧ ((resetSession g s i e).loc = .ended ∨
      ((resetSession g s i e).loc = s.loc ∧ (resetSession g s i e).which = s.which ∧
        ((resetSession g s i e).conn i).packets = 0 ∧ ((resetSession g s i e).conn i).file = false ∧
        (resetSession g s i e).conn (!i) = { s.conn (!i) with nextSet := false } ∧
        lastEnd g (resetSession g s i e).outs = none ∧ ∃ o, (resetSession g s i e).outs = s.outs ++ o)) := by
  unfold resetSession
  dsimp only
  generalize hok : (if (s.conn i).packets ≠ 0 ∧ (s.conn i).callStop = true ∧ (s.conn i).cntrl = true then e.accept else true) = ok
  obtain ⟨k1, k2, k3⟩ := writeSession_ok g (s.conn i) ok true e.write s.outs h hw
  generalize writeSession g (s.conn i) ok true e.write = r at k1 k2 k3
  by_cases hx : r.2.2 = true
  · rw [if_pos hx]
    refine ⟨?_, Or.inl rfl⟩
    show AllOk g (s.outs ++ (r.2.1 ++ [Out.exited]))
    rw [← List.append_assoc]
    exact k1.snoc trivial
  · rw [if_neg hx]
    refine ⟨?_, Or.inr ⟨rfl, rfl, ?_, ?_, ?_, ?_, ?_⟩⟩
    · show AllOk g (s.outs ++ (r.2.1 ++ [Out.closed]))
      rw [← List.append_assoc]
      exact k1.snoc trivial
    · simp
    · simp
    · simp
    · show lastEnd g (s.outs ++ (r.2.1 ++ [Out.closed])) = none
      rw [← List.append_assoc, lastEnd_append]
    · exact ⟨_, rfl⟩

/-- Nothing is under way. -/
def Closed (g : Cfg) (s : St) : Prop := (∀ i, (s.conn i).packets = 0 ∧ (s.conn i).file = false) ∧ lastEnd g s.outs = none

theorem close_ok (g : Cfg) (s : St) (e : Sig) (h : AllOk g s.outs) (hw : ∀ i, Writable g (s.conn i) s.outs) :
    AllOk g (closeSessions g s e).outs ∧ ((closeSessions g s e).loc = .ended ∨
      ((closeSessions g s e).loc = s.loc ∧ (closeSessions g s e).which = s.which ∧ Closed g (closeSessions g s e))) := by
  unfold closeSessions
  obtain ⟨a1, a2⟩ := reset_ok g s false e.first h (hw false)
  generalize resetSession g s false e.first = s1 at a1 a2
  dsimp only
  by_cases hx : s1.loc = .ended
  · rw [if_pos hx]; exact ⟨a1, Or.inl hx⟩
  · rw [if_neg hx]
    rcases a2 with a2 | ⟨b1, b2, b3, b4, b5, b6, o, b7⟩
    · exact absurd a2 hx
    · have hw1 : Writable g (s1.conn true) s1.outs := by
        have hc : s1.conn true = { s.conn true with nextSet := false } := b5
        rw [b7, hc]
        exact (hw true).out o
      obtain ⟨c1, c2⟩ := reset_ok g s1 true e.second a1 hw1
      refine ⟨c1, c2.imp id ?_⟩
      rintro ⟨d1, d2, d3, d4, d5, d6, _⟩
      refine ⟨d1.trans b1, d2.trans b2, ?_, d6⟩
      intro i
      cases i with
      | true => exact ⟨d3, d4⟩
      | false =>
        have d5' : (resetSession g s1 true e.second).conn false = { s1.conn false with nextSet := false } := d5
        rw [d5']; exact ⟨b3, b4⟩

theorem sig_ok (g : Cfg) (s : St) (x : Sig) (h : AllOk g s.outs) (hw : ∀ i, Writable g (s.conn i) s.outs) :
    (sigCheck g s (some x)).2 = true ∧ AllOk g (sigCheck g s (some x)).1.outs ∧ ((sigCheck g s (some x)).1.loc = .ended ∨
      ((sigCheck g s (some x)).1.loc = s.loc ∧ (sigCheck g s (some x)).1.which = s.which ∧ Closed g (sigCheck g s (some x)).1)) := by
  obtain ⟨a1, a2⟩ := close_ok g s x h hw
  unfold sigCheck
  dsimp only
  generalize closeSessions g s x = s1 at a1 a2
  by_cases hx : s1.loc = .ended
  · rw [if_pos hx]; exact ⟨rfl, a1, Or.inl hx⟩
  · rw [if_neg hx]
    cases hq : x.quits
    · rw [if_neg (by decide)]; exact ⟨rfl, a1, a2⟩
    · rw [if_pos rfl]; exact ⟨rfl, a1.snoc trivial, Or.inl rfl⟩

/-! ### `SetupSession` -/

theorem lt_of_chosen {c : Conn} {t e : U64} (hs : c.nextSet = true) (h : c.nextStart = e ∨ (e < c.nextStart ∧ True)) :
    chosen c t = c.nextStart ∨ (e < chosen c t ∧ chosen c t = t) := by
  unfold chosen
  by_cases h1 : c.nextStart < t
  · rw [if_neg (fun hh => hh.2 h1)]
    refine Or.inr ⟨?_, rfl⟩
    rcases h with h | h
    · rw [← h]; exact h1
    · exact BitVec.lt_trans h.1 h1
  · rw [if_pos ⟨hs, h1⟩]; exact Or.inl rfl

/-- The start time chosen follows the session before. -/
theorem chosen_ok {g : Cfg} {c : Conn} {outs : List Out} {t : U64} (h : NextOk g c outs) :
    NextOk g { c with nextSet := true, nextStart := chosen c t } (outs ++ [.tried t]) := by
  intro e he
  rw [lastEnd_neutral g outs (neutral_tried t)] at he
  obtain ⟨h1, h2⟩ := h e he
  refine ⟨rfl, ?_⟩
  show chosen c t = e ∨ (e < chosen c t ∧ Out.tried (chosen c t) ∈ outs ++ [Out.tried t])
  rcases lt_of_chosen (t := t) h1 (h2.imp id (fun x => ⟨x.1, trivial⟩)) with k | ⟨k1, k2⟩
  · rw [k]
    exact h2.imp id (fun x => ⟨x.1, List.mem_append.2 (Or.inl x.2)⟩)
  · refine Or.inr ⟨k1, ?_⟩
    rw [k2]; simp

/-- What `SetupSession` may come to. -/
inductive SetUp (g : Cfg) (s : St) (i : Bool) (stop : Option U64) : St × Bool → Prop
  | ended (s' : St) : s'.loc = .ended → SetUp g s i stop (s', true)
  | closed (s' : St) : s'.loc = s.loc → s'.which = s.which → Closed g s' → SetUp g s i stop (s', true)
  | failed (s' : St) (o : List Out) : s'.loc = s.loc → s'.which = s.which → (s.conn i).packets = 0 → s'.conn (!i) = s.conn (!i) →
      (s'.conn i).packets = 0 → (s'.conn i).file = false → NextOk g (s'.conn i) s'.outs → s'.outs = s.outs ++ o → Out.failed ∈ o → (∀ x ∈ o, Neutral x) →
      SetUp g s i stop (s', true)
  | already : (s.conn i).packets ≠ 0 → SetUp g s i stop (s, false)
  | late (s' : St) (n : Bool) (t : U64) : s'.loc = s.loc → s'.which = s.which → s'.accept = s.accept → stop ≠ none → (s.conn i).packets = 0 →
      s'.conn (!i) = { s.conn (!i) with nextSet := n, nextStart := t } → NextOk g (s'.conn (!i)) s'.outs → (s'.conn i).packets = 0 →
      (s'.conn i).file = false → NextOk g (s'.conn i) s'.outs → s'.outs = s.outs → SetUp g s i stop (s', false)
  | begun (s' : St) (o : List Out) (n : Bool) (t : U64) : s'.loc = s.loc → s'.which = s.which → s'.accept = s.accept → (s.conn i).packets = 0 →
      s'.conn (!i) = { s.conn (!i) with nextSet := n, nextStart := t } → NextOk g (s'.conn (!i)) s'.outs → (s'.conn i).packets = g.npackets →
      Fresh g (s'.conn i) s'.outs → (s'.conn i).started = false → s'.outs = s.outs ++ o → (s'.conn i).file = true → SetUp g s i stop (s', false)

theorem writable_nofile {g : Cfg} {c : Conn} {outs : List Out} (h : c.file = false) : Writable g c outs := by
  intro h1; rw [h] at h1; cases h1

theorem setup_ok (g : Cfg) (s : St) (i : Bool) (stop : Option U64) (e : SetupEnv) (h : AllOk g s.outs) (hw : ∀ i, Writable g (s.conn i) s.outs)
    (hn : (s.conn i).packets = 0 → NextOk g (s.conn i) s.outs) :
    AllOk g (setupSession g s i stop e).1.outs ∧ SetUp g s i stop (setupSession g s i stop e) := by
  unfold setupSession
  dsimp only
  by_cases hp : (s.conn i).packets ≠ 0
  · rw [if_pos hp]; exact ⟨h, .already hp⟩
  · rw [if_neg hp]
    have hp0 : (s.conn i).packets = 0 := by omega
    replace hn := hn hp0
    generalize hs1 : s.set i { s.conn i with cntrl := false, file := false, callStop := false, started := false } = s1
    have e1 : s1.conn i = { s.conn i with cntrl := false, file := false, callStop := false, started := false } := by rw [← hs1]; simp
    have e2 : s1.conn (!i) = s.conn (!i) := by rw [← hs1]; simp
    have e3 : s1.outs = s.outs := by rw [← hs1]; rfl
    have e4 : s1.loc = s.loc := by rw [← hs1]; rfl
    have e5 : s1.which = s.which := by rw [← hs1]; rfl
    have e6 : s1.accept = s.accept := by rw [← hs1]; rfl
    have hw1 : ∀ j, Writable g (s1.conn j) s1.outs := by
      intro j
      by_cases hj : j = i
      · rw [hj]; exact writable_nofile (by rw [e1])
      · have : j = !i := by cases i <;> cases j <;> simp_all
        rw [this, e2, e3]; exact hw _
    have h1 : AllOk g s1.outs := by rw [e3]; exact h
    have n1 : NextOk g (s1.conn i) s1.outs := by rw [e1, e3]; exact hn.congr rfl rfl
    have signal : ∀ (s2 : St) (x : Sig) (stop), AllOk g s2.outs → (∀ j, Writable g (s2.conn j) s2.outs) → s2.loc = s.loc → s2.which = s.which →
        AllOk g (sigCheck g s2 (some x)).1.outs ∧ SetUp g s i stop ((sigCheck g s2 (some x)).1, true) := by
      intro s2 x stop a b c d
      obtain ⟨_, k1, k2⟩ := sig_ok g s2 x a b
      refine ⟨k1, ?_⟩
      rcases k2 with k2 | ⟨k2, k3, k4⟩
      · exact .ended _ k2
      · exact .closed _ (k2.trans c) (k3.trans d) k4
    have lateCase : stop ≠ none → AllOk g (handOver s1 i).outs ∧ SetUp g s i stop (handOver s1 i, false) := by
      intro hs
      refine ⟨h1, .late _ (s1.conn i).nextSet (if (s1.conn i).nextSet then (s1.conn i).nextStart else (s1.conn (!i)).nextStart) e4 e5 e6 hs hp0 ?_ ?_ ?_ ?_ ?_ e3⟩
      · unfold handOver; simp [e2]
      · intro x hx
        have hx' : lastEnd g s1.outs = some x := hx
        obtain ⟨a1, a2⟩ := n1 x hx'
        unfold handOver
        simp only [set_same, set_outs]
        rw [if_pos a1]
        exact ⟨a1, a2⟩
      · unfold handOver; simp [e1, hp0]
      · unfold handOver; simp [e1]
      · unfold handOver; simp only [set_not', set_outs]; exact n1
    have failedAt1 : AllOk g (s1.out [.failed]).outs ∧ SetUp g s i stop (s1.out [.failed], true) := by
      refine ⟨h1.snoc trivial, .failed _ [.failed] e4 e5 hp0 e2 ?_ ?_ ?_ (by rw [out_outs, e3]) (by simp) ?_⟩
      · rw [out_conn, e1]; exact hp0
      · rw [out_conn, e1]
      · rw [out_conn, out_outs]
        exact n1.out (by intro x hx; rw [List.mem_singleton] at hx; rw [hx]; exact neutral_failed)
      · intro x hx; rw [List.mem_singleton] at hx; rw [hx]; exact neutral_failed
    generalize ht : soonest g s1 e.now1 = t
    generalize hs2 : ({ ((s1.set i { s1.conn i with nextSet := true, nextStart := chosen (s1.conn i) t }).out [Out.tried t]) with first := false } : St) = s2
    have f1 : s2.conn i = { s1.conn i with nextSet := true, nextStart := chosen (s1.conn i) t } := by rw [← hs2]; simp
    have f2 : s2.conn (!i) = s.conn (!i) := by rw [← hs2]; simp [e2]
    have f3 : s2.outs = s.outs ++ [.tried t] := by rw [← hs2]; simp [e3]
    have f4 : s2.loc = s.loc := by rw [← hs2]; exact e4
    have f5 : s2.which = s.which := by rw [← hs2]; exact e5
    have f6 : s2.accept = s.accept := by rw [← hs2]; exact e6
    have h2 : AllOk g s2.outs := by rw [f3]; exact h.snoc trivial
    have hw2 : ∀ j, Writable g (s2.conn j) s2.outs := by
      intro j
      by_cases hj : j = i
      · rw [hj]; exact writable_nofile (by rw [f1, e1])
      · have : j = !i := by cases i <;> cases j <;> simp_all
        rw [this, f2, f3]; exact (hw _).out _
    have n2 : NextOk g (s2.conn i) s2.outs := by rw [f1, f3, ← e3]; exact chosen_ok n1
    have failedAt2 : AllOk g (s2.out [.failed]).outs ∧ SetUp g s i stop (s2.out [.failed], true) := by
      refine ⟨h2.snoc trivial, .failed _ [.tried t, .failed] f4 f5 hp0 f2 ?_ ?_ ?_ (by rw [out_outs, f3]; simp) (by simp) ?_⟩
      · rw [out_conn, f1, e1]; exact hp0
      · rw [out_conn, f1, e1]
      · rw [out_conn, out_outs]
        exact n2.out (by intro x hx; rw [List.mem_singleton] at hx; rw [hx]; exact neutral_failed)
      · intro x hx
        simp only [List.mem_cons, List.not_mem_nil, or_false] at hx
        rcases hx with rfl | rfl
        · exact neutral_tried _
        · exact neutral_failed
    have doneCase : AllOk g (begin_ g s2 i e.sid).outs ∧ SetUp g s i stop (begin_ g s2 i e.sid, false) := by
      have o1 : (begin_ g s2 i e.sid).outs = s2.outs ++ [.begun e.sid (s2.conn i).nextStart] := rfl
      have w1 : walk (g.gap e.sid) 0 g.npackets (s2.conn i).nextStart = endOf g e.sid (s2.conn i).nextStart := by
        have := walk_sentAt (g.gap e.sid) (s2.conn i).nextStart g.npackets 0
        rw [Nat.zero_add] at this; exact this
      have c1 : (begin_ g s2 i e.sid).conn i = { s2.conn i with cntrl := true, file := true, callStop := true, started := false, packets := g.npackets, sid := e.sid, pos := 0, nextEnd := endOf g e.sid (s2.conn i).nextStart } := by
        unfold begin_; simp [w1]
      have c2 : (begin_ g s2 i e.sid).conn (!i) = { s2.conn (!i) with nextSet := true, nextStart := endOf g e.sid (s2.conn i).nextStart } := by
        unfold begin_; simp [w1]
      have lastE : lastEnd g (begin_ g s2 i e.sid).outs = some (endOf g e.sid (s2.conn i).nextStart) := by rw [o1, lastEnd_append]
      refine ⟨?_, .begun _ [.tried t, .begun e.sid (s2.conn i).nextStart] true (endOf g e.sid (s2.conn i).nextStart) f4 f5 f6 hp0 (by rw [c2, f2]) ?_ ?_ ?_ ?_ ?_ (by rw [c1])⟩
      · rw [o1]
        refine h2.snoc ?_
        intro x hx
        exact (n2 x hx).2
      · intro x hx
        rw [lastE] at hx
        rw [c2]
        exact ⟨rfl, Or.inl (Option.some.inj hx)⟩
      · rw [c1]
      · intro _
        rw [c1, o1]
        exact ⟨s2.outs, [], (s2.conn i).nextStart, rfl, fun _ => ⟨rfl, rfl, rfl⟩⟩
      · rw [c1]
      · rw [o1, f3]; simp
    have isLate : tooLate stop e.now0 = true → stop ≠ none := by
      intro hb hs; rw [hs] at hb; cases hb
    cases hcourse : e.course with
    | done =>
      dsimp only
      split
      · rename_i hb; exact lateCase (isLate hb)
      · exact doneCase
    | failed a =>
      dsimp only
      split
      · rename_i hb; exact lateCase (isLate hb)
      · cases a with
        | waiting => exact failedAt1
        | opening => exact failedAt1
        | timed => exact failedAt2
    | signal a x =>
      cases a with
      | waiting => exact signal s1 x stop h1 hw1 e4 e5
      | opening =>
        dsimp only
        split
        · rename_i hb; exact lateCase (isLate hb)
        · exact signal s1 x stop h1 hw1 e4 e5
      | timed =>
        dsimp only
        split
        · rename_i hb; exact lateCase (isLate hb)
        · exact signal s2 x stop h2 hw2 f4 f5

/-! ### `GetMaxSend` -/

theorem findSkip_mem {n : Nat} {r : Nat × Nat} : ∀ {l : List (Nat × Nat)}, findSkip n l = some r → r ∈ l ∧ n ≤ r.2
  | [], h => by cases h
  | x :: l, h => by
    rw [findSkip] at h
    split at h
    · exact ⟨List.mem_cons_of_mem _ (findSkip_mem h).1, (findSkip_mem h).2⟩
    · cases h; exact ⟨List.mem_cons_self, by omega⟩

theorem findSkip_first {n : Nat} {r : Nat × Nat} : ∀ {l : List (Nat × Nat)}, l.Pairwise (fun a b => a.2 < b.1) → r ∈ l → r.1 ≤ n → n ≤ r.2 → findSkip n l = some r
  | [], _, h, _, _ => by cases h
  | x :: l, hp, h, h1, h2 => by
    rw [findSkip]
    rw [List.pairwise_cons] at hp
    rcases List.mem_cons.1 h with rfl | h
    · rw [if_neg (by omega)]
    · have := hp.1 r h
      rw [if_pos (by omega)]
      exact findSkip_first hp.2 h h1 h2

/-- `GetMaxSend` passes over exactly the packets that were not sent, but for the first of a range. -/
theorem passes_iff {skips : List (Nat × Nat)} (ha : Ascending skips) {n : Nat} (hn : ∀ r ∈ skips, r.1 ≠ n) :
    inSkip n skips = true ↔ Skipped skips n := by
  unfold inSkip
  constructor
  · intro h
    cases hf : findSkip n skips with
    | none => rw [hf] at h; cases h
    | some r =>
      rw [hf] at h
      have h1 := of_decide_eq_true h
      have := findSkip_mem hf
      exact ⟨r, this.1, by omega, this.2⟩
  · rintro ⟨r, h1, h2, h3⟩
    rw [findSkip_first ha.2 h1 h2 h3]
    have := hn r h1
    exact decide_eq_true (by omega)

theorem maxSends_last {np : Nat} {skips : List (Nat × Nat)} (ha : Ascending skips) : ∀ (seqs : List Nat) (i k : Nat), (∀ n ∈ seqs, ∀ r ∈ skips, r.1 ≠ n) →
    maxSends np skips i seqs = some k → ((k ∈ seqs ∧ ¬ Skipped skips k) ∨ k = i) ∧ i ≤ k ∧ ∀ n ∈ seqs, ¬ Skipped skips n → n ≤ k
  | [], i, k, _, h => by
    rw [maxSends] at h; cases h
    exact ⟨Or.inr rfl, Nat.le_refl _, nofun⟩
  | n :: seqs, i, k, hn, h => by
    rw [maxSends] at h
    have key := passes_iff ha (hn n List.mem_cons_self)
    have hn' : ∀ m ∈ seqs, ∀ r ∈ skips, r.1 ≠ m := fun m hm => hn m (List.mem_cons_of_mem _ hm)
    cases hm : maxSend np skips i n with
    | none => rw [hm] at h; cases h
    | some j =>
      rw [hm] at h
      obtain ⟨h1, h2, h3⟩ := maxSends_last ha seqs j k hn' h
      unfold maxSend at hm
      by_cases hs : Skipped skips n
      · rw [if_pos (key.2 hs)] at hm
        cases hm
        refine ⟨h1.imp (fun x => ⟨List.mem_cons_of_mem _ x.1, x.2⟩) id, h2, ?_⟩
        intro m hm hns
        rcases List.mem_cons.1 hm with rfl | hm
        · exact absurd hs hns
        · exact h3 m hm hns
      · rw [if_neg (fun x => hs (key.1 x))] at hm
        split at hm
        · cases hm
          refine ⟨?_, ?_, ?_⟩
          · rcases h1 with h1 | h1
            · exact Or.inl ⟨List.mem_cons_of_mem _ h1.1, h1.2⟩
            · split at h1
              · rw [h1]; exact Or.inl ⟨List.mem_cons_self, hs⟩
              · exact Or.inr h1
          · split at h2 <;> omega
          · intro m hm hns
            rcases List.mem_cons.1 hm with rfl | hm
            · split at h2 <;> omega
            · exact h3 m hm hns
        · cases hm

end Owamp.Pow
