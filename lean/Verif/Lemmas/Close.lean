import Verif.Spec.Close
/-!
# Lists in memory
-/
namespace Owamp.Close
open Owamp.Spec.Close

/-- `l` are the addresses on the list that begins at `p`. -/
def Chain (m : Mem) : Nat → List Nat → Prop
  | p, [] => p = 0
  | p, a :: l => p = a ∧ a ≠ 0 ∧ ∃ x, m.cell a = some x ∧ Chain m x.next l

/-- The place behind the elements `l` of the list at `loc`. -/
def behind (loc : Loc) : List Nat → Loc
  | [] => loc
  | a :: l => behind (.next a) l

/-- The first address of a list. -/
def hd : List Nat → Nat
  | [] => 0
  | a :: _ => a

theorem chain_hd {m : Mem} {p : Nat} {l : List Nat} (h : Chain m p l) : p = hd l := by
  cases l with
  | nil => exact h
  | cons a l => exact h.1

theorem chain_congr {m m' : Mem} : ∀ {l : List Nat} {p : Nat}, (∀ a ∈ l, (m'.cell a).map (·.next) = (m.cell a).map (·.next)) → Chain m p l → Chain m' p l
  | [], _, _, h => h
  | a :: l, p, hc, ⟨h1, h2, x, h3, h4⟩ => by
    have := hc a (by simp)
    rw [h3] at this
    cases hx : m'.cell a with
    | none => rw [hx] at this; cases this
    | some y =>
      rw [hx] at this
      have e : y.next = x.next := by simpa using this
      exact ⟨h1, h2, y, hx, by rw [e]; exact chain_congr (fun b hb => hc b (by simp [hb])) h4⟩

theorem chain_append {m : Mem} : ∀ {l1 l2 : List Nat} {p : Nat}, Chain m p (l1 ++ l2) → Chain m (hd l2) l2
  | [], l2, p, h => by
    have h' : Chain m p l2 := h
    rw [← chain_hd h']; exact h'
  | a :: l1, l2, p, ⟨_, _, x, _, h⟩ => chain_append h

theorem chain_mem {m : Mem} : ∀ {l : List Nat} {p : Nat}, Chain m p l → ∀ a ∈ l, a ≠ 0 ∧ (m.cell a).isSome
  | [], _, _, _, h => by cases h
  | b :: l, _, ⟨_, h1, x, h2, h3⟩, a, ha => by
    rcases List.mem_cons.1 ha with h | h
    · subst h; exact ⟨h1, by rw [h2]; rfl⟩
    · exact chain_mem h3 a h

theorem load_behind {m : Mem} : ∀ {l1 l2 : List Nat} {p : Nat} {loc : Loc}, load m loc = .ok p → Chain m p (l1 ++ l2) →
    load m (behind loc l1) = .ok (hd l2)
  | [], l2, p, loc, h, hc => by rw [show behind loc [] = loc from rfl, h, chain_hd hc]; rfl
  | a :: l1, l2, p, loc, h, ⟨_, _, x, hx, hc⟩ => by
    apply load_behind (p := x.next) _ hc
    simp only [load, hx]

/-- Walking to the first that is looked for. -/
theorem walk_found {m : Mem} (f : Mem → Nat → Except Bad Bool) (t : Nat) (l2 : List Nat) (l1 : List Nat) : ∀ (n p : Nat) (loc : Loc),
    load m loc = .ok p → Chain m p (l1 ++ t :: l2) → (∀ a ∈ l1, f m a = .ok false) → f m t = .ok true → l1.length < n →
    walk f n m loc = .ok (behind loc l1) := by
  induction l1 with
  | nil =>
    rintro n p loc h ⟨h1, h2, _⟩ _ ht hn
    obtain ⟨k, rfl⟩ : ∃ k, n = k + 1 := ⟨n - 1, by simp at hn; omega⟩
    subst h1
    rw [walk, h]
    dsimp only
    rw [if_neg h2, ht]
    rfl
  | cons a l1 ih =>
    rintro n p loc h ⟨h1, h2, x, hx, hc⟩ hf ht hn
    obtain ⟨k, rfl⟩ : ∃ k, n = k + 1 := ⟨n - 1, by simp at hn; omega⟩
    subst h1
    rw [walk, h]
    dsimp only
    rw [if_neg h2, hf p (by simp)]
    exact ih k x.next _ (by simp only [load, hx]) hc (fun b hb => hf b (by simp [hb])) ht (by simpa using hn)

/-- Walking to the end. -/
theorem walk_end {m : Mem} (f : Mem → Nat → Except Bad Bool) (l : List Nat) : ∀ (n p : Nat) (loc : Loc),
    load m loc = .ok p → Chain m p l → (∀ a ∈ l, f m a = .ok false) → l.length < n → walk f n m loc = .ok (behind loc l) := by
  induction l with
  | nil =>
    intro n p loc h hc _ hn
    obtain ⟨k, rfl⟩ : ∃ k, n = k + 1 := ⟨n - 1, by simp at hn; omega⟩
    have hc : p = 0 := hc
    rw [walk, h]
    dsimp only
    rw [if_pos hc]
    rfl
  | cons a l ih =>
    rintro n p loc h ⟨h1, h2, x, hx, hc⟩ hf hn
    obtain ⟨k, rfl⟩ : ∃ k, n = k + 1 := ⟨n - 1, by simp at hn; omega⟩
    subst h1
    rw [walk, h]
    dsimp only
    rw [if_neg h2, hf p (by simp)]
    exact ih k x.next _ (by simp only [load, hx]) hc (fun b hb => hf b (by simp [hb])) (by simpa using hn)

/-- Where a place is: in the cell of that address. -/
def Loc.addr : Loc → Option Nat
  | .list => none
  | .recv => none
  | .tests c => some c
  | .next a => some a

/-- The address whose cell holds the place behind `l`. -/
theorem behind_addr : ∀ (l : List Nat) (loc : Loc), l = [] ∧ behind loc l = loc ∨ ∃ l' a, l = l' ++ [a] ∧ behind loc l = .next a
  | [], loc => Or.inl ⟨rfl, rfl⟩
  | a :: l, loc => by
    rcases behind_addr l (.next a) with ⟨h, e⟩ | ⟨l', b, h, e⟩
    · subst h; exact Or.inr ⟨[], a, rfl, e⟩
    · subst h; exact Or.inr ⟨a :: l', b, rfl, e⟩

/-- A cell but for its pointers. -/
def Body (m : Mem) (a : Nat) : Option (Option Session) :=
  (m.cell a).map fun x => match x.kind with | .conn _ => none | .sess s => some s

/-- What a write to a place does. -/
theorem store_ok {m : Mem} {loc : Loc} {p : Nat} (v : Nat) (h : load m loc = .ok p) : ∃ m', store m loc v = .ok m' ∧ load m' loc = .ok v ∧
    (∀ a, loc.addr ≠ some a → m'.cell a = m.cell a) ∧ (∀ a, Body m' a = Body m a) ∧ m'.log = m.log ∧
    (loc ≠ .list → m'.list = m.list) ∧ (loc ≠ .recv → m'.recv = m.recv) ∧
    (∀ c, loc = .tests c → ∀ nx h, m.cell c = some ⟨nx, .conn h⟩ → m'.cell c = some ⟨nx, .conn v⟩) ∧
    (∀ a, loc = .next a → ∀ x, m.cell a = some x → m'.cell a = some ⟨v, x.kind⟩) := by
  cases loc with
  | list => exact ⟨_, rfl, rfl, fun _ _ => rfl, fun _ => rfl, rfl, fun h => absurd rfl h, fun _ => rfl, (fun _ h => by cases h), (fun _ h => by cases h)⟩
  | recv => exact ⟨_, rfl, rfl, fun _ _ => rfl, fun _ => rfl, rfl, fun _ => rfl, fun h => absurd rfl h, (fun _ h => by cases h), (fun _ h => by cases h)⟩
  | tests c =>
    simp only [load] at h
    split at h
    · rename_i nx t hc
      refine ⟨setCell m c (some ⟨nx, .conn v⟩), by simp only [store, hc], by simp [load, setCell], ?_, ?_, rfl, fun _ => rfl, fun _ => rfl, ?_,
        (fun _ h => by cases h)⟩
      · intro a ha
        have : a ≠ c := fun e => ha (by rw [e]; rfl)
        simp [setCell, this]
      · intro a
        unfold Body setCell
        dsimp only
        split
        · rename_i e; subst e; rw [hc]; rfl
        · rfl
      · intro c' e nx' h' hc'
        cases e
        rw [hc] at hc'
        cases hc'
        simp [setCell]
    · cases h
  | next a =>
    simp only [load] at h
    split at h
    · rename_i x hc
      refine ⟨setCell m a (some { x with next := v }), by simp only [store, hc], by simp [load, setCell], ?_, ?_, rfl, fun _ => rfl, fun _ => rfl,
        (fun _ h => by cases h), ?_⟩
      · intro b hb
        have : b ≠ a := fun e => hb (by rw [e]; rfl)
        simp [setCell, this]
      · intro b
        unfold Body setCell
        dsimp only
        split
        · rename_i e; subst e; rw [hc]; rfl
        · rfl
      · intro a' e x' hx'
        cases e
        rw [hc] at hx'
        cases hx'
        simp [setCell]
    · cases h

/-- Taking an element out of a list. -/
theorem unlink {m : Mem} {loc : Loc} {p t : Nat} {l1 l2 : List Nat} (h : load m loc = .ok p) (hc : Chain m p (l1 ++ t :: l2))
    (hn : (l1 ++ t :: l2).Nodup) (ha : ∀ a ∈ l1 ++ t :: l2, loc.addr ≠ some a) :
    ∃ m' p', store m (behind loc l1) (hd l2) = .ok m' ∧ load m' loc = .ok p' ∧ Chain m' p' (l1 ++ l2) ∧
      (∀ a, (behind loc l1).addr ≠ some a → m'.cell a = m.cell a) ∧ (∀ a, Body m' a = Body m a) ∧ m'.log = m.log ∧
      (loc ≠ .list → m'.list = m.list) ∧ (loc ≠ .recv → m'.recv = m.recv) := by
  obtain ⟨m', s1, s2, s3, s4, s5, s6, s7, s8, s9⟩ := store_ok (hd l2) (load_behind h hc)
  rcases behind_addr l1 loc with ⟨e, eb⟩ | ⟨l1', b, e, eb⟩
  · subst e
    rw [eb] at s2 s3 s6 s7
    refine ⟨m', hd l2, s1, s2, ?_, (by rw [eb]; exact s3), s4, s5, s6, s7⟩
    have hc' : Chain m (hd l2) l2 := chain_append (l1 := [t]) (show Chain m p ([t] ++ l2) from hc)
    exact chain_congr (fun a hm => by rw [s3 a (ha a (by simp at hm; simp [hm]))]) hc'
  · subst e
    rw [eb] at s2 s3 s6 s7 s9
    refine ⟨m', p, s1, ?_, ?_, (by rw [eb]; exact s3), s4, s5, fun _ => s6 (by simp), fun _ => s7 (by simp)⟩
    · have : load m' loc = load m loc := by
        cases loc with
        | list => simp only [load]; rw [s6 (by simp)]
        | recv => simp only [load]; rw [s7 (by simp)]
        | tests c => simp only [load]; rw [s3 c (fun e => ha b (by simp) (by cases e; rfl))]
        | next c => simp only [load]; rw [s3 c (fun e => ha b (by simp) (by cases e; rfl))]
      rw [this, h]
    · have key : ∀ (k : List Nat) (q : Nat), Chain m q (k ++ b :: t :: l2) → (k ++ b :: t :: l2).Nodup → Chain m' q (k ++ b :: l2) := by
        intro k
        induction k with
        | nil =>
          rintro q ⟨q1, q2, x, q3, _, _, y, _, q4⟩ hn
          refine ⟨q1, q2, ⟨_, x.kind⟩, s9 b rfl x q3, ?_⟩
          have hl : Chain m (hd l2) l2 := by rw [← chain_hd q4]; exact q4
          refine chain_congr (fun a hm => ?_) hl
          rw [s3 a]
          intro e
          cases e
          simp only [List.nil_append, List.nodup_cons, List.mem_cons] at hn
          exact hn.1 (Or.inr hm)
        | cons c k ih =>
          rintro q ⟨q1, q2, x, q3, q4⟩ hn
          have hb : c ≠ b := by
            rintro rfl
            simp only [List.cons_append, List.nodup_cons] at hn
            exact hn.1 (by simp)
          refine ⟨q1, q2, x, ?_, ih _ q4 (List.nodup_cons.1 hn).2⟩
          rw [s3 c (fun e => hb (by cases e; rfl)), q3]
      have hh := key l1' p (by simpa using hc) (by simpa using hn)
      simpa using hh

/-- Only the pointers in the cells `S` may have changed. -/
structure Fr (m m' : Mem) (S : List Nat) : Prop where
  cell : ∀ a, a ∉ S → m'.cell a = m.cell a
  body : ∀ a, Body m' a = Body m a
  list : m'.list = m.list
  log : m'.log = m.log

theorem Fr.refl (m : Mem) (S : List Nat) : Fr m m S := ⟨fun _ _ => rfl, fun _ => rfl, rfl, rfl⟩

theorem Fr.trans {m m' m'' : Mem} {S S' : List Nat} (h : Fr m m' S) (h' : Fr m' m'' S') (hs : ∀ a ∈ S', a ∈ S) : Fr m m'' S :=
  ⟨fun a ha => (h'.cell a (fun x => ha (hs a x))).trans (h.cell a ha), fun a => (h'.body a).trans (h.body a), h'.list.trans h.list, h'.log.trans h.log⟩

/-- Connection `c` with the sessions `ts` on its list and `rs` in `receivers`. -/
structure Own (m : Mem) (c nx : Nat) (ts rs : List Nat) : Prop where
  conn : ∃ h, m.cell c = some ⟨nx, .conn h⟩ ∧ Chain m h ts
  recv : Chain m m.recv rs
  sess : ∀ t ∈ ts ++ rs, ∃ s, Body m t = some (some s) ∧ s.cntrl = c
  nodup : (c :: (ts ++ rs)).Nodup

theorem session_body {m : Mem} {t : Nat} {s : Session} (h : Body m t = some (some s)) : session m t = .ok s ∧ ∃ nx, m.cell t = some ⟨nx, .sess s⟩ := by
  unfold Body at h
  cases hx : m.cell t with
  | none => rw [hx] at h; cases h
  | some x =>
    rw [hx] at h
    obtain ⟨nx, k⟩ := x
    cases k with
    | conn _ => cases h
    | sess s' => cases h; exact ⟨by simp only [session, hx], nx, rfl⟩

theorem body_conn {m : Mem} {c nx h : Nat} (hc : m.cell c = some ⟨nx, .conn h⟩) : Body m c = some none := by unfold Body; rw [hc]; rfl

theorem conn_of_body {m : Mem} {c : Nat} (h : Body m c = some none) : ∃ nx t, m.cell c = some ⟨nx, .conn t⟩ := by
  unfold Body at h
  cases hx : m.cell c with
  | none => rw [hx] at h; cases h
  | some x =>
    rw [hx] at h
    obtain ⟨nx, k⟩ := x
    cases k with
    | conn t => exact ⟨nx, t, rfl⟩
    | sess s' => cases h

/-- `push`. -/
theorem push_ok {m : Mem} {c nx h t : Nat} {ts : List Nat} {x : Cell} (hc : m.cell c = some ⟨nx, .conn h⟩) (hl : Chain m h ts) (ht0 : t ≠ 0)
    (htc : t ≠ c) (htt : t ∉ ts) (hct : c ∉ ts) (hx : m.cell t = some x) :
    ∃ m', push m c t = .ok m' ∧ m'.cell c = some ⟨nx, .conn t⟩ ∧ Chain m' t (t :: ts) ∧ Fr m m' [c, t] ∧ m'.recv = m.recv := by
  have l1 : load m (.tests c) = .ok h := by simp only [load, hc]
  obtain ⟨m1, a1, a2, a3, a4, a5, a6, a7, _, a9⟩ := store_ok (m := m) (loc := .next t) (p := x.next) h (by simp only [load, hx])
  have hc1 : m1.cell c = some ⟨nx, .conn h⟩ := by rw [a3 c (fun e => htc (by cases e; rfl)), hc]
  obtain ⟨m2, b1, b2, b3, b4, b5, b6, b7, b8, _⟩ := store_ok (m := m1) (loc := .tests c) (p := h) t (by simp only [load, hc1])
  refine ⟨m2, ?_, b8 c rfl _ _ hc1, ⟨rfl, ht0, ⟨h, x.kind⟩, ?_, ?_⟩, ⟨?_, fun a => (b4 a).trans (a4 a), (b6 (by simp)).trans (a6 (by simp)), b5.trans a5⟩,
    (b7 (by simp)).trans (a7 (by simp))⟩
  · unfold push
    rw [l1]
    show (store m (.next t) h >>= fun m => store m (.tests c) t) = _
    rw [a1]
    exact b1
  · rw [b3 t (fun e => htc (by cases e; rfl))]; exact a9 t rfl x hx
  · refine chain_congr (fun a ha => ?_) hl
    have h1 : a ≠ t := fun e => htt (e ▸ ha)
    have h2 : a ≠ c := fun e => hct (e ▸ ha)
    rw [b3 a (fun e => h2 (by cases e; rfl)), a3 a (fun e => h1 (by cases e; rfl))]
  · intro a ha
    simp only [List.mem_cons, List.not_mem_nil, or_false, not_or] at ha
    rw [b3 a (fun e => ha.1 (by cases e; rfl)), a3 a (fun e => ha.2 (by cases e; rfl))]

/-- Moving an element of `receivers` to the list of the connection. -/
theorem move_ok {m : Mem} {c nx t : Nat} {ts r1 r2 : List Nat} (ho : Own m c nx ts (r1 ++ t :: r2)) :
    ∃ m', (do let q ← load m (.next t); let m ← store m (behind .recv r1) q; push m c t) = .ok m' ∧ Own m' c nx (t :: ts) (r1 ++ r2) ∧
      Fr m m' (c :: (ts ++ (r1 ++ t :: r2))) := by
  obtain ⟨h, hc, hl⟩ := ho.conn
  have nd := ho.nodup
  have ndr : (r1 ++ t :: r2).Nodup := (List.nodup_append.1 (List.nodup_cons.1 nd).2).2.1
  have hct : c ∉ ts ++ (r1 ++ t :: r2) := (List.nodup_cons.1 nd).1
  have hdis : ∀ a ∈ ts, a ∉ r1 ++ t :: r2 := fun a h1 h2 => (List.nodup_append.1 (List.nodup_cons.1 nd).2).2.2 a h1 a h2 rfl
  obtain ⟨_, ht0, x, hx, htl⟩ : Chain m t (t :: r2) := chain_append (l1 := r1) ho.recv
  obtain ⟨m1, p', u1, u2, u3, u4, u5, u6, u7, _⟩ := unlink (loc := .recv) (p := m.recv) rfl ho.recv ndr (fun _ _ h => by cases h)
  have hq : load m (.next t) = .ok (hd r2) := by simp only [load, hx]; rw [chain_hd htl]
  have baddr : ∀ a, (behind .recv r1).addr = some a → a ∈ r1 := by
    intro a ha
    rcases behind_addr r1 .recv with ⟨e, eb⟩ | ⟨l, b, e, eb⟩
    · rw [eb] at ha; cases ha
    · rw [eb] at ha; cases ha; rw [e]; simp
  have hc1 : m1.cell c = some ⟨nx, .conn h⟩ := by rw [u4 c (fun e => hct (by simp [baddr c e])), hc]
  have hl1 : Chain m1 h ts := chain_congr (fun a ha => by rw [u4 a (fun e => hdis a ha (by simp [baddr a e]))]) hl
  have htr : t ∉ r1 ∧ t ∉ r2 := by
    have := List.nodup_append.1 ndr
    exact ⟨fun e => this.2.2 t e t (by simp) rfl, (List.nodup_cons.1 this.2.1).1⟩
  have hx1 : m1.cell t = some x := by rw [u4 t (fun e => htr.1 (baddr t e)), hx]
  obtain ⟨m2, v1, v2, v3, v4, v5⟩ := push_ok (t := t) hc1 hl1 ht0 (fun e => hct (by rw [← e]; simp)) (fun e => hdis t e (by simp))
    (fun e => hct (by simp [e])) hx1
  refine ⟨m2, ?_, ⟨⟨t, v2, v3⟩, ?_, ?_, ?_⟩, ⟨?_, fun a => (v4.body a).trans (u5 a), v4.list.trans (u7 (by simp)), v4.log.trans u6⟩⟩
  · rw [hq]
    show (store m (behind .recv r1) (hd r2) >>= fun m => push m c t) = _
    rw [u1]
    exact v1
  · rw [v5]
    have hp : m1.recv = p' := by simpa [load] using u2
    rw [hp]
    refine chain_congr (fun a ha => ?_) u3
    have : a ∈ r1 ∨ a ∈ r2 := List.mem_append.1 ha
    rw [v4.cell a]
    intro hh
    simp only [List.mem_cons, List.not_mem_nil, or_false] at hh
    rcases hh with rfl | rfl
    · exact hct (by rcases this with h | h <;> simp [h])
    · rcases this with h | h
      · exact htr.1 h
      · exact htr.2 h
  · intro a ha
    obtain ⟨s, h1, h2⟩ := ho.sess a (by simp at ha ⊢; rcases ha with h | h | h | h <;> simp [h])
    exact ⟨s, by rw [v4.body, u5, h1], h2⟩
  · have hp : (c :: (t :: ts ++ (r1 ++ r2))).Perm (c :: (ts ++ (r1 ++ t :: r2))) := by
      refine List.Perm.cons _ ?_
      have h1 : (ts ++ (r1 ++ t :: r2)).Perm (t :: (ts ++ (r1 ++ r2))) := by
        rw [← List.append_assoc, ← List.append_assoc]
        exact List.perm_middle
      exact h1.symm
    exact hp.nodup_iff.2 nd
  · intro a ha
    simp only [List.mem_cons, List.mem_append, not_or] at ha
    rw [v4.cell a (by simp [ha.1, ha.2.2.2.1]), u4 a (fun e => ha.2.2.1 (baddr a e))]

/-- `putBack`. -/
theorem putBack_ok : ∀ (rs : List Nat) (n : Nat) (m : Mem) (c nx : Nat) (ts : List Nat), Own m c nx ts rs → rs.length < n →
    ∃ m', putBack n m c = .ok m' ∧ Own m' c nx (rs.reverse ++ ts) [] ∧ Fr m m' (c :: (ts ++ rs)) ∧ m'.recv = 0 := by
  intro rs
  induction rs with
  | nil =>
    intro n m c nx ts ho hn
    obtain ⟨k, rfl⟩ : ∃ k, n = k + 1 := ⟨n - 1, by simp at hn; omega⟩
    have hr : m.recv = 0 := ho.recv
    exact ⟨m, (by rw [putBack, if_pos hr]), (by simpa using ho), Fr.refl _ _, hr⟩
  | cons r rs ih =>
    intro n m c nx ts ho hn
    obtain ⟨k, rfl⟩ : ∃ k, n = k + 1 := ⟨n - 1, by simp at hn; omega⟩
    obtain ⟨h1, h2, _⟩ := ho.recv
    obtain ⟨m1, e1, e2, e3⟩ := move_ok (r1 := []) ho
    obtain ⟨m2, f1, f2, f3, f4⟩ := ih k m1 c nx (r :: ts) e2 (by simpa using hn)
    refine ⟨m2, ?_, by simpa using f2, ?_, f4⟩
    · rw [putBack, if_neg (by rw [h1]; exact h2), h1]
      dsimp only
      have e1' : (do let q ← load m (.next r); let m ← store m .recv q; push m c r) = .ok m1 := e1
      rw [e1']
      exact f1
    · refine e3.trans f3 fun a ha => ?_
      simp at ha ⊢
      rcases ha with h | h | h | h <;> simp [h]

/-- `takeNamed`. -/
theorem takeNamed_ok {m : Mem} {c nx n : Nat} {ts rs : List Nat} (sid : Nat) (ho : Own m c nx ts rs) (hn : rs.length < n) :
    (∃ l, takeNamed n m c sid = .ok (false, l, m)) ∨
    ∃ l m' r1 t r2, takeNamed n m c sid = .ok (true, l, m') ∧ rs = r1 ++ t :: r2 ∧ Own m' c nx (t :: ts) (r1 ++ r2) ∧
      Fr m m' (c :: (ts ++ rs)) ∧ load m' l = .ok (hd r2) ∧ ∀ s, Body m t = some (some s) → s.sid = sid := by
  have look : ∀ t ∈ rs, ∃ s, Body m t = some (some s) ∧ hasSid sid m t = .ok (s.sid == sid) := by
    intro t ht
    obtain ⟨s, h1, _⟩ := ho.sess t (by simp [ht])
    exact ⟨s, h1, by unfold hasSid; rw [(session_body h1).1]⟩
  have dec : (∀ t ∈ rs, hasSid sid m t = .ok false) ∨ ∃ r1 t r2, rs = r1 ++ t :: r2 ∧ (∀ a ∈ r1, hasSid sid m a = .ok false) ∧ hasSid sid m t = .ok true := by
    clear hn ho
    induction rs with
    | nil => exact Or.inl (fun _ h => by cases h)
    | cons a rs ih =>
      obtain ⟨s, _, ha⟩ := look a (by simp)
      cases hs : s.sid == sid with
      | true => exact Or.inr ⟨[], a, rs, rfl, (fun _ h => by cases h), by rw [ha, hs]⟩
      | false =>
        rw [hs] at ha
        rcases ih (fun t ht => look t (by simp [ht])) with h | ⟨r1, t, r2, e, h1, h2⟩
        · exact Or.inl fun t ht => by
            rcases List.mem_cons.1 ht with h' | h'
            · rw [h']; exact ha
            · exact h t h'
        · exact Or.inr ⟨a :: r1, t, r2, by rw [e]; rfl, fun b hb => by
            rcases List.mem_cons.1 hb with h' | h'
            · rw [h']; exact ha
            · exact h1 b h', h2⟩
  rcases dec with h | ⟨r1, t, r2, e, h1, h2⟩
  · left
    have w := walk_end (hasSid sid) rs n m.recv .recv rfl ho.recv h hn
    have ld : load m (behind .recv rs) = .ok 0 := load_behind (l2 := []) (p := m.recv) rfl (by rw [List.append_nil]; exact ho.recv)
    refine ⟨behind .recv rs, ?_⟩
    unfold takeNamed
    rw [w]
    show (load m (behind .recv rs) >>= fun p => _) = _
    rw [ld]
    rfl
  · right
    subst e
    have w := walk_found (hasSid sid) t r2 r1 n m.recv .recv rfl ho.recv h1 h2 (by simp at hn; omega)
    have ld : load m (behind .recv r1) = .ok t := load_behind (l2 := t :: r2) (p := m.recv) rfl ho.recv
    obtain ⟨m', a1, a2, a3⟩ := move_ok ho
    have ht0 : t ≠ 0 := (chain_mem ho.recv t (by simp)).1
    refine ⟨behind .recv r1, m', r1, t, r2, ?_, rfl, a2, a3, ?_, ?_⟩
    · unfold takeNamed
      rw [w]
      show (load m (behind .recv r1) >>= fun p => _) = _
      rw [ld]
      show (if t = 0 then _ else _) = _
      rw [if_neg ht0]
      have : (do let q ← load m (.next t); let m ← store m (behind .recv r1) q; let m ← push m c t; Except.ok (true, behind .recv r1, m)) =
          ((do let q ← load m (.next t); let m ← store m (behind .recv r1) q; push m c t) >>= fun m => Except.ok (true, behind .recv r1, m)) := by
        cases load m (.next t) with
        | error e => rfl
        | ok q =>
          show (store m (behind .recv r1) q >>= fun m => _) = ((store m (behind .recv r1) q >>= fun m => push m c t) >>= _)
          cases store m (behind .recv r1) q <;> rfl
      rw [this, a1]
      rfl
    · exact load_behind (p := m'.recv) rfl a2.recv
    · intro s hs
      obtain ⟨s', h3, h4⟩ := look t (by simp)
      rw [hs] at h3
      cases h3
      rw [h2] at h4
      cases hh : s.sid == sid with
      | true => exact eq_of_beq hh
      | false => rw [hh] at h4; cases h4

/-- `takeAll`. -/
theorem takeAll_ok (n c nx : Nat) : ∀ (sids : List Nat) (m : Mem) (ts rs : List Nat) (l : Loc), Own m c nx ts rs → rs.length < n →
    (∃ p, load m l = .ok p) →
    ∃ f l' m' ts' rs', takeAll n c sids m l = .ok (f, l', m') ∧ Own m' c nx ts' rs' ∧ Fr m m' (c :: (ts ++ rs)) ∧ (ts' ++ rs').Perm (ts ++ rs) ∧
      (f = true → (∃ p, load m' l' = .ok p) ∧ ts'.length = ts.length + sids.length) := by
  intro sids
  induction sids with
  | nil =>
    intro m ts rs l ho _ hl
    exact ⟨true, l, m, ts, rs, rfl, ho, Fr.refl _ _, List.Perm.refl _, fun _ => ⟨hl, rfl⟩⟩
  | cons sid sids ih =>
    intro m ts rs l ho hn hl
    rcases takeNamed_ok sid ho hn with ⟨l', h⟩ | ⟨l', m', r1, t, r2, h1, h2, h3, h4, h5, _⟩
    · exact ⟨false, l', m, ts, rs, (by rw [takeAll, h]), ho, Fr.refl _ _, List.Perm.refl _, (fun h => by cases h)⟩
    · subst h2
      obtain ⟨f, l'', m'', ts', rs', a1, a2, a3, a4, a5⟩ := ih m' (t :: ts) (r1 ++ r2) l' h3 (by simp at hn ⊢; omega) ⟨_, h5⟩
      have hp : (t :: ts ++ (r1 ++ r2)).Perm (ts ++ (r1 ++ t :: r2)) := by
        have h1 : (ts ++ (r1 ++ t :: r2)).Perm (t :: (ts ++ (r1 ++ r2))) := by
          rw [← List.append_assoc, ← List.append_assoc]
          exact List.perm_middle
        exact h1.symm
      refine ⟨f, l'', m'', ts', rs', ?_, a2, h4.trans a3 ?_, a4.trans hp, fun hf => ?_⟩
      · rw [takeAll, h1]; exact a1
      · intro a ha
        rcases List.mem_cons.1 ha with h | h
        · simp [h]
        · exact List.mem_cons_of_mem _ (hp.mem_iff.1 h)
      · obtain ⟨b1, b2⟩ := a5 hf
        exact ⟨b1, by rw [b2]; simp; omega⟩

/-- The session at an address of a connection receives. -/
def Recv (m : Mem) (t : Nat) : Prop := ∃ s e, Body m t = some (some s) ∧ s.ep = some e ∧ e.send = false

/-- `pull`, when `k` has been passed. -/
theorem pull_ok (c nx : Nat) : ∀ (ts : List Nat) (n : Nat) (m : Mem) (k rs : List Nat), Own m c nx (k ++ ts) rs → ts.length < n →
    ∃ f l m' ts' rs', pull n m (behind (.tests c) k) = .ok (f, l, m') ∧ Own m' c nx ts' rs' ∧ Fr m m' (c :: (k ++ ts ++ rs)) ∧
      (ts' ++ rs').Perm (k ++ ts ++ rs) ∧
      (f = true → (∃ p, load m' l = .ok p) ∧ ∃ new snd, rs' = new ++ rs ∧ ts' = k ++ snd ∧ (∀ t ∈ new, Recv m t) ∧ ∀ t ∈ snd, ¬ Recv m t) := by
  intro ts
  induction ts with
  | nil =>
    intro n m k rs ho hn
    obtain ⟨j, rfl⟩ : ∃ j, n = j + 1 := ⟨n - 1, by simp at hn; omega⟩
    obtain ⟨h, hc, hl⟩ := ho.conn
    have ld : load m (behind (.tests c) k) = .ok 0 := load_behind (l2 := []) (p := h) (by simp only [load, hc]) hl
    refine ⟨true, _, m, k, rs, ?_, (by simpa using ho), Fr.refl _ _, by simp, fun _ => ⟨⟨_, ld⟩, [], [], rfl, by simp, (fun _ h => by cases h),
      (fun _ h => by cases h)⟩⟩
    rw [pull, ld]
    dsimp only
    rw [if_pos rfl]
  | cons t ts ih =>
    intro n m k rs ho hn
    obtain ⟨j, rfl⟩ : ∃ j, n = j + 1 := ⟨n - 1, by simp at hn; omega⟩
    obtain ⟨h, hc, hl⟩ := ho.conn
    have ldc : load m (.tests c) = .ok h := by simp only [load, hc]
    have ld : load m (behind (.tests c) k) = .ok t := load_behind (l2 := t :: ts) (p := h) ldc hl
    have ht0 : t ≠ 0 := (chain_mem hl t (by simp)).1
    obtain ⟨s, hs1, hs2⟩ := ho.sess t (by simp)
    have hses := (session_body hs1).1
    cases hep : s.ep with
    | none =>
      refine ⟨false, behind (.tests c) k, m, k ++ t :: ts, rs, ?_, ho, Fr.refl _ _, List.Perm.refl _, (fun h => by cases h)⟩
      rw [pull, ld]
      dsimp only
      rw [if_neg ht0, hses]
      dsimp only
      rw [hep]
    | some e =>
      cases hsend : e.send with
      | true =>
        have ho' : Own m c nx (k ++ [t] ++ ts) rs := by simpa using ho
        obtain ⟨f, l, m', ts', rs', a1, a2, a3, a4, a5⟩ := ih j m (k ++ [t]) rs ho' (by simpa using hn)
        have hb : behind (.tests c) (k ++ [t]) = .next t := by
          rcases behind_addr (k ++ [t]) (.tests c) with ⟨e, _⟩ | ⟨l', b, e, eb⟩
          · simp at e
          · have := List.append_inj' e rfl
            rw [eb]
            simp only [List.cons.injEq, and_true] at this
            rw [this.2]
        rw [hb] at a1
        refine ⟨f, l, m', ts', rs', ?_, a2, by simpa using a3, by simpa using a4, fun hf => ?_⟩
        · rw [pull, ld]
          dsimp only
          rw [if_neg ht0, hses]
          dsimp only
          rw [hep]
          dsimp only
          rw [if_pos hsend]
          exact a1
        · obtain ⟨b1, new, snd, b2, b3, b4, b5⟩ := a5 hf
          refine ⟨b1, new, t :: snd, b2, by simpa using b3, b4, fun x hx => ?_⟩
          rcases List.mem_cons.1 hx with h' | h'
          · subst h'
            rintro ⟨s', e', q1, q2, q3⟩
            rw [hs1] at q1
            cases q1
            rw [hep] at q2
            cases q2
            rw [hsend] at q3
            cases q3
          · exact b5 x h'
      | false =>
        have nd := ho.nodup
        have hcn : c ∉ k ++ t :: ts ++ rs := (List.nodup_cons.1 nd).1
        have ndt : (k ++ t :: ts).Nodup := (List.nodup_append.1 (List.nodup_cons.1 nd).2).1
        have ndr : rs.Nodup := (List.nodup_append.1 (List.nodup_cons.1 nd).2).2.1
        have hdis : ∀ a ∈ k ++ t :: ts, a ∉ rs := fun a h1 h2 => (List.nodup_append.1 (List.nodup_cons.1 nd).2).2.2 a h1 a h2 rfl
        obtain ⟨_, _, x, hx, htl⟩ : Chain m t (t :: ts) := chain_append (l1 := k) hl
        obtain ⟨m1, p', u1, u2, u3, u4, u5, u6, u7, u8⟩ := unlink (loc := .tests c) (p := h) ldc hl ndt
          (fun a ha e => hcn (by cases e; exact List.mem_append_left _ ha))
        have hq : load m (.next t) = .ok (hd ts) := by simp only [load, hx]; rw [chain_hd htl]
        have baddr : ∀ a, (behind (.tests c) k).addr = some a → a = c ∨ a ∈ k := by
          intro a ha
          rcases behind_addr k (.tests c) with ⟨e, eb⟩ | ⟨l, b, e, eb⟩
          · rw [eb] at ha; cases ha; exact Or.inl rfl
          · rw [eb] at ha; cases ha; rw [e]; right; simp
        have htk : t ∉ k ∧ t ∉ ts := by
          have := List.nodup_append.1 ndt
          exact ⟨fun e => this.2.2 t e t (by simp) rfl, (List.nodup_cons.1 this.2.1).1⟩
        have htc : t ≠ c := fun e => hcn (by rw [← e]; simp)
        have hx1 : m1.cell t = some x := by
          rw [u4 t (fun e => (baddr t e).elim htc htk.1), hx]
        obtain ⟨m2, v1, v2, v3, v4, v5, v6, v7, _, v9⟩ := store_ok (m := m1) (loc := .next t) (p := x.next) m1.recv (by simp only [load, hx1])
        obtain ⟨h1, hc1, hl1⟩ : ∃ h1, m1.cell c = some ⟨nx, .conn h1⟩ ∧ Chain m1 h1 (k ++ ts) := by
          have hb : Body m1 c = some none := by rw [u5, body_conn hc]
          obtain ⟨nx', h1, hc1⟩ := conn_of_body hb
          have : p' = h1 := by simp only [load, hc1] at u2; cases u2; rfl
          subst this
          have hnx : nx' = nx := by
            rcases behind_addr k (.tests c) with ⟨e, eb⟩ | ⟨l, b, e, eb⟩
            · subst e
              rw [eb] at u1
              simp only [store, hc] at u1
              cases u1
              simp [setCell] at hc1
              exact hc1.1.symm
            · have : m1.cell c = m.cell c := by
                apply u4
                rw [eb]
                intro e'
                cases e'
                exact hcn (by rw [e]; simp)
              rw [this, hc] at hc1
              cases hc1
              rfl
          subst hnx
          exact ⟨p', hc1, u3⟩
        have m3own : Own { m2 with recv := t } c nx (k ++ ts) (t :: rs) := by
          refine ⟨⟨h1, ?_, ?_⟩, ⟨rfl, ht0, ⟨m1.recv, x.kind⟩, v9 t rfl x hx1, ?_⟩, ?_, ?_⟩
          · show m2.cell c = _
            rw [v3 c (fun e => htc (by cases e; rfl)), hc1]
          · refine chain_congr (fun a ha => ?_) hl1
            show (m2.cell a).map _ = _
            rw [v3 a (fun e => ?_)]
            cases e
            rcases List.mem_append.1 ha with h' | h'
            · exact htk.1 h'
            · exact htk.2 h'
          · rw [u8 (by simp)]
            refine chain_congr (fun a ha => ?_) ho.recv
            show (m2.cell a).map _ = _
            have ne1 : t ≠ a := fun e => hdis t (by simp) (e ▸ ha)
            rw [v3 a (fun e => ne1 (by cases e; rfl)), u4 a (fun e => ?_)]
            rcases baddr a e with h' | h'
            · exact hcn (by rw [← h']; simp [ha])
            · exact hdis a (by simp [h']) ha
          · intro a ha
            obtain ⟨s', q1, q2⟩ := ho.sess a (by simp at ha ⊢; rcases ha with h | h | h | h <;> simp [h])
            exact ⟨s', by rw [show Body { m2 with recv := t } a = Body m2 a from rfl, v4, u5, q1], q2⟩
          · have hp : (c :: (k ++ ts ++ t :: rs)).Perm (c :: (k ++ t :: ts ++ rs)) := by
              refine List.Perm.cons _ ?_
              have p1 : (k ++ ts ++ t :: rs).Perm (t :: (k ++ ts ++ rs)) := List.perm_middle
              have p2 : (k ++ t :: ts ++ rs).Perm (t :: (k ++ ts ++ rs)) := by
                rw [List.append_assoc, List.append_assoc]; exact List.perm_middle
              exact p1.trans p2.symm
            exact hp.nodup_iff.2 nd
        have fr1 : Fr m { m2 with recv := t } (c :: (k ++ t :: ts ++ rs)) := by
          refine ⟨fun a ha => ?_, fun a => (v4 a).trans (u5 a), (v6 (by simp)).trans (u7 (by simp)), v5.trans u6⟩
          simp only [List.mem_cons, List.mem_append, not_or] at ha
          show m2.cell a = _
          have ne1 : t ≠ a := fun e => ha.2.1.2.1 e.symm
          rw [v3 a (fun e => ne1 (by cases e; rfl)), u4 a (fun e => (baddr a e).elim ha.1 ha.2.1.1)]
        obtain ⟨f, l, m', ts', rs', a1, a2, a3, a4, a5⟩ := ih j { m2 with recv := t } k (t :: rs) m3own (by simpa using hn)
        have hp : (k ++ ts ++ t :: rs).Perm (k ++ t :: ts ++ rs) := by
          have p1 : (k ++ ts ++ t :: rs).Perm (t :: (k ++ ts ++ rs)) := List.perm_middle
          have p2 : (k ++ t :: ts ++ rs).Perm (t :: (k ++ ts ++ rs)) := by
            rw [List.append_assoc, List.append_assoc]; exact List.perm_middle
          exact p1.trans p2.symm
        have rb : ∀ y, Recv { m2 with recv := t } y ↔ Recv m y := by
          intro y; unfold Recv; rw [fr1.body y]
        refine ⟨f, l, m', ts', rs', ?_, a2, fr1.trans a3 ?_, a4.trans hp, fun hf => ?_⟩
        · rw [pull, ld]
          dsimp only
          rw [if_neg ht0, hses]
          dsimp only
          rw [hep]
          dsimp only
          rw [if_neg (by rw [hsend]; simp)]
          have : (do let q ← load m (.next t); let m ← store m (behind (.tests c) k) q; let m ← store m (.next t) m.recv; store m .recv t) =
              .ok { m2 with recv := t } := by
            rw [hq]
            show (store m (behind (.tests c) k) (hd ts) >>= fun m => store m (.next t) m.recv >>= fun m => store m .recv t) = _
            rw [u1]
            show (store m1 (.next t) m1.recv >>= fun m => store m .recv t) = _
            rw [v1]
            rfl
          rw [this]
          exact a1
        · intro a ha
          rcases List.mem_cons.1 ha with h | h
          · simp [h]
          · exact List.mem_cons_of_mem _ (hp.mem_iff.1 h)
        · obtain ⟨b1, new, snd, b2, b3, b4, b5⟩ := a5 hf
          refine ⟨b1, new ++ [t], snd, by simpa using b2, b3, fun y hy => ?_, fun y hy => ?_⟩
          · rcases List.mem_append.1 hy with h' | h'
            · exact (rb y).1 (b4 y h')
            · simp only [List.mem_singleton] at h'
              subst h'
              exact ⟨s, e, hs1, hep, hsend⟩
          · exact fun hh => b5 y hy ((rb y).2 hh)

theorem Own.congr {m m' : Mem} {c nx : Nat} {ts rs : List Nat} (h : Own m c nx ts rs) (hc : m'.cell = m.cell) (hr : m'.recv = m.recv) : Own m' c nx ts rs := by
  obtain ⟨t, h1, h2⟩ := h.conn
  have hb : ∀ a, Body m' a = Body m a := fun a => by unfold Body; rw [hc]
  exact ⟨⟨t, by rw [hc]; exact h1, chain_congr (fun a _ => by rw [hc]) h2⟩, by rw [hr]; exact chain_congr (fun a _ => by rw [hc]) h.recv,
    fun t ht => by rw [hb]; exact h.sess t ht, h.nodup⟩

/-- The stop message. -/
theorem readStop_ok {m : Mem} {c nx n : Nat} {ts : List Nat} (ho : Own m c nx ts []) (sids : List Nat) (fails : Bool) (hn : ts.length < n) :
    ∃ r m' ts' lost, readStop n m c sids fails = .ok (r, m') ∧ Own m' c nx ts' [] ∧ Fr m m' (c :: ts) ∧ (ts' ++ lost).Perm ts ∧
      (r = false → lost = []) ∧ (fails = true → lost = []) ∧
      ((∃ l : List Nat, l.Nodup ∧ (∀ t, t ∈ l ↔ t ∈ ts ∧ Recv m t) ∧ l.length = sids.length) → lost = []) := by
  have hr0 : m.recv = 0 := ho.recv
  have ho0 : Own { m with recv := 0 } c nx ts [] := ho.congr rfl hr0.symm
  have nd := ho.nodup
  obtain ⟨f, l, m1, ts1, rs1, a1, a2, a3, a4, a5⟩ := pull_ok c nx ts n { m with recv := 0 } [] [] (by simpa using ho0) hn
  rw [show behind (.tests c) [] = .tests c from rfl] at a1
  have a3' : Fr m m1 (c :: ts) := ⟨fun a ha => a3.cell a (by simpa using ha), a3.body, a3.list, a3.log⟩
  have a4' : (ts1 ++ rs1).Perm ts := by simpa using a4
  have len1 : rs1.length < n := by have := a4'.length_eq; simp at this; omega
  cases f with
  | false =>
    obtain ⟨m2, b1, b2, b3, b4⟩ := putBack_ok rs1 n m1 c nx ts1 a2 len1
    refine ⟨false, m2, rs1.reverse ++ ts1, [], ?_, b2, a3'.trans b3 ?_, ?_, fun _ => rfl, fun _ => rfl, fun _ => rfl⟩
    · unfold readStop
      rw [a1]
      show (putBack n m1 c >>= fun m => _) = _
      rw [b1]
      rfl
    · intro a ha
      rcases List.mem_cons.1 ha with h | h
      · simp [h]
      · exact List.mem_cons_of_mem _ (a4'.mem_iff.1 h)
    · rw [List.append_nil]
      exact ((List.reverse_perm rs1).append_right ts1).trans (List.perm_append_comm.trans a4')
  | true =>
    obtain ⟨hl, new, snd, e1, e2, e3, e4⟩ := a5 rfl
    rw [List.append_nil] at e1
    rw [List.nil_append] at e2
    subst e1 e2
    obtain ⟨f', l', m2, ts2, rs2, c1, c2, c3, c4, c5⟩ := takeAll_ok n c nx sids m1 ts1 rs1 l a2 len1 hl
    have c4' : (ts2 ++ rs2).Perm ts := c4.trans a4'
    have c3' : Fr m m2 (c :: ts) := a3'.trans c3 (fun a ha => by
      rcases List.mem_cons.1 ha with h | h
      · simp [h]
      · exact List.mem_cons_of_mem _ (a4'.mem_iff.1 h))
    have len2 : rs2.length < n := by have := c4'.length_eq; simp at this; omega
    obtain ⟨m3, d1, d2, d3, d4⟩ := putBack_ok rs2 n m2 c nx ts2 c2 len2
    have d3' : Fr m m3 (c :: ts) := c3'.trans d3 (fun a ha => by
      rcases List.mem_cons.1 ha with h | h
      · simp [h]
      · exact List.mem_cons_of_mem _ (c4'.mem_iff.1 h))
    have d4' : (rs2.reverse ++ ts2 ++ []).Perm ts := by
      rw [List.append_nil]
      exact ((List.reverse_perm rs2).append_right ts2).trans (List.perm_append_comm.trans c4')
    by_cases hg : (f' && !fails) = true
    · obtain ⟨⟨p, hp⟩, hlen⟩ := c5 (by simp at hg; exact hg.1)
      by_cases hp0 : p = 0
      · refine ⟨true, { m2 with recv := 0 }, ts2, rs2, ?_, ?_, ⟨c3'.cell, c3'.body, c3'.list, c3'.log⟩, c4', (fun h => by cases h), ?_, ?_⟩
        · unfold readStop
          rw [a1]
          show (takeAll n c sids m1 l >>= fun x => _) = _
          rw [c1]
          show (if (f' && !fails) = true then _ else _) = _
          rw [if_pos hg]
          show (load m2 l' >>= fun p => _) = _
          rw [hp]
          show (if p = 0 then _ else _) = _
          rw [if_pos hp0]
        · obtain ⟨h, q1, q2⟩ := c2.conn
          refine ⟨⟨h, q1, chain_congr (m := m2) (fun _ _ => rfl) q2⟩, rfl, fun t ht => ?_, ?_⟩
          · rw [List.append_nil] at ht
            exact c2.sess t (by simp [ht])
          · rw [List.append_nil]
            have := c2.nodup
            rw [← List.cons_append] at this
            exact (List.nodup_append.1 this).1
        · intro h; rw [h] at hg; simp at hg
        · rintro ⟨r, r1, r2, r3⟩
          have hnd : rs1.Nodup := (List.nodup_append.1 (List.nodup_cons.1 a2.nodup).2).2.1
          have sub : ∀ t ∈ r, t ∈ rs1 := by
            intro t ht
            obtain ⟨q1, q2⟩ := (r2 t).1 ht
            rcases List.mem_append.1 (a4'.mem_iff.2 q1) with h | h
            · exact absurd q2 (e4 t h)
            · exact h
          have sub' : ∀ t ∈ rs1, t ∈ r := by
            intro t ht
            exact (r2 t).2 ⟨a4'.mem_iff.1 (by simp [ht]), e3 t ht⟩
          have hl2 : rs1.length = r.length := (List.perm_ext_iff_of_nodup hnd r1 |>.2 fun t => ⟨sub' t, sub t⟩).length_eq
          have := c4.length_eq
          simp only [List.length_append] at this
          exact List.eq_nil_of_length_eq_zero (by omega)
      · refine ⟨false, m3, rs2.reverse ++ ts2, [], ?_, d2, d3', d4', fun _ => rfl, fun _ => rfl, fun _ => rfl⟩
        unfold readStop
        rw [a1]
        show (takeAll n c sids m1 l >>= fun x => _) = _
        rw [c1]
        show (if (f' && !fails) = true then _ else _) = _
        rw [if_pos hg]
        show (load m2 l' >>= fun p => _) = _
        rw [hp]
        show (if p = 0 then _ else _) = _
        rw [if_neg hp0, d1]
        rfl
    · refine ⟨false, m3, rs2.reverse ++ ts2, [], ?_, d2, d3', d4', fun _ => rfl, fun _ => rfl, fun _ => rfl⟩
      unfold readStop
      rw [a1]
      show (takeAll n c sids m1 l >>= fun x => _) = _
      rw [c1]
      show (if (f' && !fails) = true then _ else _) = _
      rw [if_neg hg, d1]
      rfl

/-- What is seen when a session ends. -/
def seen (H : Hooks) (s : Session) (aval : Int) : List Event := (endpointFree H s aval).2 ++ if s.closure then callComplete H s.sid aval else []

/-- Ending the first session of a connection. -/
theorem freeHead_ok (H : Hooks) {m : Mem} {c nx n t : Nat} {ts : List Nat} {s : Session} (ho : Own m c nx (t :: ts) []) (hs : Body m t = some (some s))
    (aval : Int) (hn : 0 < n) :
    ∃ m', testSessionFree H n m t aval = .ok ((endpointFree H s aval).1, m') ∧ Own m' c nx ts [] ∧ (∀ a, a ≠ c → a ≠ t → m'.cell a = m.cell a) ∧
      m'.cell t = none ∧ m'.list = m.list ∧ m'.log = m.log ++ seen H s aval := by
  obtain ⟨h, hc, hl⟩ := ho.conn
  obtain ⟨e1, ht0, x, hx, htl⟩ := hl
  subst e1
  have hcn : c ∉ h :: ts ++ [] := (List.nodup_cons.1 ho.nodup).1
  rw [List.append_nil] at hcn
  have htc : h ≠ c := fun e => hcn (by rw [e]; simp)
  have ndt : (h :: ts).Nodup := by have := (List.nodup_cons.1 ho.nodup).2; simpa using this
  have hses := (session_body hs).1
  have hcn' : s.cntrl = c := by
    obtain ⟨s', q1, q2⟩ := ho.sess h (by simp)
    rw [hs] at q1; cases q1; exact q2
  have ldc : load m (.tests c) = .ok h := by simp only [load, hc]
  have hw : walk (same h) n m (.tests s.cntrl) = .ok (.tests c) := by
    rw [hcn']
    exact walk_found (same h) h ts [] n h (.tests c) ldc ⟨rfl, ht0, x, hx, htl⟩ (fun _ h => by cases h) (by simp [same]) hn
  have hq : load m (.next h) = .ok x.next := by simp only [load, hx]
  obtain ⟨m1, v1, v2, v3, v4, v5, v6, v7, v8, _⟩ := store_ok (m := m) (loc := .tests c) (p := h) x.next ldc
  have hx1 : m1.cell h = some x := by rw [v3 h (fun e => htc (by cases e; rfl)), hx]
  let m2 : Mem := setCell { m1 with log := m1.log ++ (endpointFree H s aval).2 ++ if s.closure then callComplete H s.sid aval else [] } h none
  have c2 : ∀ a, a ≠ h → m2.cell a = m1.cell a := fun a ha => by simp [m2, setCell, ha]
  refine ⟨m2, ?_, ⟨⟨x.next, ?_, ?_⟩, ?_, ?_, ?_⟩, ?_, ?_, ?_, ?_⟩
  · unfold testSessionFree
    rw [if_neg ht0, hses]
    show (walk (same h) n m (.tests s.cntrl) >>= fun l => _) = _
    rw [hw]
    show (load m (.tests c) >>= fun p => _) = _
    rw [ldc]
    show (if h = 0 then _ else _) = _
    rw [if_neg ht0, hq]
    show (store m (.tests c) x.next >>= fun m => _) = _
    rw [v1]
    show (release { m1 with log := m1.log ++ (endpointFree H s aval).2 ++ if s.closure then callComplete H s.sid aval else [] } h >>= fun m => _) = _
    unfold release
    dsimp only
    rw [hx1]
    rfl
  · rw [c2 c (fun e => htc e.symm)]; exact v8 c rfl _ _ hc
  · refine chain_congr (fun a ha => ?_) htl
    have n1 : a ≠ h := fun e => (List.nodup_cons.1 ndt).1 (e ▸ ha)
    have n2 : a ≠ c := fun e => hcn (by rw [← e]; simp [ha])
    rw [c2 a n1, v3 a (fun e => n2 (by cases e; rfl))]
  · show m1.recv = 0
    rw [v7 (by simp)]
    exact ho.recv
  · intro a ha
    rw [List.append_nil] at ha
    obtain ⟨s', q1, q2⟩ := ho.sess a (by simp [ha])
    have n1 : a ≠ h := fun e => (List.nodup_cons.1 ndt).1 (e ▸ ha)
    refine ⟨s', ?_, q2⟩
    have : Body m2 a = Body m1 a := by unfold Body; rw [c2 a n1]
    rw [this, v4, q1]
  · rw [List.append_nil]
    have := ho.nodup
    simp only [List.append_nil] at this
    exact List.nodup_cons.2 ⟨fun e => hcn (by simp [e]), (List.nodup_cons.1 ndt).2⟩
  · intro a n1 n2
    rw [c2 a n2, v3 a (fun e => n1 (by cases e; rfl))]
  · simp [m2, setCell]
  · show m1.list = m.list
    exact v6 (by simp)
  · show m1.log ++ _ ++ _ = _
    rw [v5, List.append_assoc]
    rfl

theorem flatMap_eq {α β : Type} {f g : α → List β} : ∀ {l : List α}, (∀ a ∈ l, f a = g a) → l.flatMap f = l.flatMap g
  | [], _ => rfl
  | a :: l, h => by rw [List.flatMap_cons, List.flatMap_cons, h a (by simp), flatMap_eq fun b hb => h b (by simp [hb])]

/-- What is seen when the sessions at some addresses end. -/
def seenAt (H : Hooks) (m : Mem) (aval : Int) (t : Nat) : List Event :=
  match Body m t with
  | some (some s) => seen H s aval
  | _ => []

/-- Ending all sessions of a connection. -/
theorem freeTests_ok (H : Hooks) (n c nx : Nat) (aval : Int) (hn : 0 < n) : ∀ (ts : List Nat) (k : Nat) (m : Mem) (err : Nat), Own m c nx ts [] → ts.length < k →
    ∃ e m', freeTests H n k m c aval err = .ok (e, m') ∧ Own m' c nx [] [] ∧ (∀ a, a ∉ c :: ts → m'.cell a = m.cell a) ∧ (∀ t ∈ ts, m'.cell t = none) ∧
      m'.list = m.list ∧ m'.log = m.log ++ ts.flatMap (seenAt H m aval) := by
  intro ts
  induction ts with
  | nil =>
    intro k m err ho hk
    obtain ⟨j, rfl⟩ : ∃ j, k = j + 1 := ⟨k - 1, by simp at hk; omega⟩
    obtain ⟨h, hc, hl⟩ := ho.conn
    have hl : h = 0 := hl
    refine ⟨err, m, ?_, ho, fun _ _ => rfl, (fun _ h => by cases h), rfl, by simp⟩
    rw [freeTests, show load m (.tests c) = .ok h by simp only [load, hc]]
    dsimp only
    rw [if_pos hl]
  | cons t ts ih =>
    intro k m err ho hk
    obtain ⟨j, rfl⟩ : ∃ j, k = j + 1 := ⟨k - 1, by simp at hk; omega⟩
    obtain ⟨h, hc, hl⟩ := ho.conn
    obtain ⟨s, hs, _⟩ := ho.sess t (by simp)
    obtain ⟨m1, a1, a2, a3, a4, a5, a6⟩ := freeHead_ok H ho hs aval hn
    obtain ⟨e, m2, b1, b2, b3, b4, b5, b6⟩ := ih j m1 (min err (endpointFree H s aval).1) a2 (by simpa using hk)
    have nd := ho.nodup
    simp only [List.append_nil] at nd
    have htn : t ∉ ts := (List.nodup_cons.1 (List.nodup_cons.1 nd).2).1
    have hcn : c ∉ ts := fun e => (List.nodup_cons.1 nd).1 (by simp [e])
    have htc : t ≠ c := fun e => (List.nodup_cons.1 nd).1 (by rw [e]; simp)
    refine ⟨e, m2, ?_, b2, ?_, ?_, b5.trans a5, ?_⟩
    · rw [freeTests, show load m (.tests c) = .ok t by simp only [load, hc]; rw [hl.1]]
      dsimp only
      rw [if_neg hl.2.1, a1]
      exact b1
    · intro a ha
      simp only [List.mem_cons, not_or] at ha
      rw [b3 a (by simp [ha.1, ha.2.2]), a3 a ha.1 ha.2.1]
    · intro a ha
      rcases List.mem_cons.1 ha with h | h
      · rw [h, b3 t (by simp [htn, htc]), a4]
      · exact b4 a h
    · rw [b6, a6, List.flatMap_cons, ← List.append_assoc]
      congr 1
      · congr 1
        unfold seenAt
        rw [hs]
      · have : ∀ a ∈ ts, seenAt H m1 aval a = seenAt H m aval a := by
          intro a ha
          unfold seenAt Body
          rw [a3 a (fun e => hcn (e ▸ ha)) (fun e => htn (e ▸ ha))]
        exact flatMap_eq this

end Owamp.Close
