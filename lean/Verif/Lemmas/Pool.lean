import Verif.Spec.Pool
/-!
# Lemmas for C92
-/
namespace Owamp.Pool
open Owamp.Num64 Owamp.Time
open Owamp.TwoWay (Node)

/-- The links from `s` on go through these cells and end. -/
def Linked (mem : Nat → Cell) : Option Nat → List Nat → Prop
  | s, [] => s = none
  | s, a :: r => s = some a ∧ Linked mem (mem a).next r

theorem Linked.frame {mem mem' : Nat → Cell} : ∀ {l : List Nat} {s : Option Nat}, (∀ a ∈ l, (mem' a).next = (mem a).next) → Linked mem s l → Linked mem' s l := by
  intro l
  induction l with
  | nil => intro s _ h; exact h
  | cons a r ih =>
    intro s h hl
    refine ⟨hl.1, ?_⟩
    rw [h a List.mem_cons_self]
    exact ih (fun b hb => h b (List.mem_cons_of_mem _ hb)) hl.2

theorem Linked.head {mem : Nat → Cell} : ∀ {l : List Nat} {s : Option Nat}, Linked mem s l → s = l.head?
  | [], _, h => h
  | _ :: _, _, h => h.1

/-- A new last cell. -/
theorem Linked.snoc {mem mem' : Nat → Cell} {x a : Nat} (hx : (mem' x).next = some a) (ha : (mem' a).next = none) :
    ∀ {l : List Nat} {s : Option Nat}, (∀ b ∈ l, b ≠ x → (mem' b).next = (mem b).next) → l.Nodup → l.getLast? = some x → Linked mem s l → Linked mem' s (l ++ [a]) := by
  intro l
  induction l with
  | nil => intro s _ _ h; simp at h
  | cons b r ih =>
    intro s hf hn hlast hl
    refine ⟨hl.1, ?_⟩
    cases r with
    | nil =>
      rw [List.getLast?_singleton, Option.some.injEq] at hlast
      subst hlast
      rw [hx]
      exact ⟨rfl, ha⟩
    | cons d r =>
      have hb : b ≠ x := by
        rintro rfl
        rw [List.getLast?_cons_cons] at hlast
        have := List.mem_of_getLast? hlast
        exact (List.nodup_cons.1 hn).1 this
      rw [hf b List.mem_cons_self hb]
      exact ih (fun e he => hf e (List.mem_cons_of_mem _ he)) (List.nodup_cons.1 hn).2 (by rw [List.getLast?_cons_cons] at hlast; exact hlast) hl.2

theorem Linked.frees {mem : Nat → Cell} : ∀ {l : List Nat} {s : Option Nat} (n : Nat), l.length ≤ n → Linked mem s l → lostFree mem n s = l := by
  intro l
  induction l with
  | nil => intro s n _ h; rw [show s = none from h]; cases n <;> rfl
  | cons a r ih =>
    intro s n hn hl
    rw [hl.1]
    cases n with
    | zero => simp at hn
    | succ n => rw [lostFree, ih n (by simpa using hn) hl.2]

/-- The cells `base + k`, …, `base + 1`. -/
def cells (base : Nat) : Nat → List Nat
  | 0 => []
  | k + 1 => (base + (k + 1)) :: cells base k

theorem mem_cells (base : Nat) : ∀ k x, x ∈ cells base k ↔ base < x ∧ x ≤ base + k
  | 0, x => by simp [cells]
  | k + 1, x => by rw [cells, List.mem_cons, mem_cells base k x]; omega

theorem cells_nodup (base : Nat) : ∀ k, (cells base k).Nodup
  | 0 => List.nodup_nil
  | k + 1 => by
    rw [cells, List.nodup_cons]
    refine ⟨fun h => ?_, cells_nodup base k⟩
    rw [mem_cells] at h; omega

theorem cells_length (base : Nat) : ∀ k, (cells base k).length = k
  | 0 => rfl
  | k + 1 => by rw [cells, List.length_cons, cells_length base k]

theorem link_mem (base : Nat) (p : Pool) : ∀ k x, ¬ (base < x ∧ x ≤ base + k) → (link base k p).mem x = p.mem x
  | 0, _, _ => rfl
  | k + 1, x, h => by
    show put (link base k p).mem (base + (k + 1)) _ x = _
    unfold put
    rw [if_neg (by omega)]
    exact link_mem base p k x (by omega)

theorem link_free (base : Nat) (p : Pool) {fs : List Nat} (hl : Linked p.mem p.free fs) : ∀ k, (∀ x ∈ fs, ¬ (base < x ∧ x ≤ base + k)) →
    Linked (link base k p).mem (link base k p).free (cells base k ++ fs)
  | 0, _ => hl
  | k + 1, h => by
    refine ⟨rfl, ?_⟩
    have hk := link_free base p hl k (fun x hx hb => h x hx (by omega))
    show Linked (put (link base k p).mem (base + (k + 1)) _) (put (link base k p).mem (base + (k + 1)) _ (base + (k + 1))).next (cells base k ++ fs)
    rw [show (put (link base k p).mem (base + (k + 1)) ⟨((link base k p).mem (base + (k + 1))).node, (link base k p).free⟩ (base + (k + 1))).next = (link base k p).free by unfold put; rw [if_pos rfl]]
    refine hk.frame fun a ha => ?_
    unfold put
    rw [if_neg]
    rintro rfl
    rcases List.mem_append.1 ha with g | g
    · rw [mem_cells] at g; omega
    · exact h _ g (by omega)

theorem link_rest (base : Nat) (p : Pool) : ∀ k, (link base k p).top = p.top ∧ (link base k p).numalist = p.numalist ∧ (link base k p).blocks = p.blocks ∧
    (link base k p).allocated = p.allocated ∧ (link base k p).first = p.first ∧ (link base k p).last = p.last ∧ (link base k p).table = p.table ∧ (link base k p).asked = p.asked ∧
    (link base k p).ctx = p.ctx
  | 0 => ⟨rfl, rfl, rfl, rfl, rfl, rfl, rfl, rfl, rfl⟩
  | k + 1 => link_rest base p k

/-- The entry of a cell in the table. -/
def entryOf (mem : Nat → Cell) (a : Nat) : Entry := ⟨hash (mem a).node.seq, a, a⟩

/-- The cells in use and the free ones. -/
structure Core (p : Pool) (used fs : List Nat) : Prop where
  free : Linked p.mem p.free fs
  heads : Linked p.mem p.allocated p.blocks
  nodup : (used ++ (fs ++ p.blocks)).Nodup
  below : ∀ a ∈ used ++ (fs ++ p.blocks), a < p.top
  size : used.length + fs.length = p.blocks.length * (p.numalist - 1)
  num : 100 ≤ p.numalist
  table : p.table.Perm (used.map (entryOf p.mem))
  distinct : (used.map fun a => (p.mem a).node.seq).Nodup

theorem entries_frame {mem mem' : Nat → Cell} {l : List Nat} (h : ∀ a ∈ l, (mem' a).node.seq = (mem a).node.seq) : l.map (entryOf mem') = l.map (entryOf mem) := by
  apply List.map_congr_left
  intro a ha
  unfold entryOf
  rw [h a ha]

theorem seqs_frame {mem mem' : Nat → Cell} {l : List Nat} (h : ∀ a ∈ l, (mem' a).node.seq = (mem a).node.seq) :
    (l.map fun a => (mem' a).node.seq) = l.map fun a => (mem a).node.seq :=
  List.map_congr_left h

/-- New memory. -/
theorem grab_core (c : Cfg) (p : Pool) {used : List Nat} (h : Core p used []) : (grab c p = none ∧ c.ok p.asked = false) ∨
    ∃ p', grab c p = some p' ∧ Core p' used (cells p.top (p.numalist - 1)) ∧ (∀ a < p.top, p'.mem a = p.mem a) ∧ p'.blocks = p.top :: p.blocks ∧ p'.numalist = p.numalist ∧
      p'.first = p.first ∧ p'.last = p.last ∧ p'.ctx = p.ctx := by
  cases hok : c.ok p.asked with
  | false => left; unfold grab; rw [hok]; exact ⟨rfl, rfl⟩
  | true =>
    right
    obtain ⟨p0, hp0⟩ : ∃ p0 : Pool, { p with
      mem := put (fun x => if p.top ≤ x ∧ x < p.top + p.numalist then ⟨zeroNode, none⟩ else p.mem x) p.top
        ⟨((fun x => if p.top ≤ x ∧ x < p.top + p.numalist then (⟨zeroNode, none⟩ : Cell) else p.mem x) p.top).node, p.allocated⟩,
      allocated := some p.top, top := p.top + p.numalist, asked := p.asked + 1, blocks := p.top :: p.blocks } = p0 := ⟨_, rfl⟩
    refine ⟨link p.top (p.numalist - 1) p0, ?_, ?_⟩
    · unfold grab
      rw [hok, ← hp0]
      rfl
    have hn := h.num
    obtain ⟨r1, r2, r3, r4, r5, r6, r7, r8, r9⟩ := link_rest p.top p0 (p.numalist - 1)
    have hold : ∀ a < p.top, (link p.top (p.numalist - 1) p0).mem a = p.mem a := by
      intro a ha
      rw [link_mem _ _ _ _ (by omega), ← hp0]
      dsimp only [put]
      rw [if_neg (by omega), if_neg (by omega)]
    have hf0 : Linked p0.mem p0.free [] := by
      rw [← hp0]; exact h.free
    refine ⟨⟨?_, ?_, ?_, ?_, ?_, ?_, ?_, ?_⟩, hold, ?_, ?_, ?_, ?_, ?_⟩
    · have := link_free p.top p0 hf0 (p.numalist - 1) (by simp)
      rwa [List.append_nil] at this
    · rw [r4, r3, ← hp0]
      refine ⟨rfl, ?_⟩
      rw [hp0, link_mem _ _ _ _ (by omega)]
      rw [show (p0.mem p.top).next = p.allocated by rw [← hp0]; show (put _ p.top _ p.top).next = _; unfold put; rw [if_pos rfl]]
      refine h.heads.frame fun a ha => ?_
      rw [hold a (h.below a (by simp [ha]))]
    · rw [r3, ← hp0]
      have hb := h.below
      have hnd := h.nodup
      rw [List.nil_append, List.nodup_append] at hnd
      obtain ⟨n1, n2, n3⟩ := hnd
      rw [List.nodup_append]
      refine ⟨n1, ?_, ?_⟩
      · rw [List.nodup_append]
        refine ⟨cells_nodup _ _, ?_, ?_⟩
        · show (p.top :: p.blocks).Nodup
          rw [List.nodup_cons]
          exact ⟨fun hx => absurd (hb p.top (by simp [hx])) (by omega), n2⟩
        · intro x hx y hy
          rw [mem_cells] at hx
          rcases List.mem_cons.1 hy with e | e
          · omega
          · have := hb y (by simp [e]); omega
      · intro x hx y hy
        have hx' := hb x (by simp [hx])
        rcases List.mem_append.1 hy with e | e
        · rw [mem_cells] at e; omega
        · rcases List.mem_cons.1 e with e | e
          · omega
          · exact n3 x hx y e
    · intro a ha
      have hb := h.below
      rw [r1]
      rw [r3] at ha
      have ht : p0.top = p.top + p.numalist := by rw [← hp0]
      have hbl : p0.blocks = p.top :: p.blocks := by rw [← hp0]
      rw [ht]
      rw [hbl] at ha
      rcases List.mem_append.1 ha with e | e
      · have := hb a (by simp [e]); omega
      · rcases List.mem_append.1 e with e | e
        · rw [mem_cells] at e; omega
        · rcases List.mem_cons.1 e with e | e
          · omega
          · have := hb a (by simp [e]); omega
    · rw [cells_length, r3, r2]
      have hs := h.size
      have ht : p0.numalist = p.numalist := by rw [← hp0]
      have hbl : p0.blocks = p.top :: p.blocks := by rw [← hp0]
      rw [ht, hbl, List.length_cons, Nat.succ_mul, ← hs]
      simp
    · rw [r2, ← hp0]; exact hn
    · rw [r7, ← hp0]
      show p.table.Perm _
      rw [hp0, entries_frame (mem := p.mem) (fun a ha => by rw [hold a (h.below a (by simp [ha]))])]
      exact h.table
    · rw [seqs_frame (mem := p.mem) (fun a ha => by rw [hold a (h.below a (by simp [ha]))])]
      exact h.distinct
    · rw [r3, ← hp0]
    · rw [r2, ← hp0]
    · rw [r5, ← hp0]
    · rw [r6, ← hp0]
    · rw [r9, ← hp0]

theorem fits_entry (mem : Nat → Cell) (a seq : Nat) : Entry.fits mem seq (entryOf mem a) = true ↔ (mem a).node.seq = seq := by
  unfold Entry.fits entryOf
  simp only [Bool.and_eq_true, beq_iff_eq]
  constructor
  · exact fun h => h.2
  · intro h; rw [h]; exact ⟨rfl, rfl⟩

theorem remove_none {mem : Nat → Cell} {seq : Nat} {t : List Entry} (h : ∀ e ∈ t, Entry.fits mem seq e = false) : remove mem seq t = t := by
  unfold remove
  exact List.eraseP_of_forall_not (fun e he => by rw [h e he]; simp)

theorem erase_perm {p : Entry → Bool} {e : Entry} {r : List Entry} (he : p e = true) (hr : ∀ x ∈ r, p x = false) : ∀ {t : List Entry}, t.Perm (e :: r) → (t.eraseP p).Perm r := by
  intro t h
  have hmem : e ∈ t := h.mem_iff.2 List.mem_cons_self
  obtain ⟨l1, l2, rfl⟩ := List.append_of_mem hmem
  have hp : (l1 ++ l2).Perm r := List.Perm.cons_inv (List.perm_middle.symm.trans h)
  rw [List.eraseP_append_right _ (fun x hx => by
    have : x ∈ r := hp.mem_iff.1 (List.mem_append_left _ hx)
    rw [hr x this]; simp), List.eraseP_cons_of_pos he]
  exact hp

/-- A cell is taken. -/
theorem take_core (c : Cfg) (p : Pool) {used fs : List Nat} {a seq : Nat} (h : Core p used (a :: fs)) (hs : ∀ b ∈ used, (p.mem b).node.seq ≠ seq) :
    (∃ p', take c p seq = some (none, p') ∧ c.ok p.asked = false) ∨
    ∃ p', take c p seq = some (some a, p') ∧ Core p' (used ++ [a]) fs ∧ (∀ b, b ≠ a → p'.mem b = p.mem b) ∧
      p'.mem a = ⟨{ (p.mem a).node with seq := seq, hit := false, sent := false }, none⟩ ∧ p'.blocks = p.blocks ∧ p'.numalist = p.numalist ∧ p'.first = p.first ∧ p'.last = p.last ∧ p'.ctx = p.ctx := by
  have hfree : p.free = some a := h.free.1
  have hnd := h.nodup
  cases hok : c.ok p.asked with
  | false =>
    left
    unfold take
    rw [hfree]
    dsimp only
    rw [if_neg (by rw [show p.asked + 1 - 1 = p.asked from rfl, hok]; simp)]
    exact ⟨_, rfl, rfl⟩
  | true =>
    right
    obtain ⟨mem', hm⟩ : ∃ mem', put p.mem a ⟨{ (p.mem a).node with seq := seq, hit := false, sent := false }, none⟩ = mem' := ⟨_, rfl⟩
    have hold : ∀ b, b ≠ a → mem' b = p.mem b := by
      intro b hb; rw [← hm]; unfold put; rw [if_neg hb]
    have hnew : mem' a = ⟨{ (p.mem a).node with seq := seq, hit := false, sent := false }, none⟩ := by
      rw [← hm]; unfold put; rw [if_pos rfl]
    have hau : ∀ b ∈ used, b ≠ a := by
      intro b hb e
      rw [List.nodup_append] at hnd
      exact hnd.2.2 b hb a (by simp) e
    have haf : ∀ b ∈ fs, b ≠ a := by
      intro b hb e
      rw [List.nodup_append] at hnd
      have := hnd.2.1
      rw [List.cons_append, List.nodup_cons] at this
      exact this.1 (by rw [← e]; simp [hb])
    have hah : ∀ b ∈ p.blocks, b ≠ a := by
      intro b hb e
      rw [List.nodup_append] at hnd
      have := hnd.2.1
      rw [List.cons_append, List.nodup_cons] at this
      exact this.1 (by rw [← e]; simp [hb])
    have hrem : remove mem' seq p.table = p.table := by
      apply remove_none
      intro e he
      have := h.table.mem_iff.1 he
      rw [List.mem_map] at this
      obtain ⟨b, hb, rfl⟩ := this
      cases hx : Entry.fits mem' seq (entryOf p.mem b) with
      | false => rfl
      | true =>
        exfalso
        rw [show entryOf p.mem b = entryOf mem' b by unfold entryOf; rw [hold b (hau b hb)], fits_entry, hold b (hau b hb)] at hx
        exact hs b hb hx
    refine ⟨{ p with mem := mem', free := (p.mem a).next, asked := p.asked + 1, table := ⟨hash seq, a, a⟩ :: p.table }, ?_, ?_, hold, hnew, rfl, rfl, rfl, rfl, rfl⟩
    · unfold take
      rw [hfree]
      dsimp only
      rw [hm, if_pos (by rw [show p.asked + 1 - 1 = p.asked from rfl, hok]), hrem]
    · refine ⟨?_, ?_, ?_, ?_, ?_, h.num, ?_, ?_⟩
      · exact h.free.2.frame fun b hb => congrArg Cell.next (hold b (haf b hb))
      · exact h.heads.frame fun b hb => congrArg Cell.next (hold b (hah b hb))
      · rw [List.append_assoc]; exact hnd
      · intro b hb
        rw [List.append_assoc] at hb
        exact h.below b hb
      · have := h.size
        rw [List.length_append, List.length_singleton]
        rw [List.length_cons] at this
        show used.length + 1 + fs.length = p.blocks.length * (p.numalist - 1)
        omega
      · show (⟨hash seq, a, a⟩ :: p.table).Perm ((used ++ [a]).map (entryOf mem'))
        rw [List.map_append, entries_frame (mem := p.mem) (fun b hb => by rw [hold b (hau b hb)]), List.map_singleton]
        rw [show entryOf mem' a = ⟨hash seq, a, a⟩ by unfold entryOf; rw [hnew]]
        exact (h.table.cons _).trans (List.perm_append_singleton _ _).symm
      · show ((used ++ [a]).map fun b => (mem' b).node.seq).Nodup
        rw [List.map_append, seqs_frame (mem := p.mem) (fun b hb => by rw [hold b (hau b hb)]), List.map_singleton, hnew, List.nodup_append]
        refine ⟨h.distinct, by simp, ?_⟩
        intro x hx y hy
        rw [List.mem_map] at hx
        obtain ⟨b, hb, rfl⟩ := hx
        rw [List.mem_singleton] at hy
        rw [hy]
        exact hs b hb

/-- A cell is given back. -/
theorem free_core (p : Pool) {used fs : List Nat} {b : Nat} (h : Core p (b :: used) fs) : Core (freeNode p b) used (b :: fs) ∧ ∀ x, x ≠ b → (freeNode p b).mem x = p.mem x := by
  have hnd := h.nodup
  rw [List.cons_append, List.nodup_cons] at hnd
  have hold : ∀ x, x ≠ b → (freeNode p b).mem x = p.mem x := by
    intro x hx
    show put p.mem b _ x = _
    unfold put
    rw [if_neg hx]
  have hseq : ∀ x, ((freeNode p b).mem x).node.seq = (p.mem x).node.seq := by
    intro x
    by_cases hx : x = b
    · show (put p.mem b _ x).node.seq = _
      unfold put
      rw [if_pos hx, hx]
    · rw [hold x hx]
  have hne : ∀ x ∈ used ++ (fs ++ p.blocks), x ≠ b := fun x hx e => hnd.1 (by rw [← e]; exact hx)
  refine ⟨⟨⟨rfl, ?_⟩, ?_, ?_, ?_, ?_, h.num, ?_, ?_⟩, hold⟩
  · rw [show ((freeNode p b).mem b).next = p.free by show (put p.mem b _ b).next = _; unfold put; rw [if_pos rfl]]
    exact h.free.frame fun x hx => by rw [hold x (hne x (by simp [hx]))]
  · exact h.heads.frame fun x hx => by rw [hold x (hne x (List.mem_append_right _ (List.mem_append_right _ hx)))]
  · show (used ++ (b :: fs ++ p.blocks)).Nodup
    have hp : (used ++ (b :: fs ++ p.blocks)).Perm (b :: (used ++ (fs ++ p.blocks))) := by
      rw [List.cons_append]; exact List.perm_middle
    exact hp.nodup_iff.2 (List.nodup_cons.2 hnd)
  · intro x hx
    refine h.below x ?_
    have hp : (used ++ (b :: fs ++ p.blocks)).Perm (b :: (used ++ (fs ++ p.blocks))) := by
      rw [List.cons_append]; exact List.perm_middle
    exact hp.mem_iff.1 hx
  · have := h.size
    rw [List.length_cons] at this
    show used.length + (fs.length + 1) = p.blocks.length * (p.numalist - 1)
    omega
  · show (remove p.mem (p.mem b).node.seq p.table).Perm _
    rw [entries_frame (mem := p.mem) (fun x _ => hseq x)]
    refine erase_perm (e := entryOf p.mem b) ((fits_entry _ _ _).2 rfl) ?_ h.table
    intro x hx
    rw [List.mem_map] at hx
    obtain ⟨y, hy, rfl⟩ := hx
    cases hf : Entry.fits p.mem (p.mem b).node.seq (entryOf p.mem y) with
    | false => rfl
    | true =>
      exfalso
      rw [fits_entry] at hf
      have := h.distinct
      rw [List.map_cons, List.nodup_cons] at this
      exact this.1 (List.mem_map.2 ⟨y, hy, hf⟩)
  · rw [seqs_frame (mem := p.mem) (fun x _ => hseq x)]
    have := h.distinct
    rw [List.map_cons, List.nodup_cons] at this
    exact this.2

theorem inj_of_nodup {f : Nat → Nat} : ∀ {l : List Nat} {a b : Nat}, (l.map f).Nodup → a ∈ l → b ∈ l → f a = f b → a = b := by
  intro l
  induction l with
  | nil => intro a b _ h; simp at h
  | cons x r ih =>
    intro a b hn ha hb he
    rw [List.map_cons, List.nodup_cons] at hn
    rcases List.mem_cons.1 ha with rfl | ha'
    · rcases List.mem_cons.1 hb with rfl | hb'
      · rfl
      · exact (hn.1 (List.mem_map.2 ⟨b, hb', he.symm⟩)).elim
    · rcases List.mem_cons.1 hb with rfl | hb'
      · exact (hn.1 (List.mem_map.2 ⟨a, ha', he⟩)).elim
      · exact ih hn.2 ha' hb' he

/-- A packet is found. -/
theorem fetch_core (p : Pool) {used fs : List Nat} {a : Nat} (h : Core p used fs) (ha : a ∈ used) : fetch p.mem (p.mem a).node.seq p.table = some a := by
  unfold fetch
  have he : entryOf p.mem a ∈ p.table := h.table.mem_iff.2 (List.mem_map.2 ⟨a, ha, rfl⟩)
  cases hf : p.table.find? (Entry.fits p.mem (p.mem a).node.seq) with
  | none =>
    have := List.find?_eq_none.1 hf _ he
    exact (this ((fits_entry _ _ _).2 rfl)).elim
  | some e =>
    have h1 := List.find?_some hf
    have h2 := h.table.mem_iff.1 (List.mem_of_find?_eq_some hf)
    rw [List.mem_map] at h2
    obtain ⟨b, hb, rfl⟩ := h2
    rw [fits_entry] at h1
    have : b = a := inj_of_nodup h.distinct hb ha h1
    rw [this]
    rfl

/-- Changes that do not matter. -/
theorem Core.change {p : Pool} {used fs : List Nat} (h : Core p used fs) {mem' : Nat → Cell} (f l : Option Nat) (x : Sched.Ctx)
    (hu : ∀ a ∈ used, (mem' a).node.seq = (p.mem a).node.seq) (hf : ∀ a ∈ fs ++ p.blocks, (mem' a).next = (p.mem a).next) :
    Core { p with mem := mem', first := f, last := l, ctx := x } used fs := by
  refine ⟨h.free.frame fun a ha => hf a (by simp [ha]), h.heads.frame fun a ha => hf a (List.mem_append_right _ ha), h.nodup, h.below, h.size, h.num, ?_, ?_⟩
  · show p.table.Perm (used.map (entryOf mem'))
    rw [entries_frame hu]
    exact h.table
  · show (used.map fun a => (mem' a).node.seq).Nodup
    rw [seqs_frame hu]
    exact h.distinct

/-- `alloc_node`. -/
theorem alloc_core (c : Cfg) (p : Pool) {used fs : List Nat} {seq : Nat} (h : Core p used fs) (hn : seq < c.npackets.toNat) (hst : stale p seq = false)
    (hs : ∀ b ∈ used, (p.mem b).node.seq ≠ seq) : (∃ p', allocNode c p seq = some (none, p') ∧ ∃ k, c.ok k = false) ∨
    ∃ a p' fs', allocNode c p seq = some (some a, p') ∧ Core p' (used ++ [a]) fs' ∧ (∀ b ∈ used, b ≠ a ∧ p'.mem b = p.mem b) ∧
      (p'.mem a).node.seq = seq ∧ (p'.mem a).node.hit = false ∧ (p'.mem a).node.sent = false ∧ (p'.mem a).next = none ∧
      p'.numalist = p.numalist ∧ p'.first = p.first ∧ p'.last = p.last ∧ p'.ctx = p.ctx ∧
      (p'.blocks = p.blocks ∨ (p'.blocks.length = p.blocks.length + 1 ∧ used.length = p.blocks.length * (p.numalist - 1))) := by
  have hc : (decide (seq ≥ c.npackets.toNat) || stale p seq) = false := by
    rw [hst, Bool.or_false, decide_eq_false_iff_not]; omega
  have hpos : 0 < p.numalist - 1 := by have := h.num; omega
  cases fs with
  | cons a fs =>
    have hfree : p.free = some a := h.free.1
    have e : allocNode c p seq = take c p seq := by
      unfold allocNode
      rw [if_neg (by rw [hc]; simp), hfree]
    rw [e]
    rcases take_core c p h hs with ⟨p', h1, h2⟩ | ⟨p', h1, h2, h3, h4, h5, h6, h7, h8, h9⟩
    · exact Or.inl ⟨p', h1, _, h2⟩
    · refine Or.inr ⟨a, p', fs, h1, h2, fun b hb => ?_, by rw [h4], by rw [h4], by rw [h4], by rw [h4], h6, h7, h8, h9, Or.inl h5⟩
      have hba : b ≠ a := by
        have hnd := h.nodup
        rw [List.nodup_append] at hnd
        exact hnd.2.2 b hb a (by simp)
      exact ⟨hba, h3 b hba⟩
  | nil =>
    have hfree : p.free = none := h.free
    rcases grab_core c p h with ⟨g1, g2⟩ | ⟨p1, g1, g2, g3, g4, g5, g6, g7, g8⟩
    · left
      unfold allocNode
      rw [if_neg (by rw [hc]; simp), hfree]
      dsimp only
      rw [g1]
      exact ⟨_, rfl, _, g2⟩
    · have e : allocNode c p seq = take c p1 seq := by
        unfold allocNode
        rw [if_neg (by rw [hc]; simp), hfree]
        dsimp only
        rw [g1]
      rw [e]
      have hold : ∀ b ∈ used, p1.mem b = p.mem b := fun b hb => g3 b (h.below b (by simp [hb]))
      obtain ⟨k, hk⟩ : ∃ k, p.numalist - 1 = k + 1 := ⟨p.numalist - 2, by omega⟩
      rw [hk] at g2
      rcases take_core c p1 (a := p.top + (k + 1)) (fs := cells p.top k) g2 (fun b hb => by rw [hold b hb]; exact hs b hb) with ⟨p', h1, h2⟩ | ⟨p', h1, h2, h3, h4, h5, h6, h7, h8, h9⟩
      · exact Or.inl ⟨p', h1, _, h2⟩
      · refine Or.inr ⟨_, p', _, h1, h2, fun b hb => ?_, by rw [h4], by rw [h4], by rw [h4], by rw [h4], by rw [h6, g5], by rw [h7, g6], by rw [h8, g7], by rw [h9, g8], Or.inr ⟨by rw [h5, g4]; rfl, ?_⟩⟩
        · have hb' := h.below b (by simp [hb])
          exact ⟨by omega, by rw [h3 b (by omega), hold b hb]⟩
        · have := h.size
          simpa using this

/-- The loop of `get_node` on the list of contents. -/
def growL (c : Cfg) : Nat → List Node → Sched.Ctx → Option (List Node × Sched.Ctx)
  | 0, q, ctx => some (q, ctx)
  | n + 1, q, ctx =>
    match q.getLast? with
    | none => none
    | some e =>
      if e.seq + 1 ≥ c.npackets.toNat then none
      else
        match Sched.nextDelta c.E ctx with
        | (.error _, _) => none
        | (.ok delta, ctx) => growL c n (q ++ [⟨e.seq + 1, false, false, add e.relative delta, absOf c (add e.relative delta)⟩]) ctx

/-- The cells from the first on hold this list, numbered on from `lo`. -/
structure Rep (p : Pool) (used fs : List Nat) (q : List Node) (lo : Nat) : Prop where
  core : Core p used fs
  linked : Linked p.mem p.first used
  holds : used.map (fun a => (p.mem a).node) = q
  numbers : q.map (·.seq) = List.range' lo q.length

theorem range'_getLast? : ∀ (lo n : Nat), (List.range' lo (n + 1)).getLast? = some (lo + n)
  | lo, 0 => by simp
  | lo, n + 1 => by
    rw [List.range'_succ, List.range'_succ, List.getLast?_cons_cons, ← List.range'_succ, range'_getLast? (lo + 1) n]
    congr 1; omega

theorem Rep.length {p : Pool} {used fs : List Nat} {q : List Node} {lo : Nat} (h : Rep p used fs q lo) : used.length = q.length := by
  rw [← h.holds, List.length_map]

/-- The last cell has the greatest number. -/
theorem Rep.last_seq {p : Pool} {used fs : List Nat} {q : List Node} {lo l : Nat} (h : Rep p used fs q lo) (hl : used.getLast? = some l) :
    (p.mem l).node.seq + 1 = lo + q.length ∧ q.getLast? = some (p.mem l).node ∧ (∀ b ∈ used, lo ≤ (p.mem b).node.seq ∧ (p.mem b).node.seq < lo + q.length) := by
  have hq : q.getLast? = some (p.mem l).node := by
    rw [← h.holds, List.getLast?_map, hl]; rfl
  obtain ⟨n, hn⟩ : ∃ n, q.length = n + 1 := by
    cases q with
    | nil => simp at hq
    | cons a r => exact ⟨r.length, rfl⟩
  refine ⟨?_, hq, ?_⟩
  · have h1 : (q.map (·.seq)).getLast? = some (p.mem l).node.seq := by rw [List.getLast?_map, hq]; rfl
    rw [h.numbers, hn, range'_getLast?, Option.some.injEq] at h1
    omega
  · intro b hb
    have h1 : (p.mem b).node.seq ∈ q.map (·.seq) := by
      rw [← h.holds]
      simp only [List.map_map, List.mem_map]
      exact ⟨b, hb, rfl⟩
    rw [h.numbers, List.mem_range'_1] at h1
    omega

theorem extend_rep (c : Cfg) : ∀ (n node : Nat) (p : Pool) {used fs : List Nat} {q : List Node} {lo l : Nat}, Rep p used fs q lo → used.getLast? = some node → p.last = some l →
    (p.mem l).node.seq ≤ (p.mem node).node.seq → l ∈ used →
    match growL c n q p.ctx with
    | none => extend c n node p = none
    | some (q', ctx') => (extend c n node p = none ∧ ∃ k, c.ok k = false) ∨
      ∃ a p' used' fs', extend c n node p = some (some a, p') ∧ Rep p' used' fs' q' lo ∧ used'.getLast? = some a ∧ p'.last = some a ∧ p'.ctx = ctx' ∧ p'.first = p.first ∧
        p'.numalist = p.numalist ∧ used <+: used' ∧ used'.length = used.length + n ∧ (p'.blocks = p.blocks ∨ (p'.blocks.length - 1) * (p.numalist - 1) < used'.length)
  | 0, node, p, used, fs, q, lo, l, h, hlast, _, _, _ => by
    refine Or.inr ⟨node, { p with last := some node }, used, fs, rfl, ⟨?_, h.linked, h.holds, h.numbers⟩, hlast, rfl, rfl, rfl, rfl, List.prefix_refl _, rfl, Or.inl rfl⟩
    exact h.core.change p.first (some node) p.ctx (fun _ _ => rfl) (fun _ _ => rfl)
  | n + 1, node, p, used, fs, q, lo, l, h, hlast, hl, hle, hlu => by
    obtain ⟨s1, s2, s3⟩ := h.last_seq hlast
    have hnu : node ∈ used := List.mem_of_getLast? hlast
    rw [growL, s2]
    dsimp only
    by_cases hnp : (p.mem node).node.seq + 1 ≥ c.npackets.toNat
    · rw [if_pos hnp]
      dsimp only
      rw [extend]
      have : allocNode c p ((p.mem node).node.seq + 1) = some (none, p) := by
        unfold allocNode
        rw [if_pos (by simp [hnp])]
      rw [this]
    · rw [if_neg hnp]
      have hst : stale p ((p.mem node).node.seq + 1) = false := by
        unfold stale
        rw [hl]
        dsimp only
        rw [decide_eq_false_iff_not]
        omega
      rcases alloc_core c p h.core (Nat.lt_of_not_le hnp) hst (fun b hb => by have := s3 b hb; omega) with ⟨p1, a1, a2⟩ | ⟨a, p1, fs1, a1, a2, a3, a4, a5, a6, a7, a8, a9, a10, a11, a12⟩
      · have : extend c (n + 1) node p = none := by rw [extend, a1]
        rw [this]
        split
        · rfl
        · exact Or.inl ⟨rfl, a2⟩
      · have e : extend c (n + 1) node p = (schedule c { p1 with mem := put p1.mem node ⟨(p1.mem node).node, some a⟩ } node a).bind (extend c n a) := by
          rw [extend, a1]
        rw [e]
        have hna : node ≠ a := (a3 node hnu).1
        have hnm : p1.mem node = p.mem node := (a3 node hnu).2
        unfold schedule
        dsimp only
        rw [a11]
        rcases hd : Sched.nextDelta c.E p.ctx with ⟨r, ctx1⟩
        cases r with
        | error _ => rfl
        | ok delta =>
          dsimp only [Option.bind_some]
          obtain ⟨mem2, hm2⟩ : ∃ mem2, put (put p1.mem node ⟨(p1.mem node).node, some a⟩) a
            ⟨{ (put p1.mem node ⟨(p1.mem node).node, some a⟩ a).node with
                relative := add (put p1.mem node ⟨(p1.mem node).node, some a⟩ node).node.relative delta
                absolute := absOf c (add (put p1.mem node ⟨(p1.mem node).node, some a⟩ node).node.relative delta) },
              (put p1.mem node ⟨(p1.mem node).node, some a⟩ a).next⟩ = mem2 := ⟨_, rfl⟩
          have hmn : mem2 node = ⟨(p.mem node).node, some a⟩ := by
            rw [← hm2]; unfold put; rw [if_neg hna, if_pos rfl, hnm]
          have hma : mem2 a = ⟨⟨(p.mem node).node.seq + 1, false, false, add (p.mem node).node.relative delta, absOf c (add (p.mem node).node.relative delta)⟩, none⟩ := by
            rw [← hm2]
            unfold put
            rw [if_pos rfl, if_neg (Ne.symm hna), if_pos rfl, hnm, a7]
            dsimp only
            rw [a4, a5, a6]
          have hmo : ∀ x, x ≠ node → x ≠ a → mem2 x = p1.mem x := by
            intro x h1 h2
            rw [← hm2]; unfold put; rw [if_neg h2, if_neg h1]
          rw [hm2]
          have hnodes : ∀ x ∈ used, (mem2 x).node = (p.mem x).node := by
            intro x hx
            by_cases hxn : x = node
            · rw [hxn, hmn]
            · rw [hmo x hxn (a3 x hx).1, (a3 x hx).2]
          have hdis : ∀ x ∈ fs1 ++ p1.blocks, x ≠ node ∧ x ≠ a := by
            intro x hx
            have hnd := a2.nodup
            rw [List.nodup_append] at hnd
            exact ⟨fun e => hnd.2.2 node (by simp [hnu]) x hx e.symm, fun e => hnd.2.2 a (by simp) x hx e.symm⟩
          have hcore : Core { p1 with mem := mem2, ctx := ctx1 } (used ++ [a]) fs1 := by
            refine a2.change p1.first p1.last ctx1 ?_ ?_
            · intro x hx
              rcases List.mem_append.1 hx with g | g
              · rw [hnodes x g, (a3 x g).2]
              · rw [List.mem_singleton] at g
                rw [g, hma, a4]
            · intro x hx
              rw [hmo x (hdis x hx).1 (hdis x hx).2]
          have hnu2 : used.Nodup := by
            have := h.core.nodup
            rw [List.nodup_append] at this
            exact this.1
          have hrep : Rep { p1 with mem := mem2, ctx := ctx1 } (used ++ [a]) fs1
              (q ++ [⟨(p.mem node).node.seq + 1, false, false, add (p.mem node).node.relative delta, absOf c (add (p.mem node).node.relative delta)⟩]) lo := by
            refine ⟨hcore, ?_, ?_, ?_⟩
            · show Linked mem2 p1.first (used ++ [a])
              rw [a9]
              refine Linked.snoc (x := node) (by rw [hmn]) (by rw [hma]) (fun b hb hbn => ?_) hnu2 hlast h.linked
              rw [hmo b hbn (a3 b hb).1, (a3 b hb).2]
            · show (used ++ [a]).map (fun x => (mem2 x).node) = _
              rw [List.map_append, List.map_congr_left hnodes, h.holds, List.map_singleton, hma]
            · rw [List.map_append, h.numbers, List.length_append, List.length_singleton, List.range'_concat, Nat.one_mul, ← s1]
              rfl
          have hih := extend_rep c n a { p1 with mem := mem2, ctx := ctx1 } hrep (by rw [List.getLast?_concat]) (l := l) (by show p1.last = some l; rw [a10]; exact hl)
            (by show (mem2 l).node.seq ≤ (mem2 a).node.seq; rw [hnodes l hlu, hma]; show _ ≤ (p.mem node).node.seq + 1; omega) (by simp [hlu])
          revert hih
          show (match growL c n (q ++ [_]) ctx1 with | none => _ | some (q', ctx') => _) → _
          cases growL c n (q ++ [⟨(p.mem node).node.seq + 1, false, false, add (p.mem node).node.relative delta, absOf c (add (p.mem node).node.relative delta)⟩]) ctx1 with
          | none => exact id
          | some x =>
            rcases x with ⟨q', ctx'⟩
            dsimp only
            rintro (hih | ⟨a', p', used', fs', i1, i2, i3, i4, i5, i6, i7, i8, i9, i10⟩)
            · exact Or.inl hih
            · refine Or.inr ⟨a', p', used', fs', i1, i2, i3, i4, i5, by rw [i6]; exact a9, by rw [i7]; exact a8, (List.prefix_append _ _).trans i8, ?_, ?_⟩
              · rw [i9, List.length_append, List.length_singleton]; omega
              · have a8' : p1.numalist = p.numalist := a8
                rcases i10 with i10 | i10
                · rcases a12 with g | ⟨g1, g2⟩
                  · left; rw [i10]; exact g
                  · right
                    rw [i10]
                    show (p1.blocks.length - 1) * _ < _
                    rw [g1, Nat.add_sub_cancel, ← g2, i9, List.length_append, List.length_singleton]
                    omega
                · right
                  have i10' : (p'.blocks.length - 1) * (p1.numalist - 1) < used'.length := i10
                  rw [a8'] at i10'
                  exact i10'

end Owamp.Pool
