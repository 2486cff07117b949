import Verif.Spec.TwStats
import Verif.Lemmas.StatsFig
/-!
# Facts about the summaries of two-way sessions: buffers and flushes
-/
namespace Owamp.TwStats
open Owamp.Codec Owamp.Spec.TwStats
open Owamp.Stats (Bad)

/-! ## Buffers -/

/-- The numbers in the buffer are `k`, `k + 1` and so on, and `next` is the one after them. -/
structure Chain (k : Nat) (b : Buf) : Prop where
  seqs : b.nodes.map (·.seq) = List.range' k b.nodes.length
  next : b.next = k + b.nodes.length

/-- The buffer `b'` has the records of `b` and new ones after them. -/
structure Ext (sched : Nat → Nat) (b b' : Buf) : Prop where
  nodes : ∃ new, b'.nodes = b.nodes ++ new ∧ ∀ n ∈ new, n.seen = 0 ∧ n.lost = false ∧ (n.assoc = 0 ∨ n.assoc ∈ b.free) ∧ n.sched = sched n.seq
  free : ∀ x ∈ b'.free, x ∈ b.free
  next : b.next ≤ b'.next

theorem Chain.last {k : Nat} {b : Buf} (h : Chain k b) (e : Node) (he : b.nodes.getLast? = some e) : e.seq + 1 = k + b.nodes.length := by
  have h1 : (b.nodes.map (·.seq)).getLast? = some e.seq := by rw [List.getLast?_map, he]; rfl
  rw [h.seqs, List.getLast?_eq_getElem?] at h1
  rw [List.length_range'] at h1
  obtain ⟨hl, h2⟩ := List.getElem?_eq_some_iff.1 h1
  rw [List.getElem_range'] at h2
  rw [List.length_range'] at hl
  omega

theorem Chain.head {k : Nat} {b : Buf} (h : Chain k b) (e : Node) (rest : List Node) (he : b.nodes = e :: rest) : e.seq = k := by
  have h1 := h.seqs
  rw [he] at h1
  simp only [List.map_cons, List.length_cons, List.range'_succ, List.cons.injEq] at h1
  exact h1.1

theorem Chain.mem {k : Nat} {b : Buf} (h : Chain k b) (n : Node) (hn : n ∈ b.nodes) : k ≤ n.seq ∧ n.seq < k + b.nodes.length := by
  have : n.seq ∈ b.nodes.map (·.seq) := List.mem_map_of_mem hn
  rw [h.seqs, List.mem_range'_1] at this
  exact this

theorem Chain.snoc {k : Nat} {b : Buf} (h : Chain k b) (n : Node) (hn : n.seq = k + b.nodes.length) (f : List Nat) :
    Chain k ⟨b.nodes ++ [n], b.next + 1, f⟩ := by
  refine ⟨?_, by simp [h.next]; omega⟩
  simp only [List.map_append, h.seqs, List.map_cons, List.map_nil, hn, List.length_append, List.length_cons, List.length_nil]
  rw [Nat.zero_add, List.range'_concat]; simp

theorem grow_spec (sched : Nat → Nat) (lim : Option Nat) (n : Nat) : ∀ (k : Nat) (b : Buf), Chain k b → b.nodes ≠ [] →
    (∀ l ∈ lim, k + b.nodes.length + n ≤ l + 1) →
    ∃ b', grow sched lim n b = .ok b' ∧ Chain k b' ∧ Ext sched b b' ∧ b'.nodes.length = b.nodes.length + n := by
  induction n with
  | zero => intro k b h _ _; exact ⟨b, rfl, h, ⟨⟨[], by simp, by simp⟩, fun x h => h, Nat.le_refl _⟩, rfl⟩
  | succ n ih =>
    intro k b h hne hl
    obtain ⟨e, he⟩ : ∃ e, b.nodes.getLast? = some e := by
      cases hh : b.nodes.getLast? with
      | none => exact absurd (List.getLast?_eq_none_iff.1 hh) hne
      | some e => exact ⟨e, rfl⟩
    have hs := h.last e he
    unfold grow
    rw [he]
    dsimp only
    rw [if_neg (by rw [h.next]; simp [hs]), if_neg]
    · have hc := h.snoc ⟨e.seq + 1, sched (e.seq + 1), 0, false, b.free.headD 0⟩ hs b.free.tail
      obtain ⟨b', g1, g2, g3, g4⟩ := ih k _ hc (by simp) (fun l hm => by have := hl l hm; simp; omega)
      refine ⟨b', g1, g2, ?_, by rw [g4]; simp; omega⟩
      obtain ⟨⟨new, m1, m2⟩, m3, m4⟩ := g3
      refine ⟨⟨⟨e.seq + 1, sched (e.seq + 1), 0, false, b.free.headD 0⟩ :: new, by rw [m1]; simp, ?_⟩, fun x hx => List.mem_of_mem_tail (m3 x hx), by dsimp only at m4; omega⟩
      intro x hx
      rcases List.mem_cons.1 hx with rfl | hx
      · refine ⟨rfl, rfl, ?_, rfl⟩
        dsimp only
        cases b.free with
        | nil => exact Or.inl rfl
        | cons a t => exact Or.inr (by simp)
      · obtain ⟨a1, a2, a3, a4⟩ := m2 x hx
        exact ⟨a1, a2, a3.imp id fun h => List.mem_of_mem_tail h, a4⟩
    · intro hh
      cases lim with
      | none => cases hh
      | some l =>
        have := hl l rfl
        simp at hh
        omega

theorem Ext.rfl' (sched : Nat → Nat) (b : Buf) : Ext sched b b := ⟨⟨[], by simp, by simp⟩, fun _ h => h, Nat.le_refl _⟩

/-- `PacketGet`: it refuses a number below the first of the summary, above its end, or no longer in the buffer; otherwise the buffer reaches to it. -/
theorem get_spec (sched : Nat → Nat) (first : Nat) (lim : Option Nat) (seq k : Nat) (b : Buf) (h : Chain k b) (hne : b.nodes ≠ []) :
    (get sched first lim seq b = .error .refused ∧ (seq < first ∨ seq < k ∨ ∃ l ∈ lim, l < seq)) ∨
    ∃ n b', get sched first lim seq b = .ok (n, b') ∧ Chain k b' ∧ Ext sched b b' ∧ n ∈ b'.nodes ∧ n.seq = seq ∧ k ≤ seq ∧
      seq < k + b'.nodes.length ∧ (k + b'.nodes.length ≤ k + b.nodes.length ∨ k + b'.nodes.length ≤ seq + 1) := by
  obtain ⟨e, he⟩ : ∃ e, b.nodes.getLast? = some e := by
    cases hh : b.nodes.getLast? with
    | none => exact absurd (List.getLast?_eq_none_iff.1 hh) hne
    | some e => exact ⟨e, rfl⟩
  obtain ⟨a, rest, ha⟩ : ∃ a rest, b.nodes = a :: rest := List.exists_cons_of_ne_nil hne
  have hs := h.last e he
  have hk := h.head a rest ha
  have hlen : 0 < b.nodes.length := by rw [ha]; simp
  unfold get
  rw [he, show b.nodes.head? = some a by rw [ha]; rfl]
  dsimp only
  by_cases h1 : seq = e.seq
  · rw [if_pos h1]
    exact Or.inr ⟨e, b, rfl, h, Ext.rfl' _ _, List.mem_of_getLast? he, h1.symm, by omega, by omega, Or.inl (Nat.le_refl _)⟩
  · rw [if_neg h1]
    by_cases h2 : seq < first ∨ lim.any (fun l => decide (seq > l)) = true
    · rw [if_pos h2]
      refine Or.inl ⟨rfl, ?_⟩
      rcases h2 with h2 | h2
      · exact Or.inl h2
      · refine Or.inr (Or.inr ?_)
        cases lim with
        | none => cases h2
        | some l => exact ⟨l, rfl, by simpa using h2⟩
    · rw [if_neg h2]
      by_cases h3 : seq > e.seq
      · rw [if_pos h3]
        obtain ⟨b', g1, g2, g3, g4⟩ := grow_spec sched lim (seq - e.seq) k b h hne (fun l hm => by
          have : ¬ seq > l := fun hh => h2 (Or.inr (by cases hm; simpa using hh))
          omega)
        rw [g1]
        dsimp only
        obtain ⟨e', he'⟩ : ∃ e', b'.nodes.getLast? = some e' := by
          cases hh : b'.nodes.getLast? with
          | none => have := List.getLast?_eq_none_iff.1 hh; rw [this] at g4; simp at g4; omega
          | some e' => exact ⟨e', rfl⟩
        have hs' := g2.last e' he'
        rw [he']
        exact Or.inr ⟨e', b', rfl, g2, g3, List.mem_of_getLast? he', by omega, by omega, by omega, Or.inr (by omega)⟩
      · rw [if_neg h3]
        by_cases h4 : seq < a.seq
        · rw [if_pos h4]; exact Or.inl ⟨rfl, Or.inr (Or.inl (by omega))⟩
        · rw [if_neg h4]
          have hin : seq ∈ b.nodes.map (·.seq) := by rw [h.seqs, List.mem_range'_1]; omega
          obtain ⟨n, hn1, hn2⟩ := List.mem_map.1 hin
          cases hf : b.nodes.find? (fun m => decide (m.seq = seq)) with
          | none =>
            have := List.find?_eq_none.1 hf n hn1
            simp [hn2] at this
          | some m =>
            have m1 := List.mem_of_find?_eq_some hf
            have m2 := List.find?_some hf
            exact Or.inr ⟨m, b, rfl, h, Ext.rfl' _ _, m1, by simpa using m2, by omega, by omega, Or.inl (Nat.le_refl _)⟩

/-- What follows the statistics of a flush. -/
theorem shift_spec (fetch : Nat → Except Bad (Node × Buf)) (sched : Nat → Nat) (last k : Nat) (n : Node) (rest : List Node) (b : Buf) (hb : b.nodes = n :: rest)
    (h : Chain k b) (hf : rest = [] → n.seq + 1 < last → ∃ m b', fetch (n.seq + 1) = .ok (m, b') ∧ Chain k b' ∧ Ext sched b b' ∧ n.seq + 1 < k + b'.nodes.length ∧ k + b'.nodes.length ≤ n.seq + 2) :
    ∃ g b', shift fetch last n rest b = .ok (g, b') ∧ Chain (k + 1) b' ∧ (g = true ↔ b'.nodes ≠ []) ∧ (g = false → rest = [] ∧ last ≤ n.seq + 1) ∧
      (∃ new, b'.nodes = rest ++ new ∧ ∀ x ∈ new, x.seen = 0 ∧ x.lost = false ∧ (x.assoc = 0 ∨ x.assoc ∈ b.free) ∧ x.sched = sched x.seq) ∧
      (∀ x ∈ b'.free, x ∈ b.free ∨ x = n.assoc) ∧ b.next ≤ b'.next ∧
      (k + 1 + b'.nodes.length ≤ k + b.nodes.length ∨ (rest = [] ∧ k + 1 + b'.nodes.length ≤ last)) := by
  have hk := h.head n rest hb
  have hs := h.seqs
  rw [hb] at hs
  simp only [List.map_cons, List.length_cons, List.range'_succ, List.cons.injEq] at hs
  unfold shift
  cases rest with
  | cons y t =>
    refine ⟨true, _, rfl, ⟨hs.2, ?_⟩, ?_, by simp, ⟨[], by simp, by simp⟩, ?_, Nat.le_refl _, Or.inl (by rw [hb]; simp; omega)⟩
    · have := h.next; rw [hb] at this; simp only [List.length_cons] at this ⊢; omega
    · simp
    · intro x hx
      rcases List.mem_cons.1 hx with h | h
      · exact Or.inr h
      · exact Or.inl h
  | nil =>
    dsimp only
    by_cases hl : n.seq + 1 < last
    · rw [if_pos hl]
      obtain ⟨m, b', f1, f2, ⟨⟨new, g1, g2⟩, g3, g4⟩, f3, f4⟩ := hf rfl hl
      rw [f1]
      dsimp only
      rw [hb] at g1
      have hs2 := f2.seqs
      rw [g1] at hs2
      simp only [List.cons_append, List.nil_append, List.map_cons, List.length_cons, List.range'_succ, List.cons.injEq] at hs2
      have hnew : new ≠ [] := by
        intro hh; rw [g1, hh] at f3; simp at f3; omega
      refine ⟨true, _, rfl, ⟨?_, ?_⟩, ?_, by simp, ⟨new, ?_, g2⟩, ?_, g4, Or.inr ⟨rfl, by rw [g1] at f4 ⊢; simp at f4 ⊢; omega⟩⟩
      · rw [g1]; exact hs2.2
      · have := f2.next; rw [g1] at this ⊢; simp only [List.cons_append, List.nil_append, List.length_cons, List.tail_cons] at this ⊢; omega
      · rw [g1]; simp [hnew]
      · rw [g1]; simp
      · intro x hx
        rcases List.mem_cons.1 hx with h | h
        · exact Or.inr h
        · exact Or.inl (g3 x h)
    · rw [if_neg hl]
      refine ⟨false, _, rfl, ⟨by simp, ?_⟩, by simp, fun _ => ⟨rfl, by omega⟩, ⟨[], by simp, by simp⟩, ?_, Nat.le_refl _, Or.inl (by rw [hb]; simp)⟩
      · have := h.next; rw [hb] at this; simp at this ⊢; omega
      · intro x hx
        rcases List.mem_cons.1 hx with h | h
        · exact Or.inr h
        · exact Or.inl h

end Owamp.TwStats
