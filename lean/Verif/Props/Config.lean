import Verif.Spec.Config
/-!
# C49 and C63: configuration
-/
namespace Owamp.Props
open Owamp.Config Owamp.Spec.Config

theorem find_filter_ne (t : Table) (k k' : Bytes) (h : k' ≠ k) : (t.filter (·.key ≠ k)).find? (·.key = k') = t.find? (·.key = k') := by
  induction t with
  | nil => rfl
  | cons e es ih =>
    rw [List.filter_cons]
    by_cases hk : e.key = k
    · rw [if_neg (by simpa using hk), ih, List.find?_cons_of_neg (by simp only [decide_eq_true_eq]; rw [hk]; exact Ne.symm h)]
    · rw [if_pos (by simpa using hk)]
      by_cases hk' : e.key = k'
      · rw [List.find?_cons_of_pos (by simpa using hk'), List.find?_cons_of_pos (by simpa using hk')]
      · rw [List.find?_cons_of_neg (by simpa using hk'), List.find?_cons_of_neg (by simpa using hk'), ih]

theorem find_filter_self (t : Table) (k : Bytes) : (t.filter (·.key ≠ k)).find? (·.key = k) = none := by
  rw [List.find?_eq_none]
  intro e he
  have := (List.mem_filter.1 he).2
  simpa using this

theorem find_clean_ne (t : Table) (k k' : Bytes) (h : k' ≠ k) :
    (if t.any (·.key = k) then t.filter (·.key ≠ k) else t).find? (·.key = k') = t.find? (·.key = k') := by
  split
  · exact find_filter_ne t k k' h
  · rfl

theorem find_clean_self (t : Table) (k : Bytes) : (if t.any (·.key = k) then t.filter (·.key ≠ k) else t).find? (·.key = k) = none := by
  split
  · exact find_filter_self t k
  · rename_i h
    rw [List.find?_eq_none]
    intro e he hh
    exact h (List.any_eq_true.2 ⟨e, he, hh⟩)

theorem getU_setU (t : Table) (k v k' : Bytes) (s : Stored) : getU (setU t k v s).2 k' =
    if cut k' = cut k ∧ s ≠ .noMemory then (if s = .done then some v else none) else getU t k' := by
  unfold getU setU
  have hs := find_clean_self t (cut k)
  have hn := find_clean_ne t (cut k) (cut k')
  cases s with
  | noMemory => rw [if_neg (fun h => h.2 rfl)]
  | done =>
    dsimp only
    generalize (if t.any (·.key = cut k) then t.filter (·.key ≠ cut k) else t) = t1 at *
    by_cases h : cut k' = cut k
    · rw [if_pos ⟨h, by decide⟩, if_pos rfl, List.find?_cons_of_pos (by simpa using h.symm)]; rfl
    · rw [if_neg (fun hh => h hh.1), List.find?_cons_of_neg (by simpa using Ne.symm h), hn h]
  | refused =>
    dsimp only
    generalize (if t.any (·.key = cut k) then t.filter (·.key ≠ cut k) else t) = t1 at *
    by_cases h : cut k' = cut k
    · rw [if_pos ⟨h, by decide⟩, if_neg (by decide), h, hs]; rfl
    · rw [if_neg (fun hh => h hh.1), hn h]

/-- One call. -/
theorem getU_run (t : Table) (op : Op) (k : Bytes) : getU (op.run t) k = if cut (key op) = cut k ∧ took op = true then leaves op else getU t k := by
  cases op with
  | setV k1 p s =>
    show getU (setU t k1 p s).2 k = _
    rw [getU_setU]
    unfold key took leaves
    cases s <;> simp [eq_comm]
  | setU32 k1 u j s =>
    show getU (setU t k1 (u ++ j) s).2 k = _
    rw [getU_setU]
    unfold key took leaves
    cases s <;> simp [eq_comm]
  | delete k1 =>
    show getU (Config.delete t k1).2 k = if cut k1 = cut k ∧ true = true then none else getU t k
    have e : (Config.delete t k1).2 = if t.any (·.key = cut k1) then t.filter (·.key ≠ cut k1) else t := by
      unfold Config.delete; split <;> rfl
    unfold getU
    rw [e]
    by_cases h : cut k1 = cut k
    · rw [if_pos (c := cut k1 = cut k ∧ true = true) ⟨h, rfl⟩, h, find_clean_self]; rfl
    · rw [if_neg (c := cut k1 = cut k ∧ true = true) (fun hh => h hh.1), find_clean_ne t (cut k1) (cut k) (Ne.symm h)]

theorem latest_snoc (k : Bytes) (ops : List Op) (op : Op) :
    latest k (ops ++ [op]) = if key op = k ∧ took op = true then leaves op else latest k ops := by
  unfold latest
  rw [List.reverse_append]
  show (List.find? _ (op :: ops.reverse)).bind leaves = _
  by_cases h : key op = k ∧ took op = true
  · rw [if_pos h, List.find?_cons_of_pos (by simp [h.1, h.2])]; rfl
  · rw [if_neg h, List.find?_cons_of_neg (by simpa using h)]

theorem cut_short (k : Bytes) (h : k.length ≤ 64) : cut k = k := List.take_of_length_le h

/-- C49: after any sequence of calls to set and delete, with keys of at most 64 bytes, what is found for a key is what the last
of these calls for this key that had an effect left: the value it set, or nothing. What is missing: longer keys
(`C49_long_keys`), and that a call that fails leaves the old value (`C49_failed_store`). -/
theorem C49_latest_partial (ops : List Op) (k : Bytes) (hk : k.length ≤ 64) (hops : ∀ op ∈ ops, (key op).length ≤ 64) :
    getV (ops.foldl Op.run []) k = latest k ops ∧ getU32 (ops.foldl Op.run []) k = (latest k ops).map (·.take 4) := by
  have main : getU (ops.foldl Op.run []) k = latest k ops := by
    obtain ⟨n, hn⟩ : ∃ n, n = ops.length := ⟨_, rfl⟩
    induction n generalizing ops with
    | zero =>
      rw [List.length_eq_zero_iff.1 hn.symm]
      rfl
    | succ n ih =>
      obtain ⟨as, a, rfl⟩ : ∃ as a, ops = as ++ [a] := by
        have hne : ops ≠ [] := fun h => by rw [h] at hn; cases hn
        exact ⟨ops.dropLast, ops.getLast hne, (List.dropLast_concat_getLast hne).symm⟩
      rw [List.length_append] at hn
      have h1 := ih as (fun op ho => hops op (List.mem_append_left _ ho)) (by simpa using hn)
      rw [List.foldl_append]
      show getU (a.run _) k = _
      rw [getU_run, latest_snoc, h1, cut_short k hk, cut_short (key a) (hops a (List.mem_append_right _ (List.mem_singleton.2 rfl)))]
  refine ⟨main, ?_⟩
  unfold getU32
  rw [main]

/-- C49, if no call fails: a value that was set is found until the next call for its key. -/
theorem C49_set (before after : List Op) (k u j : Bytes) (hk : k.length ≤ 64) (hu : u.length = 4)
    (hb : ∀ op ∈ before ++ after, (key op).length ≤ 64) (hno : ∀ op ∈ after, key op ≠ k) :
    getU32 ((before ++ .setU32 k u j .done :: after).foldl Op.run []) k = some u := by
  rw [(C49_latest_partial _ k hk (fun op ho => by
    rcases List.mem_append.1 ho with h | h
    · exact hb op (List.mem_append_left _ h)
    · rcases List.mem_cons.1 h with h | h
      · rw [h]; exact hk
      · exact hb op (List.mem_append_right _ h))).2]
  unfold latest
  rw [List.reverse_append, List.reverse_cons, List.append_assoc, List.find?_append]
  have : after.reverse.find? (fun op => decide (key op = k) && took op) = none := by
    rw [List.find?_eq_none]
    intro op ho
    simp [hno op (List.mem_reverse.1 ho)]
  rw [this, Option.none_or]
  show Option.map _ ((List.find? _ (Op.setU32 k u j .done :: before.reverse)).bind leaves) = _
  rw [List.find?_cons_of_pos (by simp [key, took])]
  show some ((u ++ j).take 4) = some u
  rw [← hu, List.take_left]

/-- C49 is false for keys of more than 64 bytes: they are taken for the same if they begin with the same 64. -/
theorem C49_long_keys : ∃ k k' v : Bytes, k ≠ k' ∧ getV ((Op.setV k v .done).run []) k' = some v :=
  ⟨zeros 65, zeros 64 ++ [1#8], zeros 8, by decide, by decide⟩

/-- C49 is false when a value cannot be stored: the call fails, and the old value is gone. -/
theorem C49_failed_store : ∃ k v w : Bytes, (setV ((Op.setV k v .done).run []) k w .refused).1 = false ∧
    getV (setV ((Op.setV k v .done).run []) k w .refused).2 k = none :=
  ⟨[65#8], zeros 8, zeros 8, by decide, by decide⟩

/-- Non-vacuity of `C49_latest_partial` and `C49_set`. -/
example : getU32 (([Op.setV [65#8] (zeros 8) .done, .setU32 [66#8] [1, 2, 3, 4] [9, 9, 9, 9] .done, .setU32 [65#8] [5, 6, 7, 8] [1, 1, 1, 1] .done,
    .delete [66#8], .setV [67#8] (zeros 8) .noMemory] : List Op).foldl Op.run []) [65#8] = some [5, 6, 7, 8] := by decide
example := C49_set [.setV [65#8] (zeros 8) .done] [.delete [66#8]] [65#8] [5, 6, 7, 8] [1, 1, 1, 1] (by decide) rfl (by decide) (by decide)

/-! ## C63 -/

/-- C63 is false: whatever is configured, for a context made by the library the count offered and used is 2048. -/
theorem C63_ignored (big : Bool) (ops : List Op) : (ops.foldl Context.config (create big)).offered = 2048 := by
  have : ∀ ctx : Context, (ops.foldl Context.config ctx).offered = ctx.offered := by
    induction ops with
    | nil => exact fun _ => rfl
    | cons op ops ih => exact fun ctx => by rw [List.foldl_cons, ih]; rfl
  rw [this]
  rfl

/-- In particular after a configuration call for another count, which succeeds and can be read back. -/
theorem C63_not_honoured (big : Bool) (u junk : Bytes) (hu : u.length = 4) (h : hostWord big u ≠ 2048) :
    let ctx := (create big).config (.setU32 countKey u junk .done)
    getU32 ctx.table countKey = some u ∧ ctx.offered ≠ hostWord big u :=
  ⟨C49_set [] [] countKey u junk (by decide) hu (by simp) (by simp), fun hh => h (hh.symm.trans (C63_ignored big [.setU32 countKey u junk .done]))⟩

/-- 4096 on a big-endian host. -/
example := C63_not_honoured true [0, 0, 16, 0] [0, 0, 0, 0] rfl (by decide)

end Owamp.Props
