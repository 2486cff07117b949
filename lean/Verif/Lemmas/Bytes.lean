import Verif.Base.Bytes
/-!
# More lemmas on byte buffers, and a tactic for field reads
-/
namespace Owamp

theorem get_put_inside (buf bs : Bytes) (off o n : Nat) (h1 : off ≤ o) (h2 : o + n ≤ off + bs.length)
    (h3 : off ≤ buf.length) : get (put buf off bs) o n = get bs (o - off) n := by
  unfold get put
  rw [List.append_assoc, List.drop_append, List.drop_append]
  have e1 : List.drop o (List.take off buf) = [] := by
    apply List.drop_eq_nil_of_le; simp; omega
  rw [e1, List.nil_append, List.length_take, Nat.min_eq_left h3, List.take_append_of_le_length]
  rw [List.length_drop]; omega

theorem put_put_adjacent (m a b : Bytes) (off o : Nat) (ho : o = off + a.length) (h : off + a.length ≤ m.length) :
    put (put m off a) o b = put m off (a ++ b) := by
  subst ho
  unfold put
  have hl : (List.take off m).length = off := by simp; omega
  have e1 : List.take (off + a.length) (List.take off m ++ (a ++ List.drop (off + a.length) m))
      = List.take off m ++ a := by
    rw [← List.append_assoc, List.take_left']
    rw [List.length_append, hl]
  have e2 : List.drop (off + a.length + b.length) (List.take off m ++ (a ++ List.drop (off + a.length) m))
      = List.drop (off + (a ++ b).length) m := by
    rw [← List.append_assoc, List.drop_append, List.drop_eq_nil_of_le, List.nil_append, List.drop_drop]
    · rw [List.length_append, hl, List.length_append]; congr 1; omega
    · rw [List.length_append, hl]; omega
  rw [List.append_assoc (List.take off m) a, e1, e2]; simp [List.append_assoc]

theorem put_put_inside (m a b : Bytes) (off : Nat) (h : b.length ≤ a.length) (h2 : off + a.length ≤ m.length) :
    put (put m off a) off b = put m off (put a 0 b) := by
  unfold put
  have hl : (List.take off m).length = off := by simp; omega
  rw [List.append_assoc (List.take off m) a, List.take_left' hl, List.drop_append, List.drop_eq_nil_of_le (by omega), List.nil_append, hl]
  have e : List.drop (off + b.length - off) (a ++ List.drop (off + a.length) m)
     = List.drop b.length a ++ List.drop (off + a.length) m := by
    rw [Nat.add_sub_cancel_left, List.drop_append_of_le_length h]
  rw [e]
  have hl2 : (List.take 0 a ++ b ++ List.drop (0 + b.length) a).length = a.length := by simp; omega
  rw [hl2]; simp [List.append_assoc]

theorem get_split (m : Bytes) (o n : Nat) (k : Nat) (h : k ≤ n) : get m o n = get m o k ++ get m (o + k) (n - k) := by
  rw [get_concat, Nat.add_sub_cancel' h]

theorem get_empty (m : Bytes) (o : Nat) : get m o 0 = [] := by simp [get]

theorem put_all (m b : Bytes) (h : b.length = m.length) : put m 0 b = b := by
  unfold put; simp [h]

theorem le_put_length (m b : Bytes) (off : Nat) : m.length ≤ (put m off b).length := by
  simp only [put, List.length_append, List.length_take, List.length_drop]; omega

/-- The consecutive fields of sizes `ns` starting at `o`. -/
def pieces (m : Bytes) (o : Nat) : List Nat → Bytes
  | [] => []
  | n :: ns => get m o n ++ pieces m (o + n) ns

theorem get_pieces (m : Bytes) (o : Nat) (ns : List Nat) (n : Nat) (h : ns.sum = n) :
    get m o n = pieces m o ns := by
  subst h
  induction ns generalizing o with
  | nil => simp [pieces, get]
  | cons n ns ih => rw [List.sum_cons, ← get_concat, pieces, ih]

theorem zeros_one : zeros 1 = [0#8] := rfl

/-- Discharges the length side conditions of the buffer lemmas. -/
macro "blen" : tactic => `(tactic| (
  first
  | omega
  | (simp only [List.length_append, zeros_length, enc8_length, enc16_length, enc32_length,
      enc64_length, List.length_cons, List.length_nil]; first | done | omega)
  | (refine Nat.le_trans ?_ (le_put_length _ _ _)
     repeat refine Nat.le_trans ?_ (le_put_length _ _ _)
     first
     | omega
     | (simp only [List.length_append, zeros_length, enc8_length, enc16_length, enc32_length,
        enc64_length, List.length_cons, List.length_nil]; first | done | omega))))

/-- Computes reads of fields from buffers built with `put` and from concatenations; the lengths of the
parts that are not encodings are given in the list. -/
syntax "fields" (" [" term,* "]")? : tactic
macro_rules
  | `(tactic| fields) => `(tactic| fields [])
  | `(tactic| fields [$ts,*]) => do
    let ts' ← ts.getElems.mapM fun t => `(Lean.Parser.Tactic.simpLemma| $t:term)
    `(tactic|
  simp (disch := blen) only [pieces, put8, put16, put32, put64, get8, get16, get32, get64,
    get_put_same, get_put_before, get_put_after, get_put_inside, get_zeros, get_append_left,
    get_append_right, get_all, get_zero_append,
    Nat.zero_add, Nat.add_zero, Nat.sub_zero, Nat.sub_self, Nat.reduceAdd, Nat.reduceSub, Nat.reduceMul,
    zeros_length, enc8_length, enc16_length, enc32_length, enc64_length, List.length_append,
    List.length_cons, List.length_nil,
    dec_enc8, dec_enc16, dec_enc32, dec_enc64, List.append_nil, $ts',*])

end Owamp
