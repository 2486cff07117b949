import Verif.Lemmas.Print
import Verif.Model.PrintTw
import Verif.Spec.PrintTw
import Verif.Lemmas.StatsFig
/-!
# Facts about the reports of two-way sessions
-/
namespace Owamp.PrintTw
open Owamp.Policy Owamp.Spec.Print Owamp.Spec.Ports Owamp.TwStats
open Owamp.Print (Fmt Info Key digits padded signed hexByte line lines_flatMap digits_plain padded_plain signed_plain hexByte_plain digits_numeral signed_numeral
  silent_append)

/-! ## Names -/

def Name.all : List Name := Key.all.map .plain ++
  [.maxerrF, .maxerrB, .dupsF, .dupsB, .minF, .minB, .minP, .medianF, .medianB, .maxF, .maxB, .maxP, .pdvF, .pdvB, .minTtlF, .maxTtlF, .minTtlB, .maxTtlB]

theorem Name.mem_all (k : Name) : k ∈ Name.all := by
  cases k with
  | plain k => exact List.mem_append_left _ (List.mem_map.2 ⟨k, k.mem_all, rfl⟩)
  | _ => exact List.mem_append_right _ (by decide)

theorem Name.text_inj (k k' : Name) (h : k.text = k'.text) : k = k' := by
  have : ∀ k ∈ Name.all, ∀ k' ∈ Name.all, k.text = k'.text → k = k' := by decide +kernel
  exact this k k.mem_all k' k'.mem_all h

/-- A name begins with a capital letter. -/
theorem Name.capital (k : Name) : k.text ≠ [] ∧ k.text.head? ≠ some 60#8 ∧ Plain k.text := by
  have : ∀ k ∈ Name.all, k.text ≠ [] ∧ k.text.head? ≠ some 60#8 ∧ 9#8 ∉ k.text ∧ 10#8 ∉ k.text := by decide +kernel
  exact this k k.mem_all

theorem mem_table {name : Bytes} {rows : List (List Bytes)} {l : List Bytes} (hl : l ∈ table name rows) :
    l = [text ['<'] ++ name ++ text ['>']] ∨ (∃ r ∈ rows, l = [] :: r) ∨ l = [text ['<','/'] ++ name ++ text ['>']] := by
  unfold table at hl
  rcases List.mem_append.1 hl with hl | hl
  · rcases List.mem_append.1 hl with hl | hl
    · exact .inl (List.mem_singleton.1 hl)
    · obtain ⟨r, hr, rfl⟩ := List.mem_map.1 hl
      exact .inr (.inl ⟨r, hr, rfl⟩)
  · exact .inr (.inr (List.mem_singleton.1 hl))

/-- The lines of tables do not begin with a name. -/
theorem table_names (name : Bytes) (rows : List (List Bytes)) (k : Name) : (table name rows).filter (fun l => l.head? = some k.text) = [] := by
  rw [List.filter_eq_nil_iff]
  intro l hl
  obtain ⟨k1, k2, _⟩ := k.capital
  simp only [decide_eq_true_eq]
  rcases mem_table hl with rfl | ⟨r, _, rfl⟩ | rfl <;> intro e <;> rw [List.head?_cons, Option.some.injEq] at e
  · exact k2 (by rw [← e]; rfl)
  · exact k1 e.symm
  · exact k2 (by rw [← e]; rfl)

theorem filter_lines (l : List (Name × Bytes)) (k : Name) :
    (l.map valueLine).filter (fun l => l.head? = some k.text) = (l.filter (fun p => p.1 = k)).map valueLine := by
  induction l with
  | nil => rfl
  | cons p l ih =>
    rw [List.map_cons, List.filter_cons, List.filter_cons, ih]
    by_cases h : p.1 = k
    · rw [if_pos (by simp [valueLine, h]), if_pos (by simp [h]), List.map_cons]
    · rw [if_neg (by simp only [valueLine, List.head?_cons, Option.some.injEq, decide_eq_true_eq]; exact fun e => h (Name.text_inj _ _ e)), if_neg (by simpa using h)]

theorem report_names (F : Fmt) (c : Cfg) (i : Info) (s : St) (k : Name) :
    (report F c i s).filter (fun l => l.head? = some k.text) = ((values F c i s ++ ttlValues s).filter (fun p => p.1 = k)).map valueLine := by
  have e1 : (bucketLines s).filter (fun l => l.head? = some k.text) = [] := by
    unfold bucketLines; split
    · exact table_names _ _ k
    · rfl
  have e2 : (ttlLines s).filter (fun l => l.head? = some k.text) = [] := by
    unfold ttlLines; split
    · exact table_names _ _ k
    · rfl
  have e4 : ([[[]]] : List (List Bytes)).filter (fun l => l.head? = some k.text) = [] := by
    have := k.capital.1
    rw [List.filter_cons, if_neg (by simpa using this)]; rfl
  unfold report
  rw [List.filter_append, List.filter_append, List.filter_append, List.filter_append, e1, e2, e4, filter_lines, filter_lines,
    List.filter_append, List.map_append]
  simp

/-! ## Everything is plain -/

theorem opt_plain (k : Name) (v : Option Bytes) (h : ∀ x, v = some x → Plain x) : ∀ p ∈ opt k v, Plain p.2 := by
  intro p hp
  cases v with
  | none => cases hp
  | some v => rw [List.mem_singleton.1 hp]; exact h v rfl

theorem values_plain (F : Fmt) (c : Cfg) (i : Info) (s : St) (hF : PlainFmt F) (hi : PlainInfo i) : ∀ p ∈ values F c i s, Plain p.2 := by
  have mn : ∀ j x, minValue F c s j = some x → Plain x := by
    intro j x hx
    unfold minValue at hx
    split at hx
    · cases hx; exact hF.delay _
    · cases hx
  have mx : ∀ j x, maxValue F c s j = some x → Plain x := by
    intro j x hx
    unfold maxValue at hx
    split at hx
    · cases hx; exact hF.delay _
    · cases hx
  have md : ∀ (v : Option Int) x, v.map F.bucket = some x → Plain x := by
    intro v x hx
    obtain ⟨b, _, rfl⟩ := Option.map_eq_some_iff.1 hx
    exact hF.bucket b
  have pd : ∀ (v : Option (Int × Int)) x, (v.map fun p => F.spread p.1 p.2) = some x → Plain x := by
    intro v x hx
    obtain ⟨b, _, rfl⟩ := Option.map_eq_some_iff.1 hx
    exact hF.spread _ _
  intro p hp
  unfold values at hp
  simp only [List.mem_append] at hp
  rcases hp with (((((((((((((((((hp | hp) | hp) | hp) | hp) | hp) | hp) | hp) | hp) | hp) | hp) | hp) | hp) | hp) | hp) | hp) | hp) | hp)
  · simp only [List.mem_cons, List.not_mem_nil, or_false] at hp
    rcases hp with rfl | rfl | rfl | rfl | rfl | rfl | rfl | rfl | rfl | rfl
    · exact ⟨by decide, by decide⟩
    · exact hi.sid
    · exact hi.fromHost
    · exact hi.fromAddr
    · exact hi.fromPort
    · exact hi.toHost
    · exact hi.toAddr
    · exact hi.toPort
    · exact padded_plain _ _
    · exact padded_plain _ _
  · split at hp
    · simp only [List.mem_cons, List.not_mem_nil, or_false] at hp
      rcases hp with rfl | rfl
      · exact hF.unix _
      · exact hF.unix _
    · cases hp
  · refine opt_plain _ _ (fun x hx => ?_) p hp
    split at hx
    · cases hx; exact hexByte_plain _ (by have := i.typeP.isLt; omega)
    · cases hx
  · simp only [List.mem_cons, List.not_mem_nil, or_false] at hp
    rcases hp with rfl | rfl | rfl | rfl | rfl | rfl | rfl | rfl | rfl | rfl | rfl | rfl | rfl | rfl <;> first | exact digits_plain _ | exact hF.width | exact hF.err _
  · exact opt_plain _ _ (mn _) p hp
  · exact opt_plain _ _ (mn _) p hp
  · exact opt_plain _ _ (mn _) p hp
  · exact opt_plain _ _ (mn _) p hp
  · exact opt_plain _ _ (md _) p hp
  · exact opt_plain _ _ (md _) p hp
  · exact opt_plain _ _ (md _) p hp
  · exact opt_plain _ _ (mx _) p hp
  · exact opt_plain _ _ (mx _) p hp
  · exact opt_plain _ _ (mx _) p hp
  · exact opt_plain _ _ (mx _) p hp
  · exact opt_plain _ _ (pd _) p hp
  · exact opt_plain _ _ (pd _) p hp
  · exact opt_plain _ _ (pd _) p hp

theorem table_plain (name : Bytes) (rows : List (List Bytes)) (hn : Plain name) (hr : ∀ r ∈ rows, ∀ f ∈ r, Plain f) :
    ∀ l ∈ table name rows, l ≠ [] ∧ ∀ f ∈ l, Plain f := by
  intro l hl
  have hb : ∀ a z : Bytes, Plain a → Plain z → Plain (a ++ name ++ z) := fun a z h1 h2 =>
    ⟨by simp only [List.mem_append, not_or]; exact ⟨⟨h1.1, hn.1⟩, h2.1⟩, by simp only [List.mem_append, not_or]; exact ⟨⟨h1.2, hn.2⟩, h2.2⟩⟩
  rcases mem_table hl with rfl | ⟨r, hm, rfl⟩ | rfl <;> refine ⟨by simp, fun f hf => ?_⟩
  · rw [List.mem_singleton.1 hf]
    exact hb _ _ ⟨by decide, by decide⟩ ⟨by decide, by decide⟩
  · rcases List.mem_cons.1 hf with rfl | hf
    · exact ⟨by simp, by simp⟩
    · exact hr r hm f hf
  · rw [List.mem_singleton.1 hf]
    exact hb _ _ ⟨by decide, by decide⟩ ⟨by decide, by decide⟩

theorem valueLine_plain (l : List (Name × Bytes)) (h : ∀ p ∈ l, Plain p.2) : ∀ x ∈ l.map valueLine, x ≠ [] ∧ ∀ f ∈ x, Plain f := by
  intro x hx
  obtain ⟨p, hp, rfl⟩ := List.mem_map.1 hx
  refine ⟨by simp [valueLine], fun f hf => ?_⟩
  simp only [valueLine, List.mem_cons, List.not_mem_nil, or_false] at hf
  rcases hf with rfl | rfl
  · exact p.1.capital.2.2
  · exact h p hp

/-- What is read from a report are its lines. -/
theorem read_report (F : Fmt) (c : Cfg) (i : Info) (s : St) (hF : PlainFmt F) (hi : PlainInfo i) : lines (machine F c i s) = report F c i s := by
  unfold machine
  apply lines_flatMap
  intro l hl
  unfold report at hl
  simp only [List.mem_append] at hl
  rcases hl with (((hl | hl) | hl) | hl) | hl
  · exact valueLine_plain _ (values_plain F c i s hF hi) l hl
  · unfold bucketLines at hl
    split at hl
    · refine table_plain _ _ ⟨by decide, by decide⟩ (fun r hr f hf => ?_) l hl
      obtain ⟨p, _, rfl⟩ := List.mem_map.1 hr
      simp only [List.mem_cons, List.not_mem_nil, or_false] at hf
      rcases hf with rfl | rfl | rfl | rfl
      · exact signed_plain _
      · exact digits_plain _
      · exact digits_plain _
      · exact digits_plain _
    · cases hl
  · refine valueLine_plain _ (fun p hp => ?_) l hl
    simp only [ttlValues, List.mem_cons, List.not_mem_nil, or_false] at hp
    rcases hp with rfl | rfl | rfl | rfl <;> exact digits_plain _
  · unfold ttlLines at hl
    split at hl
    · refine table_plain _ _ ⟨by decide, by decide⟩ (fun r hr f hf => ?_) l hl
      obtain ⟨t, _, hr⟩ := List.mem_flatMap.1 hr
      unfold ttlRow at hr
      split at hr
      · rw [List.mem_singleton.1 hr] at hf
        simp only [List.mem_cons, List.not_mem_nil, or_false] at hf
        rcases hf with rfl | rfl | rfl <;> exact digits_plain _
      · cases hr
    · cases hl
  · rw [List.mem_singleton.1 hl]
    exact ⟨by simp, fun f hf => by rw [List.mem_singleton.1 hf]; exact ⟨by simp, by simp⟩⟩

/-! ## Lines for names -/

theorem opt_filter (k k' : Name) (v : Option Bytes) : (opt k v).filter (fun p => p.1 = k') = if k = k' then opt k v else [] := by
  cases v with
  | none => simp [opt]
  | some v => by_cases h : k = k' <;> simp [opt, h]

theorem says_of (F : Fmt) (c : Cfg) (i : Info) (s : St) (hF : PlainFmt F) (hi : PlainInfo i) (L : List (List Bytes)) (hL : L = lines (machine F c i s))
    (k : Name) (name : List Char) (hn : text name = k.text) (v : Option Bytes)
    (h : (values F c i s ++ ttlValues s).filter (fun p => p.1 = k) = opt k v) : (∀ x, v = some x → Spec.Print.Says L name x) ∧ (v = none → Silent L name) := by
  have e : L.filter (fun l => l.head? = some k.text) = (opt k v).map valueLine := by rw [hL, read_report F c i s hF hi, report_names, h]
  constructor
  · rintro x rfl
    unfold Spec.Print.Says
    rw [hn, e]; rfl
  · rintro rfl
    have e : L.filter (fun l => l.head? = some k.text) = [] := e
    intro l hl
    have := List.filter_eq_nil_iff.1 e l hl
    rw [hn]; simpa using this

section
variable (F : Fmt) (c : Cfg) (i : Info) (s : St)

/-- The value of a name. -/
def valueOf : Name → Option Bytes
  | .plain .summary => some (text ['3','.','0','0'])
  | .plain .sid => some i.sid
  | .plain .fromHost => some i.fromHost
  | .plain .fromAddr => some i.fromAddr
  | .plain .fromPort => some i.fromPort
  | .plain .toHost => some i.toHost
  | .plain .toAddr => some i.toAddr
  | .plain .toPort => some i.toPort
  | .plain .startTime => some (padded 20 s.startTime)
  | .plain .endTime => some (padded 20 s.endTime)
  | .plain .unixStart => if i.unix then some (F.unix s.startTime) else none
  | .plain .unixEnd => if i.unix then some (F.unix s.endTime) else none
  | .plain .dscp => if i.typeP.toNat % 2 ^ 24 = 0 ∧ i.typeP.toNat / 2 ^ 30 = 0 then some (hexByte (i.typeP.toNat / 2 ^ 24)) else none
  | .plain .lossTimeout => some (digits c.timeout.toNat)
  | .plain .padding => some (digits i.padding.toNat)
  | .plain .sessionCount => some (digits c.npackets.toNat)
  | .plain .sampleCount => some (digits ((s.last + 2 ^ 32 - s.first) % 2 ^ 32))
  | .plain .width => some F.width
  | .plain .finished => some (digits (if i.finished then 1 else 0))
  | .plain .sent => some (digits s.sent)
  | .plain .sync => some (digits (if s.sync then 1 else 0))
  | .plain .maxerr => some (F.err (s.maxerr.getD 0 0))
  | .maxerrF => some (F.err (s.maxerr.getD 1 0))
  | .maxerrB => some (F.err (s.maxerr.getD 2 0))
  | .plain .dups => none
  | .dupsF => some (digits s.dupsF)
  | .dupsB => some (digits s.dupsB)
  | .plain .lost => some (digits s.lost)
  | .plain .min => minValue F c s 0
  | .minF => minValue F c s 1
  | .minB => minValue F c s 2
  | .minP => minValue F c s 3
  | .plain .median => (percentile F.mul s s.hist (1 / 2)).map F.bucket
  | .medianF => (percentile F.mul s s.histF (1 / 2)).map F.bucket
  | .medianB => (percentile F.mul s s.histB (1 / 2)).map F.bucket
  | .plain .max => maxValue F c s 0
  | .maxF => maxValue F c s 1
  | .maxB => maxValue F c s 2
  | .maxP => maxValue F c s 3
  | .plain .pdv => (jitter F s s.hist).map fun p => F.spread p.1 p.2
  | .pdvF => (jitter F s s.histF).map fun p => F.spread p.1 p.2
  | .pdvB => (jitter F s s.histB).map fun p => F.spread p.1 p.2
  | .plain .minTtl => none
  | .plain .maxTtl => none
  | .minTtlF => some (digits (ttlStats s.ttlF).2.1)
  | .maxTtlF => some (digits (ttlStats s.ttlF).2.2)
  | .minTtlB => some (digits (ttlStats s.ttlB).2.1)
  | .maxTtlB => some (digits (ttlStats s.ttlB).2.2)

theorem values_filter (k : Name) : (values F c i s ++ ttlValues s).filter (fun p => p.1 = k) = opt k (valueOf F c i s k) := by
  unfold values ttlValues
  simp only [List.filter_append, opt_filter]
  cases hu : i.unix <;> rcases k with k | _ <;> try cases k
  all_goals simp [valueOf, opt, hu]

end

theorem value_says (F : Fmt) (c : Cfg) (i : Info) (s : St) (hF : PlainFmt F) (hi : PlainInfo i) (L : List (List Bytes))
    (hL : L = lines (machine F c i s)) (k : Name) (name : List Char) (hn : text name = k.text) :
    (∀ x, valueOf F c i s k = some x → Spec.Print.Says L name x) ∧ (valueOf F c i s k = none → Silent L name) :=
  says_of F c i s hF hi L hL k name hn _ (values_filter F c i s k)

/-! ## Tables -/

theorem silent_values (l : List (Name × Bytes)) (name : List Char) : Silent (l.map valueLine) ('<' :: name) := by
  intro x hx
  obtain ⟨p, _, rfl⟩ := List.mem_map.1 hx
  intro e
  have e : some p.1.text = some (text ('<' :: name)) := e
  rw [Option.some.injEq] at e
  exact p.1.capital.2.1 (by rw [e]; rfl)

theorem silent_table (n : Bytes) (rows : List (List Bytes)) (name : List Char)
    (h : text ('<' :: name) ≠ text ['<'] ++ n ++ text ['>'] ∧ text ('<' :: name) ≠ text ['<','/'] ++ n ++ text ['>']) :
    Silent (table n rows) ('<' :: name) := by
  intro l hl
  rcases mem_table hl with rfl | ⟨r, _, rfl⟩ | rfl <;> rw [List.head?_cons] <;> intro e <;> rw [Option.some.injEq] at e
  · exact h.1 e.symm
  · cases e
  · exact h.2 e.symm

theorem silent_blank (name : List Char) : Silent [[[]]] ('<' :: name) := by
  intro l hl
  rw [List.mem_singleton.1 hl, List.head?_cons]
  intro e; rw [Option.some.injEq] at e; cases e

theorem grid_map {α : Type} (l : List α) (v : α → Bytes) (ws : α → List Bytes) (b : α → Int) (ns : α → List Nat)
    (h : ∀ a ∈ l, Numeral (v a) (b a) ∧ Fields (ws a) (ns a)) : Grid ((l.map fun a => v a :: ws a).map fun r => [] :: r) (l.map fun a => (b a, ns a)) := by
  induction l with
  | nil => exact .nil
  | cons a l ih => exact .cons _ _ _ _ _ _ (h a (by simp)).1 (h a (by simp)).2 (ih fun x hx => h x (by simp [hx]))

/-- The rows of the histogram. -/
def bucketRows (s : St) : List (Int × List Nat) := (buckets s).map fun b => (b, [samples s.hist b, samples s.histF b, samples s.histB b])

theorem table_bucket (F : Fmt) (c : Cfg) (i : Info) (s : St) (hF : PlainFmt F) (hi : PlainInfo i) (L : List (List Bytes))
    (hL : L = lines (machine F c i s)) :
    (s.sent > s.lost → WideTable L ['B','U','C','K','E','T','S'] (bucketRows s)) ∧ (¬ s.sent > s.lost → NoTable L ['B','U','C','K','E','T','S']) := by
  rw [read_report F c i s hF hi] at hL
  have rest : Silent ((ttlValues s).map valueLine ++ (ttlLines s ++ [[[]]])) ('<' :: ['B','U','C','K','E','T','S'] ++ ['>']) := by
    refine silent_append _ _ _ (silent_values _ _) (silent_append _ _ _ ?_ (silent_blank _))
    unfold ttlLines
    split
    · exact silent_table _ _ _ (by decide)
    · intro l hl; cases hl
  constructor
  · intro h
    refine ⟨(values F c i s).map valueLine, _, (ttlValues s).map valueLine ++ (ttlLines s ++ [[[]]]), ?_,
      grid_map (buckets s) (fun b => signed b) (fun b => [digits (samples s.hist b), digits (samples s.histF b), digits (samples s.histB b)]) id
        (fun b => [samples s.hist b, samples s.histF b, samples s.histB b])
        (fun b _ => ⟨signed_numeral _, .cons _ _ _ _ (digits_numeral _) (.cons _ _ _ _ (digits_numeral _) (.cons _ _ _ _ (digits_numeral _) .nil))⟩),
      silent_values _ _, rest⟩
    rw [hL]
    unfold report bucketLines table
    rw [if_pos h]
    simp only [List.append_assoc]
    rfl
  · intro h
    unfold NoTable
    rw [hL]
    unfold report bucketLines
    rw [if_neg h]
    simp only [List.append_assoc]
    exact silent_append _ _ _ (silent_values _ _) (silent_append _ _ _ (fun l hl => by cases hl) rest)

theorem ttlRows_spec (f b : List Nat) (l : List Nat) : l.flatMap (ttlRow f b) =
    (l.filter fun t => f.getD t 0 ≠ 0 ∨ b.getD t 0 ≠ 0).map fun t => digits t :: [digits (f.getD t 0), digits (b.getD t 0)] := by
  induction l with
  | nil => rfl
  | cons t l ih =>
    rw [List.flatMap_cons, ih, List.filter_cons]
    unfold ttlRow
    by_cases h : f.getD t 0 ≠ 0 ∨ b.getD t 0 ≠ 0
    · rw [if_pos h, if_pos (by simpa using h)]; rfl
    · rw [if_neg h, if_neg (by simpa using h)]; rfl

theorem table_ttl (F : Fmt) (c : Cfg) (i : Info) (s : St) (hF : PlainFmt F) (hi : PlainInfo i) (L : List (List Bytes))
    (hL : L = lines (machine F c i s)) :
    ((ttlStats s.ttlF).1 + (ttlStats s.ttlB).1 > 0 → WideTable L ['T','T','L','B','U','C','K','E','T','S']
      (((List.range 256).filter fun t => s.ttlF.getD t 0 ≠ 0 ∨ s.ttlB.getD t 0 ≠ 0).map fun (t : Nat) => ((t : Int), [s.ttlF.getD t 0, s.ttlB.getD t 0]))) ∧
    (¬ (ttlStats s.ttlF).1 + (ttlStats s.ttlB).1 > 0 → NoTable L ['T','T','L','B','U','C','K','E','T','S']) := by
  rw [read_report F c i s hF hi] at hL
  have front : Silent ((values F c i s).map valueLine ++ (bucketLines s ++ (ttlValues s).map valueLine)) ('<' :: ['T','T','L','B','U','C','K','E','T','S'] ++ ['>']) := by
    refine silent_append _ _ _ (silent_values _ _) (silent_append _ _ _ ?_ (silent_values _ _))
    unfold bucketLines
    split
    · exact silent_table _ _ _ (by decide)
    · intro l hl; cases hl
  constructor
  · intro h
    refine ⟨(values F c i s).map valueLine ++ (bucketLines s ++ (ttlValues s).map valueLine), _, [[[]]], ?_,
      grid_map _ (fun t => digits t) (fun t => [digits (s.ttlF.getD t 0), digits (s.ttlB.getD t 0)]) (fun t => (t : Int)) (fun t => [s.ttlF.getD t 0, s.ttlB.getD t 0])
        (fun t _ => ⟨digits_numeral _, .cons _ _ _ _ (digits_numeral _) (.cons _ _ _ _ (digits_numeral _) .nil)⟩),
      front, silent_blank _⟩
    rw [hL]
    unfold report ttlLines table
    rw [if_pos h, ttlRows_spec]
    simp only [List.append_assoc]
    rfl
  · intro h
    unfold NoTable
    rw [hL]
    unfold report ttlLines
    rw [if_neg h, List.append_nil]
    have := silent_append _ _ _ front (silent_blank _)
    simpa only [List.append_assoc] using this

/-- There is no table of another name. -/
theorem no_table (F : Fmt) (c : Cfg) (i : Info) (s : St) (hF : PlainFmt F) (hi : PlainInfo i) (L : List (List Bytes))
    (hL : L = lines (machine F c i s)) (name : List Char)
    (h1 : text ('<' :: name) ≠ text ['<'] ++ text ['B','U','C','K','E','T','S'] ++ text ['>'] ∧
      text ('<' :: name) ≠ text ['<','/'] ++ text ['B','U','C','K','E','T','S'] ++ text ['>'])
    (h2 : text ('<' :: name) ≠ text ['<'] ++ text ['T','T','L','B','U','C','K','E','T','S'] ++ text ['>'] ∧
      text ('<' :: name) ≠ text ['<','/'] ++ text ['T','T','L','B','U','C','K','E','T','S'] ++ text ['>']) : Silent L ('<' :: name) := by
  rw [hL, read_report F c i s hF hi]
  unfold report
  refine silent_append _ _ _ (silent_append _ _ _ (silent_append _ _ _ (silent_append _ _ _ (silent_values _ _) ?_) (silent_values _ _)) ?_) (silent_blank _)
  · unfold bucketLines
    split
    · exact silent_table _ _ _ h1
    · intro l hl; cases hl
  · unfold ttlLines
    split
    · exact silent_table _ _ _ h2
    · intro l hl; cases hl

/-! ## The rows for buckets -/

theorem samples_total (h : List (Int × Nat)) (ht : Stats.Tidy h) (b : Int) : samples h b = Stats.total (fun x => decide (x = b)) h := by
  induction h with
  | nil => rfl
  | cons p h ih =>
    obtain ⟨o1, o2⟩ := List.pairwise_cons.1 ht.once
    have ih := ih ⟨o2, fun x hx => ht.pos x (by simp [hx])⟩
    rw [Stats.total_cons]
    obtain ⟨k, n⟩ := p
    unfold samples
    rw [List.lookup_cons]
    by_cases e : b = k
    · have h0 : Stats.total (fun c => decide (c = b)) h = 0 := by
        unfold Stats.total
        rw [List.sum_eq_zero_iff_forall_eq_nat]
        intro v hv
        obtain ⟨y, hy, rfl⟩ := List.mem_map.1 hv
        rw [if_neg (by simpa using fun e' => o1 y hy (e.symm.trans e'.symm))]
      rw [if_pos (by simpa using e.symm), h0]
      simp [e]
    · rw [if_neg (by simpa using fun e' => e e'.symm)]
      have : (b == k) = false := by simpa using e
      rw [this, Nat.zero_add, ← ih]; rfl

theorem samples_pos (h : List (Int × Nat)) (ht : Stats.Tidy h) (b : Int) : b ∈ h.map (·.1) ↔ samples h b ≠ 0 := by
  induction h with
  | nil => simp [samples]
  | cons p h ih =>
    obtain ⟨o1, o2⟩ := List.pairwise_cons.1 ht.once
    have ih := ih ⟨o2, fun x hx => ht.pos x (by simp [hx])⟩
    obtain ⟨k, n⟩ := p
    have hp := ht.pos (k, n) (by simp)
    unfold samples at *
    rw [List.lookup_cons, List.map_cons, List.mem_cons, ih]
    by_cases e : b = k
    · simp [e]; omega
    · have : (b == k) = false := by simpa using e
      simp [this, e]

theorem kept_spec (l : List Int) : ∀ acc : List Int, acc.Pairwise (· ≠ ·) →
    (l.foldl (fun l b => if b ∈ l then l else l ++ [b]) acc).Pairwise (· ≠ ·) ∧
    ∀ b, b ∈ l.foldl (fun l b => if b ∈ l then l else l ++ [b]) acc ↔ b ∈ acc ∨ b ∈ l := by
  induction l with
  | nil => intro acc h; exact ⟨h, fun b => by simp⟩
  | cons x l ih =>
    intro acc h
    rw [List.foldl_cons]
    by_cases hx : x ∈ acc
    · rw [if_pos hx]
      refine ⟨(ih acc h).1, fun b => ?_⟩
      rw [(ih acc h).2, List.mem_cons]
      constructor
      · rintro (h | h)
        · exact .inl h
        · exact .inr (.inr h)
      · rintro (h | rfl | h)
        · exact .inl h
        · exact .inl hx
        · exact .inr h
    · rw [if_neg hx]
      have h' : (acc ++ [x]).Pairwise (· ≠ ·) := by
        rw [List.pairwise_append]
        exact ⟨h, List.pairwise_singleton _ _, fun a ha b hb e => hx (by rw [List.mem_singleton.1 hb] at e; exact e ▸ ha)⟩
      refine ⟨(ih _ h').1, fun b => ?_⟩
      rw [(ih _ h').2, List.mem_cons, List.mem_append, List.mem_singleton, or_assoc]

theorem buckets_once (s : St) : (buckets s).Pairwise (· ≠ ·) := (kept_spec _ [] .nil).1

theorem mem_buckets (s : St) (b : Int) : b ∈ buckets s ↔ b ∈ s.hist.map (·.1) ∨ b ∈ s.histF.map (·.1) ∨ b ∈ s.histB.map (·.1) := by
  unfold buckets
  rw [(kept_spec _ [] .nil).2]
  simp only [List.not_mem_nil, false_or, List.map_append, List.mem_append, or_assoc]

end Owamp.PrintTw
