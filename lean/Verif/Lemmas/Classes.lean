import Verif.Spec.Classes
/-!
# Lemmas about the parsing of the limits file
-/
namespace Owamp.Policy
open Owamp.Spec.Classes

/-! ## Characters -/

theorem lift256c {p : Byte → Prop} (h : ∀ i : Fin 256, p (BitVec.ofFin i)) (b : Byte) : p b := h b.toFin

theorem isSpace_iff (b : Byte) : isSpace b = true ↔ Blank b := by
  refine lift256c (p := fun b => isSpace b = true ↔ Blank b) ?_ b
  unfold Blank; decide +kernel

theorem not_isSpace_iff (b : Byte) : isSpace b = false ↔ ¬ Blank b := by
  rw [← isSpace_iff]; simp

theorem lower_toNat (b : Byte) : (lower b).toNat = caseless b := by
  refine lift256c (p := fun b => (lower b).toNat = caseless b) ?_ b
  decide +kernel

theorem eqNoCase_iff (a b : Bytes) : eqNoCase a b = true ↔ SameWord a b := by
  unfold eqNoCase SameWord
  rw [decide_eq_true_iff]
  have hf : caseless = BitVec.toNat ∘ lower := funext fun b => (lower_toNat b).symm
  rw [hf, ← List.map_map, ← List.map_map]
  constructor
  · intro h; rw [h]
  · intro h
    exact (List.map_inj_right (fun x y => BitVec.eq_of_toNat_eq)).1 h

theorem isEquals_iff (b : Byte) : isEquals b = true ↔ b = 61#8 := by unfold isEquals; simp

/-! ## takeWhile and dropWhile -/

theorem takeWhile_split {α : Type} (p : α → Bool) (a b : List α) (ha : ∀ x ∈ a, p x = true) (hb : ∀ x, b.head? = some x → p x = false) :
    (a ++ b).takeWhile p = a ∧ (a ++ b).dropWhile p = b := by
  induction a with
  | nil =>
    cases b with
    | nil => exact ⟨rfl, rfl⟩
    | cons x b =>
      have := hb x rfl
      simp [this]
  | cons x a ih =>
    have hx := ha x List.mem_cons_self
    have := ih fun y hy => ha y (List.mem_cons_of_mem _ hy)
    simp only [List.cons_append, List.takeWhile_cons, List.dropWhile_cons, hx, if_true]
    exact ⟨by rw [this.1], this.2⟩

theorem takeWhile_all {α : Type} (p : α → Bool) (s : List α) : ∀ x ∈ s.takeWhile p, p x = true := by
  induction s with
  | nil => intro x hx; cases hx
  | cons y s ih =>
    intro x hx
    rw [List.takeWhile_cons] at hx
    split at hx
    · rcases List.mem_cons.1 hx with rfl | h
      · assumption
      · exact ih x h
    · cases hx

theorem dropWhile_head {α : Type} (p : α → Bool) (s : List α) : ∀ x, (s.dropWhile p).head? = some x → p x = false := by
  intro x hx
  have := List.head?_dropWhile_not p s
  rw [hx] at this
  simpa using this

/-- `strtok` gives a word of the text. -/
theorem strtok_some {delim : Byte → Bool} {s tok rest : Bytes} :
    strtok delim s = some (tok, rest) ↔ ∃ ws tail, s = ws ++ (tok ++ tail) ∧ (∀ b ∈ ws, delim b = true) ∧ tok ≠ [] ∧
      (∀ b ∈ tok, delim b = false) ∧ (∀ b, tail.head? = some b → delim b = true) ∧ rest = tail.drop 1 := by
  constructor
  · intro h
    unfold strtok at h
    split at h
    · cases h
    · rename_i b r hd
      simp only [Option.some.injEq, Prod.mk.injEq] at h
      have hb := dropWhile_head delim s b (by rw [hd]; rfl)
      refine ⟨s.takeWhile delim, (b :: r).dropWhile (fun x => !delim x), ?_, takeWhile_all _ _, ?_, ?_, ?_, h.2.symm⟩
      · rw [← h.1, List.takeWhile_append_dropWhile, ← hd, List.takeWhile_append_dropWhile]
      · rw [← h.1, List.takeWhile_cons]; simp [hb]
      · intro x hx
        rw [← h.1] at hx
        have := takeWhile_all _ _ x hx
        simpa using this
      · intro x hx
        have := dropWhile_head _ _ x hx
        simpa using this
  · rintro ⟨ws, tail, rfl, h1, h2, h3, h4, rfl⟩
    cases tok with
    | nil => exact absurd rfl h2
    | cons b tok =>
      unfold strtok
      have e := takeWhile_split delim ws ((b :: tok) ++ tail) h1 (fun x hx => by
        simp only [List.cons_append, List.head?_cons, Option.some.injEq] at hx
        exact hx ▸ h3 b List.mem_cons_self)
      rw [e.2]
      have e2 := takeWhile_split (fun x => !delim x) (b :: tok) tail (fun x hx => by simp [h3 x hx]) (fun x hx => by simp [h4 x hx])
      rw [List.cons_append] at e2 ⊢
      simp only [e2.1, e2.2]

theorem strtok_none {delim : Byte → Bool} {s : Bytes} : strtok delim s = none ↔ ∀ b ∈ s, delim b = true := by
  unfold strtok
  constructor
  · intro h
    split at h
    · rename_i hd
      have := List.takeWhile_append_dropWhile (p := delim) (l := s)
      rw [hd, List.append_nil] at this
      intro b hb
      rw [← this] at hb
      exact takeWhile_all _ _ b hb
    · cases h
  · intro h
    have := (takeWhile_split delim s [] h (fun x hx => nomatch hx)).2
    rw [List.append_nil] at this
    rw [this]

/-! ## Parts of a line -/

theorem fields_skip (sep : Byte → Prop) [DecidablePred sep] (ws s : Bytes) (h : ∀ b ∈ ws, sep b) :
    fields sep (ws ++ s) = fields sep s := by
  induction ws with
  | nil => rfl
  | cons b ws ih =>
    rw [List.cons_append, fields.eq_def]
    simp only [h b List.mem_cons_self, if_true]
    exact ih fun x hx => h x (List.mem_cons_of_mem _ hx)

theorem fields_word (sep : Byte → Prop) [DecidablePred sep] (tok tail : Bytes) (h1 : tok ≠ []) (h2 : ∀ b ∈ tok, ¬ sep b)
    (h3 : ∀ b, tail.head? = some b → sep b) : fields sep (tok ++ tail) = tok :: fields sep (tail.drop 1) := by
  induction tok with
  | nil => exact absurd rfl h1
  | cons b tok ih =>
    rw [List.cons_append, fields.eq_def]
    simp only [if_neg (h2 b List.mem_cons_self)]
    cases tok with
    | nil =>
      rw [List.nil_append]
      cases tail with
      | nil => simp [fields]
      | cons c tail =>
        have hc := h3 c rfl
        simp only [hc, if_true, List.drop_succ_cons, List.drop_zero]
        rw [fields.eq_def]; simp only [hc, if_true]
    | cons c tok =>
      rw [List.cons_append]
      simp only
      rw [if_neg (h2 c (by simp))]
      have := ih (by simp) (fun x hx => h2 x (List.mem_cons_of_mem _ hx))
      rw [List.cons_append] at this
      rw [this]

/-- `strtok` and the parts of a text. -/
theorem fields_strtok (sep : Byte → Prop) [DecidablePred sep] (delim : Byte → Bool) (hd : ∀ b, delim b = true ↔ sep b) (s : Bytes) :
    fields sep s = match strtok delim s with
      | none => []
      | some (tok, rest) => tok :: fields sep rest := by
  cases hs : strtok delim s with
  | none =>
    have hs := strtok_none.1 hs
    have := fields_skip sep s [] (fun b hb => (hd b).1 (hs b hb))
    rw [List.append_nil] at this
    rw [this]; rfl
  | some x =>
    obtain ⟨tok, rest⟩ := x
    obtain ⟨ws, tail, rfl, h1, h2, h3, h4, rfl⟩ := strtok_some.1 hs
    rw [fields_skip _ _ _ (fun b hb => (hd b).1 (h1 b hb)),
      fields_word _ _ _ h2 (fun b hb => by rw [← hd, h3 b hb]; simp) (fun b hb => (hd b).1 (h4 b hb))]

theorem pieces_eq (s : Bytes) : pieces s = fields (· = 44#8) s := by
  induction h : s.length using Nat.strongRecOn generalizing s with
  | _ n ih =>
    rw [pieces, fields_strtok _ isComma (fun b => by simp [isComma])]
    split
    · rename_i hs; rw [hs]
    · rename_i tok rest hs
      rw [hs]
      have hl := strtok_length hs
      rw [ih rest.length (by omega) rest rfl]

/-- A name and a value. -/
theorem readPiece_some {s name value : Bytes} :
    readPiece s = some (name, value) ↔
      ∃ ws sep seps rest, s = ws ++ (name ++ (sep :: (seps ++ (value ++ rest)))) ∧ (∀ b ∈ ws, Blank b) ∧
        (∀ b ∈ name, ¬ Blank b ∧ b ≠ 61#8) ∧ (Blank sep ∨ sep = 61#8) ∧ (∀ b ∈ seps, Blank b ∨ b = 61#8) ∧
        (∀ b ∈ value, ¬ Blank b) ∧ value.head? ≠ some 61#8 ∧ WordEnds rest ∧ (value = [] → rest = []) ∧
        (name = [] → sep = 61#8) := by
  have stop : ∀ b : Byte, (!isSpace b && !isEquals b) = true ↔ (¬ Blank b ∧ b ≠ 61#8) := by
    intro b; rw [← isSpace_iff, Ne, ← isEquals_iff]; simp
  have nstop : ∀ b : Byte, (!isSpace b && !isEquals b) = false ↔ (Blank b ∨ b = 61#8) := by
    intro b; rw [← isSpace_iff, ← isEquals_iff]; cases isSpace b <;> cases isEquals b <;> simp
  have sepc : ∀ b : Byte, (isSpace b || isEquals b) = true ↔ (Blank b ∨ b = 61#8) := by
    intro b; rw [← isSpace_iff, ← isEquals_iff]; simp
  constructor
  · intro h
    unfold readPiece at h
    dsimp only at h
    have hhead := dropWhile_head isSpace s
    have hsplit := List.takeWhile_append_dropWhile (p := isSpace) (l := s)
    have hall := takeWhile_all isSpace s
    generalize s.dropWhile isSpace = s1 at *
    split at h
    · cases h
    · rename_i sep r hd
      simp only [Option.some.injEq, Prod.mk.injEq] at h
      obtain ⟨h1, h2⟩ := h
      have hsep := dropWhile_head _ _ sep (by rw [hd]; rfl)
      have hs1 := List.takeWhile_append_dropWhile (p := fun b => !isSpace b && !isEquals b) (l := s1)
      have hn := takeWhile_all (fun b => !isSpace b && !isEquals b) s1
      rw [hd, h1] at hs1
      rw [h1] at hn
      have hr := List.takeWhile_append_dropWhile (p := fun b => isSpace b || isEquals b) (l := r)
      have hrall := takeWhile_all (fun b => isSpace b || isEquals b) r
      have hrh := dropWhile_head (fun b => isSpace b || isEquals b) r
      generalize r.dropWhile (fun b => isSpace b || isEquals b) = r1 at *
      have hv := List.takeWhile_append_dropWhile (p := fun b => !isSpace b) (l := r1)
      have hvall := takeWhile_all (fun b => !isSpace b) r1
      have hvh := dropWhile_head (fun b => !isSpace b) r1
      rw [h2] at hv hvall
      generalize r1.dropWhile (fun b => !isSpace b) = rest at *
      refine ⟨s.takeWhile isSpace, sep, _, rest, ?_, fun b hb => (isSpace_iff b).1 (hall b hb), fun b hb => (stop b).1 (hn b hb),
        (nstop sep).1 hsep, fun b hb => (sepc b).1 (hrall b hb), fun b hb => ?_, ?_, fun b hb => ?_, ?_, ?_⟩
      · rw [hv, hr, hs1, hsplit]
      · rw [← not_isSpace_iff]; simpa using hvall b hb
      · intro hh
        have : r1.head? = some 61#8 := by
          rw [← hv]; cases value with
          | nil => cases hh
          | cons x v => simpa using hh
        have := hrh _ this
        rw [show isEquals 61#8 = true from by decide] at this
        simp at this
      · rw [← isSpace_iff]; simpa using hvh b hb
      · rintro rfl
        rw [List.nil_append] at hv
        subst hv
        cases rest with
        | nil => rfl
        | cons x rest =>
          have a := hrh x rfl
          have b := hvh x rfl
          simp only [Bool.not_eq_eq_eq_not, Bool.not_false] at b
          rw [b] at a; simp at a
      · rintro rfl
        rw [List.nil_append] at hs1
        have := hhead sep (by rw [← hs1]; rfl)
        rcases (nstop sep).1 hsep with hb | hb
        · exact absurd hb ((not_isSpace_iff sep).1 this)
        · exact hb
  · rintro ⟨ws, sep, seps, rest, rfl, h1, h2, h3, h4, h5, h6, h7, h8, h9⟩
    unfold readPiece
    dsimp only
    have hd1 : (ws ++ (name ++ (sep :: (seps ++ (value ++ rest))))).dropWhile isSpace = name ++ (sep :: (seps ++ (value ++ rest))) :=
      (takeWhile_split isSpace ws _ (fun b hb => (isSpace_iff b).2 (h1 b hb)) (fun x hx => by
        rw [not_isSpace_iff]
        cases name with
        | nil =>
          have := h9 rfl
          subst this
          simp only [List.nil_append, List.head?_cons, Option.some.injEq] at hx
          subst hx; decide
        | cons y name =>
          simp only [List.cons_append, List.head?_cons, Option.some.injEq] at hx
          subst hx; exact (h2 y List.mem_cons_self).1)).2
    have hd2 := takeWhile_split (fun b => !isSpace b && !isEquals b) name (sep :: (seps ++ (value ++ rest)))
      (fun b hb => (stop b).2 (h2 b hb)) (fun x hx => by
        simp only [List.head?_cons, Option.some.injEq] at hx
        subst hx; exact (nstop sep).2 h3)
    have hd3 := (takeWhile_split (fun b => isSpace b || isEquals b) seps (value ++ rest) (fun b hb => (sepc b).2 (h4 b hb))
      (fun x hx => by
        cases value with
        | nil =>
          rw [h8 rfl] at hx; cases hx
        | cons y value =>
          simp only [List.cons_append, List.head?_cons, Option.some.injEq] at hx
          subst hx
          have a := h5 y List.mem_cons_self
          have b : y ≠ 61#8 := fun e => h6 (by rw [e]; rfl)
          rw [← isSpace_iff] at a
          rw [Ne, ← isEquals_iff] at b
          simp [a, b])).2
    have hd4 := (takeWhile_split (fun b => !isSpace b) value rest (fun b hb => by
        have := (not_isSpace_iff b).2 (h5 b hb); simp [this]) (fun x hx => by
        have := (isSpace_iff x).2 (h7 x hx); simp [this])).1
    rw [hd1, hd2.1, hd2.2]
    simp only [hd3, hd4]

/-! ## Settings -/

/-- A setting added to what has been read of a line. -/
def addSetting (t : Tree) (d : Draft) : Setting → Outcome Draft
  | .parent v =>
    if t = [] then .refused
    else if d.parent.isSome then .refused
    else
      match findClass t v with
      | none => .refused
      | some p => .ok { d with parent := some p }
  | .limit l v => if d.lims.any (·.1 = l) then .refused else .ok { d with lims := d.lims ++ [(l, v)] }

theorem eqNoCase_congr {a b : Bytes} (h : SameWord a b) (c : Bytes) : eqNoCase a c = eqNoCase b c := by
  have h := (eqNoCase_iff a b).2 h
  unfold eqNoCase at h ⊢
  rw [of_decide_eq_true h]

theorem findKey_congr {a b : Bytes} (h : SameWord a b) : findKey a = findKey b := by
  unfold findKey
  congr 1
  funext k
  rw [eqNoCase_congr h]

theorem numbers_key : ∀ x ∈ numbers, eqNoCase x.1 (text ['p', 'a', 'r', 'e', 'n', 't']) = false ∧
    ∃ k, findKey x.1 = some k ∧ k.limit = x.2 ∧ k.ltype = .int := by
  intro x hx
  simp only [numbers, List.mem_cons, List.not_mem_nil, or_false] at hx
  rcases hx with rfl | rfl | rfl <;> exact ⟨by decide, _, by rfl, by rfl, by rfl⟩

theorem switches_key : ∀ x ∈ switches, eqNoCase x.1 (text ['p', 'a', 'r', 'e', 'n', 't']) = false ∧
    ∃ k, findKey x.1 = some k ∧ k.limit = x.2 ∧ k.ltype = .bool := by
  intro x hx
  simp only [switches, List.mem_cons, List.not_mem_nil, or_false] at hx
  rcases hx with rfl | rfl <;> exact ⟨by decide, _, by rfl, by rfl, by rfl⟩

theorem findKey_some {name : Bytes} {k : LimKey} (h : findKey name = some k) :
    SameWord name k.name ∧ ((k.name, k.limit) ∈ numbers ∧ k.ltype = .int ∨ (k.name, k.limit) ∈ switches ∧ k.ltype = .bool) := by
  have h1 := List.mem_of_find?_eq_some h
  have h2 := List.find?_some h
  simp only [Bool.and_eq_true, decide_eq_true_iff] at h2
  refine ⟨(eqNoCase_iff _ _).1 h2.2, ?_⟩
  simp only [limkeys, List.mem_cons, List.not_mem_nil, or_false] at h1
  rcases h1 with rfl | rfl | rfl | rfl | rfl | rfl
  · exact absurd rfl h2.1
  all_goals first
    | (left; exact ⟨by decide, rfl⟩)
    | (right; exact ⟨by decide, rfl⟩)

/-- One round of the loop, by what the part means. -/
theorem addPiece_reads {num : Bytes → Option U64} {part : Bytes} {s : Setting} (h : Reads num part s) (t : Tree) (d : Draft) :
    addPiece num t d part = if 5 ≤ d.lims.length then .refused else addSetting t d s := by
  obtain ⟨ws, name, sep, seps, value, rest, h1, h2, h3, h4, h5, h6, h7, h8, h9, h10⟩ := h
  have hne : name = [] → sep = 61#8 := by
    rintro rfl
    exfalso
    have key : ∀ n l, ((n, l) ∈ numbers ∨ (n, l) ∈ switches) → ¬ SameWord [] n := by
      intro n l hnl hs
      rcases hnl with hnl | hnl
      · have := (numbers_key _ hnl).2
        obtain ⟨k, hk, _⟩ := this
        rw [← findKey_congr hs] at hk
        rw [show findKey [] = none by decide] at hk
        cases hk
      · have := (switches_key _ hnl).2
        obtain ⟨k, hk, _⟩ := this
        rw [← findKey_congr hs] at hk
        rw [show findKey [] = none by decide] at hk
        cases hk
    cases h10 with
    | parent hs => exact absurd hs (by decide)
    | number n l v hm hs _ => exact key n l (.inl hm) hs
    | on n l hm hs _ => exact key n l (.inr hm) hs
    | off n l hm hs _ => exact key n l (.inr hm) hs
  have hr : readPiece part = some (name, value) :=
    readPiece_some.2 ⟨ws, sep, seps, rest, h1, h2, h3, h4, h5, h6, h7, h8, h9, hne⟩
  unfold addPiece
  split
  · rfl
  · rw [hr]
    dsimp only
    cases h10 with
    | parent hs => rw [if_pos ((eqNoCase_iff _ _).2 hs)]; rfl
    | number n l v hm hs hv =>
      obtain ⟨g1, k, g2, g3, g4⟩ := numbers_key _ hm
      rw [eqNoCase_congr hs, findKey_congr hs]
      dsimp only at g1 g2 g3
      rw [g1, g2]
      simp only [Bool.false_eq_true, if_false]
      unfold setLimit addSetting
      rw [g3, g4]
      simp only [hv]
    | on n l hm hs hv =>
      obtain ⟨g1, k, g2, g3, g4⟩ := switches_key _ hm
      rw [eqNoCase_congr hs, findKey_congr hs]
      dsimp only at g1 g2 g3
      rw [g1, g2]
      simp only [Bool.false_eq_true, if_false]
      unfold setLimit addSetting
      rw [g3, g4]
      simp only [(eqNoCase_iff _ _).2 hv, if_true]
    | off n l hm hs hv =>
      obtain ⟨g1, k, g2, g3, g4⟩ := switches_key _ hm
      rw [eqNoCase_congr hs, findKey_congr hs]
      dsimp only at g1 g2 g3
      rw [g1, g2]
      simp only [Bool.false_eq_true, if_false]
      unfold setLimit addSetting
      have e : eqNoCase value (text ['o', 'n']) = false := by rw [eqNoCase_congr hv]; decide
      rw [g3, g4]
      simp only [(eqNoCase_iff _ _).2 hv, if_true, e, Bool.false_eq_true, if_false]

/-- A part that is accepted has a meaning. -/
theorem addPiece_ok {num : Bytes → Option U64} {part : Bytes} {t : Tree} {d d' : Draft} (h : addPiece num t d part = .ok d') :
    ∃ s, Reads num part s := by
  unfold addPiece at h
  split at h
  · cases h
  split at h
  · cases h
  rename_i name value hr
  obtain ⟨ws, sep, seps, rest, h1, h2, h3, h4, h5, h6, h7, h8, h9, _⟩ := readPiece_some.1 hr
  have mk : ∀ s, Denotes num name value s → Reads num part s := fun s hs =>
    ⟨ws, name, sep, seps, value, rest, h1, h2, h3, h4, h5, h6, h7, h8, h9, hs⟩
  split at h
  · rename_i hp
    exact ⟨_, mk _ (.parent ((eqNoCase_iff _ _).1 hp))⟩
  · split at h
    · cases h
    · rename_i k hk
      obtain ⟨g1, g2⟩ := findKey_some hk
      unfold setLimit at h
      split at h
      · cases h
      · rcases g2 with ⟨g2, g3⟩ | ⟨g2, g3⟩
        · rw [g3] at h
          dsimp only at h
          split at h
          · cases h
          · rename_i v hv
            exact ⟨_, mk _ (.number _ _ v g2 g1 hv)⟩
        · rw [g3] at h
          dsimp only at h
          split at h
          · rename_i hv
            exact ⟨_, mk _ (.on _ _ g2 g1 ((eqNoCase_iff _ _).1 hv))⟩
          · split at h
            · rename_i hv
              exact ⟨_, mk _ (.off _ _ g2 g1 ((eqNoCase_iff _ _).1 hv))⟩
            · cases h

/-- The loop, by what the parts mean. -/
def addSettings (t : Tree) (d : Draft) : List Setting → Outcome Draft
  | [] => .ok d
  | s :: ss =>
    match (if 5 ≤ d.lims.length then .refused else addSetting t d s) with
    | .ok d => addSettings t d ss
    | .refused => .refused
    | .overrun => .overrun

theorem addPieces_reads {num : Bytes → Option U64} {ps : List Bytes} {ss : List Setting} (h : ReadsAll num ps ss) (t : Tree)
    (d : Draft) : addPieces num t d ps = addSettings t d ss := by
  induction h generalizing d with
  | nil => rfl
  | cons h _ ih =>
    unfold addPieces addSettings
    rw [addPiece_reads h]
    split
    · rename_i hx; rw [hx]; exact ih _
    · rename_i hx; rw [hx]
    · rename_i hx; rw [hx]

theorem addPieces_ok {num : Bytes → Option U64} {ps : List Bytes} {t : Tree} {d d' : Draft} (h : addPieces num t d ps = .ok d') :
    ∃ ss, ReadsAll num ps ss := by
  induction ps generalizing d with
  | nil => exact ⟨[], .nil⟩
  | cons p ps ih =>
    unfold addPieces at h
    split at h
    · rename_i hx
      obtain ⟨s, hs⟩ := addPiece_ok hx
      obtain ⟨ss, hss⟩ := ih h
      exact ⟨s :: ss, .cons hs hss⟩
    · cases h
    · cases h

/-- The limits of settings, with their values. -/
def limitPairs (ss : List Setting) : List (U32 × U64) :=
  ss.filterMap fun
    | .limit l v => some (l, v)
    | .parent _ => none

theorem limitPairs_fst (ss : List Setting) : (limitPairs ss).map (·.1) = limitsSet ss := by
  induction ss with
  | nil => rfl
  | cons s ss ih => cases s <;> simp [limitPairs, limitsSet] at ih ⊢ <;> exact ih

theorem own_eq (ss : List Setting) (l : U32) : own ss l = ((limitPairs ss).find? (·.1 = l)).map (·.2) := by
  induction ss with
  | nil => rfl
  | cons s ss ih =>
    cases s with
    | parent p => simp only [own, limitPairs, List.findSome?_cons, List.filterMap_cons] at ih ⊢; exact ih
    | limit l' v =>
      simp only [own, limitPairs, List.findSome?_cons, List.filterMap_cons, List.find?_cons] at ih ⊢
      by_cases h : l' = l
      · simp [h]
      · simp [h, ih]

theorem limitsSet_cons (s : Setting) (ss : List Setting) :
    limitsSet (s :: ss) = (match s with | .limit l _ => [l] | .parent _ => []) ++ limitsSet ss := by
  cases s <;> rfl

theorem parentsNamed_cons (s : Setting) (ss : List Setting) :
    parentsNamed (s :: ss) = (match s with | .limit _ _ => [] | .parent p => [p]) ++ parentsNamed ss := by
  cases s <;> rfl

theorem limitPairs_cons (s : Setting) (ss : List Setting) :
    limitPairs (s :: ss) = (match s with | .limit l v => [(l, v)] | .parent _ => []) ++ limitPairs ss := by
  cases s <;> rfl

theorem limitsSet_dropLast_cons (s : Setting) (ss : List Setting) (h : ss ≠ []) :
    limitsSet (s :: ss).dropLast = (match s with | .limit l _ => [l] | .parent _ => []) ++ limitsSet ss.dropLast := by
  cases ss with
  | nil => exact absurd rfl h
  | cons x ss => rw [List.dropLast_cons_cons, limitsSet_cons]

/-- The parent that has been found for the line. -/
def ParentFound (t : Tree) (before : Option Nat) (named : List Bytes) (found : Option Nat) : Prop :=
  (named = [] ∧ found = before) ∨ ∃ p i, named = [p] ∧ before = none ∧ findClass t p = some i ∧ found = some i

theorem findClass_nil (p : Bytes) : findClass [] p = none := rfl

theorem not_any {xs : List (U32 × U64)} {l : U32} (h : ¬ xs.any (·.1 = l) = true) : ∀ x ∈ xs, x.1 ≠ l := by
  intro x hx hl
  exact h (List.any_eq_true.2 ⟨x, hx, decide_eq_true hl⟩)

/-- What the loop does with the settings of a line. -/
theorem addSettings_ok (t : Tree) (d d' : Draft) (ss : List Setting) (hd : (d.lims.map (·.1)).Nodup) :
    addSettings t d ss = .ok d' ↔
      (d.lims.map (·.1) ++ limitsSet ss).Nodup ∧ (ss ≠ [] → d.lims.length + (limitsSet ss.dropLast).length < 5) ∧
      d'.lims = d.lims ++ limitPairs ss ∧ ParentFound t d.parent (parentsNamed ss) d'.parent := by
  induction ss generalizing d with
  | nil =>
    simp only [addSettings, Outcome.ok.injEq, limitsSet, limitPairs, parentsNamed, List.filterMap_nil, List.append_nil, ne_eq,
      not_true_eq_false, false_imp_iff, true_and, ParentFound, hd]
    constructor
    · rintro rfl; exact ⟨rfl, .inl rfl⟩
    · rintro ⟨h1, h2⟩
      cases d; cases d'
      rcases h2 with h2 | ⟨p, i, h, _⟩
      · simp only at h1 h2; rw [h1, h2]
      · cases h
  | cons s ss ih =>
    unfold addSettings
    by_cases h5 : 5 ≤ d.lims.length
    · rw [if_pos h5]
      constructor
      · intro h; cases h
      · rintro ⟨_, h, _⟩
        have := h (by simp)
        omega
    · rw [if_neg h5]
      have hB : ∀ k : Nat, (match s with | .limit l _ => [l] | .parent _ => []).length = k →
          ((s :: ss ≠ [] → d.lims.length + (limitsSet (s :: ss).dropLast).length < 5) ↔
          (ss ≠ [] → d.lims.length + k + (limitsSet ss.dropLast).length < 5)) := by
        intro k hk
        by_cases hss : ss = []
        · subst hss
          simp [limitsSet]
          omega
        · rw [limitsSet_dropLast_cons s ss hss, List.length_append, hk]
          simp only [ne_eq, reduceCtorEq, not_false_eq_true, true_imp_iff, hss]
          omega
      cases s with
      | parent p =>
        rw [hB 0 rfl]
        simp only [limitsSet_cons, limitPairs_cons, parentsNamed_cons, List.nil_append]
        unfold addSetting
        dsimp only
        have no : ∀ {P : Prop}, (∀ i, d.parent = none → findClass t p = some i → False) →
            ((Outcome.refused = Outcome.ok d') ↔ (P ∧ ((ss ≠ [] → d.lims.length + 0 + (limitsSet ss.dropLast).length < 5) ∧
              d'.lims = d.lims ++ limitPairs ss ∧ ParentFound t d.parent ([p] ++ parentsNamed ss) d'.parent))) := by
          intro P hno
          constructor
          · intro h; cases h
          · rintro ⟨_, _, _, h | ⟨q, i, h1, h2, h3, _⟩⟩
            · cases h.1
            · have : p = q := by
                have := congrArg List.head? h1
                simpa using this
              exact (hno i h2 (this ▸ h3)).elim
        by_cases ht : t = []
        · rw [if_pos ht]
          exact no fun i _ h => by rw [ht, findClass_nil] at h; cases h
        rw [if_neg ht]
        by_cases hp : d.parent.isSome = true
        · rw [if_pos hp]
          exact no fun i h _ => by rw [h] at hp; cases hp
        rw [if_neg hp]
        cases hf : findClass t p with
        | none => exact no fun i _ h => by rw [hf] at h; cases h
        | some i =>
          dsimp only
          have hpn : d.parent = none := by cases h : d.parent <;> simp [h] at hp ⊢
          rw [ih { d with parent := some i } hd]
          dsimp only
          unfold ParentFound
          rw [hpn]
          constructor
          · rintro ⟨h1, h2, h3, h4⟩
            refine ⟨h1, by simpa using h2, h3, .inr ⟨p, i, ?_, rfl, hf, ?_⟩⟩
            · rcases h4 with h4 | ⟨_, _, _, h, _⟩
              · rw [h4.1]; rfl
              · cases h
            · rcases h4 with h4 | ⟨_, _, _, h, _⟩
              · exact h4.2
              · cases h
          · rintro ⟨h1, h2, h3, h4 | ⟨q, j, g1, g2, g3, g4⟩⟩
            · cases h4.1
            · simp only [List.cons_append, List.nil_append, List.cons.injEq] at g1
              obtain ⟨rfl, g1⟩ := g1
              rw [hf] at g3
              cases g3
              exact ⟨h1, by simpa using h2, h3, .inl ⟨g1, g4⟩⟩
      | limit l v =>
        rw [hB 1 rfl]
        simp only [limitsSet_cons, limitPairs_cons, parentsNamed_cons, List.nil_append]
        unfold addSetting
        dsimp only
        by_cases hl : d.lims.any (·.1 = l) = true
        · rw [if_pos hl]
          constructor
          · intro h; cases h
          · rintro ⟨h, _⟩
            rw [List.nodup_append] at h
            simp only [List.any_eq_true, decide_eq_true_iff] at hl
            obtain ⟨x, hx, hxl⟩ := hl
            exact (h.2.2 x.1 (List.mem_map_of_mem hx) l (by simp) hxl).elim
        · rw [if_neg hl]
          dsimp only
          have hnl := not_any hl
          rw [ih { d with lims := d.lims ++ [(l, v)] } (by
            simp only [List.map_append, List.map_cons, List.map_nil]
            rw [List.nodup_append]
            refine ⟨hd, by simp, fun a ha b hb => ?_⟩
            simp only [List.mem_singleton] at hb
            obtain ⟨x, hx, rfl⟩ := List.mem_map.1 ha
            rw [hb]; exact hnl x hx)]
          dsimp only
          simp only [List.map_append, List.map_cons, List.map_nil, List.append_assoc, List.length_append, List.length_cons,
            List.length_nil, Nat.zero_add]

theorem addSettings_overrun (t : Tree) (d : Draft) (ss : List Setting) : addSettings t d ss ≠ .overrun := by
  induction ss generalizing d with
  | nil => intro h; cases h
  | cons s ss ih =>
    unfold addSettings
    intro h
    split at h
    · exact ih _ h
    · cases h
    · rename_i hx
      split at hx
      · cases hx
      · unfold addSetting at hx
        split at hx
        · split at hx
          · cases hx
          · split at hx
            · cases hx
            · split at hx <;> cases hx
        · split at hx <;> cases hx

/-! ## Classes -/

theorem findClass_get (t : Tree) (p : Bytes) :
    t.find? (·.name = p) = (findClass t p).bind fun i => t[i]? := by
  unfold findClass
  induction t with
  | nil => rfl
  | cons n t ih =>
    rw [List.find?_cons, List.findIdx?_cons]
    by_cases h : n.name = p
    · simp [h]
    · simp only [h, decide_false, Bool.false_eq_true, if_false]
      rw [ih]
      cases List.findIdx? (fun x : Node => decide (x.name = p)) t <;> simp

theorem findClass_some {t : Tree} {p : Bytes} {i : Nat} (h : findClass t p = some i) :
    ∃ n, t[i]? = some n ∧ n.name = p ∧ t.find? (·.name = p) = some n := by
  have h1 := findClass_get t p
  rw [h, Option.bind_some] at h1
  have hi := (List.findIdx?_eq_some_iff_getElem.1 h).1
  rw [List.getElem?_eq_getElem hi] at h1
  exact ⟨_, List.getElem?_eq_getElem hi, by simpa using List.find?_some h1, h1⟩

theorem findClass_none {t : Tree} {p : Bytes} : findClass t p = none ↔ ∀ n ∈ t, n.name ≠ p := by
  unfold findClass
  rw [List.findIdx?_eq_none_iff]
  simp

theorem classes_find (t : Tree) (p : Bytes) : (classes t).find? (·.name = p) = (t.find? (·.name = p)).map (classOf t) := by
  unfold classes
  rw [List.find?_map]
  rfl

theorem classes_names (t : Tree) (p : Bytes) : (∀ c ∈ classes t, c.name ≠ p) ↔ findClass t p = none := by
  rw [findClass_none]
  unfold classes
  simp only [List.mem_map, forall_exists_index, and_imp, forall_apply_eq_imp_iff₂]
  rfl

theorem classes_append {t : Tree} (hb : ∀ (i : Nat) (n : Node) (p : Nat), t[i]? = some n → n.parent = some p → p < i) (n : Node) :
    classes (t ++ [n]) = classes t ++ [classOf (t ++ [n]) n] := by
  unfold classes
  rw [List.map_append]
  congr 1
  apply List.map_congr_left
  intro m hm
  obtain ⟨i, hi⟩ := List.getElem?_of_mem hm
  unfold classOf
  cases hp : m.parent with
  | none => rfl
  | some p =>
    have h1 := hb i m p hi hp
    have h2 := (List.getElem?_eq_some_iff.1 hi).1
    rw [Option.bind_some, Option.bind_some, List.getElem?_append_left (by omega)]

/-- The records of a list of limits. -/
def recordsOf (xs : List (U32 × U64)) : List Lim := xs.map fun x => ⟨x.1, x.2, 0⟩

theorem findLim_records (xs : List (U32 × U64)) (l : U32) :
    (findLim (recordsOf xs) l).map (·.value) = (xs.find? (·.1 = l)).map (·.2) := by
  unfold findLim recordsOf
  rw [List.find?_map, Option.map_map]
  rfl

theorem inherit_find (own : List (U32 × U64)) (ps : List Lim) (l : U32) :
    ((inherit own ps).find? (·.1 = l)).map (·.2) =
      ((own.find? (·.1 = l)).map (·.2)).or ((findLim ps l).map (·.value)) := by
  unfold inherit
  induction ps generalizing own with
  | nil => simp [findLim]
  | cons e ps ih =>
    rw [List.foldl_cons, ih]
    unfold findLim
    rw [List.find?_cons]
    by_cases ha : own.any (·.1 = e.limit) = true
    · rw [if_pos ha]
      by_cases hl : e.limit = l
      · subst hl
        have : own.find? (·.1 = e.limit) ≠ none := by
          rw [Ne, List.find?_eq_none]
          simpa using ha
        cases hx : own.find? (·.1 = e.limit) with
        | none => exact absurd hx this
        | some y => simp
      · simp [hl]
    · rw [if_neg ha, List.find?_append]
      have hn : own.find? (·.1 = e.limit) = none := by
        rw [List.find?_eq_none]; simpa using not_any ha
      by_cases hl : e.limit = l
      · subst hl
        rw [hn]; simp
      · simp [hl]

theorem inherit_nodup (own : List (U32 × U64)) (ps : List Lim) (h : (own.map (·.1)).Nodup) :
    ((inherit own ps).map (·.1)).Nodup := by
  unfold inherit
  induction ps generalizing own with
  | nil => exact h
  | cons e ps ih =>
    rw [List.foldl_cons]
    apply ih
    by_cases ha : own.any (·.1 = e.limit) = true
    · rw [if_pos ha]; exact h
    · rw [if_neg ha, List.map_append, List.nodup_append]
      refine ⟨h, by simp, fun a ha' b hb => ?_⟩
      simp only [List.map_cons, List.map_nil, List.mem_singleton] at hb
      obtain ⟨x, hx, rfl⟩ := List.mem_map.1 ha'
      rw [hb]
      exact not_any ha x hx

theorem inherit_subset (own : List (U32 × U64)) (ps : List Lim) (x : U32 × U64) (h : x ∈ inherit own ps) :
    x ∈ own ∨ ∃ e ∈ ps, x = (e.limit, e.value) := by
  unfold inherit at h
  induction ps generalizing own with
  | nil => exact .inl h
  | cons e ps ih =>
    rw [List.foldl_cons] at h
    rcases ih _ h with h | ⟨e', he', h⟩
    · split at h
      · exact .inl h
      · rcases List.mem_append.1 h with h | h
        · exact .inl h
        · exact .inr ⟨e, List.mem_cons_self, by simpa using h⟩
    · exact .inr ⟨e', List.mem_cons_of_mem _ he', h⟩

/-- The class a line makes. -/
def nodeOf (t : Tree) (d : Decl) (parent : Option Nat) : Node :=
  { name := d.name, parent := parent
    lims := recordsOf (match parent.bind fun p => t[p]? with
      | none => limitPairs d.settings
      | some n => inherit (limitPairs d.settings) n.lims) }

/-- What a line that is a definition does. -/
theorem parseLimitLine_declares {num : Bytes → Option U64} {line : Bytes} {d : Decl} (h : Declares num line d) (t : Tree) :
    parseLimitLine num t line =
      if 80 < d.name.length then .refused
      else if (findClass t d.name).isSome then .refused
      else
        match addSettings t ⟨none, []⟩ d.settings with
        | .ok dr => finishClass t d.name dr
        | .refused => .refused
        | .overrun => .overrun := by
  obtain ⟨ws, sp, ws', w, rest, h1, h2, h3, h4, h5, h6, h7, h8, h9⟩ := h
  have e1 : strtok isSpace line = some (d.name, ws' ++ (w ++ rest)) :=
    strtok_some.2 ⟨ws, sp :: (ws' ++ (w ++ rest)), h1, fun b hb => (isSpace_iff b).2 (h2 b hb), h3.1,
      fun b hb => (not_isSpace_iff b).2 (h3.2 b hb), fun b hb => by
        simp only [List.head?_cons, Option.some.injEq] at hb
        subst hb; exact (isSpace_iff sp).2 h4, rfl⟩
  have e2 : strtok isSpace (ws' ++ (w ++ rest)) = some (w, rest.drop 1) :=
    strtok_some.2 ⟨ws', rest, rfl, fun b hb => (isSpace_iff b).2 (h5 b hb), h6.1,
      fun b hb => (not_isSpace_iff b).2 (h6.2 b hb), fun b hb => (isSpace_iff b).2 (h8 b hb), rfl⟩
  unfold parseLimitLine
  rw [e1]
  dsimp only
  rw [e2]
  dsimp only
  rw [(eqNoCase_iff _ _).2 h7, pieces_eq, addPieces_reads h9]
  simp only [not_true_eq_false, if_false]
  generalize addSettings t ⟨none, []⟩ d.settings = x
  cases x <;> rfl

/-- A line that is accepted is a definition. -/
theorem parseLimitLine_ok {num : Bytes → Option U64} {line : Bytes} {t t' : Tree} (h : parseLimitLine num t line = .ok t') :
    ∃ d, Declares num line d := by
  unfold parseLimitLine at h
  split at h
  · cases h
  rename_i cname rest e1
  split at h
  · cases h
  split at h
  · cases h
  split at h
  · cases h
  rename_i w rest' e2
  split at h
  · cases h
  rename_i hw
  split at h
  · rename_i dr hp
    obtain ⟨ss, hss⟩ := addPieces_ok hp
    obtain ⟨ws, tail, f1, f2, f3, f4, f5, f6⟩ := strtok_some.1 e1
    obtain ⟨ws', tail', g1, g2, g3, g4, g5, g6⟩ := strtok_some.1 e2
    rw [pieces_eq, g6] at hss
    cases tail with
    | nil =>
      rw [List.drop_nil] at f6
      rw [f6] at g1
      have := congrArg List.length g1
      simp only [List.length_nil, List.length_append] at this
      exact absurd (List.length_eq_zero_iff.1 (by omega)) g3
    | cons sp tail =>
      rw [List.drop_succ_cons, List.drop_zero] at f6
      subst f6
      subst g1
      exact ⟨⟨cname, ss⟩, ws, sp, ws', w, tail', f1, fun b hb => (isSpace_iff b).1 (f2 b hb),
        ⟨f3, fun b hb => (not_isSpace_iff b).1 (f4 b hb)⟩, (isSpace_iff sp).1 (f5 sp rfl),
        fun b hb => (isSpace_iff b).1 (g2 b hb), ⟨g3, fun b hb => (not_isSpace_iff b).1 (g4 b hb)⟩,
        (eqNoCase_iff _ _).1 (by simpa using hw), fun b hb => (isSpace_iff b).1 (g5 b hb), hss⟩
  · cases h
  · cases h

/-- The result of a definition, in terms of the classes. -/
theorem parseLimitLine_define {num : Bytes → Option U64} {line : Bytes} {d : Decl} (h : Declares num line d) (t : Tree)
    (hb : ∀ (i : Nat) (n : Node) (p : Nat), t[i]? = some n → n.parent = some p → p < i) :
    (define (classes t) d = none ∧ parseLimitLine num t line = .refused) ∨
    (∃ parent, define (classes t) d = some (classes (t ++ [nodeOf t d parent])) ∧
      parseLimitLine num t line = .ok (t ++ [nodeOf t d parent]) ∧
      (parent = none ∧ t = [] ∨ ∃ p n, parent = some p ∧ t[p]? = some n) ∧
      (limitsSet d.settings).Nodup ∧ findClass t d.name = none) := by
  rw [parseLimitLine_declares h]
  unfold define
  by_cases h80 : 80 < d.name.length
  · left
    rw [if_pos h80, if_neg (fun hh => by omega)]
    exact ⟨rfl, rfl⟩
  rw [if_neg h80]
  cases hf : findClass t d.name with
  | some i =>
    left
    refine ⟨if_neg fun hh => ?_, rfl⟩
    have := (classes_names t d.name).1 hh.2.1
    rw [hf] at this; cases this
  | none =>
    simp only [Option.isSome_none, Bool.false_eq_true, if_false]
    have hs := fun d' => addSettings_ok t ⟨none, []⟩ d' d.settings (by simp)
    simp only [List.map_nil, List.nil_append, List.length_nil, Nat.zero_add] at hs
    have hroom : (d.settings ≠ [] → (limitsSet d.settings.dropLast).length < 5) ↔ (limitsSet d.settings.dropLast).length < 5 := by
      constructor
      · intro h
        by_cases hn : d.settings = []
        · rw [hn]; decide
        · exact h hn
      · exact fun h _ => h
    by_cases hc : (limitsSet d.settings).Nodup ∧ (limitsSet d.settings.dropLast).length < 5
    · have hcc : d.name.length ≤ 80 ∧ (∀ c ∈ classes t, c.name ≠ d.name) ∧ (limitsSet d.settings).Nodup ∧
          (limitsSet d.settings.dropLast).length < 5 := ⟨by omega, (classes_names _ _).2 hf, hc⟩
      rw [if_pos hcc]
      have refused : (∀ f, ¬ ParentFound t none (parentsNamed d.settings) f) →
          addSettings t ⟨none, []⟩ d.settings = .refused := by
        intro hno
        cases hx : addSettings t ⟨none, []⟩ d.settings with
        | ok d' => exact absurd ((hs d').1 hx).2.2.2 (hno _)
        | refused => rfl
        | overrun => exact absurd hx (addSettings_overrun _ _ _)
      cases hpn : parentsNamed d.settings with
      | nil =>
        have hx := (hs ⟨none, limitPairs d.settings⟩).2 ⟨hc.1, hroom.2 hc.2, rfl, by rw [hpn]; exact .inl ⟨rfl, rfl⟩⟩
        rw [hx]
        dsimp only
        unfold finishClass
        dsimp only
        by_cases ht : t = []
        · right
          subst ht
          refine ⟨none, ?_, rfl, .inl ⟨rfl, rfl⟩, hc.1, trivial⟩
          rw [if_pos (by rfl)]
          simp only [List.nil_append, classes, List.map_cons, List.map_nil, classOf, nodeOf, Option.bind_none]
          congr 3
          funext l
          rw [findLim_records, own_eq]
        · left
          rw [if_pos ht, if_neg]
          · exact ⟨rfl, rfl⟩
          · unfold classes; simpa using ht
      | cons p rest =>
        cases rest with
        | cons q rest =>
          left
          rw [refused (fun f hf => by
            rw [hpn] at hf
            rcases hf with hf | ⟨_, _, hf, _⟩
            · cases hf.1
            · simp at hf)]
          exact ⟨rfl, rfl⟩
        | nil =>
          dsimp only
          rw [classes_find]
          cases hfp : findClass t p with
          | none =>
            left
            rw [refused (fun f hf => by
              rw [hpn] at hf
              rcases hf with hf | ⟨p', _, hf, _, hf2, _⟩
              · cases hf.1
              · simp only [List.cons.injEq, and_true] at hf
                rw [← hf, hfp] at hf2; cases hf2)]
            rw [findClass_get, hfp]
            exact ⟨rfl, rfl⟩
          | some i =>
            right
            obtain ⟨n, hn1, hn2, hn3⟩ := findClass_some hfp
            have hx := (hs ⟨some i, limitPairs d.settings⟩).2
              ⟨hc.1, hroom.2 hc.2, rfl, by rw [hpn]; exact .inr ⟨p, i, rfl, rfl, hfp, rfl⟩⟩
            refine ⟨some i, ?_, ?_, .inr ⟨i, n, rfl, hn1⟩, hc.1, trivial⟩
            · rw [hn3, Option.map_some]
              dsimp only
              rw [classes_append hb]
              congr 3
              have hi := (List.getElem?_eq_some_iff.1 hn1).1
              unfold classOf nodeOf
              simp only [Option.bind_some]
              rw [List.getElem?_append_left hi, hn1, Option.map_some, hn2]
              congr 1
              funext l
              dsimp only
              rw [findLim_records, inherit_find, own_eq]
            · rw [hx]
              dsimp only
              unfold finishClass addClass nodeOf recordsOf
              simp only [Option.bind_some, hn1]
    · left
      rw [if_neg (fun hh => hc hh.2.2)]
      refine ⟨rfl, ?_⟩
      cases hx : addSettings t ⟨none, []⟩ d.settings with
      | ok d' =>
        have := (hs d').1 hx
        exact absurd ⟨this.1, hroom.1 this.2.1⟩ hc
      | refused => rfl
      | overrun => exact absurd hx (addSettings_overrun _ _ _)

end Owamp.Policy
