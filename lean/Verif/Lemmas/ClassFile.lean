import Verif.Lemmas.Nets
/-!
# What the parsing of a limits file leaves
-/
namespace Owamp.Policy
open Owamp.Spec.Classes Owamp.Spec.Limits Owamp.Ctl

/-! ## Assignments -/

theorem fetchIdent_cons (k k' : Ident) (c : Nat) (ids : List (Ident × Nat)) :
    fetchIdent ((k, c) :: ids) k' = if k' = k then some c else fetchIdent ids k' := by
  unfold fetchIdent
  rw [List.find?_cons]
  by_cases h : k' = k
  · subst h; simp
  · have : ¬ k = k' := fun e => h e.symm
    simp [this, h]

theorem fetchIdent_filter (k k' : Ident) (ids : List (Ident × Nat)) (h : k' ≠ k) :
    fetchIdent (ids.filter (·.1 ≠ k)) k' = fetchIdent ids k' := by
  unfold fetchIdent
  rw [List.find?_filter]
  congr 2
  funext x
  by_cases hx : x.1 = k'
  · simp [hx, h]
  · simp [hx]

theorem fetchIdent_some_mem {ids : List (Ident × Nat)} {k : Ident} {c : Nat} (h : fetchIdent ids k = some c) : (k, c) ∈ ids := by
  unfold fetchIdent at h
  obtain ⟨x, hx, rfl⟩ := Option.map_eq_some_iff.1 h
  have h1 := List.mem_of_find?_eq_some hx
  have h2 := List.find?_some hx
  simp only [decide_eq_true_iff] at h2
  rw [← h2]; exact h1

theorem fetchIdent_of_mem {ids : List (Ident × Nat)} {k : Ident} {c : Nat} (hn : (ids.map (·.1)).Nodup) (h : (k, c) ∈ ids) :
    fetchIdent ids k = some c := by
  induction ids with
  | nil => cases h
  | cons x ids ih =>
    obtain ⟨k', c'⟩ := x
    rw [fetchIdent_cons]
    rw [List.map_cons, List.nodup_cons] at hn
    rcases List.mem_cons.1 h with h1 | h1
    · cases h1; rw [if_pos rfl]
    · rw [if_neg, ih hn.2 h1]
      rintro rfl
      exact hn.1 (List.mem_map_of_mem (f := (·.1)) h1)

/-- The result of `I2HashStore`. -/
theorem storeIdent_ok {E : AssignEnv} {ids ids' : List (Ident × Nat)} {k : Ident} {c : Nat} (h : storeIdent E ids k c = .ok ids') :
    ∃ rest, ids' = (k, c) :: rest ∧ (∀ x ∈ rest, x ∈ ids) ∧ ((ids.map (·.1)).Nodup → (ids'.map (·.1)).Nodup) ∧
      ∀ k', fetchIdent ids' k' = if k' = k then some c else fetchIdent ids k' := by
  unfold storeIdent at h
  split at h
  · split at h
    · cases h
    · cases h
      refine ⟨_, rfl, fun x hx => (List.mem_filter.1 hx).1, fun hn => ?_, fun k' => ?_⟩
      · rw [List.map_cons, List.nodup_cons]
        refine ⟨fun hm => ?_, (hn.sublist ((List.filter_sublist).map _))⟩
        obtain ⟨x, hx, hk⟩ := List.mem_map.1 hm
        have := (List.mem_filter.1 hx).2
        simp only [ne_eq, decide_not, Bool.not_eq_eq_eq_not, Bool.not_true, decide_eq_false_iff_not] at this
        exact this hk
      · rw [fetchIdent_cons]
        by_cases hk : k' = k
        · rw [if_pos hk, if_pos hk]
        · rw [if_neg hk, if_neg hk, fetchIdent_filter _ _ _ hk]
  · rename_i hf
    cases h
    refine ⟨_, rfl, fun x hx => hx, fun hn => ?_, fun k' => fetchIdent_cons _ _ _ _⟩
    rw [List.map_cons, List.nodup_cons]
    refine ⟨fun hm => ?_, hn⟩
    obtain ⟨x, hx, hk⟩ := List.mem_map.1 hm
    apply hf
    have hk' : x.1 = k := hk
    have hx' : (k, x.2) ∈ ids := by rw [← hk']; exact hx
    rw [fetchIdent_of_mem hn hx']; rfl

/-- The address and mask of a line. -/
theorem parseNet_ok {E : AssignEnv} {s : Bytes} :
    (∀ id, parseNet E s = .ok id → ∃ n, NetText E s n ∧ id = n.key) ∧ (∀ n, NetText E s n → parseNet E s = .ok n.key) := by
  have keyEq : ∀ (a : Bytes) (len : Nat), (⟨8 * a.length, len, beDec a⟩ : Network).key =
      .net a.length len (a ++ zeros (16 - a.length)) := by
    intro a len
    unfold Network.key
    have e : 8 * a.length / 8 = a.length := by omega
    simp only [e, beEnc_beDec]
    rfl
  have nosl : ∀ {s : Bytes}, 47#8 ∉ s → s.takeWhile (· ≠ 47#8) = s := by
    intro s hs
    have := (takeWhile_split (fun b : Byte => decide (b ≠ 47#8)) s [] (fun x hx => by
      simp only [ne_eq, decide_not, Bool.not_eq_eq_eq_not, Bool.not_true, decide_eq_false_iff_not]
      rintro rfl; exact hs hx) (fun x hx => nomatch hx)).1
    rw [List.append_nil] at this
    exact this
  constructor
  · intro id h
    unfold parseNet at h
    dsimp only at h
    by_cases hs : s.any (· = 47#8) = true
    · rw [if_pos hs] at h
      have hsp := List.takeWhile_append_dropWhile (p := fun b : Byte => decide (b ≠ 47#8)) (l := s)
      have hall := takeWhile_all (fun b : Byte => decide (b ≠ 47#8)) s
      have hhd := dropWhile_head (fun b : Byte => decide (b ≠ 47#8)) s
      generalize s.takeWhile (fun b : Byte => decide (b ≠ 47#8)) = host at *
      generalize s.dropWhile (fun b : Byte => decide (b ≠ 47#8)) = tl at *
      have hnh : 47#8 ∉ host := fun hm => by have := hall _ hm; simp at this
      cases tl with
      | nil =>
        rw [List.append_nil] at hsp
        simp only [List.any_eq_true, decide_eq_true_iff] at hs
        obtain ⟨x, hx, rfl⟩ := hs
        rw [← hsp] at hx; exact absurd hx hnh
      | cons x mask =>
        have hx := hhd x rfl
        simp only [ne_eq, decide_not, Bool.not_eq_eq_eq_not, Bool.not_false, decide_eq_true_iff] at hx
        subst hx
        rw [List.drop_succ_cons, List.drop_zero] at h
        split at h
        · cases h
        rename_i hm
        split at h
        · cases h
        rename_i a ha
        split at h
        · cases h
        rename_i len hlen
        split at h
        · rename_i ht
          cases h
          unfold maskLen at hlen
          dsimp only at hlen
          split at hlen
          · cases hlen
          rename_i v hv
          split at hlen
          · rename_i hb
            cases hlen
            exact ⟨_, .net host mask a v hsp.symm hnh (fun e => hm (by rw [e])) ha hv hb.1 (by omega)
              ((tailClear_iff _ _ (by omega)).1 ht), (keyEq a _).symm⟩
          · cases hlen
        · cases h
    · rw [if_neg hs] at h
      have hns : 47#8 ∉ s := fun hm => hs (List.any_eq_true.2 ⟨_, hm, by simp⟩)
      rw [nosl hns] at h
      simp only [reduceCtorEq, if_false, maskLen] at h
      split at h
      · cases h
      rename_i a ha
      split at h
      · cases h
        rw [show a.length * 8 = 8 * a.length by omega]
        exact ⟨_, .host a hns ha, (keyEq a _).symm⟩
      · cases h
  · intro n hn
    cases hn with
    | host a hns ha =>
      unfold parseNet
      have hs : ¬ s.any (· = 47#8) = true := by
        simp only [List.any_eq_true, decide_eq_true_iff, not_exists, not_and]
        rintro x hx rfl; exact hns hx
      dsimp only
      rw [if_neg hs, nosl hns, ha]
      simp only [reduceCtorEq, if_false, maskLen]
      rw [if_pos ((tailClear_iff _ _ (by omega)).2 (by rw [show 8 * a.length - a.length * 8 = 0 by omega, Nat.pow_zero, Nat.mod_one])),
        keyEq, show a.length * 8 = 8 * a.length by omega]
    | net host mask a v h1 h2 h3 h4 h5 h6 h7 h8 =>
      subst h1
      unfold parseNet
      have hs : (host ++ 47#8 :: mask).any (· = 47#8) = true := by simp
      have hsp := takeWhile_split (fun b : Byte => decide (b ≠ 47#8)) host (47#8 :: mask) (fun x hx => by
        simp only [ne_eq, decide_not, Bool.not_eq_eq_eq_not, Bool.not_true, decide_eq_false_iff_not]
        rintro rfl; exact h2 hx) (fun x hx => by
        simp only [List.head?_cons, Option.some.injEq] at hx; subst hx; simp)
      dsimp only
      rw [if_pos hs, hsp.1, hsp.2, List.drop_succ_cons, List.drop_zero, if_neg (fun e => h3 (Option.some.inj e)), h4]
      dsimp only
      unfold maskLen
      dsimp only
      rw [h5]
      dsimp only
      rw [if_pos ⟨h6, by omega⟩]
      dsimp only
      rw [if_pos ((tailClear_iff _ _ (by omega)).2 h8), keyEq]

theorem words_strtok (s : Bytes) : fields Blank s = match strtok isSpace s with
      | none => []
      | some (tok, rest) => tok :: fields Blank rest := fields_strtok Blank isSpace isSpace_iff s

theorem kind_ne {k : Bytes} :
    (SameWord k (text ['n', 'e', 't']) → eqNoCase k (text ['d', 'e', 'f', 'a', 'u', 'l', 't']) = false) ∧
    (SameWord k (text ['u', 's', 'e', 'r']) → eqNoCase k (text ['d', 'e', 'f', 'a', 'u', 'l', 't']) = false ∧
      eqNoCase k (text ['n', 'e', 't']) = false) :=
  ⟨fun h => by rw [eqNoCase_congr h]; decide, fun h => by rw [eqNoCase_congr h, eqNoCase_congr h]; decide⟩

/-- An `assign` line that is accepted. -/
theorem parseAssignLine_ok {E : AssignEnv} {P P' : Policy} {line : Bytes} (h : parseAssignLine E P line = .ok P') :
    ∃ who cname c ids, Assigns E (fields Blank line) who cname ∧ findClass P.nodes cname = some c ∧
      storeIdent E P.idents who.key c = .ok ids ∧ P' = { P with idents := ids } ∧
      (who = .default → fetchIdent P.idents .default = none) := by
  unfold parseAssignLine at h
  split at h
  · cases h
  · cases h
  rename_i id rest hid
  split at h
  · cases h
  rename_i cname rest' hc
  split at h
  · cases h
  rename_i c hcl
  split at h
  · rename_i ids hst
    cases h
    have hrest : fields Blank rest = cname :: fields Blank rest' := by rw [words_strtok, hc]
    unfold parseIdent at hid
    split at hid
    · cases hid
    rename_i kind rest1 hk
    have hline : fields Blank line = kind :: fields Blank rest1 := by rw [words_strtok, hk]
    rw [hline]
    split at hid
    · rename_i hd
      split at hid
      · cases hid
      · rename_i hnone
        cases hid
        rw [hrest]
        exact ⟨.default, cname, c, ids, .default _ _ _ ((eqNoCase_iff _ _).1 hd), hcl, hst, rfl,
          fun _ => by cases hx : fetchIdent P.idents .default with
            | none => rfl
            | some x => rw [hx] at hnone; exact absurd rfl hnone⟩
    · split at hid
      · rename_i hn
        split at hid
        · cases hid
        rename_i s rest2 hs
        have h2 : fields Blank rest1 = s :: fields Blank rest2 := by rw [words_strtok, hs]
        split at hid
        · rename_i id' hp
          cases hid
          obtain ⟨n, hn1, rfl⟩ := parseNet_ok.1 _ hp
          rw [h2, hrest]
          exact ⟨.network n, cname, c, ids, .network _ _ _ _ _ ((eqNoCase_iff _ _).1 hn) hn1, hcl, hst, rfl, fun e => nomatch e⟩
        · cases hid
        · cases hid
      · split at hid
        · rename_i hu
          split at hid
          · cases hid
          rename_i u rest2 hs
          have h2 : fields Blank rest1 = u :: fields Blank rest2 := by rw [words_strtok, hs]
          split at hid
          · cases hid
          · rename_i hc2
            cases hid
            rw [h2, hrest]
            have hc3 : u.length ≤ 80 ∧ E.known u = true := by
              constructor
              · exact Nat.le_of_not_lt fun hh => hc2 (.inl (by omega))
              · exact Decidable.byContradiction fun hh => hc2 (.inr hh)
            exact ⟨.user u, cname, c, ids, .user _ _ _ _ ((eqNoCase_iff _ _).1 hu) hc3.1 hc3.2, hcl, hst, rfl, fun e => nomatch e⟩
        · cases hid
  · cases h
  · cases h

/-- The words of a line. -/
theorem strtok_of_words {s w : Bytes} {ws : List Bytes} (h : fields Blank s = w :: ws) :
    ∃ rest, strtok isSpace s = some (w, rest) ∧ fields Blank rest = ws := by
  rw [words_strtok] at h
  split at h
  · cases h
  · rename_i tok rest hs
    simp only [List.cons.injEq] at h
    exact ⟨rest, by rw [hs, h.1], h.2⟩

/-- A line that assigns a class. -/
theorem parseAssignLine_assigns {E : AssignEnv} {P : Policy} {line : Bytes} {who : Who} {cname : Bytes}
    (h : Assigns E (fields Blank line) who cname) (hd : who = .default → fetchIdent P.idents .default = none) :
    parseAssignLine E P line =
      match findClass P.nodes cname with
      | none => .refused
      | some c =>
        match storeIdent E P.idents who.key c with
        | .ok ids => .ok { P with idents := ids }
        | .refused => .refused
        | .overrun => .overrun := by
  have key : ∃ rest rest', parseIdent E P.idents line = .ok (who.key, rest) ∧ strtok isSpace rest = some (cname, rest') := by
    generalize hws : fields Blank line = ws at h
    cases h with
    | default k cname rest hk =>
      obtain ⟨r1, h1, h2⟩ := strtok_of_words hws
      obtain ⟨r2, h3, _⟩ := strtok_of_words h2
      refine ⟨r1, r2, ?_, h3⟩
      unfold parseIdent
      rw [h1]
      dsimp only
      rw [if_pos ((eqNoCase_iff _ _).2 hk), hd rfl]
      rfl
    | network k s n cname rest hk hn =>
      obtain ⟨r1, h1, h2⟩ := strtok_of_words hws
      obtain ⟨r2, h3, h4⟩ := strtok_of_words h2
      obtain ⟨r3, h5, _⟩ := strtok_of_words h4
      refine ⟨r2, r3, ?_, h5⟩
      unfold parseIdent
      rw [h1]
      dsimp only
      rw [kind_ne.1 hk, if_neg (by simp), if_pos ((eqNoCase_iff _ _).2 hk), h3]
      dsimp only
      rw [parseNet_ok.2 n hn]
      rfl
    | user k w cname rest hk hl hu =>
      obtain ⟨r1, h1, h2⟩ := strtok_of_words hws
      obtain ⟨r2, h3, h4⟩ := strtok_of_words h2
      obtain ⟨r3, h5, _⟩ := strtok_of_words h4
      refine ⟨r2, r3, ?_, h5⟩
      unfold parseIdent
      rw [h1]
      dsimp only
      rw [(kind_ne.2 hk).1, (kind_ne.2 hk).2, if_neg (by simp), if_neg (by simp), if_pos ((eqNoCase_iff _ _).2 hk), h3]
      dsimp only
      rw [if_neg (fun hh => hh.elim (fun h81 => by omega) (fun hn => hn hu))]
      rfl
  obtain ⟨rest, rest', h1, h2⟩ := key
  unfold parseAssignLine
  rw [h1]
  dsimp only
  rw [h2]
  dsimp only
  generalize findClass P.nodes cname = x
  cases x with
  | none => rfl
  | some c =>
    dsimp only
    generalize storeIdent E P.idents who.key c = y
    cases y <;> rfl

/-! ## The file -/

/-- The kinds of keys there are. -/
inductive KeyOk : Ident → Prop where
  | default : KeyOk .default
  | network (n : Network) : (n.width = 32 ∨ n.width = 128) → 1 ≤ n.len → n.len ≤ n.width → n.base < 2 ^ n.width →
      n.base % 2 ^ (n.width - n.len) = 0 → KeyOk n.key
  | user (w : Bytes) : w.length ≤ 80 → KeyOk (Who.user w).key

/-- What holds of a policy while it is read. -/
structure Sound (P : Policy) : Prop where
  before : ∀ (i : Nat) (n : Node) (p : Nat), P.nodes[i]? = some n → n.parent = some p → p < i
  inherits : ∀ (i : Nat) (n : Node) (p : Nat) (m : Node) (l : U32), P.nodes[i]? = some n → n.parent = some p → P.nodes[p]? = some m →
    findLim m.lims l ≠ none → findLim n.lims l ≠ none
  root : ∀ (i : Nat) (n : Node), P.nodes[i]? = some n → n.parent = none → i = 0
  fresh : ∀ n ∈ P.nodes, ∀ e ∈ n.lims, e.used = 0
  distinct : ∀ n ∈ P.nodes, (n.lims.map (·.limit)).Nodup
  known : ∀ n ∈ P.nodes, ∀ e ∈ n.lims, e.limit ∈ [1#32, 3#32, 4#32, 5#32, 6#32]
  names : (P.nodes.map (·.name)).Nodup
  keys : (P.idents.map (·.1)).Nodup
  ids : ∀ x ∈ P.idents, x.2 < P.nodes.length ∧ KeyOk x.1

theorem reads_known {num : Bytes → Option U64} {ps : List Bytes} {ss : List Setting} (h : ReadsAll num ps ss) :
    ∀ x ∈ limitPairs ss, x.1 ∈ [1#32, 3#32, 4#32, 5#32, 6#32] := by
  induction h with
  | nil => intro x hx; cases hx
  | @cons p s ps ss h _ ih =>
    intro x hx
    rw [limitPairs_cons] at hx
    rcases List.mem_append.1 hx with hx | hx
    · obtain ⟨_, _, _, _, _, _, _, _, _, _, _, _, _, _, _, h⟩ := h
      have n1 : ∀ y ∈ numbers, y.2 ∈ [1#32, 3#32, 4#32, 5#32, 6#32] := by decide
      have n2 : ∀ y ∈ switches, y.2 ∈ [1#32, 3#32, 4#32, 5#32, 6#32] := by decide
      cases h with
      | parent => simp at hx
      | number n l v hm => simp only [List.mem_singleton] at hx; subst hx; exact n1 _ hm
      | on n l hm => simp only [List.mem_singleton] at hx; subst hx; exact n2 _ hm
      | off n l hm => simp only [List.mem_singleton] at hx; subst hx; exact n2 _ hm
    · exact ih x hx

theorem recordsOf_limits (xs : List (U32 × U64)) : (recordsOf xs).map (·.limit) = xs.map (·.1) := by
  unfold recordsOf; rw [List.map_map]; rfl

theorem isSome_of_find {xs : List (U32 × U64)} {l : U32} : findLim (recordsOf xs) l ≠ none ↔ (xs.find? (·.1 = l)).map (·.2) ≠ none := by
  rw [← findLim_records]; simp

/-- A `limit` line keeps the policy sound. -/
theorem sound_limit {num : Bytes → Option U64} {P : Policy} {line : Bytes} {t' : Tree} (hs : Sound P)
    (h : parseLimitLine num P.nodes line = .ok t') : Sound { P with nodes := t' } := by
  obtain ⟨d, hd⟩ := parseLimitLine_ok h
  rcases parseLimitLine_define hd P.nodes hs.before with ⟨_, h2⟩ | ⟨parent, _, h2, hp, hnd, hnone⟩
  · rw [h2] at h; cases h
  rw [h2] at h
  cases h
  have hkn : ∀ x ∈ limitPairs d.settings, x.1 ∈ [1#32, 3#32, 4#32, 5#32, 6#32] := by
    obtain ⟨_, _, _, _, _, _, _, _, _, _, _, _, _, h⟩ := hd
    exact reads_known h
  have hget : ∀ (i : Nat) (n : Node), (P.nodes ++ [nodeOf P.nodes d parent])[i]? = some n →
      (P.nodes[i]? = some n ∧ i < P.nodes.length) ∨ (i = P.nodes.length ∧ n = nodeOf P.nodes d parent) := by
    intro i n hi
    by_cases hlt : i < P.nodes.length
    · rw [List.getElem?_append_left hlt] at hi; exact .inl ⟨hi, hlt⟩
    · rw [List.getElem?_append_right (by omega)] at hi
      by_cases he : i = P.nodes.length
      · rw [he, Nat.sub_self] at hi
        exact .inr ⟨he, (Option.some.inj hi).symm⟩
      · rw [List.getElem?_eq_none (by simp; omega)] at hi; cases hi
  have hlims : ∃ xs, (nodeOf P.nodes d parent).lims = recordsOf xs ∧ (xs.map (·.1)).Nodup ∧
      (∀ x ∈ xs, x.1 ∈ [1#32, 3#32, 4#32, 5#32, 6#32]) := by
    unfold nodeOf
    cases hb : parent.bind fun p => P.nodes[p]? with
    | none => exact ⟨_, rfl, by rw [limitPairs_fst]; exact hnd, hkn⟩
    | some n =>
      refine ⟨_, rfl, inherit_nodup _ _ (by rw [limitPairs_fst]; exact hnd), fun x hx => ?_⟩
      rcases inherit_subset _ _ _ hx with hx | ⟨e, he, rfl⟩
      · exact hkn x hx
      · cases parent with
        | none => cases hb
        | some p =>
          rw [Option.bind_some] at hb
          exact hs.known n (List.mem_of_getElem? hb) e he
  obtain ⟨xs, hx1, hx2, hx3⟩ := hlims
  have hmem : ∀ n ∈ P.nodes ++ [nodeOf P.nodes d parent], n ∈ P.nodes ∨ n = nodeOf P.nodes d parent := by
    intro n hn; simpa using hn
  refine ⟨fun i n p hi hpar => ?_, fun i n p m l hi hpar hm hf => ?_, fun i n hi hpar => ?_, fun n hn => ?_, fun n hn => ?_,
    fun n hn => ?_, ?_, hs.keys, fun x hx => ?_⟩
  · rcases hget i n hi with ⟨g1, g2⟩ | ⟨g1, rfl⟩
    · exact hs.before i n p g1 hpar
    · rcases hp with ⟨e, _⟩ | ⟨p', n', e, hn'⟩
      · rw [e] at hpar; cases hpar
      · rw [e] at hpar; cases hpar
        have := (List.getElem?_eq_some_iff.1 hn').1
        omega
  · dsimp only at hi hm
    rcases hget i n hi with ⟨g1, g2⟩ | ⟨g1, rfl⟩
    · have hlt := hs.before i n p g1 hpar
      rw [List.getElem?_append_left (by omega)] at hm
      exact hs.inherits i n p m l g1 hpar hm hf
    · rcases hp with ⟨e, _⟩ | ⟨p', n', e, hn'⟩
      · rw [e] at hpar; cases hpar
      · subst e
        have hpp : p' = p := Option.some.inj hpar
        subst hpp
        have := (List.getElem?_eq_some_iff.1 hn').1
        rw [List.getElem?_append_left (by omega), hn'] at hm
        cases hm
        unfold nodeOf
        simp only [Option.bind_some, hn']
        rw [isSome_of_find, inherit_find]
        cases hfl : findLim m.lims l with
        | none => exact absurd hfl hf
        | some e => cases (limitPairs d.settings).find? (·.1 = l) <;> simp
  · rcases hget i n hi with ⟨g1, g2⟩ | ⟨g1, rfl⟩
    · exact hs.root i n g1 hpar
    · rcases hp with ⟨e, e2⟩ | ⟨p', n', e, hn'⟩
      · rw [g1, e2]; rfl
      · rw [e] at hpar; cases hpar
  · rcases hmem n hn with hn | rfl
    · exact hs.fresh n hn
    · rw [hx1]
      intro e he
      obtain ⟨x, _, rfl⟩ := List.mem_map.1 he
      rfl
  · rcases hmem n hn with hn | rfl
    · exact hs.distinct n hn
    · rw [hx1, recordsOf_limits]; exact hx2
  · rcases hmem n hn with hn | rfl
    · exact hs.known n hn
    · rw [hx1]
      intro e he
      obtain ⟨x, hx, rfl⟩ := List.mem_map.1 he
      exact hx3 x hx
  · dsimp only
    rw [List.map_append, List.nodup_append]
    refine ⟨hs.names, by simp, fun a ha b hb => ?_⟩
    obtain ⟨n, hn, rfl⟩ := List.mem_map.1 ha
    simp only [List.map_cons, List.map_nil, List.mem_singleton] at hb
    rw [hb]
    exact findClass_none.1 hnone n hn
  · have := hs.ids x hx
    dsimp only
    rw [List.length_append]
    exact ⟨by omega, this.2⟩

/-- An `assign` line keeps the policy sound. -/
theorem sound_assign {E : AssignEnv} (hE : ∀ s a, E.getaddr s = some a → a.length = 4 ∨ a.length = 16) {P P' : Policy} {line : Bytes}
    (hs : Sound P) (h : parseAssignLine E P line = .ok P') : Sound P' := by
  obtain ⟨who, cname, c, ids, h1, h2, h3, rfl, _⟩ := parseAssignLine_ok h
  obtain ⟨rest, e1, e2, e3, _⟩ := storeIdent_ok h3
  refine ⟨hs.before, hs.inherits, hs.root, hs.fresh, hs.distinct, hs.known, hs.names, e3 hs.keys, fun x hx => ?_⟩
  dsimp only at hx ⊢
  rw [e1] at hx
  rcases List.mem_cons.1 hx with rfl | hx
  · refine ⟨?_, ?_⟩
    · obtain ⟨n, hn, _⟩ := findClass_some h2
      exact (List.getElem?_eq_some_iff.1 hn).1
    · generalize fields Blank line = ws at h1
      cases h1 with
      | default => exact .default
      | user k w _ _ _ hl => exact .user w hl
      | network k s n _ _ _ hn =>
        have hlt := fun a : Bytes => beDec_lt a
        simp only [pow256] at hlt
        cases hn with
        | host a _ ha =>
          have hl := hE _ _ ha
          refine .network _ ?_ ?_ (Nat.le_refl _) (hlt a) ?_
          · rcases hl with hl | hl <;> rw [hl]
            · exact .inl rfl
            · exact .inr rfl
          · dsimp only; omega
          · dsimp only; rw [Nat.sub_self, Nat.pow_zero, Nat.mod_one]
        | net host mask a v _ _ _ ha _ g1 g2 g3 =>
          have hl := hE _ _ ha
          refine .network _ ?_ g1 g2 (hlt a) g3
          rcases hl with hl | hl <;> rw [hl]
          · exact .inl rfl
          · exact .inr rfl
  · exact hs.ids x (e2 x hx)

theorem sound_empty : Sound ⟨[], []⟩ := by
  constructor <;> first
    | (intro i n p h; simp at h)
    | (intro i n p m l h; simp at h)
    | (intro i n h; simp at h)
    | (intro n h; cases h)
    | simp

theorem after_eq (line word : Bytes) : eqNoCase (line.take word.length) word = true ↔ after word line = some (line.drop word.length) := by
  unfold after
  rw [eqNoCase_iff]
  by_cases h : SameWord (line.take word.length) word
  · simp [h]
  · simp [h]

theorem declares_skip {num : Bytes → Option U64} {line : Bytes} {d : Decl} :
    Declares num (line.dropWhile isSpace) d → Declares num line d := by
  rintro ⟨ws, sp, ws', w, rest, h1, h2, h⟩
  refine ⟨line.takeWhile isSpace ++ ws, sp, ws', w, rest, ?_, fun b hb => ?_, h⟩
  · rw [List.append_assoc, ← h1, List.takeWhile_append_dropWhile]
  · rcases List.mem_append.1 hb with hb | hb
    · exact (isSpace_iff b).1 (takeWhile_all _ _ b hb)
    · exact h2 b hb

/-- One line of the file. -/
theorem parseLine_ok {num : Bytes → Option U64} {E : AssignEnv} {P P' : Policy} {line : Bytes} (hs : Sound P)
    (h : parseLine num E P line = .ok P') :
    (∃ rest d, after (text ['l', 'i', 'm', 'i', 't']) line = some rest ∧ Declares num rest d ∧
      define (classes P.nodes) d = some (classes P'.nodes) ∧ P'.idents = P.idents ∧
      parseLimitLine num P.nodes ((line.drop 5).dropWhile isSpace) = .ok P'.nodes) ∨
    (after (text ['l', 'i', 'm', 'i', 't']) line = none ∧ P'.nodes = P.nodes ∧
      ∃ rest, after (text ['a', 's', 's', 'i', 'g', 'n']) line = some rest ∧
        parseAssignLine E P (rest.dropWhile isSpace) = .ok P') := by
  unfold parseLine at h
  split at h
  · rename_i hl
    left
    split at h
    · rename_i t ht
      cases h
      obtain ⟨d, hd⟩ := parseLimitLine_ok ht
      refine ⟨line.drop 5, d, (after_eq line (text ['l', 'i', 'm', 'i', 't'])).1 hl, declares_skip hd, ?_, rfl, ht⟩
      rcases parseLimitLine_define hd P.nodes hs.before with ⟨_, h2⟩ | ⟨parent, h1, h2, _⟩
      · rw [h2] at ht; cases ht
      · rw [h2] at ht; cases ht; exact h1
    · cases h
    · cases h
  · rename_i hl
    right
    have hl' : after (text ['l', 'i', 'm', 'i', 't']) line = none := by
      unfold after
      rw [if_neg]
      intro hh
      exact hl ((eqNoCase_iff _ _).2 hh)
    split at h
    · rename_i ha
      refine ⟨hl', ?_, line.drop 6, (after_eq line (text ['a', 's', 's', 'i', 'g', 'n'])).1 ha, h⟩
      obtain ⟨_, _, _, _, _, _, _, rfl, _⟩ := parseAssignLine_ok h
      rfl
    · cases h

theorem sound_line {num : Bytes → Option U64} {E : AssignEnv} (hE : ∀ s a, E.getaddr s = some a → a.length = 4 ∨ a.length = 16)
    {P P' : Policy} {line : Bytes} (hs : Sound P) (h : parseLine num E P line = .ok P') : Sound P' := by
  rcases parseLine_ok hs h with ⟨_, _, _, _, _, h1, h2⟩ | ⟨_, _, rest, _, h2⟩
  · have := sound_limit hs h2
    rw [← h1] at this
    exact this
  · exact sound_assign hE hs h2

theorem sound_lines {num : Bytes → Option U64} {E : AssignEnv} (hE : ∀ s a, E.getaddr s = some a → a.length = 4 ∨ a.length = 16)
    {lines : List Bytes} {P P' : Policy} (hs : Sound P) (h : parseLines num E P lines = .ok P') :
    Sound P' ∧ ∃ ds, Definitions num lines ds ∧ defineAll (classes P.nodes) ds = some (classes P'.nodes) := by
  induction lines generalizing P with
  | nil =>
    cases h
    exact ⟨hs, [], .nil, rfl⟩
  | cons line lines ih =>
    unfold parseLines at h
    split at h
    · rename_i P1 h1
      have hs1 := sound_line hE hs h1
      obtain ⟨g1, ds, g2, g3⟩ := ih hs1 h
      refine ⟨g1, ?_⟩
      rcases parseLine_ok hs h1 with ⟨rest, d, e1, e2, e3, _⟩ | ⟨e1, e2, _⟩
      · refine ⟨d :: ds, .limit e1 e2 g2, ?_⟩
        unfold defineAll
        rw [e3]
        exact g3
      · exact ⟨ds, .other e1 g2, by rw [← e2]; exact g3⟩
    · cases h
    · cases h

/-- The line used when there are no classes. -/
def defaultDecl : Decl := ⟨text ['d', 'e', 'f', 'a', 'u', 'l', 't'], []⟩

theorem default_line (num : Bytes → Option U64) :
    parseLimitLine num [] (text ['d', 'e', 'f', 'a', 'u', 'l', 't', ' ', 'w', 'i', 't', 'h']) =
      .ok [⟨text ['d', 'e', 'f', 'a', 'u', 'l', 't'], none, []⟩] := by
  have hd : Declares num (text ['d', 'e', 'f', 'a', 'u', 'l', 't', ' ', 'w', 'i', 't', 'h']) defaultDecl :=
    ⟨[], 32#8, [], text ['w', 'i', 't', 'h'], [], by decide, (fun b hb => nomatch hb), by unfold Word; decide, by decide,
      (fun b hb => nomatch hb), by unfold Word; decide, by decide, (fun b hb => nomatch hb), .nil⟩
  rw [parseLimitLine_declares hd]
  rfl

theorem parseLimits_ok {num : Bytes → Option U64} {E : AssignEnv} (hE : ∀ s a, E.getaddr s = some a → a.length = 4 ∨ a.length = 16)
    {lines : List Bytes} {P : Policy} (h : parseLimits num E lines = .ok P) :
    Sound P ∧ P.nodes ≠ [] ∧
      ((∃ ds, Definitions num lines ds ∧ ds ≠ [] ∧ defineAll [] ds = some (classes P.nodes)) ∨
       (Definitions num lines [] ∧ P.nodes = [⟨text ['d', 'e', 'f', 'a', 'u', 'l', 't'], none, []⟩])) := by
  unfold parseLimits at h
  split at h
  · rename_i P1 h1
    obtain ⟨hs, ds, hd, hall⟩ := sound_lines hE sound_empty h1
    split at h
    · rename_i hn
      rw [default_line] at h
      cases h
      have hds : ds = [] := by
        cases ds with
        | nil => rfl
        | cons d ds =>
          exfalso
          rw [hn] at hall
          have grow : ∀ (ds : List Decl) (cs cs' : List Class), defineAll cs ds = some cs' → cs.length + ds.length ≤ cs'.length := by
            intro ds
            induction ds with
            | nil => intro cs cs' h; cases h; simp
            | cons d ds ih =>
              intro cs cs' h
              unfold defineAll at h
              split at h
              · cases h
              · rename_i cs1 hc
                have := ih cs1 cs' h
                have : cs1.length = cs.length + 1 := by
                  unfold define at hc
                  split at hc
                  · split at hc
                    · split at hc
                      · rename_i he
                        cases hc
                        have : cs = [] := by simpa using he
                        rw [this]; rfl
                      · cases hc
                    · split at hc
                      · cases hc
                      · cases hc; simp
                    · cases hc
                  · cases hc
                simp only [List.length_cons]
                omega
          have := grow _ _ _ hall
          simp [classes] at this
      have := sound_limit (num := num) hs (by rw [hn]; exact default_line num)
      exact ⟨this, by simp, .inr ⟨hds ▸ hd, rfl⟩⟩
    · rename_i hn
      cases h
      refine ⟨hs, hn, .inl ⟨ds, hd, ?_, hall⟩⟩
      rintro rfl
      simp only [defineAll, Option.some.injEq] at hall
      apply hn
      have := congrArg List.length hall
      simp only [classes, List.map_nil, List.length_nil, List.length_map] at this
      exact List.length_eq_zero_iff.1 this.symm
  · cases h
  · cases h

theorem fields_dropWhile (s : Bytes) : fields Blank (s.dropWhile isSpace) = fields Blank s := by
  have h := List.takeWhile_append_dropWhile (p := isSpace) (l := s)
  have := fields_skip Blank (s.takeWhile isSpace) (s.dropWhile isSpace) (fun b hb => (isSpace_iff b).1 (takeWhile_all _ _ b hb))
  rw [h] at this
  exact this.symm

theorem assignments_ok {num : Bytes → Option U64} {E : AssignEnv} (hE : ∀ s a, E.getaddr s = some a → a.length = 4 ∨ a.length = 16)
    {lines : List Bytes} {P P' : Policy} (hs : Sound P) (h : parseLines num E P lines = .ok P') :
    Assignments E lines (assignedName P) (assignedName P') := by
  induction lines generalizing P with
  | nil => cases h; exact .nil
  | cons line lines ih =>
    unfold parseLines at h
    split at h
    · rename_i P1 h1
      have hs1 := sound_line hE hs h1
      have := ih hs1 h
      rcases parseLine_ok hs h1 with ⟨rest, d, e1, e2, e3, e4, e5⟩ | ⟨e1, e2, rest, e3, e4⟩
      · refine .limit e1 ?_
        have hsame : assignedName P1 = assignedName P := by
          funext k
          unfold assignedName
          rw [e4]
          cases hf : fetchIdent P.idents k with
          | none => rfl
          | some c =>
            rw [Option.bind_some, Option.bind_some]
            have hc := (hs.ids _ (fetchIdent_some_mem hf)).1
            dsimp only at hc
            rcases parseLimitLine_define (parseLimitLine_ok e5).choose_spec P.nodes hs.before with ⟨_, g⟩ | ⟨parent, _, g, _⟩
            · rw [g] at e5; cases e5
            · rw [g] at e5
              have e5 := Outcome.ok.inj e5
              rw [← e5, List.getElem?_append_left hc]
        rw [← hsame]; exact this
      · obtain ⟨who, cname, c, ids, g1, g2, g3, rfl, _⟩ := parseAssignLine_ok e4
        rw [fields_dropWhile] at g1
        refine .assign e1 e3 g1 ?_
        have hupd : assignedName { P with idents := ids } = fun k => if k = who.key then some cname else assignedName P k := by
          funext k
          unfold assignedName
          obtain ⟨_, _, _, _, g4⟩ := storeIdent_ok g3
          dsimp only
          rw [g4]
          by_cases hk : k = who.key
          · rw [if_pos hk, if_pos hk, Option.bind_some]
            obtain ⟨n, hn1, hn2, _⟩ := findClass_some g2
            rw [hn1, Option.map_some, hn2]
          · rw [if_neg hk, if_neg hk]
        rw [← hupd]; exact this
    · cases h
    · cases h

theorem declares_unskip {num : Bytes → Option U64} {line : Bytes} {d : Decl} :
    Declares num line d → Declares num (line.dropWhile isSpace) d := by
  rintro ⟨ws, sp, ws', w, rest, rfl, h2, h3, h⟩
  refine ⟨[], sp, ws', w, rest, ?_, (fun b hb => nomatch hb), h3, h⟩
  rw [List.nil_append]
  refine (takeWhile_split isSpace ws _ (fun b hb => (isSpace_iff b).2 (h2 b hb)) fun x hx => ?_).2
  have h0 := h3.1
  have h1 := h3.2
  generalize d.name = nm at *
  cases nm with
  | nil => exact absurd rfl h0
  | cons y nm =>
    simp only [List.cons_append, List.head?_cons, Option.some.injEq] at hx
    subst hx
    exact (not_isSpace_iff y).2 (h1 y List.mem_cons_self)

theorem parseLines_append {num : Bytes → Option U64} {E : AssignEnv} {a b : List Bytes} {P P1 : Policy}
    (h : parseLines num E P a = .ok P1) : parseLines num E P (a ++ b) = parseLines num E P1 b := by
  induction a generalizing P with
  | nil => cases h; rfl
  | cons l a ih =>
    unfold parseLines at h
    rw [List.cons_append]
    conv => lhs; unfold parseLines
    split at h
    · exact ih h
    · cases h
    · cases h

/-! ## The classes definitions make -/

/-- What a definition adds. -/
theorem define_some {cs cs' : List Class} {d : Decl} (h : define cs d = some cs') :
    ∃ c, cs' = cs ++ [c] ∧ c.name = d.name ∧ (∀ x ∈ cs, x.name ≠ d.name) ∧ (limitsSet d.settings).Nodup ∧
      ((cs = [] ∧ parentsNamed d.settings = [] ∧ c.parent = none ∧ c.limits = own d.settings) ∨
       (∃ q, q ∈ cs ∧ parentsNamed d.settings = [q.name] ∧ c.parent = some q.name ∧
         c.limits = fun l => (own d.settings l).or (q.limits l))) := by
  unfold define at h
  split at h
  · rename_i hc
    split at h
    · rename_i hp
      split at h
      · rename_i he
        cases h
        have hcs : cs = [] := by simpa using he
        exact ⟨_, by rw [hcs]; rfl, rfl, hc.2.1, hc.2.2.1, .inl ⟨hcs, hp, rfl, rfl⟩⟩
      · cases h
    · rename_i p hp
      split at h
      · cases h
      · rename_i q hq
        cases h
        have h1 := List.mem_of_find?_eq_some hq
        have h2 : q.name = p := by simpa using List.find?_some hq
        exact ⟨_, rfl, rfl, hc.2.1, hc.2.2.1, .inr ⟨q, h1, by rw [h2]; exact hp, by rw [h2], rfl⟩⟩
    · cases h
  · cases h

theorem defineAll_get {ds : List Decl} {cs cs' : List Class} (h : defineAll cs ds = some cs') :
    (∀ j, j < cs.length → cs'[j]? = cs[j]?) ∧ cs'.length = cs.length + ds.length ∧
    ∀ k d, ds[k]? = some d → ∃ c, cs'[cs.length + k]? = some c ∧ c.name = d.name ∧
      ((cs.length + k = 0 ∧ parentsNamed d.settings = [] ∧ c.parent = none ∧ c.limits = own d.settings) ∨
       (∃ j q, j < cs.length + k ∧ cs'[j]? = some q ∧ parentsNamed d.settings = [q.name] ∧ c.parent = some q.name ∧
         c.limits = fun l => (own d.settings l).or (q.limits l))) := by
  induction ds generalizing cs with
  | nil =>
    cases h
    exact ⟨fun _ _ => rfl, rfl, fun k d hk => by simp at hk⟩
  | cons d ds ih =>
    unfold defineAll at h
    split at h
    · cases h
    · rename_i cs1 hd
      obtain ⟨c, hc, hn, hnew, hnd, hcase⟩ := define_some hd
      obtain ⟨g1, g2, g3⟩ := ih h
      have hlen : cs1.length = cs.length + 1 := by rw [hc]; simp
      have hpre : ∀ j, j < cs.length → cs'[j]? = cs[j]? := fun j hj => by
        rw [g1 j (by omega), hc, List.getElem?_append_left hj]
      refine ⟨hpre, by simp only [List.length_cons]; omega, fun k d' hk => ?_⟩
      cases k with
      | zero =>
        rw [List.getElem?_cons_zero] at hk
        cases hk
        refine ⟨c, ?_, hn, ?_⟩
        · rw [Nat.add_zero, g1 _ (by omega), hc, List.getElem?_append_right (Nat.le_refl _), Nat.sub_self]; rfl
        · rcases hcase with ⟨e1, e2, e3, e4⟩ | ⟨q, e1, e2, e3, e4⟩
          · exact .inl ⟨by rw [e1]; rfl, e2, e3, e4⟩
          · obtain ⟨j, hj⟩ := List.getElem?_of_mem e1
            have hjl := (List.getElem?_eq_some_iff.1 hj).1
            exact .inr ⟨j, q, by omega, by rw [hpre j hjl]; exact hj, e2, e3, e4⟩
      | succ k =>
        rw [List.getElem?_cons_succ] at hk
        have := g3 k d' hk
        rw [hlen, show cs.length + 1 + k = cs.length + (k + 1) by omega] at this
        exact this

end Owamp.Policy
