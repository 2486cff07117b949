import Verif.Lemmas.ClassFile
import Verif.Lemmas.SetupOpen
import Mathlib.Data.List.Nodup
/-!
# C41, C42, C43: classes of the limits file and the class of a connection
-/
namespace Owamp.Props
open Owamp.Policy Owamp.Spec.Classes Owamp.Spec.Limits Owamp.Ctl

/-- `getaddrinfo` gives IPv4 or IPv6 addresses. -/
def AddrSizes (E : AssignEnv) : Prop := ∀ s a, E.getaddr s = some a → a.length = 4 ∨ a.length = 16

/-! ## C41 -/

/-- C41: the classes after a file that is accepted are those its `limit` lines define, one after the other, as `define` in
`Spec/Classes.lean` says; without `limit` lines there is one class without limits. -/
theorem C41_file (num : Bytes → Option U64) (E : AssignEnv) (hE : AddrSizes E) (lines : List Bytes) (P : Policy)
    (h : parseLimits num E lines = .ok P) :
    (∃ ds, Definitions num lines ds ∧ ds ≠ [] ∧ defineAll [] ds = some (classes P.nodes)) ∨
    (Definitions num lines [] ∧ P.nodes = [⟨text ['d', 'e', 'f', 'a', 'u', 'l', 't'], none, []⟩]) :=
  (parseLimits_ok hE h).2.2

theorem getLimit_class (t : Tree) (n : Node) (l : U32) : getLimit n l = ((classOf t n).limits l).getD (defLimit l) := by
  unfold getLimit classOf
  dsimp only
  cases findLim n.lims l <;> rfl

/-- C41: in a file with `limit` lines, the `i`th class is that of the `i`th such line; a limit the line sets has that value;
a limit it does not set has the value of the parent it names, which is an earlier class; the first class names no parent and
has the built-in values. -/
theorem C41_inherits (num : Bytes → Option U64) (E : AssignEnv) (hE : AddrSizes E) (lines : List Bytes) (P : Policy)
    (h : parseLimits num E lines = .ok P) :
    ∃ ds, Definitions num lines ds ∧ (ds ≠ [] → P.nodes.length = ds.length) ∧ ∀ i d, ds[i]? = some d → ∃ n, P.nodes[i]? = some n ∧
      n.name = d.name ∧ (∀ l v, own d.settings l = some v → getLimit n l = v) ∧
      (parentsNamed d.settings = [] → i = 0 ∧ ∀ l, own d.settings l = none → getLimit n l = defLimit l) ∧
      (i ≠ 0 → ∃ p m, p < i ∧ P.nodes[p]? = some m ∧ parentsNamed d.settings = [m.name] ∧ n.parent = some p ∧
        ∀ l, own d.settings l = none → getLimit n l = getLimit m l) := by
  obtain ⟨hs, hne, hc⟩ := parseLimits_ok hE h
  rcases hc with ⟨ds, h1, h2, h3⟩ | ⟨h1, h2⟩
  · refine ⟨ds, h1, fun _ => ?_, fun i d hi => ?_⟩
    · have := (defineAll_get h3).2.1
      simpa [classes] using this
    · obtain ⟨c, g1, g2, g3⟩ := (defineAll_get h3).2.2 i d hi
      simp only [List.length_nil, Nat.zero_add, classes, List.getElem?_map] at g1 g3
      obtain ⟨n, hn, rfl⟩ := Option.map_eq_some_iff.1 g1
      have hlim : ∀ l, getLimit n l = ((classOf P.nodes n).limits l).getD (defLimit l) := getLimit_class P.nodes n
      refine ⟨n, hn, g2, fun l v hv => ?_, fun hp => ?_, fun hi0 => ?_⟩
      · rw [hlim]
        rcases g3 with ⟨_, _, _, e⟩ | ⟨j, q, _, _, _, _, e⟩
        · rw [e, hv]; rfl
        · rw [e]; dsimp only; rw [hv]; rfl
      · rcases g3 with ⟨e1, _, _, e⟩ | ⟨j, q, _, _, e2, _, _⟩
        · exact ⟨e1, fun l hl => by rw [hlim, e, hl]; rfl⟩
        · rw [hp] at e2; cases e2
      · rcases g3 with ⟨e1, _, _, e⟩ | ⟨j, q, e1, e2, e3, e4, e5⟩
        · exact absurd e1 hi0
        · obtain ⟨m, hm, rfl⟩ := Option.map_eq_some_iff.1 e2
          refine ⟨j, m, e1, hm, e3, ?_, fun l hl => ?_⟩
          · cases hnp : n.parent with
            | none => rw [show (classOf P.nodes n).parent = n.parent.bind fun p => P.nodes[p]?.map (·.name) from rfl, hnp] at e4; cases e4
            | some p =>
              rw [show (classOf P.nodes n).parent = n.parent.bind fun p => P.nodes[p]?.map (·.name) from rfl, hnp, Option.bind_some] at e4
              obtain ⟨m', hm', hnm⟩ := Option.map_eq_some_iff.1 e4
              have hnd := hs.names
              have hp1 := (List.getElem?_eq_some_iff.1 hm').1
              have hj1 := (List.getElem?_eq_some_iff.1 hm).1
              congr 1
              refine (List.getElem?_inj (i := p) (j := j) (l := P.nodes.map (·.name)) (by simpa using hp1) hnd).1 ?_
              rw [List.getElem?_map, List.getElem?_map, hm', hm, Option.map_some, Option.map_some, hnm]
              rfl
          · rw [hlim, e5]
            dsimp only
            rw [hl, Option.none_or, getLimit_class P.nodes m]
  · exact ⟨[], h1, fun e => absurd rfl e, fun i d hi => by simp at hi⟩

/-- C41: after an accepted beginning of a file, a `limit` line that repeats the name of a class, sets a limit twice, names as
its parent no class defined before, or names none though there is a class, makes the daemon refuse the file, whatever
follows. -/
theorem C41_refused (num : Bytes → Option U64) (E : AssignEnv) (hE : AddrSizes E) (lines : List Bytes) (P : Policy)
    (h : parseLines num E ⟨[], []⟩ lines = .ok P) (line rest : Bytes) (d : Decl)
    (h1 : after (text ['l', 'i', 'm', 'i', 't']) line = some rest) (h2 : Declares num rest d)
    (hbad : (∃ n ∈ P.nodes, n.name = d.name) ∨ ¬ (limitsSet d.settings).Nodup ∨
      (∃ p ∈ parentsNamed d.settings, ∀ n ∈ P.nodes, n.name ≠ p) ∨ (parentsNamed d.settings = [] ∧ P.nodes ≠ []))
    (more : List Bytes) : parseLimits num E (lines ++ line :: more) = .refused := by
  obtain ⟨hs, _⟩ := sound_lines hE sound_empty h
  have hdef : define (classes P.nodes) d = none := by
    cases hd : define (classes P.nodes) d with
    | none => rfl
    | some cs =>
      exfalso
      obtain ⟨c, _, _, e1, e2, e3⟩ := define_some hd
      rcases hbad with ⟨n, hn, hnn⟩ | hb | ⟨p, hp, hb⟩ | ⟨hp, hb⟩
      · exact e1 (classOf P.nodes n) (List.mem_map_of_mem hn) hnn
      · exact hb e2
      · rcases e3 with ⟨_, e3, _⟩ | ⟨q, hq, e3, _⟩
        · rw [e3] at hp; cases hp
        · rw [e3, List.mem_singleton] at hp
          obtain ⟨n, hn, rfl⟩ := List.mem_map.1 hq
          exact hb n hn hp.symm
      · rcases e3 with ⟨e3, _⟩ | ⟨q, hq, e3, _⟩
        · exact hb (List.map_eq_nil_iff.1 e3)
        · rw [hp] at e3; cases e3
  have hl : eqNoCase (line.take 5) (text ['l', 'i', 'm', 'i', 't']) = true ∧ rest = line.drop 5 := by
    unfold after at h1
    split at h1
    · rename_i hw
      exact ⟨(eqNoCase_iff _ _).2 hw, (Option.some.inj h1).symm⟩
    · cases h1
  have href : parseLimitLine num P.nodes ((line.drop 5).dropWhile isSpace) = .refused := by
    rcases parseLimitLine_define (hl.2 ▸ declares_unskip h2) P.nodes hs.before with ⟨_, g⟩ | ⟨_, g, _⟩
    · exact g
    · rw [hdef] at g; cases g
  have hline : parseLine num E P line = .refused := by
    unfold parseLine
    rw [if_pos hl.1, href]
  unfold parseLimits
  rw [parseLines_append h]
  unfold parseLines
  rw [hline]

theorem lineage_root (t : Tree) (hb : ∀ (i : Nat) (n : Node) (p : Nat), t[i]? = some n → n.parent = some p → p < i)
    (hr : ∀ (i : Nat) (n : Node), t[i]? = some n → n.parent = none → i = 0) (i : Nat) (hi : i < t.length) :
    (lineage t i).getLast? = some 0 := by
  induction i using Nat.strongRecOn with
  | _ i ih =>
    have hn := List.getElem?_eq_getElem hi
    rw [lineage, hn]
    dsimp only
    cases hp : (t[i]'hi).parent with
    | none => have := hr i _ hn hp; subst this; rfl
    | some p =>
      have hlt := hb i _ p hn hp
      dsimp only
      rw [if_pos hlt, List.getLast?_cons, ih p hlt (by omega)]
      rfl

/-- C41: the first class is above every class. -/
theorem C41_root (num : Bytes → Option U64) (E : AssignEnv) (hE : AddrSizes E) (lines : List Bytes) (P : Policy)
    (h : parseLimits num E lines = .ok P) : P.nodes ≠ [] ∧ ∀ i, i < P.nodes.length → (lineage P.nodes i).getLast? = some 0 := by
  obtain ⟨hs, hne, _⟩ := parseLimits_ok hE h
  exact ⟨hne, fun i hi => lineage_root P.nodes hs.before hs.root i hi⟩

/-- The classes of a limits file meet the conditions of C39 and C40. -/
theorem C41_wellFormed (num : Bytes → Option U64) (E : AssignEnv) (hE : AddrSizes E) (lines : List Bytes) (P : Policy)
    (h : parseLimits num E lines = .ok P) : WellFormed P.nodes ∧ Unused P.nodes := by
  obtain ⟨hs, _⟩ := parseLimits_ok hE h
  refine ⟨⟨hs.before, hs.inherits⟩, fun c l e he => ?_⟩
  unfold entry at he
  split at he
  · cases he
  · rename_i n hn
    exact hs.fresh n (List.mem_of_getElem? hn) e (List.mem_of_find?_eq_some he)

/-! ## C42 -/

/-- C42: the assignments after a file that is accepted are those its `assign` lines make. -/
theorem C42_assignments (num : Bytes → Option U64) (E : AssignEnv) (hE : AddrSizes E) (lines : List Bytes) (P : Policy)
    (h : parseLimits num E lines = .ok P) : Assignments E lines (fun _ => none) (assignedName P) ∧
      ∀ x ∈ P.idents, fetchIdent P.idents x.1 = some x.2 ∧ x.2 < P.nodes.length := by
  have hs := (parseLimits_ok hE h).1
  refine ⟨?_, fun x hx => ⟨fetchIdent_of_mem hs.keys hx, (hs.ids x hx).1⟩⟩
  unfold parseLimits at h
  split at h
  · rename_i P1 h1
    have := assignments_ok hE sound_empty h1
    split at h
    · rename_i hn
      rw [default_line] at h
      cases h
      have e : P1.idents = [] := by
        have := (sound_lines hE sound_empty h1).1.ids
        rw [hn] at this
        cases hi : P1.idents with
        | nil => rfl
        | cons x xs => rw [hi] at this; exact absurd (this x List.mem_cons_self).1 (by simp)
      have e2 : assignedName { P1 with nodes := [⟨text ['d', 'e', 'f', 'a', 'u', 'l', 't'], none, []⟩] } = assignedName P1 := by
        funext k; unfold assignedName; dsimp only; rw [e]; rfl
      rw [e2]; exact this
    · cases h; exact this
  · cases h
  · cases h

theorem netKey_contains {n : Network} {w x : Nat} (hw : w = 32 ∨ w = 128) (hx : x < 2 ^ w) (hb : n.base < 2 ^ n.width)
    (hz : n.base % 2 ^ (n.width - n.len) = 0) (hnw : n.width = 32 ∨ n.width = 128) :
    n.key = netKey (w / 8) n.len x ↔ n.Contains w x := by
  have h8 : 8 * (w / 8) = w := by omega
  have hn8 : 8 * (n.width / 8) = n.width := by omega
  unfold Network.key netKey Network.Contains masked
  rw [h8]
  constructor
  · intro h
    injection h with h1 _ h2
    have hwn : n.width = w := by omega
    refine ⟨hwn, ?_⟩
    rw [h1] at h2
    have h3 := List.append_inj_left h2 (by simp)
    have h4 := congrArg beDec h3
    rw [beDec_beEnc, beDec_beEnc, pow256, h8, Nat.mod_eq_of_lt (by rw [← hwn]; exact hb),
      Nat.mod_eq_of_lt (Nat.lt_of_le_of_lt (Nat.div_mul_le_self _ _) hx)] at h4
    rw [h4, Nat.mul_div_cancel _ (Nat.two_pow_pos _)]
  · rintro ⟨h1, h2⟩
    rw [h1] at hz
    rw [h1, h2, Nat.div_mul_cancel (Nat.dvd_of_mod_eq_zero hz)]
    rfl

/-- C42: a client with an IPv4 or IPv6 address is put in the class of the longest assigned network that contains it, and if
there is none in the class `assign default` names, or the first class if there is no such line. An IPv4 address mapped into an
IPv6 address counts as IPv4 address (`addressOf`). What is missing: IPv6 networks that contain mapped addresses, see
`C42_mapped`. -/
theorem C42_longest_partial (num : Bytes → Option U64) (E : AssignEnv) (hE : AddrSizes E) (lines : List Bytes) (P : Policy)
    (h : parseLimits num E lines = .ok P) (sa : SockAddr) (w x : Nat) (ha : addressOf sa = some (w, x)) :
    ∃ c, nodeFromAddr P sa = some c ∧ c < P.nodes.length ∧
      ((∃ n, Assigned P n c ∧ n.Contains w x ∧ ∀ n' c', Assigned P n' c' → n'.Contains w x → n'.len ≤ n.len ∧ (n'.len = n.len → c' = c)) ∨
       ((∀ n' c', Assigned P n' c' → ¬ n'.Contains w x) ∧
        ((Ident.default, c) ∈ P.idents ∨ ((∀ c', (Ident.default, c') ∉ P.idents) ∧ c = 0)))) := by
  obtain ⟨hs, hne, _⟩ := parseLimits_ok hE h
  obtain ⟨hw, hx⟩ := addressOf_some ha
  have h8 : 8 * (w / 8) = w := by omega
  -- what an assigned network is like
  have hnet : ∀ n c, Assigned P n c → 1 ≤ n.len ∧ n.len ≤ n.width ∧ n.base % 2 ^ (n.width - n.len) = 0 := by
    intro n c hn
    have hk := (hs.ids _ hn.1).2
    dsimp only at hk
    generalize hkk : n.key = kk at hk
    cases hk with
    | default => cases hkk
    | user => cases hkk
    | network m m1 m2 m3 m4 m5 =>
      unfold Network.key at hkk
      injection hkk with e1 e2 e3
      have hwm : n.width = m.width := by have := hn.2.1; omega
      rw [e1] at e3
      have e4 := congrArg beDec (List.append_inj_left e3 (by simp))
      have hm8 : 8 * (m.width / 8) = m.width := by omega
      rw [beDec_beEnc, beDec_beEnc, pow256, hm8, Nat.mod_eq_of_lt (by rw [← hwm]; exact hn.2.2), Nat.mod_eq_of_lt m4] at e4
      rw [hwm, e2, e4]
      exact ⟨m2, m3, m5⟩
  have hkey : ∀ n c, Assigned P n c → n.Contains w x → n.key = netKey (w / 8) n.len x ∧ fetchIdent P.idents (netKey (w / 8) n.len x) = some c := by
    intro n c hn hc
    obtain ⟨g1, g2, g3⟩ := hnet n c hn
    have := (netKey_contains hw hx hn.2.2 g3 hn.2.1).2 hc
    exact ⟨this, by rw [← this]; exact fetchIdent_of_mem hs.keys hn.1⟩
  have hspec := matchNet_spec P.idents (w / 8) x (by rw [h8]; exact hx) (8 * (w / 8)) (Nat.le_refl _) x (.inl ⟨rfl, rfl⟩)
  unfold nodeFromAddr
  rw [addrKey_eq, ha, Option.map_some]
  dsimp only
  rw [Nat.mul_comm (w / 8) 8]
  cases hm : matchNet P.idents (w / 8) (8 * (w / 8)) (beEnc (w / 8) x ++ zeros (16 - w / 8)) with
  | some c =>
    rw [hm] at hspec
    obtain ⟨k, h1, h2, h3, h4⟩ := hspec
    have hmem := fetchIdent_some_mem h3
    refine ⟨c, rfl, (hs.ids _ hmem).1, .inl ⟨⟨w, k, masked (w / 8) k x⟩, ⟨hmem, hw, ?_⟩, ⟨rfl, ?_⟩, fun n' c' ha' hc' => ?_⟩⟩
    · have := masked_lt (size := w / 8) (x := x) k (by rw [h8]; exact hx)
      rw [h8] at this; exact this
    · dsimp only
      unfold masked
      rw [h8, Nat.mul_div_cancel _ (Nat.two_pow_pos _)]
    · obtain ⟨g1, g2⟩ := hkey n' c' ha' hc'
      obtain ⟨g3, g4, _⟩ := hnet n' c' ha'
      dsimp only
      have hle : n'.len ≤ k := by
        refine Nat.le_of_not_lt fun hlt => ?_
        have := h4 n'.len hlt (by rw [h8, ← hc'.1]; exact g4)
        rw [g2] at this; cases this
      refine ⟨hle, fun he => ?_⟩
      rw [he, h3] at g2
      exact (Option.some.inj g2).symm
  | none =>
    rw [hm] at hspec
    have hno : ∀ n' c', Assigned P n' c' → ¬ n'.Contains w x := by
      intro n' c' ha' hc'
      obtain ⟨g1, g2⟩ := hkey n' c' ha' hc'
      obtain ⟨g3, g4, _⟩ := hnet n' c' ha'
      have := hspec n'.len g3 (by rw [h8, ← hc'.1]; exact g4)
      rw [g2] at this; cases this
    dsimp only
    unfold nodeDefault
    cases hd : fetchIdent P.idents .default with
    | some c =>
      have := fetchIdent_some_mem hd
      exact ⟨c, rfl, (hs.ids _ this).1, .inr ⟨hno, .inl this⟩⟩
    | none =>
      dsimp only
      rw [if_neg hne]
      refine ⟨0, rfl, ?_, .inr ⟨hno, .inr ⟨fun c' hc' => ?_, rfl⟩⟩⟩
      · exact List.length_pos_iff.2 hne
      · rw [fetchIdent_of_mem hs.keys hc'] at hd; cases hd

/-! ## C43 -/

/-- C43: a user whose name field is filled up with zeros and for whom there is an `assign user` line gets the class of that
line, if no class is named like the user. What is missing: see `C43_named` and `C43_padding`. -/
theorem C43_user_partial (num : Bytes → Option U64) (E : AssignEnv) (hE : AddrSizes E) (lines : List Bytes) (P : Policy)
    (h : parseLimits num E lines = .ok P) (name : Bytes) (h0 : 0#8 ∉ name) (hl : name.length ≤ 80) (c : Nat)
    (hc : ((Who.user name).key, c) ∈ P.idents) (hno : ∀ n ∈ P.nodes, n.name ≠ name) (sa : SockAddr) :
    controlClass P true (some (name ++ zeros (80 - name.length))) sa = some c := by
  obtain ⟨hs, _⟩ := parseLimits_ok hE h
  unfold controlClass
  have hcs : cstr (name ++ zeros (80 - name.length)) = name := by
    rw [cstr_append _ _ (fun x hx hxx => h0 (hxx ▸ hx)), cstr_zeros, List.append_nil]
  simp only [if_true]
  rw [hcs, findClass_none.2 hno]
  dsimp only
  unfold nodeFromUser
  have hlen : (name ++ zeros (80 - name.length)).length = 80 := by simp; omega
  have : (name ++ zeros (80 - name.length)) ++ zeros (81 - (name ++ zeros (80 - name.length)).length) =
      name ++ List.replicate (81 - name.length) 0 := by
    rw [hlen, List.append_assoc]
    congr 1
    unfold zeros
    rw [List.replicate_append_replicate]
    congr 1; omega
  rw [this, show fetchIdent P.idents (.user (name ++ List.replicate (81 - name.length) 0)) = some c from fetchIdent_of_mem hs.keys hc]

/-- C43: without authentication the class is that of the address. -/
theorem C43_open (P : Policy) (userid : Option Bytes) (sa : SockAddr) : controlClass P false userid sa = nodeFromAddr P sa := rfl

/-! ## Files for examples, and files on which C42 and C43 fail -/

/-- Decimal numbers. -/
def decimal (s : Bytes) : Option Nat :=
  if s = [] ∨ s.any (fun b => decide (b < 48#8) || decide (57#8 < b)) then none
  else some (s.foldl (fun a b => 10 * a + (b.toNat - 48)) 0)

def fileNum (s : Bytes) : Option U64 := (decimal s).map (BitVec.ofNat 64)

def tenNet : Bytes := text ['1', '0', '.', '0', '.', '0', '.', '0']
def tenOneNet : Bytes := text ['1', '0', '.', '1', '.', '0', '.', '0']
def mappedNet : Bytes := text [':', ':', 'f', 'f', 'f', 'f', ':', '0', ':', '0']
def bob : Bytes := text ['b', 'o', 'b']

/-- Knows three addresses and one user. -/
def fileEnv : AssignEnv where
  refuseDup := false
  getaddr s := if s = tenNet then some [10, 0, 0, 0] else if s = tenOneNet then some [10, 1, 0, 0]
    else if s = mappedNet then some (beEnc 16 0xffff00000000) else none
  strtoul := decimal
  known s := s = bob

theorem fileEnv_sizes : AddrSizes fileEnv := by
  intro s a h
  dsimp only [fileEnv] at h
  split at h
  · cases h; exact .inl rfl
  · split at h
    · cases h; exact .inl rfl
    · split at h
      · cases h; exact .inr rfl
      · cases h

def lineRoot : Bytes := text ['l', 'i', 'm', 'i', 't', ' ', 'r', 'o', 'o', 't', ' ', 'w', 'i', 't', 'h', ' ', 'd', 'i', 's', 'k', '=', '9', '0', ',',
  ' ', 'b', 'a', 'n', 'd', 'w', 'i', 'd', 't', 'h', '=', '7', '0']
def lineJail : Bytes := text ['l', 'i', 'm', 'i', 't', ' ', 'j', 'a', 'i', 'l', ' ', 'w', 'i', 't', 'h', ' ', 'p', 'a', 'r', 'e', 'n', 't', '=', 'r', 'o',
  'o', 't', ',', ' ', 'd', 'i', 's', 'k', '=', '5']
def lineBob : Bytes := text ['l', 'i', 'm', 'i', 't', ' ', 'b', 'o', 'b', ' ', 'w', 'i', 't', 'h', ' ', 'p', 'a', 'r', 'e', 'n', 't', '=', 'r', 'o', 'o',
  't', ',', ' ', 'd', 'e', 'l', 'e', 't', 'e', '_', 'o', 'n', '_', 'f', 'e', 't', 'c', 'h', '=', 'o', 'n']
def lineBare : Bytes := text ['l', 'i', 'm', 'i', 't', ' ', 'j', 'a', 'i', 'l', ' ', 'w', 'i', 't', 'h', ' ', 'd', 'i', 's', 'k']
def assignTen : Bytes := text ['a', 's', 's', 'i', 'g', 'n', ' ', 'n', 'e', 't', ' ', '1', '0', '.', '0', '.', '0', '.', '0', '/', '8', ' ', 'j', 'a', 'i', 'l']
def assignTenOne : Bytes := text ['a', 's', 's', 'i', 'g', 'n', ' ', 'n', 'e', 't', ' ', '1', '0', '.', '1', '.', '0', '.', '0', '/', '1', '6', ' ', 'b', 'o', 'b']
def assignMapped : Bytes := text ['a', 's', 's', 'i', 'g', 'n', ' ', 'n', 'e', 't', ' ', ':', ':', 'f', 'f', 'f', 'f', ':', '0', ':', '0', '/', '9', '6', ' ', 'j', 'a', 'i', 'l']
def assignBob : Bytes := text ['a', 's', 's', 'i', 'g', 'n', ' ', 'u', 's', 'e', 'r', ' ', 'b', 'o', 'b', ' ', 'j', 'a', 'i', 'l']

/-- The policy of a file, if it is accepted. -/
def policyOf (lines : List Bytes) : Option Policy :=
  match parseLimits fileNum fileEnv lines with
  | .ok P => some P
  | _ => none

theorem policyOf_some {lines : List Bytes} {P : Policy} (h : policyOf lines = some P) : parseLimits fileNum fileEnv lines = .ok P := by
  unfold policyOf at h
  split at h
  · cases h; assumption
  · cases h

def rootNode : Node := ⟨text ['r', 'o', 'o', 't'], none, [⟨limDisk, 90, 0⟩, ⟨limBandwidth, 70, 0⟩]⟩
def jailNode : Node := ⟨text ['j', 'a', 'i', 'l'], some 0, [⟨limDisk, 5, 0⟩, ⟨limBandwidth, 70, 0⟩]⟩
def bobNode : Node := ⟨bob, some 0, [⟨limDeleteOnFetch, 1, 0⟩, ⟨limDisk, 90, 0⟩, ⟨limBandwidth, 70, 0⟩]⟩

/-- A file with three classes and two nested networks. -/
def netFile : List Bytes := [lineRoot, lineJail, lineBob, assignTen, assignTenOne]

theorem netFile_policy : policyOf netFile = some ⟨[rootNode, jailNode, bobNode],
    [(.net 4 16 ([10, 1, 0, 0] ++ zeros 12), 2), (.net 4 8 ([10, 0, 0, 0] ++ zeros 12), 1)]⟩ := by decide +kernel

/-- Non-vacuity of C41: the class `jail` has its own limit on disk and its parent's on bandwidth, `bob` both of its parent. -/
example : ∃ P, parseLimits fileNum fileEnv netFile = .ok P ∧ P.nodes.length = 3 ∧ getLimit jailNode limDisk = 5 ∧
    getLimit jailNode limBandwidth = 70 ∧ P.nodes[1]? = some jailNode :=
  ⟨_, policyOf_some netFile_policy, by decide +kernel, by decide, by decide, rfl⟩

/-- Files that C41 has refused: a name used twice, an unknown parent, no parent, a limit set twice. -/
example : parseLimits fileNum fileEnv [lineRoot, lineJail, lineJail] = .refused ∧
    parseLimits fileNum fileEnv [lineRoot, text ['l', 'i', 'm', 'i', 't', ' ', 'j', ' ', 'w', 'i', 't', 'h', ' ', 'p', 'a', 'r', 'e', 'n', 't', '=', 'x']] = .refused ∧
    parseLimits fileNum fileEnv [lineRoot, text ['l', 'i', 'm', 'i', 't', ' ', 'j', ' ', 'w', 'i', 't', 'h', ' ', 'd', 'i', 's', 'k', '=', '1']] = .refused ∧
    parseLimits fileNum fileEnv [text ['l', 'i', 'm', 'i', 't', ' ', 'j', ' ', 'w', 'i', 't', 'h', ' ', 'd', 'i', 's', 'k', '=', '1', ',', 'd', 'i', 's', 'k',
      '=', '2']] = .refused := by decide +kernel

/-- Non-vacuity of C42: with 10.0.0.0/8 and 10.1.0.0/16 assigned, 10.1.2.3 (also mapped into an IPv6 address) is in the class
of the second, 10.2.2.3 in that of the first, 11.1.2.3 in the first class. -/
example : ∃ P, parseLimits fileNum fileEnv netFile = .ok P ∧ nodeFromAddr P (.v4 0x0a010203 0) = some 2 ∧
    nodeFromAddr P (.v6 0xffff0a010203 0 0) = some 2 ∧ nodeFromAddr P (.v4 0x0a020203 0) = some 1 ∧
    nodeFromAddr P (.v4 0x0b010203 0) = some 0 :=
  ⟨_, policyOf_some netFile_policy, by decide +kernel, by decide +kernel, by decide +kernel, by decide +kernel⟩

/-- A file that puts the IPv4 addresses mapped into IPv6 addresses in the class `jail`. -/
def mappedFile : List Bytes := [lineRoot, lineJail, assignMapped]

theorem mappedFile_policy : policyOf mappedFile = some ⟨[rootNode, jailNode], [(.net 16 96 (beEnc 16 0xffff00000000), 1)]⟩ := by
  decide +kernel

/-- C42 is false of IPv6 networks that contain mapped IPv4 addresses: with ::ffff:0:0/96 assigned to a class, the client
::ffff:1.2.3.4 is not put in it. -/
theorem C42_mapped : ∃ P n, parseLimits fileNum fileEnv mappedFile = .ok P ∧ Assigned P n 1 ∧ n = ⟨128, 96, 0xffff00000000⟩ ∧
    n.Contains 128 (0xffff01020304#128).toNat ∧ nodeFromAddr P (.v6 0xffff01020304 0 0) = some 0 :=
  ⟨_, ⟨128, 96, 0xffff00000000⟩, policyOf_some mappedFile_policy, ⟨by decide +kernel, by decide +kernel, by decide +kernel⟩, rfl,
    ⟨rfl, by decide +kernel⟩, by decide +kernel⟩

/-- A file that puts the user `bob` in the class `jail`. -/
def bobFile : List Bytes := [lineRoot, lineJail, assignBob]

theorem bobFile_policy : policyOf bobFile = some ⟨[rootNode, jailNode], [((Who.user bob).key, 1)]⟩ := by decide +kernel

/-- Non-vacuity of `C43_user_partial`. -/
example : ∃ P, parseLimits fileNum fileEnv bobFile = .ok P ∧ ((Who.user bob).key, 1) ∈ P.idents ∧ (∀ n ∈ P.nodes, n.name ≠ bob) ∧
    controlClass P true (some (bob ++ zeros 77)) (.v4 0 0) = some 1 :=
  ⟨_, policyOf_some bobFile_policy, by decide +kernel, by decide +kernel, by decide +kernel⟩

/-- C43 is false: a user who sends something after the zero that ends their name is authenticated as that user (the
pass-phrase is looked up by the C string, `Ctl.serverKey`) but is not put in their class. -/
theorem C43_padding : ∃ P field, parseLimits fileNum fileEnv bobFile = .ok P ∧ field.length = 80 ∧ cstr field = bob ∧
    ((Who.user bob).key, 1) ∈ P.idents ∧ controlClass P true (some field) (.v4 0x01020304 0) = some 0 :=
  ⟨_, bob ++ 0 :: 1 :: zeros 75, policyOf_some bobFile_policy, by decide +kernel, by decide +kernel, by decide +kernel, by decide +kernel⟩

/-- A file that has a class named `bob` too. -/
def twoBobs : List Bytes := [lineRoot, lineJail, lineBob, assignBob]

theorem twoBobs_policy : policyOf twoBobs = some ⟨[rootNode, jailNode, bobNode], [((Who.user bob).key, 1)]⟩ := by decide +kernel

/-- C43 is false: a class named like the user comes before the class the user is assigned to. -/
theorem C43_named : ∃ P, parseLimits fileNum fileEnv twoBobs = .ok P ∧ ((Who.user bob).key, 1) ∈ P.idents ∧
    controlClass P true (some (bob ++ zeros 77)) (.v4 0x01020304 0) = some 2 :=
  ⟨_, policyOf_some twoBobs_policy, by decide +kernel, by decide +kernel⟩

/-! ## C61: the parser stays within its memory -/

/-- C61 is false: a setting without white space or equals sign after its name makes the parser run beyond the end of the
line. -/
theorem C61_overrun : parseLimits fileNum fileEnv [lineRoot, lineBare] = .overrun := by decide +kernel

theorem readPiece_equals {p : Bytes} (h : 61#8 ∈ p) : readPiece p ≠ none := by
  have h1 : 61#8 ∈ p.dropWhile isSpace := by
    have hsp := takeWhile_all isSpace p
    rw [← List.takeWhile_append_dropWhile (p := isSpace) (l := p), List.mem_append] at h
    exact h.resolve_left fun hh => absurd (hsp _ hh) (by decide)
  unfold readPiece
  dsimp only
  split
  · rename_i hd
    have h2 := takeWhile_all (fun b => !isSpace b && !isEquals b) (p.dropWhile isSpace)
    rw [← List.takeWhile_append_dropWhile (p := fun b => !isSpace b && !isEquals b) (l := p.dropWhile isSpace), hd, List.append_nil] at h1
    exact absurd (h2 _ h1) (by decide)
  · intro hh; cases hh

theorem addPieces_overrun {num : Bytes → Option U64} {t : Tree} {ps : List Bytes} (h : ∀ p ∈ ps, 61#8 ∈ p) (d : Draft) :
    addPieces num t d ps ≠ .overrun := by
  induction ps generalizing d with
  | nil => intro hh; cases hh
  | cons p ps ih =>
    unfold addPieces
    intro hh
    split at hh
    · exact ih (fun q hq => h q (List.mem_cons_of_mem _ hq)) _ hh
    · cases hh
    · rename_i hx
      unfold addPiece at hx
      split at hx
      · cases hx
      · split at hx
        · rename_i hr; exact readPiece_equals (h p List.mem_cons_self) hr
        · split at hx
          · split at hx
            · cases hx
            · split at hx
              · cases hx
              · split at hx <;> cases hx
          · split at hx
            · cases hx
            · unfold setLimit at hx
              split at hx
              · cases hx
              · split at hx
                · split at hx <;> cases hx
                · split at hx
                  · cases hx
                  · split at hx <;> cases hx

theorem parseNet_overrun (E : AssignEnv) (s : Bytes) : parseNet E s ≠ .overrun := by
  unfold parseNet
  dsimp only
  generalize (if s.any (· = 47#8) then some ((s.dropWhile (· ≠ 47#8)).drop 1) else none) = mask
  intro h
  by_cases hm : mask = some []
  · rw [if_pos hm] at h; cases h
  · rw [if_neg hm] at h
    split at h
    · cases h
    · split at h
      · cases h
      · rename_i a _ _ len _
        cases ht : tailClear len a with
        | true => rw [if_pos ht] at h; cases h
        | false => rw [if_neg (by rw [ht]; exact Bool.false_ne_true)] at h; cases h

theorem parseAssignLine_overrun (E : AssignEnv) (P : Policy) (line : Bytes) : parseAssignLine E P line ≠ .overrun := by
  unfold parseAssignLine
  intro h
  split at h
  · cases h
  · rename_i hx
    unfold parseIdent at hx
    split at hx
    · cases hx
    · split at hx
      · split at hx <;> cases hx
      · split at hx
        · split at hx
          · cases hx
          · split at hx
            · cases hx
            · cases hx
            · rename_i hn; exact parseNet_overrun E _ hn
        · split at hx
          · split at hx
            · cases hx
            · split at hx <;> cases hx
          · cases hx
  · split at h
    · cases h
    · split at h
      · cases h
      · split at h
        · cases h
        · cases h
        · rename_i hs
          unfold storeIdent at hs
          split at hs
          · split at hs <;> cases hs
          · cases hs

/-- C61: a file in which every comma-separated part of a text after a word `with` contains an equals sign is parsed without
running over the end of a line. What is missing: other files, see `C61_overrun`. -/
theorem C61_lines_partial (num : Bytes → Option U64) (E : AssignEnv) (lines : List Bytes)
    (hw : ∀ line ∈ lines, ∀ before w rest, line = before ++ (w ++ rest) → SameWord w (text ['w', 'i', 't', 'h']) →
      ∀ part ∈ fields (· = 44#8) (rest.drop 1), 61#8 ∈ part) : parseLimits num E lines ≠ .overrun := by
  have hline : ∀ line ∈ lines, ∀ P, parseLine num E P line ≠ .overrun := by
    intro line hl P h
    unfold parseLine at h
    split at h
    · split at h
      · cases h
      · cases h
      · rename_i hp
        unfold parseLimitLine at hp
        split at hp
        · cases hp
        · rename_i cname rest e1
          split at hp
          · cases hp
          · split at hp
            · cases hp
            · split at hp
              · cases hp
              · rename_i w rest' e2
                split at hp
                · cases hp
                · rename_i hwith
                  split at hp
                  · unfold finishClass at hp
                    split at hp
                    · split at hp <;> cases hp
                    · split at hp <;> cases hp
                  · cases hp
                  · rename_i ha
                    obtain ⟨ws1, t1, h1, _, _, _, _, r1⟩ := strtok_some.1 e1
                    obtain ⟨ws2, t2, h2, _, _, _, _, r2⟩ := strtok_some.1 e2
                    refine addPieces_overrun (fun p hpp => ?_) _ ha
                    rw [pieces_eq, r2] at hpp
                    have hdrop := List.takeWhile_append_dropWhile (p := isSpace) (l := line.drop 5)
                    rw [h1] at hdrop
                    have ht1 : t1 = t1.take 1 ++ (ws2 ++ (w ++ t2)) := by rw [← h2, r1, List.take_append_drop]
                    refine hw line hl (line.take 5 ++ ((line.drop 5).takeWhile isSpace ++ (ws1 ++ (cname ++ (t1.take 1 ++ ws2))))) w t2 ?_
                      ((eqNoCase_iff _ _).1 (Decidable.not_not.1 hwith)) p hpp
                    refine (List.take_append_drop 5 line).symm.trans ?_
                    simp only [List.append_assoc]
                    rw [← ht1, hdrop]
    · split at h
      · exact parseAssignLine_overrun E P _ h
      · cases h
  have hlines : ∀ ls, (∀ l ∈ ls, l ∈ lines) → ∀ P, parseLines num E P ls ≠ .overrun := by
    intro ls
    induction ls with
    | nil => intro _ P h; cases h
    | cons l ls ih =>
      intro hs P h
      unfold parseLines at h
      split at h
      · exact ih (fun x hx => hs x (List.mem_cons_of_mem _ hx)) _ h
      · cases h
      · rename_i hl; exact hline l (hs l List.mem_cons_self) P hl
  intro h
  unfold parseLimits at h
  split at h
  · split at h
    · rw [default_line] at h; cases h
    · cases h
  · cases h
  · rename_i hl; exact hlines lines (fun _ hx => hx) _ hl

/-- C61: no class gets more limits than there are kinds, so the arrays of five entries (policy.c:643-658, 374-387) are large
enough. -/
theorem C61_capacity (num : Bytes → Option U64) (E : AssignEnv) (hE : AddrSizes E) (lines : List Bytes) (P : Policy)
    (h : parseLimits num E lines = .ok P) : ∀ n ∈ P.nodes, n.lims.length ≤ 5 := by
  intro n hn
  obtain ⟨hs, _⟩ := parseLimits_ok hE h
  have hsub : n.lims.map (·.limit) ⊆ [1#32, 3#32, 4#32, 5#32, 6#32] := by
    intro l hl
    obtain ⟨e, he, rfl⟩ := List.mem_map.1 hl
    exact hs.known n hn e he
  have := (List.Nodup.subperm (hs.distinct n hn) hsub).length_le
  simpa using this

/-- Non-vacuity of `C61_lines_partial`. -/
example : ∀ before w rest, lineJail = before ++ (w ++ rest) → SameWord w (text ['w', 'i', 't', 'h']) →
      ∀ part ∈ fields (· = 44#8) (rest.drop 1), 61#8 ∈ part := by
  intro before w rest h hw
  have h1 : w.length = 4 := by
    have := congrArg List.length hw
    simpa [caseless, text] using this
  have key : ∀ k : Fin 40, SameWord ((lineJail.drop k).take 4) (text ['w', 'i', 't', 'h']) →
      ∀ part ∈ fields (· = 44#8) ((lineJail.drop (k + 4)).drop 1), 61#8 ∈ part := by
    unfold SameWord; decide +kernel
  have hk : before.length < 40 := by
    have := congrArg List.length h
    have h35 : lineJail.length = 35 := by decide
    simp only [List.length_append] at this; omega
  have e1 : lineJail.drop before.length = w ++ rest := by rw [h, List.drop_left]
  have e2 : (lineJail.drop before.length).take 4 = w := by rw [e1, ← h1, List.take_left]
  have e3 : lineJail.drop (before.length + 4) = rest := by rw [← List.drop_drop, e1, ← h1, List.drop_left]
  have := key ⟨before.length, hk⟩
  dsimp only at this
  rw [e2, e3] at this
  exact this hw

end Owamp.Props
