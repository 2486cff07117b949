import Verif.Lemmas.Restart
import Verif.Props.Classes
/-!
# C80: the session files of a server that is started again
-/
namespace Owamp.Props
open Owamp.Policy Owamp.Spec.Restart Owamp.Spec.Limits

/-- The classes of a limits file meet the conditions of C80, and nothing is charged to them yet. -/
theorem C80_classes (num : Bytes → Option U64) (E : AssignEnv) (hE : AddrSizes E) (lines : List Bytes) (P : Policy)
    (h : parseLimits num E lines = .ok P) : Classes P.nodes ∧ Unused P.nodes := by
  obtain ⟨hs, hne, _⟩ := parseLimits_ok hE h
  refine ⟨⟨fun c p hp => ?_, fun c => ⟨fun hr => ?_, ?_⟩, ?_⟩, (C41_wellFormed num E hE lines P h).2⟩
  · obtain ⟨n, h1, h2⟩ := hp
    exact hs.before c n p h1 h2
  · obtain ⟨n, h1, h2⟩ := hr
    exact ⟨hs.root c n h1 h2, hne⟩
  · rintro ⟨rfl, _⟩
    have hl : 0 < P.nodes.length := List.length_pos_iff.2 hne
    refine ⟨P.nodes[0], List.getElem?_eq_getElem hl, ?_⟩
    cases hp : (P.nodes[0]).parent with
    | none => rfl
    | some p => exact absurd (hs.before 0 _ p (List.getElem?_eq_getElem hl) hp) (by omega)
  · rintro c d name ⟨n, h1, rfl⟩ ⟨m, h2, e⟩
    obtain ⟨hc, h1⟩ := List.getElem?_eq_some_iff.1 h1
    obtain ⟨hd, h2⟩ := List.getElem?_eq_some_iff.1 h2
    have := hs.names
    refine (List.Nodup.getElem_inj_iff this (i := c) (j := d) (hi := by simpa using hc) (hj := by simpa using hd)).1 ?_
    rw [List.getElem_map, List.getElem_map, h1, h2, e]

theorem charge_unused {t : Tree} (h : Unused t) (c : Nat) : charge t c = none ∨ charge t c = some 0 := by
  unfold charge
  cases he : entry t c limDisk with
  | none => exact Or.inl rfl
  | some e =>
    dsimp only
    split
    · exact Or.inl rfl
    · rw [h c limDisk e he]; exact Or.inr rfl

/-- C80: after a start that succeeds, a class with a limit on disk space is charged the sizes of the session files in its directory and in those of its subclasses, together, no
other counter and no limit has changed. -/
theorem C80_charge (hex : Bytes → Bool) (t : Tree) (C : Classes t) (hu : Unused t) (d : Dir) (hd : Distinct d) (s : Boot) (h : boot hex t d = some s) :
    (∀ c, charge s.nodes c = (charge t c).map fun _ => BitVec.ofNat 64 (total (CountsFor hex t c) (files [] d))) ∧ SameButDisk s.nodes t := by
  obtain ⟨_, _, h3, _, h5⟩ := bootDir_spec C d 1 none [] _ s (Or.inl ⟨rfl, rfl, rfl⟩) hd (fun c _ => ⟨rfl, charge_unused hu c⟩) h
  refine ⟨fun c => ?_, h5⟩
  rw [h3 c]
  dsimp only
  split
  · rfl
  · rename_i hv
    have hz : total (CountsFor hex t c) (files [] d) = 0 := by
      refine total_zero fun f hf ⟨k, ⟨_, hk⟩, hkc⟩ => hv ?_
      rcases files_sub hf with e | ⟨n, hn, hpre⟩
      · rw [e] at hk; exact absurd rfl (home_ne_nil hk)
      · obtain ⟨p, hp, hpp⟩ := under_prefix hkc hk
        obtain ⟨a, ha, hka⟩ := home_prefix hk hpre (by simp)
        refine ⟨n, hn, a, ha, (under_iff C hp ha).2 ?_⟩
        have hpne := home_ne_nil hp
        obtain ⟨u, hu⟩ := hpre
        obtain ⟨v, hv⟩ := hpp
        cases p with
        | nil => exact absurd rfl hpne
        | cons x p' =>
          rw [← hu] at hv
          simp only [List.nil_append, List.cons_append, List.cons.injEq] at hv
          exact ⟨p', by rw [hv.1]; rfl⟩
    rw [hz]
    rcases charge_unused hu c with e | e <;> rw [e] <;> rfl

/-- C80: after a start that succeeds the catalog has a link for every session file in the directory of a class, to that file, and no other; no two have the same name. -/
theorem C80_catalog (hex : Bytes → Bool) (t : Tree) (C : Classes t) (d : Dir) (s : Boot) (h : boot hex t d = some s) :
    (∀ name path, (name, path) ∈ s.catalog ↔ ∃ f ∈ files [] d, (∃ k, Recorded hex t f k) ∧ name = f.name ∧ path = f.path ++ [f.name]) ∧
    (s.catalog.map (·.1)).Nodup := by
  have hc := bootDir_catalog C d 1 none [] _ s (Or.inl ⟨rfl, rfl, rfl⟩) h
  have hn := ((bootDir_ok C d 1 none [] ⟨fun _ => 0, t, []⟩ (Or.inl ⟨rfl, rfl, rfl⟩) List.nodup_nil).1 ⟨s, h⟩).2
  dsimp only at hc hn
  rw [List.nil_append] at hc
  rw [hc]
  refine ⟨fun name path => ?_, by rw [List.map_map]; exact hn⟩
  rw [List.mem_map]
  unfold kept linkOf
  simp only [List.mem_filter, decide_eq_true_eq, Prod.mk.injEq]
  constructor
  · rintro ⟨f, ⟨h1, h2⟩, h3, h4⟩; exact ⟨f, h1, h2, h3.symm, h4.symm⟩
  · rintro ⟨f, h1, h2, h3, h4⟩; exact ⟨f, ⟨h1, h2⟩, h3.symm, h4.symm⟩

/-- C80: the server starts if and only if no directory named after a class, at the top or in the directory of a class, is in the place of another class, and no two session files
in the directories of classes have the same name. -/
theorem C80_starts (hex : Bytes → Bool) (t : Tree) (C : Classes t) (d : Dir) :
    (∃ s, boot hex t d = some s) ↔ InPlace t d ∧ ((kept hex t (files [] d)).map (·.name)).Nodup :=
  bootDir_ok C d 1 none [] ⟨fun _ => 0, t, []⟩ (Or.inl ⟨rfl, rfl, rfl⟩) List.nodup_nil

/-- A path below the data directory, as text. -/
def pathText (path : List Bytes) : Bytes := path.flatMap fun n => 47#8 :: n

/-- C80: a session file is put into the directory of the class of its connection, under a name that is taken for that of a session file. -/
theorem C80_place (hex : Bytes → Bool) (datadir : Bytes) (t : Tree) (C : Classes t) (c : Nat) (hc : c < t.length) (sid : Bytes) (hl : sid.length = 32) (hh : hex sid = true) :
    ∃ path name, Home t c path ∧ SessionFile hex name ∧
      filePath datadir t c sid = datadir ++ pathText (text ['h', 'i', 'e', 'r', 'a', 'r', 'c', 'h', 'y'] :: path ++ [name]) := by
  refine ⟨nodeDir t c, sid ++ fileExt, nodeDir_home C c _ (List.getElem?_eq_getElem hc), ⟨sid, hl, hh, rfl⟩, ?_⟩
  unfold filePath pathText slash
  simp [List.flatMap_append, List.append_assoc]

/-- C80: a file that is fetched is taken for one of the class that has recorded it. Missing: class names with a `/` (see `C80_slash`). -/
theorem C80_fetch_partial (datadir : Bytes) (t : Tree) (C : Classes t) (hn : ∀ n ∈ t, 47#8 ∉ n.name) (c : Nat) (hc : c < t.length) (sid : Bytes)
    (hl : sid.length = 32) : fetchClass t (filePath datadir t c sid) = some c := by
  obtain ⟨q, n, hq, hname⟩ := home_name (nodeDir_home C c _ (List.getElem?_eq_getElem hc))
  have hext : fileExt.length = 4 := rfl
  have hf : filePath datadir t c sid = (datadir ++ slash :: text ['h', 'i', 'e', 'r', 'a', 'r', 'c', 'h', 'y'] ++ q.flatMap (fun n => slash :: n) ++ slash :: n) ++ (slash :: (sid ++ fileExt)) := by
    unfold filePath
    rw [hq]
    simp [List.flatMap_append, List.append_assoc]
  have hlen : (slash :: (sid ++ fileExt)).length = 1 + 16 * 2 + fileExt.length := by simp [hl, hext]
  rw [hf]
  unfold fetchClass
  generalize hX : datadir ++ slash :: text ['h', 'i', 'e', 'r', 'a', 'r', 'c', 'h', 'y'] ++ q.flatMap (fun n => slash :: n) = X
  have hX0 : 0 < X.length := by rw [← hX]; simp; omega
  rw [if_neg (by rw [List.length_append, hlen]; omega)]
  dsimp only
  have ht : ((X ++ slash :: n) ++ (slash :: (sid ++ fileExt))).take (((X ++ slash :: n) ++ (slash :: (sid ++ fileExt))).length - (1 + 16 * 2 + fileExt.length)) = X ++ slash :: n := by
    rw [List.length_append, hlen, Nat.add_sub_cancel, List.take_left']
    rfl
  rw [ht]
  obtain ⟨m, hm1, hm2⟩ := hname
  have hns : ∀ x ∈ n.reverse, decide (x ≠ slash) = true := by
    intro x hx
    have := hn m (List.mem_of_getElem? hm1)
    rw [hm2] at this
    simp only [decide_eq_true_eq]
    rintro rfl
    exact this (List.mem_reverse.1 hx)
  have hd : ((X ++ slash :: n).reverse.takeWhile fun b => decide (b ≠ slash)).reverse = n := by
    rw [List.reverse_append, List.reverse_cons, List.append_assoc]
    rw [(takeWhile_split (fun b => decide (b ≠ slash)) n.reverse ([slash] ++ X.reverse) hns (by simp)).1, List.reverse_reverse]
  rw [hd, if_pos (by simp; omega)]
  cases hfc : findClass t n with
  | none => exact absurd hm2 (findClass_none.1 hfc m (List.mem_of_getElem? hm1))
  | some k =>
    obtain ⟨m', h1, h2, _⟩ := findClass_some hfc
    rw [C.names c k n ⟨m, hm1, hm2⟩ ⟨m', h1, h2⟩]

/-! ## Examples -/

/-- `I2HexDecode` succeeds on 32 hexadecimal digits. -/
def hexDigits (s : Bytes) : Bool := s.all fun b => (48#8 ≤ b ∧ b ≤ 57#8) ∨ (97#8 ≤ b ∧ b ≤ 102#8) ∨ (65#8 ≤ b ∧ b ≤ 70#8)

/-- A session file's name with the digit `b`. -/
def owpName (b : Byte) : Bytes := List.replicate 32 b ++ text ['.', 'o', 'w', 'p']

def keptClasses : Tree := [rootNode, jailNode, bobNode]

/-- The directory `hierarchy`: a session file of `root` with 1000 bytes, one of `jail` with 300, a file that is none, and a directory that belongs to no class. -/
def keptDir : Dir :=
  .sub (text ['r', 'o', 'o', 't'])
    (.file (owpName 49#8) 1000 (.sub (text ['j', 'a', 'i', 'l']) (.file (owpName 50#8) 300 (.file (text ['x']) 7 .nil))
      (.sub (text ['o', 'l', 'd']) (.file (owpName 51#8) 50 .nil) .nil))) .nil

theorem keptClasses_ok : Classes keptClasses ∧ Unused keptClasses :=
  C80_classes fileNum fileEnv fileEnv_sizes netFile _ (policyOf_some netFile_policy)

/-- Non-vacuity of C80: `root` is charged 1300 bytes, `jail` 300, `bob` none; the catalog has two links. -/
example : Classes keptClasses ∧ Unused keptClasses ∧ Distinct keptDir ∧ ∃ s, boot hexDigits keptClasses keptDir = some s ∧
    charge s.nodes 0 = some 1300 ∧ charge s.nodes 1 = some 300 ∧ charge s.nodes 2 = some 0 ∧
    s.catalog = [(owpName 49#8, [text ['r', 'o', 'o', 't'], owpName 49#8]), (owpName 50#8, [text ['r', 'o', 'o', 't'], text ['j', 'a', 'i', 'l'], owpName 50#8])] := by
  refine ⟨keptClasses_ok.1, keptClasses_ok.2, by simp [Distinct, keptDir, subs]; decide, ?_⟩
  refine ⟨_, rfl, by decide +kernel, by decide +kernel, by decide +kernel, by decide +kernel⟩

/-- The server does not start when `jail` is found in `bob`, or when a name is there twice. -/
example : (boot hexDigits keptClasses (.sub (text ['r', 'o', 'o', 't']) (.sub bob (.sub (text ['j', 'a', 'i', 'l']) .nil .nil) .nil) .nil)).isNone = true ∧
    (boot hexDigits keptClasses (.sub (text ['r', 'o', 'o', 't']) (.file (owpName 49#8) 1 (.sub bob (.file (owpName 49#8) 1 .nil) .nil)) .nil)).isNone = true := by decide +kernel

/-- The class of a file of `jail` is found again. -/
example : fetchClass keptClasses (filePath (text ['/', 'd']) keptClasses 1 (List.replicate 32 49#8)) = some 1 :=
  C80_fetch_partial _ _ keptClasses_ok.1 (by decide +kernel) 1 (by decide) _ (by decide)

/-- A limits file in which a class is named `jail/x`. -/
def slashFile : List Bytes := [lineRoot, lineJail, text ['l', 'i', 'm', 'i', 't', ' ', 'j', 'a', 'i', 'l', '/', 'x', ' ', 'w', 'i', 't', 'h', ' ', 'p', 'a', 'r', 'e', 'n', 't', '=', 'r', 'o', 'o', 't']]

def slashNode : Node := ⟨text ['j', 'a', 'i', 'l', '/', 'x'], some 0, [⟨limDisk, 90, 0⟩, ⟨limBandwidth, 70, 0⟩]⟩

theorem slashFile_policy : policyOf slashFile = some ⟨[rootNode, jailNode, slashNode], []⟩ := by decide +kernel

/-- C80 fails for a class whose name has a `/`: the limits file is accepted; when there is a directory for the class `jail`, the session files of `jail/x` go into the directory `x`
in it; after a restart they are charged to no class and not in the catalog, and when one is fetched before that, no class is found. -/
theorem C80_slash : ∃ P, parseLimits fileNum fileEnv slashFile = .ok P ∧
    filePath [] P.nodes 2 (List.replicate 32 49#8) = pathText [text ['h', 'i', 'e', 'r', 'a', 'r', 'c', 'h', 'y'], text ['r', 'o', 'o', 't'], text ['j', 'a', 'i', 'l'], text ['x'], owpName 49#8] ∧
    (∃ s, boot hexDigits P.nodes (.sub (text ['r', 'o', 'o', 't']) (.sub (text ['j', 'a', 'i', 'l']) (.sub (text ['x']) (.file (owpName 49#8) 60 .nil) .nil) .nil) .nil) = some s ∧
      charge s.nodes 0 = some 0 ∧ charge s.nodes 2 = some 0 ∧ s.catalog = []) ∧
    fetchClass P.nodes (filePath [] P.nodes 2 (List.replicate 32 49#8)) = none :=
  ⟨_, policyOf_some slashFile_policy, by decide +kernel, ⟨_, rfl, by decide +kernel, by decide +kernel, by decide +kernel⟩, by decide +kernel⟩

end Owamp.Props
