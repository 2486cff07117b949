import Verif.Model.Restart
import Verif.Spec.Limits
/-!
# Vocabulary for the session files of a server that is started again

`Dir` (the contents of a directory) and `Tree` (the classes) come from the model; everything else is defined here.
-/
namespace Owamp.Spec.Restart
open Owamp.Policy

/-- The class number `c` has this name and this parent. -/
def HasName (t : Tree) (c : Nat) (name : Bytes) : Prop := ∃ n, t[c]? = some n ∧ n.name = name
def HasParent (t : Tree) (c p : Nat) : Prop := ∃ n, t[c]? = some n ∧ n.parent = some p
def IsRoot (t : Tree) (c : Nat) : Prop := ∃ n, t[c]? = some n ∧ n.parent = none

/-- `path` leads to the directory of the class `c`: the names of the classes from the root to `c`. -/
inductive Home (t : Tree) : Nat → List Bytes → Prop
  | root {c : Nat} {name : Bytes} : IsRoot t c → HasName t c name → Home t c [name]
  | child {c p : Nat} {name : Bytes} {path : List Bytes} : HasParent t c p → HasName t c name → Home t p path → Home t c (path ++ [name])

/-- `k` is `c` or one of its subclasses, at any depth. -/
inductive Under (t : Tree) : Nat → Nat → Prop
  | self (c : Nat) : Under t c c
  | up {k p c : Nat} : HasParent t k p → Under t p c → Under t k c

/-- A file: the path of its directory, its name and its size. -/
structure File where
  path : List Bytes
  name : Bytes
  size : Nat
deriving DecidableEq, Repr

/-- All files at and below a directory with contents `d`, whose path is `path`. -/
def files (path : List Bytes) : Dir → List File
  | .nil => []
  | .file n s r => ⟨path, n, s⟩ :: files path r
  | .sub n i r => files (path ++ [n]) i ++ files path r

/-- All directories below it: the path and the name. -/
def dirs (path : List Bytes) : Dir → List (List Bytes × Bytes)
  | .nil => []
  | .file _ _ r => dirs path r
  | .sub n i r => (path, n) :: (dirs (path ++ [n]) i ++ dirs path r)

/-- The names of the directories in a directory. -/
def subs : Dir → List Bytes
  | .nil => []
  | .file _ _ r => subs r
  | .sub n _ r => n :: subs r

/-- No directory has two directories of the same name in it. -/
def Distinct : Dir → Prop
  | .nil => True
  | .file _ _ r => Distinct r
  | .sub n i r => n ∉ subs r ∧ Distinct i ∧ Distinct r

/-- The name of a session file: 32 hexadecimal digits and `.owp`. -/
def SessionFile (hex : Bytes → Bool) (name : Bytes) : Prop := ∃ sid : Bytes, sid.length = 32 ∧ hex sid = true ∧ name = sid ++ text ['.', 'o', 'w', 'p']

/-- A session file that the class `k` has recorded. -/
def Recorded (hex : Bytes → Bool) (t : Tree) (f : File) (k : Nat) : Prop := SessionFile hex f.name ∧ Home t k f.path

/-- A session file that counts for the class `c`: recorded by it or one of its subclasses. -/
def CountsFor (hex : Bytes → Bool) (t : Tree) (c : Nat) (f : File) : Prop := ∃ k, Recorded hex t f k ∧ Under t k c

open Classical in
/-- The sizes of the files for which `P` holds, together. -/
noncomputable def total (P : File → Prop) : List File → Nat
  | [] => 0
  | f :: l => (if P f then f.size else 0) + total P l

open Classical in
/-- The session files in the directories of classes. -/
noncomputable def kept (hex : Bytes → Bool) (t : Tree) (l : List File) : List File := l.filter fun f => decide (∃ k, Recorded hex t f k)

/-- What the class `c` is charged for disk space; `none` if it has no limit for it. -/
def charge (t : Tree) (c : Nat) : Option U64 :=
  match Owamp.Spec.Limits.entry t c limDisk with
  | some e => if e.value = 0 then none else some e.used
  | none => none

/-- A class without its counters. -/
def outline (n : Node) : Bytes × Option Nat × List (U32 × U64) := (n.name, n.parent, n.lims.map fun e => (e.limit, e.value))

/-- Nothing but the counters for disk space differs. -/
def SameButDisk (a b : Tree) : Prop :=
  (∀ c : Nat, a[c]?.map outline = b[c]?.map outline) ∧
  ∀ c l, l ≠ limDisk → Owamp.Spec.Limits.entry a c l = Owamp.Spec.Limits.entry b c l

/-- The classes as the limits file defines them: the first is the root and the only one without a parent; parents come first; no two have the same name. -/
structure Classes (t : Tree) : Prop where
  before : ∀ c p, HasParent t c p → p < c
  root : ∀ c, IsRoot t c ↔ c = 0 ∧ t ≠ []
  names : ∀ c d name, HasName t c name → HasName t d name → c = d

/-- Every directory named after a class, in the directory of a class or at the top, is in its place. -/
def InPlace (t : Tree) (d : Dir) : Prop :=
  ∀ p n, (p, n) ∈ dirs [] d → (p = [] ∨ ∃ h, Home t h p) → ∀ k, HasName t k n → Home t k (p ++ [n])

end Owamp.Spec.Restart
