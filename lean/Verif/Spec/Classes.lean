import Verif.Model.Classes
import Verif.Spec.Limits
/-!
# Vocabulary for the limits file and the classes it defines
-/
namespace Owamp.Spec.Classes
open Owamp.Policy Owamp.Ctl

/-! ## Text -/

/-- White space. -/
def Blank (b : Byte) : Prop := b.toNat ∈ [9, 10, 11, 12, 13, 32]

instance (b : Byte) : Decidable (Blank b) := inferInstanceAs (Decidable (_ ∈ _))

/-- The code of a letter without its case. -/
def caseless (b : Byte) : Nat := if 65 ≤ b.toNat ∧ b.toNat ≤ 90 then b.toNat + 32 else b.toNat

/-- The same word, whatever the case of its letters. -/
def SameWord (a b : Bytes) : Prop := a.map caseless = b.map caseless

instance (a b : Bytes) : Decidable (SameWord a b) := inferInstanceAs (Decidable (_ = _))

/-- The parts of a text between separators; empty parts do not count. -/
def fields (sep : Byte → Prop) [DecidablePred sep] : Bytes → List Bytes
  | [] => []
  | b :: s =>
    if sep b then fields sep s
    else
      match s with
      | [] => [[b]]
      | c :: _ =>
        if sep c then [b] :: fields sep s
        else
          match fields sep s with
          | [] => [[b]]
          | f :: fs => (b :: f) :: fs

/-- A text that is at its end or goes on with white space. -/
def WordEnds (s : Bytes) : Prop := ∀ b, s.head? = some b → Blank b

/-- A word: some characters that are not white space. -/
def Word (w : Bytes) : Prop := w ≠ [] ∧ ∀ b ∈ w, ¬ Blank b

/-! ## Definitions of classes -/

/-- What a part of a `limit` line says. -/
inductive Setting where
  | parent (name : Bytes)
  | limit (l : U32) (v : U64)
deriving DecidableEq, Repr

/-- The limits that are numbers, and those that are switched on or off (owampd.limits(5)). -/
def numbers : List (Bytes × U32) :=
  [(text ['b', 'a', 'n', 'd', 'w', 'i', 'd', 't', 'h'], 1), (text ['d', 'i', 's', 'k'], 3),
   (text ['t', 'e', 's', 't', '_', 's', 'e', 's', 's', 'i', 'o', 'n', 's'], 6)]

def switches : List (Bytes × U32) :=
  [(text ['d', 'e', 'l', 'e', 't', 'e', '_', 'o', 'n', '_', 'f', 'e', 't', 'c', 'h'], 4),
   (text ['a', 'l', 'l', 'o', 'w', '_', 'o', 'p', 'e', 'n', '_', 'm', 'o', 'd', 'e'], 5)]

/-- What a name and a value stand for, `num` being the reading of numbers. -/
inductive Denotes (num : Bytes → Option U64) (name value : Bytes) : Setting → Prop where
  | parent : SameWord name (text ['p', 'a', 'r', 'e', 'n', 't']) → Denotes num name value (.parent value)
  | number (n l v) : (n, l) ∈ numbers → SameWord name n → num value = some v → Denotes num name value (.limit l v)
  | on (n l) : (n, l) ∈ switches → SameWord name n → SameWord value (text ['o', 'n']) → Denotes num name value (.limit l 1)
  | off (n l) : (n, l) ∈ switches → SameWord name n → SameWord value (text ['o', 'f', 'f']) →
      Denotes num name value (.limit l 0)

/-- A part of a line: a name, white space or equals signs, and a value. White space before it, and anything from the first
white space after the value on, is without meaning. -/
def Reads (num : Bytes → Option U64) (part : Bytes) (s : Setting) : Prop :=
  ∃ ws name sep seps value rest, part = ws ++ (name ++ (sep :: (seps ++ (value ++ rest)))) ∧ (∀ b ∈ ws, Blank b) ∧
    (∀ b ∈ name, ¬ Blank b ∧ b ≠ 61#8) ∧ (Blank sep ∨ sep = 61#8) ∧ (∀ b ∈ seps, Blank b ∨ b = 61#8) ∧
    (∀ b ∈ value, ¬ Blank b) ∧ value.head? ≠ some 61#8 ∧ WordEnds rest ∧ (value = [] → rest = []) ∧
    Denotes num name value s

/-- The parts of a line, one by one. -/
inductive ReadsAll (num : Bytes → Option U64) : List Bytes → List Setting → Prop where
  | nil : ReadsAll num [] []
  | cons {p s ps ss} : Reads num p s → ReadsAll num ps ss → ReadsAll num (p :: ps) (s :: ss)

/-- A definition of a class. -/
structure Decl where
  name : Bytes
  settings : List Setting
deriving DecidableEq, Repr

/-- A line (without the word `limit`) is a definition: a name, the word `with`, and settings separated by commas. -/
def Declares (num : Bytes → Option U64) (line : Bytes) (d : Decl) : Prop :=
  ∃ ws sp ws' w rest, line = ws ++ (d.name ++ (sp :: (ws' ++ (w ++ rest)))) ∧ (∀ b ∈ ws, Blank b) ∧ Word d.name ∧ Blank sp ∧
    (∀ b ∈ ws', Blank b) ∧ Word w ∧ SameWord w (text ['w', 'i', 't', 'h']) ∧ WordEnds rest ∧
    ReadsAll num (fields (· = 44#8) (rest.drop 1)) d.settings

/-! ## Classes -/

/-- A class: its name, the name of its parent, and the limits it has. -/
structure Class where
  name : Bytes
  parent : Option Bytes
  limits : U32 → Option U64

/-- The value a definition sets for a limit. -/
def own (ss : List Setting) (l : U32) : Option U64 :=
  ss.findSome? fun
    | .limit l' v => if l' = l then some v else none
    | .parent _ => none

/-- The limits a definition sets. -/
def limitsSet (ss : List Setting) : List U32 :=
  ss.filterMap fun
    | .limit l _ => some l
    | .parent _ => none

/-- The parents a definition names. -/
def parentsNamed (ss : List Setting) : List Bytes :=
  ss.filterMap fun
    | .parent p => some p
    | .limit _ _ => none

/-- A definition added to the classes there are. It is wrong if its name is too long or was used before, if it sets a limit
twice, if it has settings after five limits, if it names a parent and there is no class yet, or names none and there is a
class, or names two, or one that is not a class. -/
def define (cs : List Class) (d : Decl) : Option (List Class) :=
  if d.name.length ≤ 80 ∧ (∀ c ∈ cs, c.name ≠ d.name) ∧ (limitsSet d.settings).Nodup ∧
      (limitsSet d.settings.dropLast).length < 5 then
    match parentsNamed d.settings with
    | [] => if cs.isEmpty then some [⟨d.name, none, own d.settings⟩] else none
    | [p] =>
      match cs.find? (·.name = p) with
      | none => none
      | some q => some (cs ++ [⟨d.name, some p, fun l => (own d.settings l).or (q.limits l)⟩])
    | _ => none
  else none

/-- The classes in a tree of the daemon. -/
def classOf (t : Tree) (n : Node) : Class :=
  ⟨n.name, n.parent.bind fun p => t[p]?.map (·.name), fun l => (findLim n.lims l).map (·.value)⟩

def classes (t : Tree) : List Class := t.map (classOf t)

/-- The rest of a line that begins with a word. -/
def after (word line : Bytes) : Option Bytes :=
  if SameWord (line.take word.length) word then some (line.drop word.length) else none

/-- The definitions in a file. -/
inductive Definitions (num : Bytes → Option U64) : List Bytes → List Decl → Prop where
  | nil : Definitions num [] []
  | limit {line rest lines d ds} : after (text ['l', 'i', 'm', 'i', 't']) line = some rest → Declares num rest d →
      Definitions num lines ds → Definitions num (line :: lines) (d :: ds)
  | other {line lines ds} : after (text ['l', 'i', 'm', 'i', 't']) line = none → Definitions num lines ds →
      Definitions num (line :: lines) ds

/-- The classes that definitions make, one after the other. -/
def defineAll : List Class → List Decl → Option (List Class)
  | cs, [] => some cs
  | cs, d :: ds =>
    match define cs d with
    | none => none
    | some cs => defineAll cs ds

/-! ## Addresses and networks -/

/-- The address of a client: its length in bits and its value. An IPv4 address in an IPv6 address (::ffff:a.b.c.d) is an
IPv4 address. -/
def addressOf : SockAddr → Option (Nat × Nat)
  | .v4 a _ => some (32, a.toNat)
  | .v6 a _ _ => if a.toNat / 2 ^ 32 = 0xffff then some (32, a.toNat % 2 ^ 32) else some (128, a.toNat)
  | _ => none

/-- The addresses whose first `len` of `width` bits are those of `base`. -/
structure Network where
  width : Nat
  len : Nat
  base : Nat
deriving DecidableEq, Repr

def Network.Contains (n : Network) (width a : Nat) : Prop :=
  n.width = width ∧ a / 2 ^ (width - n.len) = n.base / 2 ^ (width - n.len)

/-- The key under which a network is kept. -/
def Network.key (n : Network) : Ident :=
  .net (n.width / 8) n.len (beEnc (n.width / 8) n.base ++ List.replicate (16 - n.width / 8) 0)

/-- A network is assigned a class. -/
def Assigned (P : Policy) (n : Network) (c : Nat) : Prop :=
  (n.key, c) ∈ P.idents ∧ (n.width = 32 ∨ n.width = 128) ∧ n.base < 2 ^ n.width

/-! ## `assign` lines -/

/-- Whom a line is about. -/
inductive Who where
  | default
  | network (n : Network)
  | user (name : Bytes)

/-- The key under which the class is kept; a user name is filled up with zeros. -/
def Who.key : Who → Ident
  | .default => .default
  | .network n => n.key
  | .user name => .user (name ++ List.replicate (81 - name.length) 0)

/-- A network in a line: an address, or an address and the length of its prefix, in which case no other bits are set. (The
length is cut to 32 bits.) -/
inductive NetText (E : AssignEnv) (s : Bytes) : Network → Prop where
  | host (a) : 47#8 ∉ s → E.getaddr s = some a → NetText E s ⟨8 * a.length, 8 * a.length, beDec a⟩
  | net (host mask a v) : s = host ++ 47#8 :: mask → 47#8 ∉ host → mask ≠ [] → E.getaddr host = some a → E.strtoul mask = some v →
      1 ≤ v % 2 ^ 32 → v % 2 ^ 32 ≤ 8 * a.length → beDec a % 2 ^ (8 * a.length - v % 2 ^ 32) = 0 →
      NetText E s ⟨8 * a.length, v % 2 ^ 32, beDec a⟩

/-- The words of a line say that someone belongs to the class of that name. -/
inductive Assigns (E : AssignEnv) : List Bytes → Who → Bytes → Prop where
  | default (k cname rest) : SameWord k (text ['d', 'e', 'f', 'a', 'u', 'l', 't']) → Assigns E (k :: cname :: rest) .default cname
  | network (k s n cname rest) : SameWord k (text ['n', 'e', 't']) → NetText E s n →
      Assigns E (k :: s :: cname :: rest) (.network n) cname
  | user (k w cname rest) : SameWord k (text ['u', 's', 'e', 'r']) → w.length ≤ 80 → E.known w = true →
      Assigns E (k :: w :: cname :: rest) (.user w) cname

/-- The assignments (of class names) after the lines of a file, `f` being those before it. A later line for the same one
replaces an earlier one. -/
inductive Assignments (E : AssignEnv) : List Bytes → (Ident → Option Bytes) → (Ident → Option Bytes) → Prop where
  | nil {f} : Assignments E [] f f
  | assign {line rest lines f g who cname} : after (text ['l', 'i', 'm', 'i', 't']) line = none →
      after (text ['a', 's', 's', 'i', 'g', 'n']) line = some rest → Assigns E (fields Blank rest) who cname →
      Assignments E lines (fun k => if k = who.key then some cname else f k) g → Assignments E (line :: lines) f g
  | limit {line rest lines f g} : after (text ['l', 'i', 'm', 'i', 't']) line = some rest → Assignments E lines f g →
      Assignments E (line :: lines) f g

/-- The name of the class someone is assigned to. -/
def assignedName (P : Policy) (k : Ident) : Option Bytes := (fetchIdent P.idents k).bind fun c => P.nodes[c]?.map (·.name)

end Owamp.Spec.Classes
