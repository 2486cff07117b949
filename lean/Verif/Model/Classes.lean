import Verif.Model.Limits
import Verif.Model.Accept
/-!
# Model of the limits file (owampd/policy.c) and of the choice of a class for a connection

The lines given to the parsers are C strings without their terminator. A parser that runs over the end of the part of the
line it has been given has the outcome `overrun`: what it would find there is another part of the line or the remains of
earlier lines.
-/
namespace Owamp.Policy
open Owamp.Codec Owamp.Ctl

/-- Result of a parser: success, an error, or a read beyond the end of its string. -/
inductive Outcome (α : Type) where
  | ok (a : α)
  | refused
  | overrun
deriving DecidableEq, Repr

/-! ## Strings -/

/-- `isspace` in the C locale; the characters of `I2WSPACESET` of I2util are the same. -/
def isSpace (b : Byte) : Bool := b = 32#8 ∨ (9#8 ≤ b ∧ b ≤ 13#8)

/-- `tolower` in the C locale. -/
def lower (b : Byte) : Byte := if 65#8 ≤ b ∧ b ≤ 90#8 then b + 32#8 else b

/-- `strncasecmp(a,b,strlen(b)+1) == 0`. -/
def eqNoCase (a b : Bytes) : Bool := a.map lower = b.map lower

def isComma (b : Byte) : Bool := b = 44#8

def isEquals (b : Byte) : Bool := b = 61#8

/-- `strtok`: the token and what is left for the next call. -/
def strtok (delim : Byte → Bool) (s : Bytes) : Option (Bytes × Bytes) :=
  match s.dropWhile delim with
  | [] => none
  | b :: r => some ((b :: r).takeWhile (fun x => !delim x), ((b :: r).dropWhile (fun x => !delim x)).drop 1)

theorem dropWhile_length_le {α : Type} (p : α → Bool) (s : List α) : (s.dropWhile p).length ≤ s.length :=
  (List.dropWhile_sublist p).length_le

theorem strtok_length {delim : Byte → Bool} {s tok rest : Bytes} (h : strtok delim s = some (tok, rest)) :
    rest.length < s.length := by
  unfold strtok at h
  split at h
  · cases h
  · rename_i b r hd
    simp only [Option.some.injEq, Prod.mk.injEq] at h
    have h1 := dropWhile_length_le delim s
    have hb : delim b = false := by
      have := List.head?_dropWhile_not delim s
      rw [hd] at this
      simpa using this
    rw [hd] at h1
    rw [← h.2, List.length_drop, List.dropWhile_cons]
    simp only [hb, Bool.not_false, if_true]
    have := dropWhile_length_le (fun x => !delim x) r
    simp only [List.length_cons] at h1
    omega

/-- The pieces that calls of `strtok(NULL,",")` give (policy.c:223). -/
def pieces (s : Bytes) : List Bytes :=
  match _h : strtok isComma s with
  | none => []
  | some (tok, rest) => tok :: pieces rest
termination_by s.length
decreasing_by exact strtok_length _h

/-- A name and a value (policy.c:234-251); `none` if the piece ends with the name: the loop for the name does not look for
the terminating NUL. -/
def readPiece (s : Bytes) : Option (Bytes × Bytes) :=
  let s := s.dropWhile isSpace
  match s.dropWhile (fun b => !isSpace b && !isEquals b) with
  | [] => none
  | _ :: r => some (s.takeWhile (fun b => !isSpace b && !isEquals b),
      (r.dropWhile (fun b => isSpace b || isEquals b)).takeWhile (fun b => !isSpace b))

/-! ## `limit` lines -/

/-- `I2HashFetch(policy->limits,…)`: the place of the class of that name. -/
def findClass (t : Tree) (name : Bytes) : Option Nat := t.findIdx? (·.name = name)

/-- `tnode` and `limtemp` (policy.c:186-187) while a line is parsed. -/
structure Draft where
  parent : Option Nat
  lims : List (U32 × U64)
deriving DecidableEq, Repr

/-- A limit is put into `limtemp` (policy.c:300-337). `num` is `I2StrToNum`, `none` an error. -/
def setLimit (num : Bytes → Option U64) (d : Draft) (k : LimKey) (val : Bytes) : Outcome Draft :=
  if d.lims.any (·.1 = k.limit) then .refused
  else
    match k.ltype with
    | .int =>
      match num val with
      | none => .refused
      | some v => .ok { d with lims := d.lims ++ [(k.limit, v)] }
    | _ =>
      if eqNoCase val (text ['o', 'n']) then .ok { d with lims := d.lims ++ [(k.limit, 1)] }
      else if eqNoCase val (text ['o', 'f', 'f']) then .ok { d with lims := d.lims ++ [(k.limit, 0)] }
      else .refused

/-- The key that a name stands for (policy.c:277-298). -/
def findKey (name : Bytes) : Option LimKey := limkeys.find? fun k => decide (k.ltype ≠ .not) && eqNoCase name k.name

/-- One round of the loop over the pieces (policy.c:223-340). `maxlim` is 5 (policy.c:643-647). -/
def addPiece (num : Bytes → Option U64) (t : Tree) (d : Draft) (piece : Bytes) : Outcome Draft :=
  if 5 ≤ d.lims.length then .refused
  else
    match readPiece piece with
    | none => .overrun
    | some (name, val) =>
      if eqNoCase name (text ['p', 'a', 'r', 'e', 'n', 't']) then
        if t = [] then .refused
        else if d.parent.isSome then .refused
        else
          match findClass t val with
          | none => .refused
          | some p => .ok { d with parent := some p }
      else
        match findKey name with
        | none => .refused
        | some k => setLimit num d k val

/-- The loop over the pieces (policy.c:223-340). -/
def addPieces (num : Bytes → Option U64) (t : Tree) (d : Draft) : List Bytes → Outcome Draft
  | [] => .ok d
  | p :: ps =>
    match addPiece num t d p with
    | .ok d => addPieces num t d ps
    | .refused => .refused
    | .overrun => .overrun

/-- The limits of the parent that were not overridden (policy.c:345-356). -/
def inherit (own : List (U32 × U64)) (parent : List Lim) : List (U32 × U64) :=
  parent.foldl (fun acc e => if acc.any (·.1 = e.limit) then acc else acc ++ [(e.limit, e.value)]) own

/-- The class is put into the table (policy.c:367-411); allocation failures are not modelled. -/
def addClass (t : Tree) (name : Bytes) (parent : Option Nat) (lims : List (U32 × U64)) : Tree :=
  t ++ [{ name := name, parent := parent, lims := lims.map fun x => ⟨x.1, x.2, 0⟩ }]

/-- The end of `parselimitline` (policy.c:342-411). -/
def finishClass (t : Tree) (name : Bytes) (d : Draft) : Outcome Tree :=
  match d.parent with
  | some p =>
    match t[p]? with
    | some n => .ok (addClass t name (some p) (inherit d.lims n.lims))
    | none => .refused
  | none => if t ≠ [] then .refused else .ok (addClass t name none d.lims)

/-- `parselimitline` (policy.c:174-412). -/
def parseLimitLine (num : Bytes → Option U64) (t : Tree) (line : Bytes) : Outcome Tree :=
  match strtok isSpace line with
  | none => .refused
  | some (cname, rest) =>
    if 80 < cname.length then .refused
    else if (findClass t cname).isSome then .refused
    else
      match strtok isSpace rest with
      | none => .refused
      | some (w, rest) =>
        if ¬ eqNoCase w (text ['w', 'i', 't', 'h']) then .refused
        else
          match addPieces num t ⟨none, []⟩ (pieces rest) with
          | .ok d => finishClass t cname d
          | .refused => .refused
          | .overrun => .overrun

/-! ## `assign` lines -/

/-- `OWPDPidRec` (policy.h:141-164) as a key: all bytes not named are 0. The address of a network has 16 bytes, a user
name 81. -/
inductive Ident where
  | default
  | net (size len : Nat) (addr : Bytes)
  | user (userid : Bytes)
deriving DecidableEq, Repr

/-- `OWPDPolicyRec` (policy.h:80-107): the classes and the assignments. The root is the first class. -/
structure Policy where
  nodes : Tree
  idents : List (Ident × Nat)
deriving DecidableEq, Repr

/-- `I2HashFetch(policy->idents,…)`. -/
def fetchIdent (ids : List (Ident × Nat)) (k : Ident) : Option Nat := (ids.find? (·.1 = k)).map (·.2)

/-- What the parser of `assign` lines is given from outside: `I2HashStore` refuses a key that is there already, or replaces
its value; `getaddrinfo` for a numeric address gives 4 or 16 bytes; `strtoul` a number if it reads all of its string;
and the user names of the pass-phrase file. -/
structure AssignEnv where
  refuseDup : Bool
  getaddr : Bytes → Option Bytes
  strtoul : Bytes → Option Nat
  known : Bytes → Bool

/-- `mask_len` (policy.c:513-529). The number goes through an `int`. -/
def maskLen (E : AssignEnv) (mask : Option Bytes) (size : Nat) : Option Nat :=
  match mask with
  | none => some (size * 8)
  | some m =>
    match E.strtoul m with
    | none => none
    | some v => if 1 ≤ v % 2 ^ 32 ∧ v % 2 ^ 32 ≤ size * 8 then some (v % 2 ^ 32) else none

/-- `~(0xFF << (8-nbits))` as a byte (policy.c:543). -/
def tailBits (nbits : Nat) : Byte := ~~~ BitVec.ofNat 8 (0xFF <<< (8 - nbits))

/-- Whether no bit beyond the mask is set (policy.c:535-565). -/
def tailClear (len : Nat) (addr : Bytes) : Bool :=
  (match addr[len / 8]? with
    | some b => b &&& tailBits (len % 8) = 0
    | none => true) &&
  (addr.drop (len / 8 + 1)).all (· = 0)

/-- `assign net` (policy.c:449-566): the address and mask. -/
def parseNet (E : AssignEnv) (s : Bytes) : Outcome Ident :=
  let host := s.takeWhile (· ≠ 47#8)
  let mask := if s.any (· = 47#8) then some ((s.dropWhile (· ≠ 47#8)).drop 1) else none
  if mask = some [] then .refused
  else
    match E.getaddr host with
    | none => .refused
    | some a =>
      match maskLen E mask a.length with
      | none => .refused
      | some len => if tailClear len a then .ok (.net a.length len (a ++ zeros (16 - a.length))) else .refused

/-- The identity of an `assign` line (policy.c:430-589), and what is left of the line. -/
def parseIdent (E : AssignEnv) (ids : List (Ident × Nat)) (line : Bytes) : Outcome (Ident × Bytes) :=
  match strtok isSpace line with
  | none => .refused
  | some (kind, rest) =>
    if eqNoCase kind (text ['d', 'e', 'f', 'a', 'u', 'l', 't']) then
      if (fetchIdent ids .default).isSome then .refused else .ok (.default, rest)
    else if eqNoCase kind (text ['n', 'e', 't']) then
      match strtok isSpace rest with
      | none => .refused
      | some (s, rest) =>
        match parseNet E s with
        | .ok id => .ok (id, rest)
        | .refused => .refused
        | .overrun => .overrun
    else if eqNoCase kind (text ['u', 's', 'e', 'r']) then
      match strtok isSpace rest with
      | none => .refused
      | some (u, rest) => if 81 ≤ u.length ∨ ¬ E.known u then .refused else .ok (.user (u ++ zeros (81 - u.length)), rest)
    else .refused

/-- `I2HashStore(policy->idents,…)`. -/
def storeIdent (E : AssignEnv) (ids : List (Ident × Nat)) (k : Ident) (c : Nat) : Outcome (List (Ident × Nat)) :=
  if (fetchIdent ids k).isSome then (if E.refuseDup then .refused else .ok ((k, c) :: ids.filter (·.1 ≠ k)))
  else .ok ((k, c) :: ids)

/-- `parseassignline` (policy.c:414-623). -/
def parseAssignLine (E : AssignEnv) (P : Policy) (line : Bytes) : Outcome Policy :=
  match parseIdent E P.idents line with
  | .refused => .refused
  | .overrun => .overrun
  | .ok (id, rest) =>
    match strtok isSpace rest with
    | none => .refused
    | some (cname, _) =>
      match findClass P.nodes cname with
      | none => .refused
      | some c =>
        match storeIdent E P.idents id c with
        | .ok ids => .ok { P with idents := ids }
        | .refused => .refused
        | .overrun => .overrun

/-! ## The file -/

/-- One line of the file (policy.c:652-688). -/
def parseLine (num : Bytes → Option U64) (E : AssignEnv) (P : Policy) (line : Bytes) : Outcome Policy :=
  if eqNoCase (line.take 5) (text ['l', 'i', 'm', 'i', 't']) then
    match parseLimitLine num P.nodes ((line.drop 5).dropWhile isSpace) with
    | .ok t => .ok { P with nodes := t }
    | .refused => .refused
    | .overrun => .overrun
  else if eqNoCase (line.take 6) (text ['a', 's', 's', 'i', 'g', 'n']) then
    parseAssignLine E P ((line.drop 6).dropWhile isSpace)
  else .refused

def parseLines (num : Bytes → Option U64) (E : AssignEnv) (P : Policy) : List Bytes → Outcome Policy
  | [] => .ok P
  | l :: ls =>
    match parseLine num E P l with
    | .ok P => parseLines num E P ls
    | .refused => .refused
    | .overrun => .overrun

/-- `parselimits` (policy.c:625-723) for the lines that `I2GetConfLine` gives (comments removed, continuation lines
joined). -/
def parseLimits (num : Bytes → Option U64) (E : AssignEnv) (lines : List Bytes) : Outcome Policy :=
  match parseLines num E ⟨[], []⟩ lines with
  | .ok P =>
    if P.nodes = [] then
      match parseLimitLine num [] (text ['d', 'e', 'f', 'a', 'u', 'l', 't', ' ', 'w', 'i', 't', 'h']) with
      | .ok t => .ok { P with nodes := t }
      | .refused => .refused
      | .overrun => .overrun
    else .ok P
  | .refused => .refused
  | .overrun => .overrun

/-! ## The class of a connection -/

/-- `GetNodeDefault` (policy.c:1437-1455). -/
def nodeDefault (P : Policy) : Option Nat :=
  match fetchIdent P.idents .default with
  | some c => some c
  | none => if P.nodes = [] then none else some 0

/-- `GetNodeFromUserID` (policy.c:1457-1479): all bytes of the field count. -/
def nodeFromUser (P : Policy) (userid : Bytes) : Option Nat := fetchIdent P.idents (.user (userid ++ zeros (81 - userid.length)))

/-- The size and the bytes of the address looked for (policy.c:1499-1532); `none` for other address families. -/
def addrKey : SockAddr → Option (Nat × Bytes)
  | .v4 a _ => some (4, beEnc 4 a.toNat ++ zeros 12)
  | .v6 a _ _ =>
    if a.toNat / 2 ^ 32 = 0xffff then some (4, beEnc 4 (a.toNat % 2 ^ 32) ++ zeros 12) else some (16, beEnc 16 a.toNat)
  | _ => none

/-- `*ptr &= (0xFF << (8-nbits))` (policy.c:1545-1554). -/
def clearTail (size len : Nat) (a : Bytes) : Bytes :=
  if len / 8 < size then a.modify (len / 8) (· &&& BitVec.ofNat 8 (0xFF <<< (8 - len % 8))) else a

/-- The loop over the lengths of the mask (policy.c:1539-1559). -/
def matchNet (ids : List (Ident × Nat)) (size : Nat) : Nat → Bytes → Option Nat
  | 0, _ => none
  | len + 1, a =>
    match fetchIdent ids (.net size (len + 1) (clearTail size (len + 1) a)) with
    | some c => some c
    | none => matchNet ids size len (clearTail size (len + 1) a)

/-- `GetNodeFromAddr` (policy.c:1481-1561). -/
def nodeFromAddr (P : Policy) (sa : SockAddr) : Option Nat :=
  match addrKey sa with
  | none => none
  | some (size, a) =>
    match matchNet P.idents size (size * 8) a with
    | some c => some c
    | none => nodeDefault P

/-- `OWPDAllowOpenMode` (policy.c:2137-2156); `none` is an error. -/
def allowOpenMode (P : Policy) (sa : SockAddr) : Option Bool :=
  match nodeFromAddr P sa with
  | none => none
  | some c =>
    match P.nodes[c]? with
    | none => none
    | some n => some (decide (getLimit n limAllowOpenMode ≠ 0))

/-- The class chosen by `OWPDCheckControlPolicy` (policy.c:2208-2238) in a mode, for the user field received (in the modes
with authentication) and an address. -/
def controlClass (P : Policy) (cipher : Bool) (userid : Option Bytes) (sa : SockAddr) : Option Nat :=
  match (if cipher then userid else none) with
  | none => nodeFromAddr P sa
  | some u =>
    match findClass P.nodes (cstr u) with
    | some c => some c
    | none =>
      match nodeFromUser P u with
      | some c => some c
      | none => nodeFromAddr P sa

end Owamp.Policy
