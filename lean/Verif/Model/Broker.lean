import Verif.Model.Classes
/-!
# Model of the messages between the daemon and the processes serving connections (owampd/policy.c, owampd.c)

The processes talk over a pair of sockets, a stream of bytes in each direction. Numbers are copied as they are in memory;
`big` says whether the machine is big-endian, both processes being on the same one.
-/
namespace Owamp.Policy

/-- policy.h:173-185. -/
def mesgMark : U32 := 0xfefefefe
def mesgClass : U32 := 0xcdef
def mesgResource : U32 := 0xbeef
def mesgInvalid : U32 := 0
def mesgOk : U32 := 1
def mesgDenied : U32 := 2

/-- `OWPDMAXCLASSLEN` (policy.h:73). -/
def maxClassLen : Nat := 80

/-- A number in memory. -/
def hostEnc (big : Bool) (n x : Nat) : Bytes := if big then beEnc n x else (beEnc n x).reverse

def hostDec (big : Bool) (b : Bytes) : Nat := beDec (if big then b else b.reverse)

def word (big : Bool) (x : U32) : Bytes := hostEnc big 4 x.toNat

/-- The `i`th number of an array of `OWPDMesgT`. -/
def wordAt (big : Bool) (b : Bytes) (i : Nat) : U32 := BitVec.ofNat 32 (hostDec big ((b.drop (4 * i)).take 4))

/-! ## Reading -/

/-- What comes from a socket until it is closed, or until the reader is interrupted or there is an error. -/
structure Source where
  data : Bytes
  closed : Bool
deriving DecidableEq, Repr

/-- Outcome of `I2Readni(fd,buf,n,&fail_on_intr)`: `n` bytes, 0 (the other side has closed the socket), or anything else. -/
inductive Read where
  | got (b : Bytes) (rest : Source)
  | none
  | failed
deriving DecidableEq, Repr

def readn (n : Nat) (s : Source) : Read :=
  if n ≤ s.data.length then .got (s.data.take n) { s with data := s.data.drop n }
  else if s.data = [] ∧ s.closed then .none
  else .failed

/-! ## Answers -/

/-- `OWPDSendResponse` (policy.c:1841-1858): the bytes written. -/
def response (big : Bool) (mesg : U32) : Bytes := word big mesgMark ++ word big mesg ++ word big mesgMark

/-- `OWPDReadResponse` (policy.c:1873-1891), and the input not read. -/
def readResponse (big : Bool) (s : Source) : U32 × Option Source :=
  match readn 12 s with
  | .got b rest => if wordAt big b 0 ≠ mesgMark ∨ wordAt big b 2 ≠ mesgMark then (mesgInvalid, some rest) else (wordAt big b 1, some rest)
  | _ => (mesgInvalid, none)

/-! ## The class of a connection -/

/-- `OWPDSendClass` (policy.c:1980-2014): the bytes written; `none` if they do not fit into the buffer of
`OWPDMAXCLASSLEN+1+12` bytes. -/
def classFrame (big : Bool) (name : Bytes) : Option Bytes :=
  if 8 + (name.length + 1) + 4 ≤ maxClassLen + 1 + 12 then
    some (word big mesgMark ++ word big mesgClass ++ name ++ [0] ++ word big mesgMark)
  else none

/-- The loop that reads the name byte by byte (policy.c:1940-1952), `k` being the number of bytes it may still read. -/
def readName : Nat → Bytes → Option (Bytes × Bytes)
  | 0, _ => none
  | _ + 1, [] => none
  | k + 1, b :: s =>
    if b = 0 then some ([], s)
    else
      match readName k s with
      | none => none
      | some (name, rest) => some (b :: name, rest)

/-- What `OWPDReadClass` (policy.c:1909-1978) reads. -/
inductive ClassMesg where
  /-- A class has been named. -/
  | named (name : Bytes) (rest : Source)
  /-- `NULL` and `*err = 0`. -/
  | none
  /-- `NULL` and `*err = 1`. -/
  | bad
deriving DecidableEq, Repr

def readClass (big : Bool) (s : Source) : ClassMesg :=
  match readn 8 s with
  | .none => .none
  | .failed => .bad
  | .got b rest =>
    if wordAt big b 0 ≠ mesgMark ∨ wordAt big b 1 ≠ mesgClass then .bad
    else
      match readName (maxClassLen + 1) rest.data with
      | none => .bad
      | some (name, tail) =>
        match readn 4 { rest with data := tail } with
        | .got m rest => if wordAt big m 0 ≠ mesgMark then .bad else .named name rest
        | _ => .bad

/-! ## Queries -/

/-- `OWPDQuery` (policy.c:2098-2123): the bytes written. -/
def queryFrame (big : Bool) (q l : U32) (v : U64) : Bytes :=
  word big mesgMark ++ word big mesgResource ++ word big q ++ word big l ++ hostEnc big 8 v.toNat ++ word big mesgMark

/-- What `OWPDReadQuery` (policy.c:2048-2096) reads. -/
inductive QueryMesg where
  | query (q l : U32) (v : U64) (rest : Source)
  /-- `False` and `*err = 0`. -/
  | none
  /-- `False` and `*err = 1`. -/
  | bad
deriving DecidableEq, Repr

def readQuery (big : Bool) (s : Source) : QueryMesg :=
  match readn 28 s with
  | .none => .none
  | .failed => .bad
  | .got b rest =>
    if wordAt big b 0 ≠ mesgMark ∨ wordAt big b 6 ≠ mesgMark ∨ wordAt big b 1 ≠ mesgResource then .bad
    else if wordAt big b 2 = mesgRequest ∨ wordAt big b 2 = mesgRelease ∨ wordAt big b 2 = mesgClaim then
      .query (wordAt big b 2) (wordAt big b 3) (BitVec.ofNat 64 (hostDec big ((b.drop 16).take 8))) rest
    else .bad

/-! ## The daemon's side -/

/-- What the daemon does with a socket on which there is something to read: `CheckFD` (owampd.c:355-424). `node` is
`cstate->node`. The result is the new `cstate->node`, the classes, the bytes written and whether the process is sent
`SIGTERM`. A write that fails is not modelled here: the process at the other end is then gone. -/
structure Served where
  node : Option Nat
  tree : Tree
  out : Bytes
  kill : Bool
deriving DecidableEq, Repr

def checkFd (claimOver : U64 → U64 → Bool) (big : Bool) (t : Tree) (node : Option Nat) (s : Source) : Served :=
  match node with
  | none =>
    match readClass big s with
    | .none => ⟨none, t, [], false⟩
    | .bad => ⟨none, t, [], true⟩
    | .named name _ =>
      match findClass t name with
      | some c => ⟨some c, t, response big mesgOk, false⟩
      | none => ⟨none, t, response big mesgDenied, true⟩
  | some c =>
    match readQuery big s with
    | .none => ⟨some c, t, [], false⟩
    | .bad => ⟨some c, t, [], true⟩
    | .query q l v _ =>
      let r := demand claimOver t c q l v
      ⟨some c, r.2, response big (if r.1 then mesgOk else mesgDenied), false⟩

/-! ## The connection's side -/

/-- A process and the daemon: the classes, and what the daemon has written and the process has not read. -/
structure Link where
  tree : Tree
  inbox : Bytes
deriving DecidableEq, Repr

/-- `OWPDQuery` (policy.c:2098-2123) of a process whose class is `c`, the daemon answering. If the process is interrupted by
a signal while it waits (`intr`), `OWPDReadResponse` fails and the answer stays in the socket. -/
def ask (claimOver : U64 → U64 → Bool) (big : Bool) (c : Nat) (k : Link) (q l : U32) (v : U64) (intr : Bool) : U32 × Link :=
  let r := checkFd claimOver big k.tree (some c) ⟨queryFrame big q l v, false⟩
  if intr then (mesgInvalid, ⟨r.tree, k.inbox ++ r.out⟩)
  else
    match readResponse big ⟨k.inbox ++ r.out, false⟩ with
    | (m, some rest) => (m, ⟨r.tree, rest.data⟩)
    | (m, none) => (m, ⟨r.tree, []⟩)

end Owamp.Policy
