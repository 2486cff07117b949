import Verif.Base.Bytes
/-!
# Model of the class tree of owampd and its resource counters (owampd/policy.c)
-/
namespace Owamp.Policy

/-! ## Messages and limits -/

/-- `OWPDMESGREQUEST` (policy.h:172). -/
def mesgRequest : U32 := 0xfeed
/-- `OWPDMESGRELEASE` (policy.h:173). -/
def mesgRelease : U32 := 0xdead
/-- `OWPDMESGCLAIM` (policy.h:174). -/
def mesgClaim : U32 := 0x1feed1

/-- `OWPDLimBandwidth` and so on (policy.h:124-129). -/
def limParent : U32 := 0
def limBandwidth : U32 := 1
def limDisk : U32 := 3
def limDeleteOnFetch : U32 := 4
def limAllowOpenMode : U32 := 5
def limTestSessions : U32 := 6

/-- `enum limtype` (policy.c:124). -/
inductive LimType where
  | int
  | bool
  | not
deriving DecidableEq, Repr

/-- The bytes of an ASCII string. -/
def text (s : List Char) : Bytes := s.map fun c => BitVec.ofNat 8 c.toNat

/-- `struct limdesc` (policy.c:125-131); `release_on_exit` is used nowhere. -/
structure LimKey where
  limit : U32
  name : Bytes
  ltype : LimType
  default : U64
deriving DecidableEq, Repr

/-- `limkeys` (policy.c:133-140). -/
def limkeys : List LimKey :=
  [⟨limParent, text ['p', 'a', 'r', 'e', 'n', 't'], .not, 0⟩,
   ⟨limBandwidth, text ['b', 'a', 'n', 'd', 'w', 'i', 'd', 't', 'h'], .int, 0⟩,
   ⟨limDisk, text ['d', 'i', 's', 'k'], .int, 0⟩,
   ⟨limDeleteOnFetch, text ['d', 'e', 'l', 'e', 't', 'e', '_', 'o', 'n', '_', 'f', 'e', 't', 'c', 'h'], .bool, 0⟩,
   ⟨limAllowOpenMode, text ['a', 'l', 'l', 'o', 'w', '_', 'o', 'p', 'e', 'n', '_', 'm', 'o', 'd', 'e'], .bool, 1⟩,
   ⟨limTestSessions, text ['t', 'e', 's', 't', '_', 's', 'e', 's', 's', 'i', 'o', 'n', 's'], .int, 0⟩]

/-- `GetDefLimit` (policy.c:142-156). -/
def defLimit (l : U32) : U64 :=
  match limkeys.find? (·.limit = l) with
  | some k => k.default
  | none => 0

/-- An element of `limits` with the element of `used` of the same index. -/
structure Lim where
  limit : U32
  value : U64
  used : U64
deriving DecidableEq, Repr

/-- `OWPDPolicyNodeRec` (policy.h:131-139). The pointer to the parent is its place in the list of classes. -/
structure Node where
  name : Bytes
  parent : Option Nat
  lims : List Lim
deriving DecidableEq, Repr

/-- The classes of `policy->limits`, in the order in which they were defined. -/
abbrev Tree := List Node

/-- The search for a limit record (policy.c:1572-1576, 1589-1593, 1613-1617, 1697-1701). -/
def findLim (lims : List Lim) (l : U32) : Option Lim := lims.find? (·.limit = l)

/-- `GetLimit` (policy.c:1563-1578). -/
def getLimit (n : Node) (l : U32) : U64 :=
  match findLim n.lims l with
  | some e => e.value
  | none => defLimit l

/-- `node->used[i].value` is changed, `i` being the place of the first record for `l`. -/
def modLims (f : U64 → U64) (l : U32) : List Lim → List Lim
  | [] => []
  | e :: es => if e.limit = l then { e with used := f e.used } :: es else e :: modLims f l es

/-- The same in the `i`th class. -/
def modUsed (t : Tree) (i : Nat) (l : U32) (f : U64 → U64) : Tree :=
  match t[i]? with
  | some n => t.set i { n with lims := modLims f l n.lims }
  | none => t

/-! ## Demands -/

/-- `(double)n` for an unsigned 64 bit integer: the 53 leading bits, to the nearest, ties to even. -/
def toDouble (n : Nat) : Nat :=
  if n < 2 ^ 53 then n
  else
    let k := Nat.log2 n - 52
    let q := n / 2 ^ k
    let r := n % 2 ^ k
    (if 2 ^ (k - 1) < r ∨ (r = 2 ^ (k - 1) ∧ q % 2 = 1) then q + 1 else q) * 2 ^ k

/-- `(lim.value+used) > (limit * fudge)` (policy.c:1779). The sum is one of unsigned 64 bit integers. For a request `fudge` is
1.0; `claimOver` is the comparison with `fudge` being `policy->diskfudge`. -/
def over (claimOver : U64 → U64 → Bool) (q : U32) (sum limit : U64) : Bool :=
  if q = mesgClaim then claimOver sum limit else decide (toDouble limit.toNat < toDouble sum.toNat)

/-- `IntegerResourceDemand` from `found:` on (policy.c:1719-1793): `e` is the record of the class number `i`, and `up` the
result of the call for the parent. (The call is made in some of the cases only; it has no effect in the others.) -/
def settle (claimOver : U64 → U64 → Bool) (q l : U32) (v : U64) (t : Tree) (i : Nat) (e : Lim) (up : Bool × Tree) : Bool × Tree :=
  if e.value = 0 then up
  else if q = mesgRelease then
    if e.used < v then (false, t)
    else if up.1 then (true, modUsed up.2 i l (· - v))
    else (false, up.2)
  else if (q = mesgClaim ∧ l ≠ limDisk) ∨ (q ≠ mesgClaim ∧ q ≠ mesgRequest) then (false, t)
  else if over claimOver q (v + e.used) e.value then (false, t)
  else if up.1 then (true, modUsed up.2 i l (· + v))
  else (false, up.2)

/-- `IntegerResourceDemand` (policy.c:1682-1794) for the class number `i`. Parents come before their children in the list,
so the test `p < i` always succeeds (`WellFormed` in `Spec/Limits.lean`). -/
def intDemand (claimOver : U64 → U64 → Bool) (q l : U32) (v : U64) (t : Tree) (i : Nat) : Bool × Tree :=
  match t[i]? with
  | none => (true, t)
  | some n =>
    match findLim n.lims l with
    | none => (true, t)
    | some e =>
      settle claimOver q l v t i e
        (match n.parent with
        | none => (true, t)
        | some p => if _h : p < i then intDemand claimOver q l v t p else (true, t))
termination_by i

/-- The kind of a limit as found in `limkeys` (policy.c:1809-1814). -/
def limKind (l : U32) : LimType :=
  match limkeys.find? (·.limit = l) with
  | some k => k.ltype
  | none => .not

/-- `OWPDResourceDemand` (policy.c:1796-1857) for the class number `i`. -/
def demand (claimOver : U64 → U64 → Bool) (t : Tree) (i : Nat) (q l : U32) (v : U64) : Bool × Tree :=
  match limKind l with
  | .not => (false, t)
  | .bool =>
    if q = mesgRelease then (true, t)
    else
      match t[i]? with
      | none => (false, t)
      | some n => (decide (getLimit n l = v), t)
  | .int => intDemand claimOver q l v t i

end Owamp.Policy
