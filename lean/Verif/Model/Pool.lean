import Verif.Model.TwoWay
/-!
# Model of the memory in which an end point keeps the packets it waits for (owamp/endpoint.c)

`alloc_node`, `free_node`, `get_node`, their set-up and their clean-up, on a memory of cells with links. Cells have numbers as addresses, given out in order; NULL is `none`. The
hash table is one of `libI2util`, which is not part of the repository: it is a list of entries, each in the bucket of its key when it was stored, found by comparing what the keys point to
with `CmpLostPacket`. Whether `calloc` and `I2HashStore` succeed is answered from outside. Undefined behaviour (use of NULL) is `none` as a result. Not modelled: the messages.
-/
namespace Owamp.Pool
open Owamp.Num64 Owamp.Time
open Owamp.TwoWay (Node)

/-- `OWPLostPacketRec` (owampP.h:277-285). -/
structure Cell where
  node : Node
  next : Option Nat
deriving DecidableEq, Repr

/-- An entry of the hash table: its bucket, the address of its key (a packet number in a cell) and of its value (a cell). -/
structure Entry where
  bucket : Nat
  key : Nat
  val : Nat
deriving DecidableEq, Repr

/-- What is fixed: the cipher and the start of the schedule, the number of packets, and the answers to the calls of `calloc` and `I2HashStore`, in the order of the calls. -/
structure Cfg where
  E : Bytes → Bytes → Bytes
  start : U64
  npackets : U32
  ok : Nat → Bool

/-- The fields of an end point that matter here (owampP.h:338-343) and the memory; `blocks` are the addresses that `calloc` gave, the latest first (history), `asked` is how often was asked
for memory (history), `ctx` the context of the schedule. -/
structure Pool where
  mem : Nat → Cell
  top : Nat
  numalist : Nat
  blocks : List Nat
  allocated : Option Nat
  free : Option Nat
  first : Option Nat
  last : Option Nat
  table : List Entry
  asked : Nat
  ctx : Sched.Ctx

/-- Assignment to a cell. -/
def put (mem : Nat → Cell) (a : Nat) (c : Cell) : Nat → Cell := fun x => if x = a then c else mem x

def zeroNode : Node := ⟨0, false, false, 0, ⟨0, 0⟩⟩

/-- The loop that puts the cells of an array on the free list, `i` from 1 to `k` (endpoint.c:695-698, 1693-1696). -/
def link (base : Nat) : Nat → Pool → Pool
  | 0, p => p
  | k + 1, p =>
    let p := link base k p
    { p with mem := put p.mem (base + (k + 1)) ⟨(p.mem (base + (k + 1))).node, p.free⟩, free := some (base + (k + 1)) }

/-- `calloc` of an array, its first cell put on the list of arrays, the others on the free list (endpoint.c:685-698, 1685-1696). -/
def grab (c : Cfg) (p : Pool) : Option Pool :=
  if c.ok p.asked then
    let zeroed := fun x => if p.top ≤ x ∧ x < p.top + p.numalist then ⟨zeroNode, none⟩ else p.mem x
    some (link p.top (p.numalist - 1)
      { p with mem := put zeroed p.top ⟨(zeroed p.top).node, p.allocated⟩, allocated := some p.top, top := p.top + p.numalist, asked := p.asked + 1, blocks := p.top :: p.blocks })
  else none

/-- The set-up (endpoint.c:677-706): `estimate` is twice the number of packets in a timeout, as an integer. `none`: the session is refused. -/
def setUp (c : Cfg) (estimate : Nat) (ctx : Sched.Ctx) : Option Pool :=
  grab c ⟨fun _ => ⟨zeroNode, none⟩, 0, max estimate 100, [], none, none, none, none, [], 0, ctx⟩

/-- `HashLostPacket` (endpoint.c:304-312). -/
def hash (seq : Nat) : Nat := seq % 2 ^ 16

/-- The entry is one for the number, by its bucket and `CmpLostPacket` (endpoint.c:279-289). -/
def Entry.fits (mem : Nat → Cell) (seq : Nat) (e : Entry) : Bool := e.bucket == hash seq && (mem e.key).node.seq == seq

/-- `I2HashDelete`. -/
def remove (mem : Nat → Cell) (seq : Nat) (t : List Entry) : List Entry := t.eraseP (Entry.fits mem seq)

/-- `I2HashFetch`. -/
def fetch (mem : Nat → Cell) (seq : Nat) (t : List Entry) : Option Nat := (t.find? (Entry.fits mem seq)).map (·.val)

/-- The number is not greater than that of the last cell (endpoint.c:1674). -/
def stale (p : Pool) (seq : Nat) : Bool :=
  match p.last with
  | none => false
  | some l => seq ≤ (p.mem l).node.seq

/-- Taking a cell from the free list (endpoint.c:1699-1715). -/
def take (c : Cfg) (p : Pool) (seq : Nat) : Option (Option Nat × Pool) :=
  match p.free with
  | none => none
  | some a =>
    let n := (p.mem a).node
    let mem := put p.mem a ⟨{ n with seq := seq, hit := false, sent := false }, none⟩
    let p := { p with mem := mem, free := (p.mem a).next, asked := p.asked + 1 }
    if c.ok (p.asked - 1) then some (some a, { p with table := ⟨hash seq, a, a⟩ :: remove mem seq p.table })
    else some (none, p)

/-- `alloc_node` (endpoint.c:1664-1716). -/
def allocNode (c : Cfg) (p : Pool) (seq : Nat) : Option (Option Nat × Pool) :=
  if seq ≥ c.npackets.toNat || stale p seq then some (none, p)
  else
    match p.free with
    | some _ => take c p seq
    | none =>
      match grab c p with
      | none => some (none, { p with asked := p.asked + 1 })
      | some p => take c p seq

/-- `free_node` (endpoint.c:1719-1740). -/
def freeNode (p : Pool) (a : Nat) : Pool :=
  { p with table := remove p.mem (p.mem a).node.seq p.table, mem := put p.mem a ⟨(p.mem a).node, p.free⟩, free := some a }

/-- The scheduled time (endpoint.c:1774-1776). -/
def absOf (c : Cfg) (rel : Nat) : TimeParts := timestampToTimespec ⟨BitVec.ofNat 64 (add rel c.start.toNat), false, 0, 0⟩

/-- The schedule's part in a new cell (endpoint.c:1768-1776). -/
def schedule (c : Cfg) (p : Pool) (node a : Nat) : Option Pool :=
  match Sched.nextDelta c.E p.ctx with
  | (.error _, _) => none
  | (.ok delta, ctx) =>
    let r := add (p.mem node).node.relative delta
    some { p with mem := put p.mem a ⟨{ (p.mem a).node with relative := r, absolute := absOf c r }, (p.mem a).next⟩, ctx := ctx }

/-- The loop of `get_node` (endpoint.c:1764-1783), `n` times: `n` is the difference of the numbers. -/
def extend (c : Cfg) : Nat → Nat → Pool → Option (Option Nat × Pool)
  | 0, node, p => some (some node, { p with last := some node })
  | n + 1, node, p =>
    match allocNode c p ((p.mem node).node.seq + 1) with
    | some (some a, p) => (schedule c { p with mem := put p.mem node ⟨(p.mem node).node, some a⟩ } node a).bind (extend c n a)
    | _ => none

/-- `get_node` (endpoint.c:1742-1807): the address of the cell or NULL. -/
def getNode (c : Cfg) (p : Pool) (seq : Nat) : Option (Option Nat × Pool) :=
  match p.last with
  | none => none
  | some l =>
    if seq = (p.mem l).node.seq then some (some l, p)
    else if seq > (p.mem l).node.seq then extend c (seq - (p.mem l).node.seq) l p
    else
      match p.first with
      | none => none
      | some b => if seq < (p.mem b).node.seq then some (none, p) else some (fetch p.mem seq p.table, p)

/-- The first cell (endpoint.c:2239-2253, 3276-3287). -/
def begin_ (c : Cfg) (p : Pool) : Option (Bool × Pool) :=
  match allocNode c p 0 with
  | none => none
  | some (none, p) => some (false, p)
  | some (some a, p) =>
    match Sched.nextDelta c.E p.ctx with
    | (.error _, _) => none
    | (.ok delta, ctx) =>
      some (true, { p with mem := put p.mem a ⟨{ (p.mem a).node with relative := delta, absolute := absOf c delta }, (p.mem a).next⟩, ctx := ctx, first := some a, last := some a })

/-- The front taken off (endpoint.c:2069-2086): whether that was the last packet. -/
def pop (c : Cfg) (p : Pool) : Option (Bool × Pool) :=
  match p.first with
  | none => none
  | some b =>
    match (p.mem b).next with
    | some n => some (false, freeNode { p with first := some n } b)
    | none =>
      if ((p.mem b).node.seq + 1) % 2 ^ 32 < c.npackets.toNat then
        match getNode c p ((p.mem b).node.seq + 1) with
        | some (some n, p) => some (false, freeNode { p with first := some n } b)
        | _ => none
      else some (true, { freeNode p b with first := none, last := none })

/-- What an end point does with its packets: it looks at one; it changes what it notes of one (`hit`, `sent` and the time are assigned through the pointer, endpoint.c:2477-2536, 3446-3455, 3690-3710);
it takes the oldest off. -/
inductive Op where
  | look (seq : Nat)
  | change (seq : Nat) (hit sent : Bool) (absolute : TimeParts)
  | pop

/-- What it gets: the cell's contents or NULL; whether it was the last packet. -/
inductive Out where
  | node (n : Option Node)
  | popped (over : Bool)
deriving DecidableEq, Repr

/-- One step. -/
def step (c : Cfg) (p : Pool) : Op → Option (Out × Pool)
  | .look seq => (getNode c p seq).map fun r => (.node (r.1.map fun a => (r.2.mem a).node), r.2)
  | .change seq h s t => (getNode c p seq).map fun r =>
    (.node (r.1.map fun a => (r.2.mem a).node),
      match r.1 with
      | none => r.2
      | some a => { r.2 with mem := put r.2.mem a ⟨{ (r.2.mem a).node with hit := h, sent := s, absolute := t }, (r.2.mem a).next⟩ })
  | .pop => (pop c p).map fun r => (.popped r.1, r.2)

/-- A history. -/
def run (c : Cfg) : Pool → List Op → Option (List Out × Pool)
  | p, [] => some ([], p)
  | p, o :: os => (step c p o).bind fun r => (run c r.2 os).map fun x => (r.1 :: x.1, x.2)

/-- `LostFree` (endpoint.c:89-102): the addresses given to `free`, in order; the first argument bounds their number. -/
def lostFree (mem : Nat → Cell) : Nat → Option Nat → List Nat
  | _, none => []
  | 0, some _ => []
  | n + 1, some a => a :: lostFree mem n (mem a).next

end Owamp.Pool
