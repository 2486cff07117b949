import Verif.Model.Num64
/-!
# Model of `owamp/schedule.c`

The block cipher (`rijndaelEncrypt` with the key set up by `bytes2Key`) is a parameter
`E key block`; `Verif/Model/Rijndael.lean` models the cipher itself. Allocation failure is not modelled.
-/
namespace Owamp.Sched
open Owamp.Num64

/-- `OWPSlot` (owamp.h:347-381). `other t` is any slot whose type is neither of the two valid ones. -/
inductive Slot where
  | randExp (mean : U64)
  | literal (offset : U64)
  | other (type : Int)
deriving DecidableEq, Repr

/-- The parts of `OWPTestSpec` (owamp.h:383-391) a schedule depends on. `nslots` is `slots.length`; a NULL
`slots` pointer is the empty list. -/
structure Spec where
  npackets : U32
  slots : List Slot
deriving DecidableEq, Repr

/-- `struct OWPExpContextRec` (schedule.c:27-31). -/
structure ExpCtx where
  key : Bytes
  counter : Bytes
  out : Bytes
deriving DecidableEq, Repr

/-- `struct OWPScheduleContextRec` (schedule.c:33-44). -/
structure Ctx where
  exp : ExpCtx
  i : Nat
  maxi : Nat
  nslots : Nat
  slots : List Slot
deriving DecidableEq, Repr

/-- The counter loop `for(j=15;j>=0;j--) if(++counter[j]) break;` (schedule.c:85-89); the argument is
`j+1`. -/
def incr (c : Bytes) : Nat → Bytes
  | 0 => c
  | j + 1 =>
    let v := c.getD j 0 + 1
    if v ≠ 0 then c.set j v else incr (c.set j v) j

/-- `OWPUnifRand64` (schedule.c:61-110). -/
def unifRand (E : Bytes → Bytes → Bytes) (x : ExpCtx) : Nat × ExpCtx :=
  let forth := (x.counter.getD 15 0 &&& 3).toNat
  let out := if forth = 0 then E x.key x.counter else x.out
  let buf := get out (4 * forth) 4
  (buf.foldl (fun r b => u64 (u64 (r <<< 8) + b.toNat)) 0,
    { x with counter := incr x.counter 16, out := out })

/-- `Q[]` (schedule.c:171-184). -/
def Q : List Nat :=
  [0, 0xB17217F8, 0xEEF193F7, 0xFD271862, 0xFF9D6DD0, 0xFFF4CFD0, 0xFFFEE819, 0xFFFFE7FF,
   0xFFFFFE2B, 0xFFFFFFE0, 0xFFFFFFFE, 0xFFFFFFFF]

/-- `LN2` (schedule.c:188). -/
def LN2 : Nat := 0xB17217F8

/-- `while((U & BIT31) && (j < 32)){ U <<= 1; j++; }` (schedule.c:208-211); the first argument is
`32 - j`. -/
def shiftLoop : Nat → Nat → Nat → Nat × Nat
  | 0, U, j => (U, j)
  | n + 1, U, j => if U &&& 0x80000000 ≠ 0 then shiftLoop n (u64 (U <<< 1)) (j + 1) else (U, j)

/-- `for(k = 2; k < I2Number(Q); k++) if(U < Q[k]) break;` (schedule.c:230-234); the list is what is left of
the table. -/
def findK (U : Nat) : List Nat → Nat → Nat
  | [], k => k
  | q :: qs, k => if U < q then k else findK U qs (k + 1)

/-- `for(i = 2; i <= k; i++){ tmp = OWPUnifRand64(ectx); if(tmp < V) V = tmp; }`
(schedule.c:237-242); the first argument is the number of rounds left. -/
def minLoop (E : Bytes → Bytes → Bytes) : Nat → Nat → ExpCtx → Nat × ExpCtx
  | 0, V, x => (V, x)
  | n + 1, V, x =>
    let r := unifRand E x
    minLoop E n (if r.1 < V then r.1 else V) r.2

/-- `OWPExpContextNext` (schedule.c:190-250). -/
def expNext (E : Bytes → Bytes → Bytes) (x : ExpCtx) : Nat × ExpCtx :=
  let r := unifRand E x
  let s := shiftLoop 32 r.1 0
  let U := mask32 (u64 (s.1 <<< 1))
  let j := s.2
  if U < LN2 then (add (mult (ulongToNum64 j) LN2) U, r.2)
  else
    let k := findK U (Q.drop 2) 2
    let v := unifRand E r.2
    let m := minLoop E (k - 1) v.1 v.2
    (mult (add (ulongToNum64 j) m.1) LN2, m.2)

/-- `CheckSlots` (schedule.c:268-290): true when some slot is invalid. -/
def checkSlots (t : Spec) : Bool :=
  t.slots.any fun
    | .randExp _ => false
    | .literal _ => false
    | .other _ => true

/-- The key, cursor and slot assignments common to create and reset
(schedule.c:362-370 and 399-418). -/
def setup (sid : Bytes) (t : Spec) : Ctx :=
  { exp := { key := sid, counter := zeros 16, out := zeros 16 }
    i := 0
    maxi := t.npackets.toNat
    nslots := min t.slots.length t.npackets.toNat
    slots := t.slots }

/-- `OWPScheduleContextCreate` (schedule.c:334-373). -/
def create (sid : Bytes) (t : Spec) : Option Ctx :=
  if t.slots.length = 0 || checkSlots t then none else some (setup sid t)

/-- `OWPScheduleContextReset` (schedule.c:392-423); `none` models NULL `sid`/`tspec`. The
Boolean is the return value `OWPErrOK`. An empty slot list is not rejected here. -/
def reset (c : Ctx) (arg : Option (Bytes × Spec)) : Bool × Ctx :=
  let c0 := { c with exp := { c.exp with counter := zeros 16, out := zeros 16 }, i := 0 }
  match arg with
  | none => (true, c0)
  | some (sid, t) => if checkSlots t then (false, c0) else (true, setup sid t)

/-- What a call can do other than return: divide by zero (undefined behaviour), read outside the
slot array (undefined behaviour), or call `abort()`. -/
inductive Fault where
  | divByZero
  | outOfBounds
  | abort
deriving DecidableEq, Repr

deriving instance DecidableEq for Except

/-- `OWPErrFATAL` (owamp.h:288-294). -/
def errFATAL : Nat := 3

/-- `OWPScheduleContextGenerateNextDelta` (schedule.c:439-468). Note that exhaustion returns the
severity number `OWPErrFATAL` as if it were a delay (line 449). -/
def nextDelta (E : Bytes → Bytes → Bytes) (c : Ctx) : Except Fault Nat × Ctx :=
  if c.i ≥ c.maxi then (.ok errFATAL, c)
  else if c.nslots = 0 then (.error .divByZero, c)
  else
    let c' := { c with i := c.i + 1 }
    match c.slots[c.i % c.nslots]? with
    | none => (.error .outOfBounds, c')
    | some (.randExp mean) =>
      let r := expNext E c.exp
      (.ok (mult r.1 mean.toNat), { c' with exp := r.2 })
    | some (.literal offset) => (.ok offset.toNat, c')
    | some (.other _) => (.error .abort, c')

/-- One call on a schedule context. -/
inductive Op where
  | next
  | reset
deriving DecidableEq, Repr

/-- Any sequence of `GenerateNextDelta` and argument-less `Reset` calls. -/
def step (E : Bytes → Bytes → Bytes) (c : Ctx) : Op → Ctx
  | .next => (nextDelta E c).2
  | .reset => (reset c none).2

def run (E : Bytes → Bytes → Bytes) (c : Ctx) (ops : List Op) : Ctx := ops.foldl (step E) c

/-- The first `n` delays a caller obtains by calling `GenerateNextDelta` `n` times. -/
def deltas (E : Bytes → Bytes → Bytes) : Nat → Ctx → List (Except Fault Nat)
  | 0, _ => []
  | n + 1, c => (nextDelta E c).1 :: deltas E n (nextDelta E c).2

end Owamp.Sched
