import Verif.Base.Bytes
/-!
# Model of `owamp/arithm64.c`

64-bit fixed point time values: 32 bits of seconds, 32 bits of fraction.
`unsigned long` is taken to be 64 bits wide (LP64), as on every platform owamp is packaged for.
-/
namespace Owamp.Num64

/-- `EXP2POW32` (arithm64.c:41). -/
def exp2pow32 : Nat := 0x100000000
/-- `BILLION` (arithm64.c:39). -/
def billion : Nat := 1000000000
/-- `MILLION` (arithm64.c:40). -/
def million : Nat := 1000000
/-- `MASK32(x)` (arithm64.c:38): keep the low 32 bits. -/
def mask32 (x : Nat) : Nat := x % 2 ^ 32
/-- `uint64_t` arithmetic wraps modulo 2^64. -/
def u64 (x : Nat) : Nat := x % 2 ^ 64

/-- Array store `w[i] = v`. -/
def upd (w : Nat → Nat) (i v : Nat) : Nat → Nat := fun j => if j = i then v else w j

/-- The inner loop body of `OWPNum64Mult` (arithm64.c:89-91), with `t` computed in `uint64_t`.
State: the limb array `w` and the carry `k`. -/
def multBody (xdec ydec : Nat → Nat) (j : Nat) (s : (Nat → Nat) × Nat) (i : Nat) :
    (Nat → Nat) × Nat :=
  let t := u64 (s.2 + u64 (xdec i * ydec j) + s.1 (i + j))
  (upd s.1 (i + j) (t % exp2pow32), t / exp2pow32)

/-- One pass of the outer loop of `OWPNum64Mult` (arithm64.c:86-99): `k = 0`, `i = 0, 1`, then
`w[j+2] = k`. -/
def multRow (xdec ydec : Nat → Nat) (w : Nat → Nat) (j : Nat) : Nat → Nat :=
  let s := [0, 1].foldl (multBody xdec ydec j) (w, 0)
  upd s.1 (j + 2) s.2

/-- `OWPNum64Mult` (arithm64.c:64-104). -/
def mult (x y : Nat) : Nat :=
  let xdec := fun i => if i = 0 then mask32 x else mask32 (x >>> 32)
  let ydec := fun i => if i = 0 then mask32 y else mask32 (y >>> 32)
  let w := [0, 1].foldl (multRow xdec ydec) (fun _ => 0)
  u64 (w 1 + u64 (w 2 <<< 32))

/-- `OWPULongToNum64` (arithm64.c:126-130); the argument is a `uint32_t`. -/
def ulongToNum64 (a : Nat) : Nat := u64 (a <<< 32)

/-- `struct timespec` (and, with microseconds, `struct timeval`). Seconds and sub-seconds are signed. -/
structure TimeParts where
  sec : Int
  sub : Int
deriving DecidableEq, Repr

/-- The normalising loops `while(sub >= UNIT){ sec++; sub -= UNIT; }` on signed values
(arithm64.c:170-173 and 264-267). Model argument `unit` is BILLION or MILLION. -/
def normParts (unit : Nat) (sec : Int) (sub : Nat) : TimeParts :=
  if _h : 0 < unit ∧ unit ≤ sub then normParts unit (sec + 1) (sub - unit)
  else ⟨sec, sub⟩
termination_by sub
decreasing_by omega

/-- Common body of `OWPNum64ToTimespec` (arithm64.c:152-174) and `OWPNum64ToTimeval`
(arithm64.c:246-268): `unit` is BILLION resp. MILLION. -/
def toParts (unit : Nat) (x : Nat) : TimeParts :=
  normParts unit (mask32 (x >>> 32)) (mask32 (u64 (mask32 x * unit) >>> 32))

/-- The loop `while(nsec >= BILLION){ sec++; nsec -= BILLION; }` on `uint32_t` values
(arithm64.c:211-214, 305-308). -/
def carry32 (unit : Nat) (sec sub : Nat) : Nat × Nat :=
  if _h : 0 < unit ∧ unit ≤ sub then carry32 unit ((sec + 1) % 2 ^ 32) (sub - unit)
  else (sec, sub)
termination_by sub
decreasing_by omega

/-- Assignment of a signed C integer to a `uint32_t`. -/
def toU32 (x : Int) : Nat := (x % 2 ^ 32).toNat

/-- Common body of `OWPTimespecToNum64` (arithm64.c:197-226) and `OWPTimevalToNum64`
(arithm64.c:291-320). -/
def ofParts (unit : Nat) (t : TimeParts) : Nat :=
  let c := carry32 unit (toU32 t.sec) (toU32 t.sub)
  u64 (mask32 c.1 <<< 32) ||| mask32 (u64 (c.2 <<< 32) / unit)

/-- `OWPNum64ToTimespec` (arithm64.c:152-174). -/
def toTimespec (x : Nat) : TimeParts := toParts billion x
/-- `OWPTimespecToNum64` (arithm64.c:197-226). -/
def ofTimespec (t : TimeParts) : Nat := ofParts billion t
/-- `OWPNum64ToTimeval` (arithm64.c:246-268). -/
def toTimeval (x : Nat) : TimeParts := toParts million x
/-- `OWPTimevalToNum64` (arithm64.c:291-320). -/
def ofTimeval (t : TimeParts) : Nat := ofParts million t

/-- `OWPUsecToNum64` (arithm64.c:389-395); the argument is a `uint32_t`. -/
def usecToNum64 (usec : Nat) : Nat := u64 (usec <<< 32) / million

/-- `OWPNum64Add` (owamp.h:205). -/
def add (x y : Nat) : Nat := u64 (x + y)
/-- `OWPNum64Sub` (owamp.h:206), wrapping. -/
def sub (x y : Nat) : Nat := u64 (x + 2 ^ 64 - y)
/-- `OWPNum64Diff` (owamp.h:210-212): distance between two values. -/
def diff (x y : Nat) : Nat := if x > y then x - y else y - x

end Owamp.Num64
