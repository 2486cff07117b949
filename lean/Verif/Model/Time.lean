import Verif.Model.Num64
/-!
# Model of `owamp/time.c` (timestamps and error estimates) and the `timespec` macros of `owamp.h`

Not modelled: reading the system clock and NTP state (`gettimeofday`, `ntp_adjtime`); the values they
return are parameters.
-/
namespace Owamp.Time
open Owamp.Num64

/-- `OWPTimeStamp` (owamp.h:278-283). `sync` is a `uint8_t` used only as a truth value, so `Bool`. -/
structure TimeStamp where
  owptime : U64
  sync : Bool
  multiplier : Byte
  scale : Byte
deriving DecidableEq, Repr

/-- `OWPJAN_1970` (owamp.h:1767). -/
def jan1970 : Nat := 0x83aa7e80

/-- `_OWPEncodeTimeStamp` (time.c:347-375): seconds at 0, fraction at 4, both big-endian. -/
def encodeTimeStamp (t : TimeStamp) : Bytes :=
  let buf := zeros 8
  let buf := put32 buf 0 (BitVec.ofNat 32 ((t.owptime.toNat >>> 32) &&& 0xFFFFFFFF))
  put32 buf 4 (BitVec.ofNat 32 (t.owptime.toNat &&& 0xFFFFFFFF))

/-- `_OWPDecodeTimeStamp` (time.c:445-478) on an 8 byte buffer. -/
def decodeTimeStamp (buf : Bytes) : U64 :=
  BitVec.ofNat 64 (((get32 buf 0).toNat <<< 32) ||| ((get32 buf 4).toNat &&& 0xFFFFFFFF))

/-- `_OWPEncodeTimeStampErrEstimate` (time.c:394-425): `none` is the `False` return. -/
def encodeErrEstimate (t : TimeStamp) : Option Bytes :=
  if t.multiplier = 0 then none
  else
    let b0 := t.scale &&& 0x3F#8
    let b0 := if t.sync then b0 ||| 0x80#8 else b0
    some [b0, t.multiplier]

/-- Result of `_OWPDecodeTimeStampErrEstimate`. -/
structure ErrEst where
  sync : Bool
  scale : Byte
  multiplier : Byte
  valid : Bool
deriving DecidableEq, Repr

/-- `_OWPDecodeTimeStampErrEstimate` (time.c:499-521). The function also clears `buf[0]` in the
caller's buffer when `buf[1]` is zero; no caller reads it again. -/
def decodeErrEstimate (b0 b1 : Byte) : ErrEst :=
  let b0 := if b1 = 0 then 0 else b0
  { sync := b0 &&& 0x80#8 ≠ 0, scale := b0 &&& 0x3F#8, multiplier := b1, valid := b1 ≠ 0 }

/-- The loop `while(err >= 0xFF){ err >>= 1; scale++; }` (time.c:703-707): returns `(err, scale)`. -/
def errShift (err scale : Nat) : Nat × Nat :=
  if err ≥ 0xFF then errShift (err >>> 1) (scale + 1) else (err, scale)
termination_by err
decreasing_by simp only [Nat.shiftRight_eq_div_pow]; omega

/-- `OWPTimespecToTimestamp` (time.c:645-719). `errest`/`last` are the optional pointers. `scale` is a
`uint8_t`. -/
def timespecToTimestamp (old : TimeStamp) (tv : TimeParts) (errest last : Option Nat) : TimeStamp :=
  let owptime := BitVec.ofNat 64 (add (ofTimespec tv) (ulongToNum64 jan1970))
  match errest with
  | some e =>
    if e ≠ 0 then
      if last ≠ some e then
        let r := errShift (usecToNum64 e) 0
        { old with owptime := owptime, scale := BitVec.ofNat 8 r.2,
                   multiplier := BitVec.ofNat 8 (0xFF &&& (r.1 + 1)) }
      else { old with owptime := owptime }
    else { owptime := owptime, sync := false, scale := 64, multiplier := 1 }
  | none => { owptime := owptime, sync := false, scale := 64, multiplier := 1 }

/-- `OWPTimestampToTimespec` (time.c:742-762). -/
def timestampToTimespec (t : TimeStamp) : TimeParts :=
  toTimespec (sub t.owptime.toNat (ulongToNum64 jan1970))

/-- `OWPTimevalToTimestamp` (time.c:545-571), the time part only. -/
def timevalToOwptime (tv : TimeParts) : Nat := add (ofTimeval tv) (ulongToNum64 jan1970)

/-- `OWPTimestampToTimeval` (time.c:594-614). -/
def timestampToTimeval (t : TimeStamp) : TimeParts :=
  toTimeval (sub t.owptime.toNat (ulongToNum64 jan1970))

/-- The shifting loop of `OWPGetTimeStampError` (time.c:801-804). -/
def shiftLoop (err : Nat) : Nat → Nat
  | 0 => err
  | n+1 => shiftLoop (u64 (err <<< 1)) n

/-- `OWPGetTimeStampError` (time.c:778-810) up to the final conversion to `double`: the error in units
of 2^-32 seconds. -/
def getTimeStampErrorNum (multiplier scale : Byte) : Nat :=
  shiftLoop (multiplier.toNat &&& 0xFF) (scale &&& 0x3F#8).toNat

/-! ### `timespec` macros (owamp.h:1804-1854) -/

/-- `timespeccmp(a,b,<)` (owamp.h:1814-1817). -/
def tsLt (a b : TimeParts) : Bool := if a.sec = b.sec then a.sub < b.sub else a.sec < b.sec
/-- `timespeccmp(a,b,>)` (owamp.h:1814-1817). -/
def tsGt (a b : TimeParts) : Bool := if a.sec = b.sec then a.sub > b.sub else a.sec > b.sec

/-- `timespecadd` (owamp.h:1820-1828). -/
def tsAdd (a b : TimeParts) : TimeParts :=
  let s := a.sec + b.sec
  let n := a.sub + b.sub
  if n ≥ 1000000000 then ⟨s + 1, n - 1000000000⟩ else ⟨s, n⟩

/-- `timespecsub` (owamp.h:1831-1839). -/
def tsSub (a b : TimeParts) : TimeParts :=
  let s := a.sec - b.sec
  let n := a.sub - b.sub
  if n < 0 then ⟨s - 1, n + 1000000000⟩ else ⟨s, n⟩

/-- `timespecdiff` (owamp.h:1842-1854). -/
def tsDiff (a b : TimeParts) : TimeParts := if tsGt a b then tsSub a b else tsSub b a

/-! ### Applying the NTP offset in `_OWPGetTimespec` -/

/-- The loop `while(offset < 0){ tv_sec--; offset += sec; }` (time.c:253-256), nanosecond kernel. -/
def offUp (sec off : Int) : Int × Int :=
  if off < 0 then offUp (sec - 1) (off + 1000000000) else (sec, off)
termination_by (-off).toNat
decreasing_by omega

/-- The loop `while(offset >= sec){ tv_sec++; offset -= sec; }` (time.c:261-264). -/
def offDown (sec off : Int) : Int × Int :=
  if off ≥ 1000000000 then offDown (sec + 1) (off - 1000000000) else (sec, off)
termination_by off.toNat
decreasing_by omega

/-- The clock reading part of `_OWPGetTimespec` (time.c:216-292) for a kernel with nanosecond offsets
(`STA_NANO` defined): `tod` is `gettimeofday`, `ntp` is `some (offset, esterror)` when the kernel clock
is synchronised. Returns the time, the error estimate in microseconds and the sync flag. -/
def getTimespec (tod : TimeParts) (ntp : Option (Int × Nat)) : TimeParts × Nat × Bool :=
  let ts : TimeParts := ⟨tod.sec, tod.sub * 1000⟩
  match ntp with
  | none => (ts, 0, false)
  | some (off, est) =>
    let r := offUp ts.sec off
    let r := offDown r.1 r.2
    let n := ts.sub + r.2
    let t : TimeParts := if n ≥ 1000000000 then ⟨r.1 + 1, n - 1000000000⟩ else ⟨r.1, n⟩
    let err := est % 2 ^ 32
    (t, if err = 0 then 1 else err, true)

end Owamp.Time
