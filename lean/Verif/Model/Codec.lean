import Verif.Model.Time
import Verif.Model.Schedule
/-!
# Model of the record encodings of `owamp/protocol.c`: slots, skip ranges, data records
-/
namespace Owamp.Codec
open Owamp.Time

/-- `_OWPEncodeTimeStamp` of a bare `OWPNum64` (the callers set only `tstamp.owptime`). -/
def encTime (t : U64) : Bytes := encodeTimeStamp { owptime := t, sync := false, multiplier := 0, scale := 0 }

/-- `_OWPEncodeSlot` (protocol.c:935-964); `none` is the `OWPErrFATAL` return. -/
def encodeSlot (s : Sched.Slot) : Option Bytes :=
  let buf := zeros 16
  match s with
  | .randExp mean => some (put (put8 buf 0 0#8) 8 (encTime mean))
  | .literal offset => some (put (put8 buf 0 1#8) 8 (encTime offset))
  | .other _ => none

/-- `_OWPDecodeSlot` (protocol.c:980-1004). -/
def decodeSlot (buf : Bytes) : Option Sched.Slot :=
  let t := decodeTimeStamp (get buf 8 8)
  if get8 buf 0 = 0#8 then some (.randExp t)
  else if get8 buf 0 = 1#8 then some (.literal t)
  else none

/-- `OWPSkipRec` (owamp.h:1501-1505). -/
structure Skip where
  first : U32
  last : U32
deriving DecidableEq, Repr

/-- `_OWPEncodeSkipRecord` (protocol.c:2179-2196). -/
def encodeSkip (s : Skip) : Bytes := put32 (put32 (zeros 8) 0 s.first) 4 s.last

/-- `_OWPDecodeSkipRecord` (protocol.c:2214-2230). -/
def decodeSkip (buf : Bytes) : Skip := ⟨get32 buf 0, get32 buf 4⟩

/-- `OWPDataRec` (owamp.h:1399-1404). -/
structure DataRec where
  seq : U32
  send : TimeStamp
  recv : TimeStamp
  ttl : Byte
deriving DecidableEq, Repr

/-- `_OWPEncodeDataRecord` (protocol.c:2992-3025); `none` is the `False` return. -/
def encodeDataRec (r : DataRec) : Option Bytes :=
  let buf := zeros 25
  let buf := put32 buf 0 r.seq
  let buf := put buf 8 (encodeTimeStamp r.send)
  match encodeErrEstimate r.send with
  | none => none
  | some e =>
    let buf := put buf 4 e
    match encodeErrEstimate r.recv with
    | none => none
    | some e' =>
      let buf := put buf 6 e'
      let buf := put buf 16 (encodeTimeStamp r.recv)
      some (put8 buf 24 r.ttl)

/-- A timestamp and its error estimate decoded into one `OWPTimeStamp`; `none` when the estimate is
invalid (protocol.c:3060-3063 and the three similar places). -/
def decodeStamp (ts err : Bytes) : Option TimeStamp :=
  let e := decodeErrEstimate (get8 err 0) (get8 err 1)
  if e.valid then
    some { owptime := decodeTimeStamp ts, sync := e.sync, multiplier := e.multiplier, scale := e.scale }
  else none

/-- `_OWPDecodeDataRecord` (protocol.c:3043-3090). -/
def decodeDataRec (version : Nat) (buf : Bytes) : Option DataRec :=
  let seq := get32 buf 0
  if version = 0 ∨ version = 2 then
    match decodeStamp (get buf 4 8) (get buf 12 2) with
    | none => none
    | some s =>
      match decodeStamp (get buf 14 8) (get buf 22 2) with
      | none => none
      | some r => some ⟨seq, s, r, 255#8⟩
  else if version = 3 then
    match decodeStamp (get buf 8 8) (get buf 4 2) with
    | none => none
    | some s =>
      match decodeStamp (get buf 16 8) (get buf 6 2) with
      | none => none
      | some r => some ⟨seq, s, r, get8 buf 24⟩
  else none

/-- `OWPTWDataRec` (owamp.h:1406-1409). -/
structure TWDataRec where
  sent : DataRec
  reflected : DataRec
deriving DecidableEq, Repr

/-- `_OWPEncodeTWDataRecord` (protocol.c:3108-3122). -/
def encodeTWDataRec (r : TWDataRec) : Option Bytes :=
  match encodeDataRec r.sent with
  | none => none
  | some a =>
    match encodeDataRec r.reflected with
    | none => none
    | some b => some (put (put (zeros 50) 0 a) 25 b)

/-- `_OWPDecodeTWDataRecord` (protocol.c:3140-3161). -/
def decodeTWDataRec (version : Nat) (buf : Bytes) : Option TWDataRec :=
  if version = 131 then
    match decodeDataRec 3 (get buf 0 25) with
    | none => none
    | some a =>
      match decodeDataRec 3 (get buf 25 25) with
      | none => none
      | some b => some ⟨a, b⟩
  else none

end Owamp.Codec
