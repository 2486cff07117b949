import Verif.Model.Packet
import Verif.Model.Schedule
/-!
# Model of the sizes and rates of test packets (`owamp/api.c`, `owamp/endpoint.c`)

`OWPPacketSizeT` is `uint32_t` (owamp.h:393), so sizes are words of 32 bits and additions wrap; `len_payload` is a `size_t`
(owampP.h:334), here a `Nat`. Rates are `double`s in the code and exact rationals here: rounding is not modelled.
-/
namespace Owamp.Sizes
open Owamp.Sched

/-- The `switch` of `OWPTestPayloadSize` (api.c:373-382). -/
def headSize (mode : U32) : U32 :=
  if mode = 1#32 ∨ mode = 8#32 then 14#32 else if mode = 2#32 ∨ mode = 4#32 then 48#32 else 0#32

/-- `OWPTestPayloadSize` (api.c:365-385). -/
def payloadSize (mode padding : U32) : U32 := headSize mode + padding

/-- The `switch` of `OWPTestTWPayloadSize` (api.c:395-404). -/
def twHeadSize (mode : U32) : U32 :=
  if mode = 1#32 ∨ mode = 8#32 then 41#32 else if mode = 2#32 ∨ mode = 4#32 then 112#32 else 0#32

/-- `OWPTestTWPayloadSize` (api.c:387-407). -/
def twPayloadSize (mode padding : U32) : U32 := twHeadSize mode + padding

/-- `AF_INET`, `AF_INET6` or another family. -/
inductive Family where
  | inet
  | inet6
  | other
deriving DecidableEq, Repr

/-- The header sizes (api.c:456-458, 473-483). -/
def ipHeaders : Family → Option U32
  | .inet => some (20#32 + 8#32)
  | .inet6 => some (40#32 + 8#32)
  | .other => none

/-- The common shape of `OWPTestPacketSize` (api.c:464-489) and `OWPTestTWPacketSize` (api.c:495-520). -/
def withHeaders (af : Family) (payload : U32) : U32 :=
  match ipHeaders af with
  | none => 0#32
  | some h => if payload = 0#32 then 0#32 else payload + h

/-- `OWPTestPacketSize` (api.c:464-489). -/
def packetSize (af : Family) (mode padding : U32) : U32 := withHeaders af (payloadSize mode padding)

/-- `OWPTestTWPacketSize` (api.c:495-520). -/
def twPacketSize (af : Family) (mode padding : U32) : U32 := withHeaders af (twPayloadSize mode padding)

/-- The size a socket buffer is asked to have, and the test for "Packet size overflow" (endpoint.c:431-445): `sbuf_size`
is an `int`, the comparison converts it back. `none` is the error. -/
def bufferSize (twoway : Bool) (af : Family) (mode padding : U32) : Option Int :=
  let tpsize := (if twoway then twPacketSize af mode padding else packetSize af mode padding) + 128#32
  let sbuf := tpsize.toInt
  if BitVec.ofInt 32 sbuf ≠ tpsize then none else some sbuf

/-- `ep->len_payload` (endpoint.c:447-448): what a sender sends and a receiver expects. -/
def lenPayload (mode padding : U32) : Nat := (payloadSize mode padding).toNat

/-- The bytes allocated for `ep->payload` (endpoint.c:449-459), in a `size_t`. -/
def allocated (twoway : Bool) (mode padding : U32) : Nat :=
  let len := lenPayload mode padding
  let snd := if twoway then
      max len ((len + (twPayloadSize mode 0#32).toNat + 2 ^ 64 - (payloadSize mode 0#32).toNat) % 2 ^ 64)
    else len
  max len snd

/-- How many bytes `run_reflector` sends (endpoint.c:2917-2918). -/
def replyLen (mode padding : U32) : Nat := max (lenPayload mode padding) (twPayloadSize mode 0#32).toNat

/-- How many bytes `run_tw_test` expects of a reply, `resp_len_payload` (endpoint.c:3506-3508); the difference in brackets
is of type `uint32_t`. -/
def replyExpected (mode padding : U32) : Nat :=
  (lenPayload mode padding + (twPayloadSize mode 0#32 - payloadSize mode 0#32).toNat) % 2 ^ 64

/-- The field `any.mean_delay` of a slot. A slot of another type has no delay in the model (such a slot is refused). -/
def meanDelay : Slot → U64
  | .randExp m => m
  | .literal o => o
  | .other _ => 0#64

/-- The sum of `OWPTestPacketRate` (api.c:443-445). -/
def duration (slots : List Slot) : U64 := slots.foldl (fun d s => d + meanDelay s) 0#64

/-- `OWPTestPacketRate` (api.c:423-453), packets per second; `OWPNum64ToDouble` divides by 2^32 (arithm64.c:342-347). -/
def packetRate (slots : List Slot) : Rat :=
  if slots.length = 0 then 0
  else if duration slots = 0#64 then 0
  else (slots.length : Rat) / (((duration slots).toNat : Rat) / (2 ^ 32 : Nat))

/-- `OWPTestPacketBandwidth` (api.c:537-553), bits per second. -/
def bandwidth (af : Family) (mode padding : U32) (slots : List Slot) : Rat :=
  packetRate slots * ((packetSize af mode padding).toNat : Rat) * 8

/-- The amount that `OWPDCheckTestPolicy` asks for (policy.c:2373-2374): the `double` becomes an `OWPDLimitT` (`uint64_t`);
`none` is the undefined conversion of a value that does not fit. -/
def demanded (af : Family) (mode padding : U32) (slots : List Slot) : Option U64 :=
  let b := (bandwidth af mode padding slots).floor
  if 0 ≤ b ∧ b < 2 ^ 64 then some (BitVec.ofInt 64 b) else none

end Owamp.Sizes
