import Verif.Model.DataFile
import Verif.Model.Schedule
import Verif.Model.Num64
/-!
# Model of `_OWPCleanDataRecs` (owamp/api.c:885-1340)

The clean-up of the file of a stopped session. Failures of the operating system (no temporary file, disk
full) are not modelled. `I2CopyFile` belongs to a library outside the repository: it is taken to make its
target a copy of the first bytes that the *descriptor* of its source has.
-/
namespace Owamp.Clean
open Owamp.Num64 Owamp.Codec Owamp.File Owamp.Ctl

/-- What the code gets from outside. -/
structure Env where
  /-- The block cipher of the schedule. -/
  E : Bytes → Bytes → Bytes
  /-- `lowI + ((OWPNum64ToDouble(portion) * (highI - lowI)) / OWPNum64ToDouble(range))` as a `uint32_t`
  (api.c:1087-1088), of `lowI`, `portion`, `highI - lowI` and `range`: floating point arithmetic. -/
  interp : Nat → Nat → Nat → Nat → Nat
  /-- How many of the bytes given to `fwrite` have left the buffer of the stream, if it is not flushed. -/
  drain : Nat → Nat

/-- `OWPIsLostRecord` (api.c:3743-3748). -/
def lost (r : DataRec) : Bool := r.recv.owptime = 0

/-- The time a record is sorted by (api.c:1051-1056, 1126-1132). -/
def timeOf (timeout : Nat) (r : DataRec) : Nat :=
  if lost r then add r.send.owptime.toNat timeout else r.recv.owptime.toNat

/-- Seek to record `i`, read and decode it (api.c:1095-1120); the offset is a 32 bit product. -/
def recAt (p : Init) (f : Bytes) (i : Nat) : Option DataRec :=
  (rd f (p.osetData.toNat + (i * p.recSize) % 2 ^ 32) p.recSize).bind (decodeDataRec p.version)

/-- `OWPNum64Add` of the first `n` delays of the schedule to a time (api.c:1017-1023). -/
def timeAfter (E : Bytes → Bytes → Bytes) : Nat → Sched.Ctx → Nat → Except Sched.Fault Nat
  | 0, _, t => .ok t
  | n + 1, c, t =>
    match Sched.nextDelta E c with
    | (.error e, _) => .error e
    | (.ok d, c') => timeAfter E n c' (add t d)

/-- The next record to look at (api.c:1072-1090). -/
def probe (env : Env) (thresh lowI lowR highI highR : Nat) : Nat :=
  let n := (highI + 2 ^ 32 - lowI) % 2 ^ 32
  let range := sub highR lowR
  if range = 0 then n / 2
  else
    let m := env.interp lowI (sub thresh lowR) n range
    if m = lowI then (m + 1) % 2 ^ 32 else m

/-- The search loop (api.c:1068-1141): `none` while it is not over after so many turns, `some none` after a failure, else `lowI`.
The indices are `uint32_t`. -/
def search (env : Env) (timeout thresh : Nat) (rec : Nat → Option DataRec) : Nat → Nat → Nat → Nat → Nat → Option (Option Nat)
  | 0, _, _, _, _ => none
  | fuel + 1, lowI, lowR, highI, highR =>
    if (highI + 2 ^ 32 - lowI) % 2 ^ 32 > 1 then
      match rec (probe env thresh lowI lowR highI highR) with
      | none => some none
      | some r =>
        if timeOf timeout r < thresh then
          search env timeout thresh rec fuel (probe env thresh lowI lowR highI highR) (timeOf timeout r) highI highR
        else search env timeout thresh rec fuel lowI lowR (probe env thresh lowI lowR highI highR) (timeOf timeout r)
    else some (some lowI)

/-- What the scan has done: `tmp` is the temporary file, once there is one, as the bytes copied to it and the bytes given to `fwrite`. -/
structure Scan where
  tmp : Option (Bytes × Bytes)
  num : U32
  maxRecv : U32
deriving DecidableEq, Repr

/-- One record of the scan (api.c:1164-1315); `none` is `loop_err`. -/
def scanStep (p : Init) (f : Bytes) (next thr j : Nat) (s : Scan) : Option Scan :=
  (rd f (p.osetData.toNat + (j * p.recSize) % 2 ^ 32) p.recSize).bind fun b =>
    (decodeDataRec p.version b).bind fun r =>
      if r.seq.toNat ≥ next ∧ ¬ lost r then none
      else if r.seq.toNat < next ∧ r.send.owptime.toNat ≤ thr then
        some { s with
          maxRecv := if s.maxRecv < r.seq then r.seq else s.maxRecv
          tmp := s.tmp.map fun t => (t.1, t.2 ++ b) }
      else
        some { s with
          num := s.num - 1#32
          tmp := some (s.tmp.getD (f.take (p.osetData.toNat + (j * p.recSize) % 2 ^ 32), [])) }

/-- The scan of `n` records from record `j` on (api.c:1164-1315). The file is read sequentially from the first one; its
positions are those of the records as long as the file has less than 2^32 bytes of them. -/
def scan (p : Init) (f : Bytes) (next thr : Nat) : Nat → Nat → Scan → Option Scan
  | 0, _, s => some s
  | n + 1, j, s => (scanStep p f next thr j s).bind (scan p f next thr n (j + 1))

/-- How the function ends: `False` or `True`, with the file as it is then, the largest number seen and where the scan
started; or undefined behaviour (a record larger than the buffer, a fault in the schedule). -/
inductive Result where
  | undefined
  | failed (f : Bytes)
  | ok (f : Bytes) (maxRecv : U32) (start : Nat)
deriving DecidableEq, Repr

/-- Copying back what has reached the temporary file (api.c:1317-1330). -/
def copyBack (env : Env) (f : Bytes) : Option (Bytes × Bytes) → Bytes
  | none => f
  | some (a, b) => a ++ b.take (env.drain b.length)

/-- From `clean_data` on (api.c:1317-1340): copying back and writing the number of records. -/
def finish (env : Env) (f : Bytes) (s : Scan) (start : Nat) : Result :=
  match writeNumData (copyBack env f s.tmp) s.num with
  | none => .failed (copyBack env f s.tmp)
  | some ws => .ok (after (copyBack env f s.tmp) ws) s.maxRecv start

/-- From `thresh_pos` on (api.c:1142-1333). -/
def fromLow (env : Env) (p : Init) (f : Bytes) (next stop timeout : Nat) (num : U32) (lowI : Nat) : Result :=
  match scan p f next (sub stop timeout) (num.toNat - lowI) lowI ⟨none, num, 0⟩ with
  | none => .failed f
  | some s => finish env f s (p.osetData.toNat + (lowI * p.recSize) % 2 ^ 32)

/-- `MIN(next_seqno_time,stoptime) - 2*timeout` (api.c:1026-1033). -/
def threshold (nextTime stop timeout : Nat) : Nat := sub (min nextTime stop) (mult timeout (ulongToNum64 2))

/-- The search and what follows (api.c:1034-1333). -/
def locate (env : Env) (p : Init) (f : Bytes) (next nextTime stop timeout : Nat) (num : U32) (fuel : Nat) : Option Result :=
  match recAt p f 0 with
  | none => some (.failed f)
  | some r =>
    if ¬ timeOf timeout r < threshold nextTime stop timeout then some (fromLow env p f next stop timeout num 0)
    else
      match search env timeout (threshold nextTime stop timeout) (recAt p f) fuel 0 (timeOf timeout r) num.toNat stop with
      | none => none
      | some none => some (.failed f)
      | some (some lowI) => some (fromLow env p f next stop timeout num lowI)

/-- `_OWPCleanDataRecs` (api.c:885-1340) on the file `f` of a session with schedule context `ctx`; `none` while the search is not
over after `fuel` turns. -/
def clean (env : Env) (f : Bytes) (t : TestSpec) (ctx : Sched.Ctx) (nextSeq : U32) (stop : U64) (fuel : Nat) : Option Result :=
  match readInitial f with
  | none => some (.failed f)
  | some p =>
    if (f.length - p.osetData).tmod p.recSize ≠ 0 then some (.failed f)
    else
      let num := BitVec.ofInt 32 ((f.length - p.osetData).tdiv p.recSize)
      if num = 0 then some (finish env f ⟨none, 0, 0⟩ 0)
      else if p.osetData < 0 then some (.failed f)
      else
        let next := if nextSeq = 0xFFFFFFFF#32 then t.npackets else nextSeq
        if next.toNat > t.npackets.toNat then some (.failed f)
        else if p.recSize > 25 then some .undefined
        else
          match timeAfter env.E next.toNat (Sched.reset ctx none).2 t.startTime.toNat with
          | .error _ => some .undefined
          | .ok nextTime => locate env p f next.toNat nextTime stop.toNat t.lossTimeout.toNat num fuel

end Owamp.Clean
