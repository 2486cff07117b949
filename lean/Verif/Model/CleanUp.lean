import Verif.Model.Clean
/-!
# Model of `_OWPCleanUpSessions` (owamp/api.c:1342-1742)

The clean-up of the receiving sessions when the control connection is gone and no stop message was read. As in
`Verif.Model.Clean`, failures of the operating system are not modelled and `I2CopyFile` makes its target a copy of what the descriptor of
its source has. The lock is the advisory lock of the file: it stays until it is released or the file is closed.
-/
namespace Owamp.Clean
open Owamp.Num64 Owamp.Codec Owamp.File Owamp.Ctl

/-- `_maxrecv_rec` (api.c:1347-1353). -/
structure MaxRecv where
  found : Bool
  index : U32
  maxrecv : U32
  badlost : U32
  indexBad : U32
deriving DecidableEq, Repr

/-- `GetMaxRecv` (api.c:1355-1384). -/
def getMaxRecv (m : MaxRecv) (r : DataRec) : Int × MaxRecv :=
  let m' :=
    if ¬ lost r then { m with found := true, maxrecv := if m.maxrecv < r.seq then r.seq else m.maxrecv }
    else if r.seq > m.maxrecv ∧ m.badlost < m.maxrecv then { m with badlost := r.seq, indexBad := m.index }
    else m
  (0, { m' with index := m'.index + 1#32 })

/-- One record of the second pass (api.c:1564-1697), read from position `pos`; `j` is its number, and where the copy of the file ends if it is the
first to be dropped. `none` is `loop_err`. -/
def trimStep (p : Init) (f : Bytes) (maxRecv : U32) (pos j : Nat) (s : Scan) : Option Scan :=
  (rd f pos p.recSize).bind fun b =>
    (decodeDataRec p.version b).bind fun r =>
      if r.seq > maxRecv then
        some { s with
          num := s.num - 1#32
          tmp := some (s.tmp.getD (f.take (p.osetData.toNat + (j * p.recSize) % 2 ^ 32), [])) }
      else some { s with tmp := s.tmp.map fun t => (t.1, t.2 ++ b) }

/-- The second pass over `n` records (api.c:1558-1702). -/
def trim (p : Init) (f : Bytes) (maxRecv : U32) : Nat → Nat → Nat → Scan → Option Scan
  | 0, _, _, s => some s
  | n + 1, pos, j, s => (trimStep p f maxRecv pos j s).bind (trim p f maxRecv n (pos + p.recSize) (j + 1))

/-- What becomes of one file: undefined behaviour, `goto err` with the file as it is then, or the next session, with the lock still held or not. -/
inductive Cleaned where
  | undefined
  | failed (f : Bytes)
  | done (f : Bytes) (locked : Bool)
deriving DecidableEq, Repr

/-- The second pass and what follows (api.c:1550-1735): copying back, the number of records, the mark "incomplete", the lock released. -/
def trimFrom (env : Env) (p : Init) (f : Bytes) (maxRecv : U32) (toff : Int) : Cleaned :=
  if toff < 0 then .failed f
  else
    let j := (BitVec.ofInt 32 ((toff - p.osetData).tdiv p.recSize)).toNat
    match trim p f maxRecv (p.ndata.toNat - j) toff.toNat j ⟨none, p.ndata, 0⟩ with
    | none => .failed f
    | some s =>
      match writeNumData (copyBack env f s.tmp) s.num with
      | none => .failed (copyBack env f s.tmp)
      | some ws =>
        match writeFinished (after (copyBack env f s.tmp) ws) 2 0 with
        | none => .failed (after (copyBack env f s.tmp) ws)
        | some ws' => .done (after (after (copyBack env f s.tmp) ws) ws') false

/-- Without a largest number from the first pass (api.c:1514-1548): the received records of the whole file. When there are none the file is cut behind
its header, its number of records set to 0, and `continue` goes to the next session. -/
def fromMax (env : Env) (p : Init) (f : Bytes) : Cleaned :=
  if p.osetData < 0 then .failed f
  else
    match parseRecords getMaxRecv f p.osetData.toNat p.ndata.toNat p.version ⟨false, 0, 0, 0, 0⟩ with
    | (.overflow, _) => .undefined
    | (.fatal, _) => .failed f
    | (.ok, m) =>
      if ¬ m.found then
        match writeNumData (f.take p.osetData.toNat) 0 with
        | none => .failed (f.take p.osetData.toNat)
        | some ws => .done (after (f.take p.osetData.toNat) ws) true
      else trimFrom env p f m.maxrecv (p.osetData + ((m.indexBad.toNat * p.recSize) % 2 ^ 32 : Nat))

/-- What is done with the file of one receiving session (api.c:1471-1735); `none` while the search of the first pass is not over after `fuel` turns. -/
def cleanUpFile (env : Env) (f : Bytes) (t : TestSpec) (ctx : Sched.Ctx) (stop : U64) (fuel : Nat) : Option Cleaned :=
  (clean env f t ctx 0xFFFFFFFF#32 stop fuel).map fun r =>
    match r with
    | .undefined => .undefined
    | .failed f' => .failed f'
    | .ok f' maxRecv start =>
      match readInitial f' with
      | none => .failed f'
      | some p => if maxRecv = 0#32 then fromMax env p f' else trimFrom env p f' maxRecv (start : Int)

/-- A session as the clean-up sees it: its endpoint, if it has one, whether that is a sender, and its file, if it has one. -/
structure FileSes where
  spec : TestSpec
  ctx : Sched.Ctx
  ep : Option (Bool × Option Bytes)

/-- What the clean-up leaves of a session's file: its contents and whether the lock is still held. -/
structure Left where
  file : Option Bytes
  locked : Bool
deriving DecidableEq, Repr

/-- The loop of `_OWPCleanUpSessions` (api.c:1437-1738) on the sessions of a one-way control connection; sessions after a failing one are left as they
are. The result is what the function returns; on `false` its accept value is `OWP_CNTRL_FAILURE`. `none`: the search of some file does not end, or
undefined behaviour. -/
def cleanUpLoop (env : Env) (stop : U64) (fuel : Nat) : List FileSes → Option (Bool × List Left)
  | [] => some (true, [])
  | t :: ts =>
    match t.ep with
    | none => some (false, (t :: ts).map fun x => ⟨x.ep.bind (·.2), false⟩)
    | some (true, file) => (cleanUpLoop env stop fuel ts).map fun r => (r.1, ⟨file, false⟩ :: r.2)
    | some (false, none) => (cleanUpLoop env stop fuel ts).map fun r => (r.1, ⟨none, false⟩ :: r.2)
    | some (false, some f) =>
      match cleanUpFile env f t.spec t.ctx stop fuel with
      | none => none
      | some .undefined => none
      | some (.failed f') => some (false, ⟨some f', true⟩ :: ts.map fun x => ⟨x.ep.bind (·.2), false⟩)
      | some (.done f' locked) => (cleanUpLoop env stop fuel ts).map fun r => (r.1, ⟨some f', locked⟩ :: r.2)

/-- `_OWPCleanUpSessions` (api.c:1404-1742): nothing is done for two-way connections. -/
def cleanUpSessions (env : Env) (twoway : Bool) (stop : U64) (fuel : Nat) (ts : List FileSes) : Option (Bool × List Left) :=
  if twoway then some (true, ts.map fun x => ⟨x.ep.bind (·.2), false⟩) else cleanUpLoop env stop fuel ts

end Owamp.Clean
