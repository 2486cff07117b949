import Verif.Model.Codec
import Verif.Model.Protocol
/-!
# Model of the session data files of `owamp/api.c`

A file is the list of its bytes. `FILE*` positions are explicit arguments. Only errors that the contents
of the file cause are modelled here; a write that fails part way leaves the same file as a crash at that
byte (see `Spec/DataFile.lean`).
-/
namespace Owamp.File
open Owamp.Codec Owamp.Ctl

/-- `owp_magic` (`_OWP_MAGIC_FILETYPE`, owampP.h:67; api.c:2344): "OwA" and a zero byte. -/
def magic : Bytes := [0x4F#8, 0x77#8, 0x41#8, 0#8]

/-- `fread` of `n` bytes at position `off`: all of them or a failure. -/
def rd (f : Bytes) (off n : Nat) : Option Bytes := if off + n ≤ f.length then some (get f off n) else none

/-- `fseeko(fp,off,SEEK_SET)` and `fwrite` of `bs`: bytes between the end of the file and `off` become zero. -/
def pwrite (f : Bytes) (off : Nat) (bs : Bytes) : Bytes :=
  f.take off ++ zeros (off - f.length) ++ bs ++ f.drop (off + bs.length)

/-- A 64 bit file offset read into an `off_t` (api.c:2434-2441, 2518-2526): values from 2^63 become negative,
and the comparison with the value read never fails. -/
def offT (f : Bytes) (off : Nat) : Int := (BitVec.ofNat 64 (beDec (get f off 8))).toInt

/-- `GetSessionFinishedType` (api.c:2144-2162): `OWP_SESSION_FINISHED_ERROR` is 0, `NORMAL` 1 and
`INCOMPLETE` 2. -/
def finishedType (v : Nat) : Nat := if v ≤ 2 then v else 0

/-- `_OWPSessionHeaderInitialRec` (owampP.h:409-437) without the `stat` buffer. -/
structure Init where
  version : Nat
  recSize : Nat
  finished : Nat
  next : U32
  nskip : U32
  ndata : U32
  osetSkip : Int
  osetData : Int
  hdrLen : Int
deriving DecidableEq, Repr

/-- `_OWPReadDataHeaderInitial` (api.c:2345-2565). The reads of a version 3 header follow each other without
other effects, so they are one read of 32 bytes. Signed overflow of `st_size - hdr_len` in a version 2 file
with a header length near -2^63 is not modelled. -/
def readInitial (f : Bytes) : Option Init :=
  if f.length < 16 then none
  else if get f 0 4 ≠ magic then none
  else
    let v := (get32 f 4).toNat
    if v = 0 then
      some { version := 0, recSize := 24, finished := 0, next := 0, nskip := 0, ndata := 0, osetSkip := 0
             osetData := 0, hdrLen := offT f 8 }
    else if v = 2 then
      (rd f 16 4).map fun _ =>
        { version := 2, recSize := 24, finished := finishedType (get32 f 16).toNat, next := 0, nskip := 0
          ndata := BitVec.ofInt 32 ((f.length - offT f 8).tdiv 24), osetSkip := 0
          osetData := offT f 8, hdrLen := offT f 8 }
    else if v = 3 ∨ v = 131 then
      (rd f 8 32).map fun _ =>
        { version := v, recSize := if v = 3 then 25 else 50, finished := finishedType (get32 f 8).toNat
          next := get32 f 12, nskip := get32 f 16, ndata := get32 f 20, osetSkip := offT f 24
          osetData := offT f 32, hdrLen := offT f 32 }
    else none

/-- The fields of `OWPSessionHeaderRec` (owamp.h:1294-1320) that `OWPReadDataHeader` fills in. `pre` holds
what the test request preamble gives, if the version has one; `hdr_ret->header` is then true. -/
structure Header where
  version : Nat
  recSize : Nat
  twoway : Bool
  finished : Nat
  pre : Option Preamble
  next : U32
  nskip : U32
  ndata : U32
  osetSkip : Int
  osetData : Int
deriving DecidableEq, Repr

/-- What `OWPReadDataHeader` returns: 0 after an error, with `hdr_ret->header` as given, or the header, with
the file left at position `pos`. -/
inductive HdrResult where
  | bad (header : Bool)
  | ok (h : Header) (pos : Nat)
deriving DecidableEq, Repr

/-- Position of the test request preamble after the initial header (api.c:2325-2343). -/
def preambleAt (version : Nat) : Nat := if version = 2 then 20 else 40

/-- The preamble part of `OWPReadDataHeader` (api.c:3199-3237); the outer `none` is the error return. -/
def readPreamble (f : Bytes) (version : Nat) : Option (Option Preamble) :=
  if version ≥ 2 then
    (rd f (preambleAt version) 112).bind fun m =>
      if (decodePreamble false m false).1 then some (some (decodePreamble false m false).2) else none
  else some none

/-- `OWPReadDataHeader` (api.c:3172-3273). -/
def readHeader (f : Bytes) : HdrResult :=
  match readInitial f with
  | none => .bad false
  | some p =>
    match readPreamble f p.version with
    | none => .bad false
    | some pre =>
      if p.hdrLen < 0 then .bad pre.isSome
      else if (p.ndata.toNat : Int) > (f.length - p.hdrLen).tdiv p.recSize then .bad pre.isSome
      else
        let twoway := decide (128 ≤ p.version)
        .ok { version := p.version, recSize := p.recSize, twoway := twoway, finished := p.finished, pre := pre
              next := p.next, nskip := p.nskip
              ndata := if p.finished ≠ 1 ∨ twoway then BitVec.ofInt 32 ((f.length - p.hdrLen).tdiv p.recSize)
                       else p.ndata
              osetSkip := p.osetSkip, osetData := p.osetData } p.hdrLen.toNat

/-- The slot loop of `OWPReadDataHeaderSlots` (api.c:3383-3408): `n` slots from `pos`. -/
def slotLoop (f : Bytes) (pos : Nat) : Nat → Option (List Sched.Slot)
  | 0 => some []
  | n + 1 =>
    (rd f pos 16).bind fun b => (decodeSlot b).bind fun s => (slotLoop f (pos + 16) n).map (s :: ·)

/-- The end of the header and the start of the slots (api.c:3334-3350). -/
def slotBounds (p : Init) : Int × Nat :=
  if p.version = 2 then (p.hdrLen, 132)
  else
    let lo := min p.osetSkip p.osetData
    (if lo = 0 then max p.osetSkip p.osetData else lo, 152)

/-- `OWPReadDataHeaderSlots` (api.c:3294-3443); `none` is `False`. `fileslots` is a `uint32_t`. -/
def readSlots (f : Bytes) (nslots : U32) : Option (List Sched.Slot) :=
  (readInitial f).bind fun p =>
    if p.version < 2 then none
    else
      let bytes : U32 := BitVec.ofInt 32 ((slotBounds p).1 - (slotBounds p).2)
      if bytes.toNat % 16 ≠ 0 then none
      else if BitVec.ofNat 32 (bytes.toNat / 16) - 1#32 ≠ nslots then none
      else
        (slotLoop f (slotBounds p).2 nslots.toNat).bind fun ss =>
          (rd f ((slotBounds p).2 + 16 * nslots.toNat) 16).bind fun z =>
            if z = zeros 16 then some ss else none

/-- `OWPSessionHeaderRec` as `OWPWriteDataHeader` reads it; the slots are in `spec`. -/
structure HdrIn where
  sender : SockAddr
  receiver : SockAddr
  confSender : Bool
  confReceiver : Bool
  sid : Bytes
  spec : TestSpec
  twoway : Bool
  finished : Nat
  next : U32
  nskip : U32
  ndata : U32
  recSize : U32

/-- The arguments `OWPWriteDataHeader` gives to `_OWPEncodeTestRequestPreamble` (api.c:2895-2902): always
those of a one-way request. -/
def HdrIn.args (h : HdrIn) : ReqArgs :=
  { sender := h.sender, receiver := h.receiver, confSender := if h.twoway then true else h.confSender
    confReceiver := h.confReceiver, zeroAddr := false, sid := some h.sid, spec := h.spec }

/-- The end of the fixed header, `oset` (api.c:2904-2930). `16*(nslots+1)` is a 32 bit product. -/
def HdrIn.oset (h : HdrIn) : Nat := 152 + (16 * (h.spec.slots.length % 2 ^ 32 + 1)) % 2 ^ 32

/-- The offsets of the skip and data records (api.c:2992-3010), with 32 bit products. -/
def HdrIn.osets (h : HdrIn) : Nat × Nat :=
  if h.nskip ≠ 0 then (h.oset, h.oset + (h.nskip.toNat * 8) % 2 ^ 32)
  else (if h.ndata ≠ 0 then h.oset + (h.ndata.toNat * h.recSize.toNat) % 2 ^ 32 else 0, h.oset)

/-- The fixed part of the header: magic to offsets (api.c:2937-3021). -/
def HdrIn.fixed (h : HdrIn) : Bytes :=
  magic ++ enc32 (if h.twoway then 131#32 else 3#32) ++
    enc32 (if h.finished = 0 ∨ h.finished = 1 then BitVec.ofNat 32 h.finished else 2#32) ++
    enc32 h.next ++ enc32 h.nskip ++ enc32 h.ndata ++
    enc64 (BitVec.ofNat 64 h.osets.1) ++ enc64 (BitVec.ofNat 64 h.osets.2)

/-- The slot loop of `OWPWriteDataHeader` (api.c:3033-3048): what is written, and whether all slots were
valid. -/
def slotBytes : List Sched.Slot → Bytes × Bool
  | [] => ([], true)
  | s :: ss =>
    match encodeSlot s with
    | none => ([], false)
    | some b => (b ++ (slotBytes ss).1, (slotBytes ss).2)

/-- `OWPWriteDataHeader` (api.c:2870-3062) on an empty file: the bytes written and the result. `junk` is the
uninitialised buffer `msg`. -/
def writeHeader (junk : Bytes) (h : HdrIn) : Bytes × Bool :=
  match encodePreamble junk false h.args with
  | none => ([], false)
  | some m =>
    let s := slotBytes h.spec.slots
    if s.2 then (h.fixed ++ get m 0 112 ++ s.1 ++ zeros 16, true)
    else (h.fixed ++ get m 0 112 ++ s.1, false)

/-- Bytes written at a position of the file. The file operations below give the writes they do, in order, so
that a crash in the middle can be described. Adjacent `fwrite`s are one write. -/
structure Write where
  off : Nat
  bs : Bytes
deriving DecidableEq, Repr

/-- The file after some writes. -/
def after (f : Bytes) (ws : List Write) : Bytes := ws.foldl (fun f w => pwrite f w.off w.bs) f

/-- `OWPWriteDataRecord` (api.c:3078-3103) with the file positioned at its end; `none` is `False`. -/
def writeRecord (f : Bytes) (r : DataRec) : Option (List Write) := (encodeDataRec r).map fun b => [⟨f.length, b⟩]

/-- `OWPWriteTWDataRecord` (api.c:3119-3145) with the file positioned at its end. -/
def writeTWRecord (f : Bytes) (r : TWDataRec) : Option (List Write) :=
  (encodeTWDataRec r).map fun b => [⟨f.length, b⟩]

/-- `_OWPWriteDataHeaderFinished` (api.c:2582-2636). -/
def writeFinished (_f : Bytes) (finished : Nat) (next : U32) : Option (List Write) :=
  if finished > 2 then none
  else some [⟨8, enc32 (BitVec.ofNat 32 finished) ++ enc32 next⟩]

/-- `OWPWriteDataHeaderNumSkipRecs` (api.c:2663-2758). `rec_size*num_datarecs` is a 32 bit product. -/
def writeNumSkip (f : Bytes) (n : U32) : Option (List Write) :=
  (readInitial f).bind fun p =>
    if p.version < 3 then none
    else if p.nskip ≠ 0 ∨ p.osetSkip ≠ 0 then none
    else
      some [⟨16, enc32 n⟩,
        ⟨24, enc64 (BitVec.ofInt 64 (p.osetData + ((p.recSize * p.ndata.toNat) % 2 ^ 32 : Nat)))⟩]

/-- `OWPWriteDataHeaderNumDataRecs` (api.c:2776-2837). -/
def writeNumData (f : Bytes) (n : U32) : Option (List Write) :=
  (readInitial f).bind fun p =>
    if p.version < 3 then none
    else if p.osetData < p.osetSkip then none
    else some [⟨20, enc32 n⟩]

/-- The skip ranges of a stop message put behind the data records (protocol.c:2484-2543); `toff` of line 2488
is a 32 bit product added to an `off_t`. A negative position cannot be sought. -/
def writeSkips (f : Bytes) (skips : List Bytes) : Option (List Write) :=
  (readInitial f).bind fun p =>
    if skips = [] then some []
    else
      let toff := p.osetData + ((p.ndata.toNat * p.recSize) % 2 ^ 32 : Nat)
      if toff < 0 then none else some [⟨toff.toNat, skips.flatten⟩]

/-- `OWPWriteDataHeader` as the first operation on the file. -/
def openFile (junk : Bytes) (h : HdrIn) (_f : Bytes) : Option (List Write) :=
  if (writeHeader junk h).2 then some [⟨0, (writeHeader junk h).1⟩] else none

/-- Operations one after the other on the file as the earlier ones left it; all their writes. -/
def script : List (Bytes → Option (List Write)) → Bytes → Option (List Write)
  | [], _ => some []
  | op :: ops, f => (op f).bind fun ws => (script ops (after f ws)).map (ws ++ ·)

/-- What happens to the file of a session that is stopped normally: the receiver writes the header
(endpoint.c:2155), its records (endpoint.c:2051, 2530) and its status (endpoint.c:2549); on the stop message
the control process writes the number of records (api.c:1335), the skip ranges and their number, and marks
the session finished (protocol.c:2484-2575). Clean-up that drops records is in `Model/Clean.lean`; here it
drops none. -/
def life (junk : Bytes) (h : HdrIn) (rs : List DataRec) (status : Nat) (skips : List Skip) (next : U32) :
    List (Bytes → Option (List Write)) :=
  [openFile junk h] ++ rs.map (fun r f => writeRecord f r) ++ [fun f => writeFinished f status 0] ++
    [fun f => writeNumData f (BitVec.ofNat 32 rs.length), fun f => writeSkips f (skips.map encodeSkip),
     fun f => writeNumSkip f (BitVec.ofNat 32 skips.length), fun f => writeFinished f 1 next]

/-- How `OWPParseRecords` ends: `OWPErrOK`, `OWPErrFATAL`, or undefined behaviour (a record read past the
end of a buffer). -/
inductive Parsed where
  | ok
  | fatal
  | overflow
deriving DecidableEq, Repr

/-- The loop of `OWPParseRecords` and `OWPParseTWRecords` (api.c:3499-3525, 3574-3600) from position `pos`:
`n` records of `len` bytes, given to the callback `proc` with its state. -/
def parseLoop {σ ρ : Type} (len : Nat) (dec : Bytes → Option ρ) (proc : σ → ρ → Int × σ) (f : Bytes) :
    Nat → Nat → σ → Parsed × σ
  | _, 0, s => (.ok, s)
  | pos, n + 1, s =>
    match rd f pos len with
    | none => (.fatal, s)
    | some b =>
      match dec b with
      | none => (.fatal, s)
      | some r =>
        if (proc s r).1 = 0 then parseLoop len dec proc f (pos + len) n (proc s r).2
        else if (proc s r).1 < 0 then (.fatal, (proc s r).2)
        else (.ok, (proc s r).2)

/-- `OWPParseRecords` (api.c:3460-3528) with the file at position `pos`. The record buffer has 25 bytes
(`_OWP_MAXDATAREC_SIZE`, owampP.h:78), so the first `fread` of a two-way record overruns it. -/
def parseRecords {σ : Type} (proc : σ → DataRec → Int × σ) (f : Bytes) (pos : Nat) (n version : Nat) (s : σ) :
    Parsed × σ :=
  if version = 0 ∨ version = 2 then parseLoop 24 (decodeDataRec version) proc f pos n s
  else if version = 3 then parseLoop 25 (decodeDataRec version) proc f pos n s
  else if version = 131 then (if 0 < n ∧ pos + 25 < f.length then .overflow else if n = 0 then .ok else .fatal, s)
  else (.fatal, s)

/-- `OWPParseTWRecords` (api.c:3545-3603) with the file at position `pos`. -/
def parseTWRecords {σ : Type} (proc : σ → TWDataRec → Int × σ) (f : Bytes) (pos : Nat) (n version : Nat) (s : σ) :
    Parsed × σ :=
  if version = 131 then parseLoop 50 (decodeTWDataRec version) proc f pos n s
  else (.fatal, s)

/-- The loop of `OWPReadDataSkips` (api.c:3672-3690). -/
def skipLoop (f : Bytes) (pos : Nat) : Nat → Option (List Skip)
  | 0 => some []
  | n + 1 => (rd f pos 8).bind fun b => (skipLoop f (pos + 8) n).map (decodeSkip b :: ·)

/-- `OWPReadDataSkips` (api.c:3618-3693); `none` is `False`. -/
def readSkips (f : Bytes) (nskips : U32) : Option (List Skip) :=
  (readInitial f).bind fun p =>
    if p.version < 2 then none
    else if p.nskip ≠ nskips then none
    else if p.osetSkip < 0 then none
    else skipLoop f p.osetSkip.toNat nskips.toNat

/-- `OWPTestDiskspace` (api.c:3711-3724). The header length and `npackets*25` are computed in 32 bits. -/
def testDiskspace (t : TestSpec) : Nat :=
  (56 + 112 + 16 * (t.slots.length % 2 ^ 32 + 1)) % 2 ^ 32 + (t.npackets.toNat * 25) % 2 ^ 32

end Owamp.File
