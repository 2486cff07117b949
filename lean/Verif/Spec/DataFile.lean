import Verif.Model.DataFile
import Verif.Spec.Request
/-!
# What a session data file is to contain, and what is left of it after a crash
-/
namespace Owamp.Spec.DataFile
open Owamp.Codec Owamp.Ctl Owamp.File

/-- The first 40 bytes of a version 3 file (the layout in the comment at api.c:2262-2290). -/
def fixedLayout (version finished next nskip ndata : U32) (osetSkip osetData : U64) : Bytes :=
  [0x4F#8, 0x77#8, 0x41#8, 0x00#8] ++ enc32 version ++ enc32 finished ++ enc32 next ++ enc32 nskip ++ enc32 ndata ++
    enc64 osetSkip ++ enc64 osetData

/-- The rest of the header: the test request, its slots and 16 zero bytes (api.c:2284-2299). -/
def requestPart (a : ReqArgs) (sid : Bytes) : Bytes :=
  Channel.requestLayout false a sid ++ zeros 16 ++ Request.slotsText a.spec.slots ++ zeros 16

/-- A header `OWPWriteDataHeader` can store: known addresses of one family, a session identifier, a server side,
packets, slots of the two kinds, and few enough slots that the header has less than 2^32 bytes. -/
structure Storable (h : HdrIn) : Prop where
  family : Request.sameFamily h.sender h.receiver
  sid : h.sid.length = 16
  conf : h.twoway = true ∨ h.confSender = true ∨ h.confReceiver = true
  packets : h.spec.npackets ≠ 0
  slots : h.spec.slots ≠ []
  known : ∀ s ∈ h.spec.slots, Request.Known s
  few : 16 * (h.spec.slots.length + 1) < 2 ^ 32

/-- Where the header of a session with `n` slots ends. -/
def headerEnd (n : Nat) : Nat := 40 + 112 + 16 * n + 16

/-- An address as the file holds it: without the scope of an IPv6 address. -/
def noScope : SockAddr → SockAddr
  | .v6 a p _ => .v6 a p 0
  | x => x

/-- Give records to a callback one after the other: 0 means go on, a negative answer is an error and a
positive one ends the reading. -/
def feed {σ ρ : Type} (proc : σ → ρ → Int × σ) : List ρ → σ → Parsed × σ
  | [], s => (.ok, s)
  | r :: rs, s =>
    if (proc s r).1 = 0 then feed proc rs (proc s r).2
    else if (proc s r).1 < 0 then (.fatal, (proc s r).2)
    else (.ok, (proc s r).2)

/-- The callback answers 0 to all the records. -/
def goesOn {σ ρ : Type} (proc : σ → ρ → Int × σ) : List ρ → σ → Bool
  | [], _ => true
  | r :: rs, s => decide ((proc s r).1 = 0) && goesOn proc rs (proc s r).2

/-- A callback that keeps every record. -/
def keep {ρ : Type} (seen : List ρ) (r : ρ) : Int × List ρ := (0, seen ++ [r])

/-- The records a reader is given of a file: `OWPReadDataHeader`, then `OWPParseRecords` with the number of
records, version and position that it returned. None when the header is rejected. -/
def recordsSeen (f : Bytes) : List DataRec :=
  match readHeader f with
  | .bad _ => []
  | .ok h pos => (parseRecords keep f pos h.ndata.toNat h.version []).2

/-- The same for two-way files. -/
def twoWayRecordsSeen (f : Bytes) : List TWDataRec :=
  match readHeader f with
  | .bad _ => []
  | .ok h pos => (parseTWRecords keep f pos h.ndata.toNat h.version []).2

/-- The file `f` after a crash: the first `i` writes were done, and `k` bytes of the next one. -/
def crashed (f : Bytes) (ws : List Write) (i k : Nat) : Bytes :=
  let f := after f (ws.take i)
  match ws[i]? with
  | none => f
  | some w => pwrite f w.off (w.bs.take k)

end Owamp.Spec.DataFile
