import Verif.Model.Print
import Verif.Model.DataFile
/-!
# Model of the raw output of `owping`, `owstats` and `twping` (`-R`, `owping/owping.c`)

The text that `%g` makes of an error is given from outside. Not modelled: failing writes to the standard output.
-/
namespace Owamp.Raw
open Owamp.Codec Owamp.File Owamp.Print Owamp.Stats

/-- `%u` of a `sync` field. -/
def flag (b : Bool) : Bytes := digits (if b then 1 else 0)

/-- The fields that `RAWFMT` (owping.c:257) makes of a record, `OWP_TSTAMPFMT` being `%020` `PRIu64` (owamp.h:137). -/
def fields (E : Nat → Bytes) (r : DataRec) : List Bytes :=
  [digits r.seq.toNat, padded 20 r.send.owptime.toNat, flag r.send.sync, E (stampError r.send),
    padded 20 r.recv.owptime.toNat, flag r.recv.sync, E (stampError r.recv), digits r.ttl.toNat]

/-- A line as it is written: the fields with spaces between them, and a newline. -/
def row : List Bytes → Bytes
  | [] => [10#8]
  | [f] => f ++ [10#8]
  | f :: fs => f ++ 32#8 :: row fs

/-- `printraw` (owping.c:258-276), with what was printed before. -/
def printraw (E : Nat → Bytes) (out : Bytes) (r : DataRec) : Int × Bytes := (0, out ++ row (fields E r))

/-- `printrawTW` (owping.c:298-326). -/
def printrawTW (E : Nat → Bytes) (out : Bytes) (r : TWDataRec) : Int × Bytes := (0, out ++ row (fields E r.sent ++ fields E r.reflected))

/-- The end of `do_stats`: 0, -1, or memory beyond a buffer was written to. -/
inductive End where
  | good
  | failed
  | overflow
deriving DecidableEq, Repr

/-- What the result of `OWPParseRecords` makes of it (owping.c:355-370). -/
def ending : Parsed → End
  | .ok => .good
  | .fatal => .failed
  | .overflow => .overflow

/-- `do_stats` with `-R` (owping.c:349-371) in the programs for one-way sessions: what is printed, and the end. After an error `OWPReadDataHeader`
returns 0, and that is an error for `do_stats` only if `hdr.header` is not set; otherwise it goes on with no records. -/
def oneWay (E : Nat → Bytes) (f : Bytes) : Bytes × End :=
  match readHeader f with
  | .bad false => ([], .failed)
  | .bad true =>
    match readInitial f with
    | none => ([], .failed)
    | some p => let x := parseRecords (printraw E) f 0 0 p.version []; (x.2, ending x.1)
  | .ok h pos =>
    if h.ndata = 0 ∧ h.pre = none then ([], .failed)
    else let x := parseRecords (printraw E) f pos h.ndata.toNat h.version []; (x.2, ending x.1)

/-- The same in the program for two-way sessions. -/
def twoWay (E : Nat → Bytes) (f : Bytes) : Bytes × End :=
  match readHeader f with
  | .bad false => ([], .failed)
  | .bad true =>
    match readInitial f with
    | none => ([], .failed)
    | some p => let x := parseTWRecords (printrawTW E) f 0 0 p.version []; (x.2, ending x.1)
  | .ok h pos =>
    if h.ndata = 0 ∧ h.pre = none then ([], .failed)
    else let x := parseTWRecords (printrawTW E) f pos h.ndata.toNat h.version []; (x.2, ending x.1)

end Owamp.Raw
