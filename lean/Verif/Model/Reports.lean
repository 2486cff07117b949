import Verif.Model.Stats
/-!
# Model of the reports of `owping`, `twping`, `owstats` and `owfetch` (`do_stats`, owping/owping.c)

How a session is cut into parts (`-N`), how each part is summarised and where the summary goes. Not modelled: the raw output (`-R`), the limit (`-v`) on the number of
records of a two-way session, the text of a summary (see `Print` and `PrintSummary`), failing `sprintf`, `fclose` and `unlink`.
-/
namespace Owamp.Reports
open Owamp.Stats (Bad)

/-- What `do_stats` uses of the statistics object: `OWPStatsParse` (the state before, the offset in the file, the first packet, the packet after the last or `~0`)
and the fields `next_oset`, `start_time` and `end_time`. The object may be that of one-way sessions (`Stats`) or that of two-way sessions (`TwStats`). -/
structure Engine (σ : Type) where
  parse : σ → Nat → Nat → Nat → Except Bad σ
  oset : σ → Nat
  start : σ → Nat
  stop : σ → Nat

/-- What `do_stats` uses of the options and of the session: `numBucketPackets` (`-N`), `printfiles` (`-p`), `machine` (`-M`) and the start time and the number of packets
in the header of the file (for two-way sessions the number asked for, owping.c:389-400). -/
structure Opts where
  bucket : Nat
  files : Bool
  machine : Bool
  start : Nat
  npackets : Nat

/-- The names of files (owping.c:424-429, 467-472): that of a file being written, with the start time of the session, and that of a finished one, with the start and
end time of the part and an extension by kind of summary. The directory is left out. -/
inductive Name where
  | inc (start : Nat)
  | done (start stop : Nat) (machine : Bool)
deriving DecidableEq, Repr

/-- What can be seen of `do_stats`: a file is made, a summary is written (to the file made last, or to standard output), `link`, `unlink`, and a name is printed. -/
inductive Act (σ : Type) where
  | create (n : Name)
  | summary (s : σ)
  | link (old new : Name)
  | unlink (n : Name)
  | say (n : Name)
deriving DecidableEq, Repr

/-- The world: whether `fopen` and whether `link` succeed for the part with the number given. -/
structure World where
  fopen : Nat → Bool
  link : Nat → Bool

/-- How `do_stats` ends: 0, −1, or undefined behaviour in `OWPStatsParse`. -/
inductive End where
  | ok
  | failed
  | undefined
deriving DecidableEq, Repr

/-- `num_sum` (owping.c:405-416). -/
def count (bucket npackets : Nat) : Nat :=
  if bucket = 0 ∨ bucket ≥ npackets then 0
  else npackets / bucket + (if npackets % bucket ≠ 0 then 1 else 0)

/-- `begin` and `end` of a part (owping.c:487-493), as `uint32_t`. -/
def part (bucket npackets i : Nat) : Nat × Nat :=
  let b := bucket * i % 2 ^ 32
  let e := bucket * (i + 1) % 2 ^ 32
  (b, if e > npackets then 2 ^ 32 - 1 else e)

/-- The end of a summary that was written (owping.c:459-480, 527-551). -/
def publish {σ : Type} (M : Engine σ) (o : Opts) (w : World) (i : Nat) (s : σ) : List (Act σ) × End :=
  if o.files then
    if w.link i then
      ([.link (.inc o.start) (.done (M.start s) (M.stop s) o.machine), .unlink (.inc o.start), .say (.done (M.start s) (M.stop s) o.machine)], .ok)
    else ([.unlink (.inc o.start)], .failed)
  else ([], .ok)

/-- The file a summary is written to (owping.c:423-436, 498-511). -/
def make {σ : Type} (o : Opts) : List (Act σ) := if o.files then [.create (.inc o.start)] else []

/-- The summary of one part: the file, `OWPStatsParse`, the summary and its publication (owping.c:420-481 and 485-552). `clean` is what is done about the file when
`OWPStatsParse` fails: it is removed for a whole session (owping.c:441-445), and left for a part (owping.c:513-518). -/
def one {σ : Type} (M : Engine σ) (o : Opts) (w : World) (clean : List (Act σ)) (i : Nat) (s : σ) (oset first last : Nat) : List (Act σ) × End × σ :=
  if o.files ∧ w.fopen i = false then ([], .failed, s)
  else
    match M.parse s oset first last with
    | .error .refused => (make o ++ clean, .failed, s)
    | .error .stuck => (make o, .undefined, s)
    | .ok s' => (make o ++ .summary s' :: (publish M o w i s').1, (publish M o w i s').2, s')

/-- After a part: a failure ends `do_stats`, otherwise it goes on with the rest. -/
def goOn {σ : Type} (r : List (Act σ) × End × σ) (rest : σ → List (Act σ) × End) : List (Act σ) × End :=
  match r with
  | (as, .ok, s) => (as ++ (rest s).1, (rest s).2)
  | (as, e, _) => (as, e)

/-- The loop over the parts (owping.c:484-553), from part `i` on; the first argument is how many are left. -/
def loop {σ : Type} (M : Engine σ) (o : Opts) (w : World) : Nat → Nat → σ → List (Act σ) × End
  | 0, _, _ => ([], .ok)
  | n + 1, i, s =>
    goOn (one M o w [] i s (M.oset s) (part o.bucket o.npackets i).1 (part o.bucket o.npackets i).2) (loop M o w n (i + 1))

/-- `do_stats` (owping.c:328-558) without raw output, on the object `s` that `OWPStatsCreate` made. -/
def doStats {σ : Type} (M : Engine σ) (o : Opts) (w : World) (s : σ) : List (Act σ) × End :=
  if count o.bucket o.npackets = 0 then
    match one M o w (if o.files then [.unlink (.inc o.start)] else []) 0 s 0 0 (2 ^ 32 - 1) with
    | (as, r, _) => (as, r)
  else loop M o w (count o.bucket o.npackets) 0 s

/-- How many records `OWPStatsParse` looks at, of `n` in the file, with the number given with `-v` (0 if none was; stats.c:1692-1693). -/
def lookedAt (limit n : Nat) : Nat := if limit > 0 ∧ limit < n then limit else n

/-- `OWPStatsParse` on a file, with the limit (`rec_limit`, owping.c:383-384). -/
def parseLimited (c : Stats.Cfg) (f : Bytes) (h : File.Header) (limit : Nat) (s : Stats.St) (oset first last : Nat) : Except Bad Stats.St :=
  let oset := Nat.max oset c.osetData
  Stats.parse c (fun proc s => File.parseRecords proc f oset (lookedAt limit (Stats.nrecs f h.osetSkip h.osetData c.recSize oset)) h.version s) s oset first last

/-- The object for one-way sessions, on a file. -/
def oneWay (c : Stats.Cfg) (f : Bytes) (h : File.Header) (limit : Nat) : Engine Stats.St :=
  ⟨parseLimited c f h limit, (·.nextOset), (·.startTime), (·.endTime)⟩

end Owamp.Reports
