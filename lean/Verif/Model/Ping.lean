import Verif.Base.Bytes
/-!
# Model of what `owping`, `twping`, `owfetch` and `owstats` do after their options are read (owping/owping.c)

Every call into the library is answered from outside: what these calls do is modelled elsewhere. Not modelled: the messages, the context variables, the names of hosts, what is
printed of a session (`Reports`), the times (`Options`), `usage`, errors of `fclose`.
-/
namespace Owamp.Ping

/-- The options as far as they matter here: the program is `twping`; `-t`, `-f`, `-Q`, `-R`, `-T` and `-F` were given. -/
structure Opts where
  twoway : Bool
  t : Bool
  f : Bool
  quiet : Bool
  raw : Bool
  saveTo : Bool
  saveFrom : Bool

/-- Sessions to the server and from it; a two-way session is one from the local host to the other and back. -/
inductive Dir where
  | there
  | back
deriving DecidableEq, Repr

/-- A host in the title of a report. -/
inductive Host where
  | own
  | remote
deriving DecidableEq, Repr

/-- What is done, in order: a connection is opened; a session is asked for; a file for the results that the user named is made; sessions are started; they are waited for;
they are stopped; the results of the session to the server are fetched; a session is reported with a title; the file is removed; the connection is closed. -/
inductive Act where
  | connect
  | request (d : Dir)
  | makeSaved
  | start
  | wait
  | stop
  | fetch
  | report (d : Dir) (source target : Host)
  | removeSaved
  | close
deriving DecidableEq, Repr

/-- The answers: `NWPControlOpen` gives a connection; the loss threshold is not below the width of a bucket; the clock can be read (first and second time); a file for results can be
made; the server accepts the session of each direction; `OWPStartSessions` does not fail; what `OWPStopSessionsWait` returns and whether it says that the peer accepts; whether
`OWPStopSessions` says so; how many records `OWPFetchSession` returns; `owp_intr`, the number of signals by each of the places where it is looked at. -/
structure World where
  connects : Bool
  threshold : Bool
  clock : Bool
  clock2 : Bool
  file : Bool
  accepts : Dir → Bool
  starts : Bool
  wait : Int
  waitAccept : Bool
  stopAccept : Bool
  records : Nat
  intr : Nat → Nat

/-- With neither `-t` nor `-f` there are both directions (owping.c:1654-1655). -/
def Opts.there (o : Opts) : Bool := o.t || !o.f
def Opts.back (o : Opts) : Bool := o.f || !o.t

/-- `-R` implies `-Q` (owping.c:1590-1592). -/
def Opts.silent (o : Opts) : Bool := o.quiet || o.raw

/-- A session is reported unless `-Q` is given without `-R` (owping.c:2012-2013, 2033). -/
def Opts.reports (o : Opts) : Bool := !o.silent || o.raw

/-- The results of the session to the server (owping.c:2008-2029; `owp_fetch_sid`, owping.c:595-641): no records is no success. -/
def results (o : Opts) (w : World) : List Act :=
  if !o.twoway && o.there && (o.saveTo || o.reports) then
    .fetch :: (if w.records = 0 then [] else if o.reports then [.report .there .own .remote] else [])
  else []

/-- The file with the results of the session from the server, or of the two-way session, is there and is reported (owping.c:2033-2048). -/
def ownResults (o : Opts) : List Act :=
  if (o.twoway || o.back) && o.reports then
    [if o.twoway then .report .back .own .remote else .report .back .remote .own]
  else []

/-- After the sessions were stopped (owping.c:1974-2052, 2181-2183): the actions and the exit status. -/
def finish (o : Opts) (w : World) : List Act × Nat :=
  if w.intr 3 > 1 then ([], 2)
  else if w.intr 4 > 1 then (results o w, 2)
  else (results o w ++ ownResults o, 0)

/-- What a failed test leaves (owping.c:1957-1960, 1968-1970). -/
def dropFile (o : Opts) : List Act := if o.saveFrom then [.removeSaved] else []

/-- From the start on (owping.c:1897-1974). -/
def run (o : Opts) (w : World) : List Act × Nat :=
  if !w.starts then ([.start, .close], 1)
  else if !o.silent && !w.clock2 then ([.start], 1)
  else if w.intr 2 > 0 then ([.start], 2)
  else if w.wait < 0 || !w.waitAccept then ([.start, .wait] ++ dropFile o, 1)
  else if w.wait = 2 then
    if !w.stopAccept then ([.start, .wait, .stop] ++ dropFile o, 2)
    else ([.start, .wait, .stop] ++ (finish o w).1, (finish o w).2)
  else ([.start, .wait] ++ (finish o w).1, (finish o w).2)

/-- `FailSession` (owping.c:227-242). -/
def failSession : List Act × Nat := ([.close], 1)

/-- Actions before others. -/
def before (as : List Act) (r : List Act × Nat) : List Act × Nat := (as ++ r.1, r.2)

/-- The file for the results (owping.c:1840-1849, 1876-1885). -/
def makeFile (o : Opts) (w : World) (k : List Act × Nat) : List Act × Nat :=
  if !w.file then ([], 1) else before (if o.saveFrom then [.makeSaved] else []) k

/-- A session is asked for (owping.c:1851-1856, 1863-1868, 1887-1892). -/
def ask (w : World) (d : Dir) (k : List Act × Nat) : List Act × Nat :=
  before [.request d] (if !w.accepts d then failSession else k)

/-- The session from the server (owping.c:1871-1893). -/
def askBack (o : Opts) (w : World) : List Act × Nat :=
  if w.intr 1 > 0 then ([], 2)
  else if o.back then makeFile o w (ask w .back (run o w))
  else run o w

/-- The requests (owping.c:1837-1894). -/
def requests (o : Opts) (w : World) : List Act × Nat :=
  if w.intr 0 > 0 then ([], 2)
  else if o.twoway then makeFile o w (ask w .back (run o w))
  else if o.there then ask w .there (askBack o w)
  else askBack o w

/-- `owping` and `twping` (owping.c:1649-2052). -/
def ping (o : Opts) (w : World) : List Act × Nat :=
  before [.connect] (if !w.connects then ([], 1)
    else if !w.threshold then ([], 1)
    else if !w.clock then ([], 1)
    else requests o w)

/-! ## owstats and owfetch -/

/-- `owstats` (owping.c:2054-2073) on the files given, each with whether it can be opened and whether `do_stats` succeeds: the numbers of the files that were reported, and the exit status. -/
def owstats : Nat → List (Bool × Bool) → List Nat × Nat
  | _, [] => ([], 0)
  | i, (opens, ok) :: r =>
    if !opens then ([], 1)
    else if !ok then ([], 1)
    else (i :: (owstats (i + 1) r).1, (owstats (i + 1) r).2)

/-- `owfetch` (owping.c:2100-2122) on the pairs of session and file given, each with the number of records fetched, whether `do_stats` succeeds, and the signals so far: the sessions asked for,
those whose file is there in the end, and the exit status. -/
def owfetch : Nat → List (Nat × Bool × Nat) → List Nat × List Nat × Nat
  | _, [] => ([], [], 0)
  | i, (records, _, intr) :: r =>
    let here := if records = 0 then [] else [i]
    if intr > 0 then ([i], here, 2)
    else (i :: (owfetch (i + 1) r).1, here ++ (owfetch (i + 1) r).2.1, (owfetch (i + 1) r).2.2)

end Owamp.Ping
