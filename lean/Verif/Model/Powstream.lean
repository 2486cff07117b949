import Verif.Base.Bytes
/-!
# Model of `powstream` (owamp/owamp/powstream/powstream.c): the order of its sessions, the times in the names of its files

The clock, signals, the library calls that open connections, request, start, wait for and stop sessions, and the file system are parameters (`Ev`).
A schedule is a function from the number of a packet to the interval before it (`Verif/Model/Schedule.lean` models how it comes from the session
identifier). Not modelled here: the options of the command line and the lock file (`Verif/Model/PowOptions.lean`), the pause before a new attempt
(it only lets time go by), the contents of the summaries, a clock that
cannot be read, a signal while `write_session` fetches the data, how a file gets its final name (`Verif/Model/Publish.lean`).
-/
namespace Owamp.Pow

/-- `-c`, `-N`, `tspec.loss_timeout`, `iotime`, `-z`, `-t`; the schedule of each session. -/
structure Cfg where
  npackets : Nat
  bucket : Nat
  loss : U64
  iotime : Nat
  delay : Nat
  sender : Bool
  gap : Nat → Nat → U64

/-- The number of summaries of a session; `none`: the program gives up (powstream.c:1624-1636). -/
def Cfg.summaries (g : Cfg) : Option Nat :=
  if g.bucket = 0 then some 0
  else if g.npackets < g.bucket ∨ g.npackets % g.bucket ≠ 0 then none
  else some (g.npackets / g.bucket)

/-- `numSummaries` in the main loop. -/
def Cfg.count (g : Cfg) : Nat := g.summaries.getD 0

/-- `OWPULongToNum64` of a number of seconds below 2^32. -/
def seconds (n : Nat) : U64 := BitVec.ofNat 64 (n * 2 ^ 32)

/-- One of the two records `pow_cntrl_rec` (powstreamP.h:103-122). `nextSessionStart` is NULL or points to the `nextSessionStartNum` of the same
record: `nextSet`. `cntrl`, `file`: the pointers `cntrl`, `fp` are not NULL (`testfp` goes with `fp`). `pos`: how many intervals the schedule context
has generated. -/
structure Conn where
  cntrl : Bool
  file : Bool
  sid : Nat
  pos : Nat
  nextSet : Bool
  nextStart : U64
  nextEnd : U64
  curStart : U64
  curEnd : U64
  packets : Nat
  callStop : Bool
  started : Bool

/-- powstream.c:1690: the records are zero. -/
def Conn.zero : Conn := ⟨false, false, 0, 0, false, 0, 0, 0, 0, 0, false, false⟩

/-- What an observer sees: `tried t`: a session is being set up and could start at `t`; `begun`: a session has been requested and started for the
time `start`; `failed`: a session could not be set up; `closed`: `ResetSession`; `data`, `whole`: the data file of a session and its summary, with the
two times in the name (`early`: written by `ResetSession`; the sequence numbers of the records in it and its skip ranges); `summ`: the summary of the packets
`lo ≤ n < hi`; `exited`; `crashed`: a NULL pointer is used. -/
inductive Out where
  | tried (t : U64)
  | begun (sid : Nat) (start : U64)
  | failed
  | closed
  | data (sid : Nat) (start stop : U64) (early : Bool) (seqs : List Nat) (skips : List (Nat × Nat))
  | whole (sid : Nat) (start stop : U64) (early : Bool)
  | summ (sid : Nat) (start stop : U64) (lo hi : Nat)
  | exited
  | crashed
deriving DecidableEq, Repr

/-- What comes of writing a file: it gets its name, it does not, the program exits (`default` of the `switch`). -/
inductive Put where
  | linked
  | failed
  | exits
deriving DecidableEq, Repr

/-- What `write_session` meets: `fetched`: (sender) the file is emptied and the data fetched; `header`: the header can be read; `readable`: (new end)
the lock, the second reading, the skip ranges, the records are there; the sequence numbers of the records in the order of the file; the skip ranges;
the data file; the statistics and the summary. -/
structure WriteEnv where
  fetched : Bool
  header : Bool
  readable : Bool
  seqs : List Nat
  skips : List (Nat × Nat)
  data : Put
  summ : Put

/-- The first loop of `GetMaxSend` (powstream.c:354-357): the first skip range whose end is not below `n`. -/
def findSkip (n : Nat) : List (Nat × Nat) → Option (Nat × Nat)
  | [] => none
  | r :: rs => if r.2 < n then findSkip n rs else some r

/-- powstream.c:362-365: the packet is in that range, beyond its first number. -/
def inSkip (n : Nat) (skips : List (Nat × Nat)) : Bool :=
  match findSkip n skips with
  | some r => decide (r.1 < n)
  | none => false

/-- `GetMaxSend` (powstream.c:341-376) on `sndrec->index`; `none`: an assertion fails. -/
def maxSend (npackets : Nat) (skips : List (Nat × Nat)) (index n : Nat) : Option Nat :=
  if inSkip n skips then some index
  else if n < npackets ∧ index < npackets then some (if index < n then n else index)
  else none

/-- `GetMaxSend` for each record (powstream.c:610). -/
def maxSends (npackets : Nat) (skips : List (Nat × Nat)) : Nat → List Nat → Option Nat
  | index, [] => some index
  | index, n :: ns =>
    match maxSend npackets skips index n with
    | some i => maxSends npackets skips i ns
    | none => none

/-- `n` times `OWPNum64Add` of what `OWPScheduleContextGenerateNextDelta` gives, from position `pos`. -/
def walk (gap : Nat → U64) (pos : Nat) : Nat → U64 → U64
  | 0, t => t
  | n + 1, t => walk gap (pos + 1) n (t + gap pos)

/-- The end of a session that is cut short (powstream.c:520-629). `none`: nothing is written; `some none`: an assertion fails. -/
def earlyEnd (g : Cfg) (c : Conn) (w : WriteEnv) : Option (Option (Nat × U64)) :=
  if w.readable = false ∨ w.seqs = [] then none
  else match maxSends g.npackets w.skips 0 w.seqs with
    | none => some none
    | some i => some (some (i, walk (g.gap c.sid) 0 (i + 1) c.curStart))

/-- The files of `write_session` (powstream.c:634-823); `true`: the program exits. The summary is tried even if the data file failed. -/
def putFiles (c : Conn) (stop : U64) (early : Bool) (w : WriteEnv) : List Out × Bool :=
  let d := if w.data = .linked then [Out.data c.sid c.curStart stop early w.seqs w.skips] else []
  if w.data = .exits then (d, true)
  else
    let m := if w.summ = .linked then [Out.whole c.sid c.curStart stop early] else []
    (d ++ m, decide (w.summ = .exits))

/-- `write_session` (powstream.c:443-823). `ok`: `aval` is `OWP_CNTRL_ACCEPT`. -/
def writeSession (g : Cfg) (c : Conn) (ok newend : Bool) (w : WriteEnv) : Conn × List Out × Bool :=
  if c.file = false ∨ c.started = false ∨ ok = false then (c, [], false)
  else if g.sender = true ∧ w.fetched = false then (c, [], false)
  else if w.header = false then (c, [], false)
  else if newend then
    match earlyEnd g c w with
    | none => (c, [], false)
    | some none => (c, [], true)
    | some (some (i, t)) => ({ c with pos := i + 1 }, putFiles c t true w)
  else (c, putFiles c c.curEnd false w)

/-- What `ResetSession` meets: `*aval` of `OWPStopSessions`, and `write_session`. -/
structure CloseEnv where
  accept : Bool
  write : WriteEnv

/-- A signal that `sig_check` sees: `SIGINT` or `SIGTERM` (`quits`), else `SIGHUP`; what the two calls of `ResetSession` meet. -/
structure Sig where
  quits : Bool
  first : CloseEnv
  second : CloseEnv

/-- Where the main loop is. -/
inductive Loc where
  | next
  | waitAll
  | sums (sum : Nat) (last : U64)
  | waitSum (sum : Nat) (last start stop : U64)
  | collect (sum : Nat) (last start stop : U64)
  | finish (sum : Nat)
  | ended
deriving DecidableEq, Repr

/-- The state: the two records, `which` (after its increment, powstream.c:1827-1829: `q` is the record `which`, `p` the other), `first_time`, `aval`, the
place in the main loop, what has been seen so far. -/
structure St where
  conn : Bool → Conn
  which : Bool
  first : Bool
  accept : Bool
  loc : Loc
  outs : List Out

def St.set (s : St) (i : Bool) (c : Conn) : St := { s with conn := fun j => if j = i then c else s.conn j }

def St.out (s : St) (o : List Out) : St := { s with outs := s.outs ++ o }

/-- `ResetSession(p,q)` (powstream.c:825-868) with `p` the record `i`. -/
def resetSession (g : Cfg) (s : St) (i : Bool) (e : CloseEnv) : St :=
  let c := s.conn i
  let ok := if c.packets ≠ 0 ∧ c.callStop = true ∧ c.cntrl = true then e.accept else true
  let r := writeSession g c ok true e.write
  if r.2.2 then { (s.out (r.2.1 ++ [.exited])) with loc := .ended }
  else
    let s1 := s.set i { r.1 with cntrl := false, file := false, packets := 0, callStop := false, started := false, nextSet := false }
    let s2 := s1.set (!i) { s1.conn (!i) with nextSet := false }
    s2.out (r.2.1 ++ [.closed])

/-- `CloseSessions` (powstream.c:870-877). -/
def closeSessions (g : Cfg) (s : St) (e : Sig) : St :=
  let s1 := resetSession g s false e.first
  if s1.loc = .ended then s1 else resetSession g s1 true e.second

/-- `sig_check` (powstream.c:902-930): the state, and whether it returns 1. Not modelled: an unexpected signal, and more signals meanwhile. -/
def sigCheck (g : Cfg) (s : St) : Option Sig → St × Bool
  | none => (s, false)
  | some e =>
    let s1 := closeSessions g s e
    if s1.loc = .ended then (s1, true)
    else if e.quits then ({ (s1.out [.exited]) with loc := .ended }, true)
    else (s1, true)

/-- How far `SetupSession` gets: `waiting`: the pause before a new attempt; `opening`: up to the control connection; `timed`: after the start
time is chosen. -/
inductive Stage where
  | waiting
  | opening
  | timed
deriving DecidableEq, Repr

/-- How it goes: a signal is seen, something fails, all is well. -/
inductive Course where
  | signal (at_ : Stage) (e : Sig)
  | failed (at_ : Stage)
  | done

/-- What `SetupSession` meets: the clock at powstream.c:999 and 1065, the identifier of the session, how it goes. -/
structure SetupEnv where
  now0 : U64
  now1 : U64
  sid : Nat
  course : Course

/-- `SETUP_ESTIMATE` (powstreamP.h:37). -/
def estimate : Nat := 10

/-- powstream.c:1069-1075: when a session set up now could start. -/
def soonest (g : Cfg) (s : St) (now : U64) : U64 :=
  if s.first then now + seconds estimate + seconds g.delay else now + seconds estimate

/-- powstream.c:1077-1086: when it will. -/
def chosen (c : Conn) (t : U64) : U64 := if c.nextSet = true ∧ ¬ c.nextStart < t then c.nextStart else t

/-- powstream.c:1004. -/
def tooLate (stop : Option U64) (now : U64) : Bool :=
  match stop with
  | some t => decide (t < now)
  | none => false

/-- powstream.c:1004-1011: too late, the other record takes over the start time. -/
def handOver (s : St) (i : Bool) : St :=
  let c := s.conn i
  let d := s.conn (!i)
  s.set (!i) { d with nextSet := c.nextSet, nextStart := if c.nextSet then c.nextStart else d.nextStart }

/-- The end of `SetupSession` (powstream.c:1140-1226): the session is requested and started. -/
def begin_ (g : Cfg) (s : St) (i : Bool) (sid : Nat) : St :=
  let c := s.conn i
  let stop := walk (g.gap sid) 0 g.npackets c.nextStart
  let s1 := s.set i { c with cntrl := true, file := true, callStop := true, started := false, packets := g.npackets, sid := sid, pos := 0, nextEnd := stop }
  let s2 := s1.set (!i) { s1.conn (!i) with nextSet := true, nextStart := stop }
  s2.out [.begun sid c.nextStart]

/-- `SetupSession(ctx,p,q,stop)` (powstream.c:932-1250) with `p` the record `i`; `true`: it returns something else than 0. After a failure the pointers
to files and the flag `call_stop` may be left as they were set; the next call for the same record clears them before anything reads them. -/
def setupSession (g : Cfg) (s : St) (i : Bool) (stop : Option U64) (e : SetupEnv) : St × Bool :=
  let c := s.conn i
  if c.packets ≠ 0 then (s, false)
  else
    let s1 := s.set i { c with cntrl := false, file := false, callStop := false, started := false }
    match e.course with
    | .signal .waiting x => ((sigCheck g s1 (some x)).1, true)
    | course =>
      if tooLate stop e.now0 then (handOver s1 i, false)
      else
        match course with
        | .signal .opening x => ((sigCheck g s1 (some x)).1, true)
        | .failed .waiting => (s1.out [.failed], true)
        | .failed .opening => (s1.out [.failed], true)
        | course =>
          let t := soonest g s1 e.now1
          let c1 := s1.conn i
          let s2 := { ((s1.set i { c1 with nextSet := true, nextStart := chosen c1 t }).out [.tried t]) with first := false }
          match course with
          | .signal _ x => ((sigCheck g s2 (some x)).1, true)
          | .failed _ => (s2.out [.failed], true)
          | .done => (begin_ g s2 i e.sid, false)

/-- What `OWPStopSessionsWait` returns. -/
inductive Waits where
  | error
  | over
  | timeUp
  | event
deriving DecidableEq, Repr

/-- What comes of collecting the data of a summary: `giveUp`: `break`; `skip`: `continue` (nothing could be fetched); `skipSignal`: so, because `sig_check`
in `FetchSession` (powstream.c:402) saw a signal; `signal`: the opening of the file is interrupted; `noFile`: `goto cleanup`, or the file does not get its name; `exits`; `wrote`. -/
inductive Collected where
  | giveUp
  | skip
  | skipSignal (e : Sig)
  | signal (e : Sig)
  | noFile
  | exits
  | wrote

/-- What a step of the main loop meets; each place uses what it needs. `active`: `OWPSessionsActive`; `stops`: `OWPStopSessions` succeeds;
`closing`: what `CloseSessions` meets after an error. -/
structure Ev where
  sig : Option Sig
  setup : SetupEnv
  waits : Waits
  accept : Bool
  active : Bool
  stops : Bool
  collected : Collected
  write : WriteEnv
  reset : CloseEnv
  closing : Sig

/-- `goto NextConnection`, unless the program has exited. -/
def again (s : St) : St := if s.loc = .ended then s else { s with loc := .next }

/-- The head of the main loop (powstream.c:1819-1866). -/
def stepNext (g : Cfg) (s0 : St) (e : Ev) : St :=
  let s := (sigCheck g s0 e.sig).1
  if s.loc = .ended then s
  else
    let i := s.which
    let s := { s with which := !i, loc := .next }
    let p := s.conn i
    if p.packets = 0 then again (setupSession g s (!i) none e.setup).1
    else
      let s := { (s.set i { p with curStart := p.nextStart, curEnd := p.nextEnd }) with accept := true }
      if g.count = 0 then
        let r := setupSession g s (!i) none e.setup
        if r.2 then again r.1
        else { (r.1.set i { r.1.conn i with started := true }) with loc := .waitAll }
      else { s with loc := .sums 0 0 }

/-- Waiting without summaries (powstream.c:1867-1885). -/
def stepWaitAll (g : Cfg) (s : St) (e : Ev) : St :=
  let i := !s.which
  let p := s.conn i
  match e.waits with
  | .error => again (closeSessions g { (s.set i { p with callStop := false }) with accept := e.accept } e.closing)
  | .event =>
    let r := sigCheck g { s with accept := e.accept } e.sig
    if r.2 then again r.1 else r.1
  | _ => { (s.set i { p with callStop := false }) with accept := e.accept, loc := .finish 0 }

/-- The head of the loop over the summaries (powstream.c:1902-1949). -/
def stepSums (g : Cfg) (s0 : St) (sum : Nat) (last : U64) (e : Ev) : St :=
  let r := sigCheck g s0 e.sig
  if r.2 then again r.1
  else
    let s := r.1
    let i := !s.which
    let p := s.conn i
    let start := p.curStart + last
    let last := walk (g.gap p.sid) p.pos g.bucket last
    let s := s.set i { p with pos := p.pos + g.bucket }
    let stop := p.curStart + last
    let wake := stop + (g.loss + seconds g.iotime)
    let r := setupSession g s s.which (some wake) e.setup
    if r.2 then again r.1
    else { r.1 with loc := .waitSum sum last start stop }

/-- Waiting for the end of a summary (powstream.c:1950-1987). -/
def stepWaitSum (g : Cfg) (s : St) (sum : Nat) (last start stop : U64) (e : Ev) : St :=
  let i := !s.which
  let p := s.conn i
  if p.callStop = false then { s with loc := .collect sum last start stop }
  else
    match e.waits with
    | .error => { (s.set i { p with cntrl := false }) with accept := e.accept, loc := .finish sum }
    | .over =>
      let s := { (s.set i { p with callStop := false }) with accept := e.accept }
      if e.accept then { s with loc := .collect sum last start stop } else { s with loc := .finish sum }
    | .timeUp => { s with accept := e.accept, loc := .collect sum last start stop }
    | .event =>
      let r := sigCheck g { s with accept := e.accept } e.sig
      if r.2 then again r.1
      else if e.active then r.1
      else { r.1 with loc := .collect sum last start stop }

/-- The next turn of the loop over the summaries. -/
def nextSum (g : Cfg) (s : St) (sum : Nat) (last : U64) : St :=
  if sum + 1 < g.count then { s with loc := .sums (sum + 1) last } else { s with loc := .finish (sum + 1) }

/-- Collecting a summary (powstream.c:1989-2197). Without a file `fseeko` or `OWPReadDataHeader` gets a NULL pointer. -/
def stepCollect (g : Cfg) (s0 : St) (sum : Nat) (last start stop : U64) (e : Ev) : St :=
  let i := !s0.which
  let s := s0.set i { s0.conn i with started := true }
  let p := s.conn i
  if p.file = false then { (s.out [.crashed]) with loc := .ended }
  else
  match e.collected with
  | .giveUp => { s with loc := .finish sum }
  | .skip => nextSum g s sum last
  | .skipSignal x =>
    let s := (sigCheck g s (some x)).1
    if s.loc = .ended then s else nextSum g s sum last
  | .signal x => again (sigCheck g s (some x)).1
  | .noFile => if p.cntrl then nextSum g s sum last else { s with loc := .finish sum }
  | .exits => { (s.out [.exited]) with loc := .ended }
  | .wrote =>
    let s := s.out [.summ p.sid start stop (sum * g.bucket) ((sum + 1) * g.bucket)]
    if p.cntrl then nextSum g s sum last else { s with loc := .finish sum }

/-- The end of the main loop (powstream.c:2200-2226). -/
def stepFinish (g : Cfg) (s : St) (sum : Nat) (e : Ev) : St :=
  let i := !s.which
  let p := s.conn i
  let asks := p.cntrl && p.callStop
  let accept := if asks then e.accept else s.accept
  let p := if asks && !e.stops then { p with cntrl := false } else p
  let r := writeSession g p accept false e.write
  if r.2.2 then { (s.out (r.2.1 ++ [.exited])) with loc := .ended }
  else
    let s := { ((s.set i { r.1 with packets := 0, file := false }).out r.2.1) with loc := .next, accept := accept }
    if sum < g.count then resetSession g s s.which e.reset else s

/-- A step of the main loop (powstream.c:1808-2227). -/
def step (g : Cfg) (s : St) (e : Ev) : St :=
  match s.loc with
  | .next => stepNext g s e
  | .waitAll => stepWaitAll g s e
  | .sums sum last => stepSums g s sum last e
  | .waitSum sum last start stop => stepWaitSum g s sum last start stop e
  | .collect sum last start stop => stepCollect g s sum last start stop e
  | .finish sum => stepFinish g s sum e
  | .ended => s

/-- powstream.c:945, 1276, 1690. -/
def init : St := ⟨fun _ => Conn.zero, false, true, true, .next, []⟩

def run (g : Cfg) (s : St) : List Ev → St
  | [] => s
  | e :: es => run g (step g s e) es

end Owamp.Pow
