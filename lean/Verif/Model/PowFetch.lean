import Verif.Model.Fetch
/-!
# The fetches of `powstream`: one control connection for many of them
-/
namespace Owamp.PowFetch
open Owamp.Ctl Owamp.Codec Owamp.Fetch

/-- One call of `FetchSession` (powstream.c:378-424) and what it meets: `conn` is what `OWPControlOpenInterface` returns if it is
called, the server's end first (`none`: NULL); `signal` is the answer of `sig_check` after that; `cut`: the connection ends, and only
so many bytes of the server's answer reach the client (0 as well if the connection had ended before); `env` is the server's disk and policy at the time; `remote`, `loc`, `junk` as in `Fetch.fetch`. -/
structure Call where
  conn : Option (Conn × Conn)
  signal : Bool
  cut : Option Nat
  env : Env
  remote : SockAddr
  loc : SockAddr
  junk : Bytes
  first : U32
  last : U32
  sid : Bytes

/-- `p->fetch` (powstreamP.h:112, the two ends of the connection), and the number of connections opened and closed so far. -/
structure State where
  fetch : Option (Conn × Conn)
  opened : Nat
  closed : Nat

/-- powstream.c:1690: the record is zero. -/
def State.zero : State := ⟨none, 0, 0⟩

/-- The server's turn (owampd.c:710-835): a request is read, and handled if it is a fetch. Simplified: on any other request the
server's end is left as it is. -/
def turn (H : Mac) (E : Env) (A : Conn) : Conn :=
  match readRequestType A with
  | (t, c) => if t = .fetchSession then (serve H E c).2 else c

/-- What arrives at the client, see `Call`. -/
def arrived (cut : Option Nat) (resp : Bytes) : Bytes :=
  match cut with
  | none => resp
  | some n => resp.take n

/-- `OWPFetchSession` (capi.c:1433-1688) against the server's `OWPProcessFetchSession` (sapi.c:1030-1499): the request is written
to the server, the server handles it, and the client reads what the server wrote. Simplified: what the client gets
of the answer is there when it begins to read, and a request is written whole even if the connection has ended. -/
def exchange (H : Mac) (k : Call) (A B : Conn) : Result × Conn × Conn :=
  let sent := (writeFetchSession H B k.first k.last k.sid).2.out.drop B.out.length
  let A' := turn H k.env { A with inp := A.inp ++ sent }
  let resp := A'.out.drop A.out.length
  let r := Fetch.fetch H k.remote k.loc k.junk k.first k.last k.sid { B with inp := B.inp ++ arrived k.cut resp }
  (r.1, A', r.2)

/-- What a call returns: the number of records, which is not 0, and what is in `p->testfp` (empty before the call:
powstream.c:2014-2021 and 487-496); or 0. -/
abbrev Ret := Option (U32 × Bytes)

/-- powstream.c:417-423 (`error_out`). -/
def State.drop (s : State) : State :=
  if s.fetch.isSome then { s with fetch := none, closed := s.closed + 1 } else s

/-- powstream.c:408-415: the fetch, over the connection that is held. -/
def ask (H : Mac) (s : State) (k : Call) (A B : Conn) : Ret × State :=
  match exchange H k A B with
  | (.fetched n file, A', B') =>
    if n = 0 then (none, s.drop) else (some (n, file), { s with fetch := some (A', B') })
  | (_, _, _) => (none, s.drop)

/-- `FetchSession` (powstream.c:378-424). -/
def fetchSession (H : Mac) (s : State) (k : Call) : Ret × State :=
  match s.fetch with
  | some (A, B) => ask H s k A B
  | none =>
    match k.conn with
    | none => (none, s.drop)
    | some (A, B) =>
      let s' := { s with fetch := some (A, B), opened := s.opened + 1 }
      if k.signal then (none, s') else ask H s' k A B

/-- The calls one after another (powstream.c:499 and 2034, in the loop over sessions and parts): what each returns, and
the state at the end. -/
def run (H : Mac) (s : State) : List Call → List Ret × State
  | [] => ([], s)
  | k :: ks =>
    let r := fetchSession H s k
    let t := run H r.2 ks
    (r.1 :: t.1, t.2)

end Owamp.PowFetch
