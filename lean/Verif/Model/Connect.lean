import Verif.Base.Bytes
/-!
# Model of how a client connects and how a server opens its socket (owamp/capi.c, owamp/sapi.c, owamp/api.c)

The addresses of a name come from outside (`I2AddrAddrInfo`, `getaddrinfo`, `getifaddrs`), and so does what the system answers to each call. No address is tried more than once, so
that the answers are kept with the address. Not modelled: `close` interrupted by a signal is done again until it succeeds; what the `I2Addr` records hold besides the socket; capabilities
(`OWPAddEffectiveCapability`), messages.
-/
namespace Owamp.Connect

/-- `ai_family`. -/
inductive Family where
  | v6
  | v4
  | other
deriving DecidableEq, Repr

/-- One entry of `getifaddrs`: a name, an address if it has one, and whether `bind` to it succeeds. -/
structure Iface where
  name : Bytes
  addr : Option (Family × Nat)
  binds : Bool

/-- One address of the server, a number, and what the system answers: `socket` succeeds; `SO_BINDTODEVICE` succeeds; `strdup` succeeds; the entries of `getifaddrs` when the name is looked up and when
it is bound to (`none`: the call fails); the addresses of the local name in the family (`none`: `getaddrinfo` fails), each with the answer to `bind`; `connect` succeeds; the records of the
server and of the local address can be set. -/
structure Cand where
  family : Family
  addr : Nat
  socket : Bool
  device : Bool
  dup : Bool
  ifaces : Option (List Iface)
  ifaces2 : Option (List Iface)
  locals : Option (List (Nat × Bool))
  connect : Bool
  records : Bool
  localRecord : Bool

/-- A socket: its family, the interface and the address it is bound to, and its peer. -/
structure Sock where
  family : Family
  device : Option Bytes := none
  bound : Option Nat := none
  peer : Option Nat := none
deriving DecidableEq

/-- What there is: the open sockets, the newest first; the addresses that were contacted, the newest first; the socket that the server's record says it has (its peer). -/
structure Net where
  socks : List Sock := []
  contacted : List Nat := []
  record : Option Nat := none

/-- A change of the newest socket. -/
def Net.change (n : Net) (f : Sock → Sock) : Net :=
  match n.socks with
  | [] => n
  | s :: r => { n with socks := f s :: r }

/-- `close(fd)` of the newest socket (capi.c:234-236). -/
def Net.close (n : Net) : Net := { n with socks := n.socks.tail }

/-- `_OWPIsInterface` (capi.c:1773-1797). -/
def isInterface (ifs : Option (List Iface)) (name : Bytes) : Bool :=
  match ifs with
  | none => false
  | some l => l.any fun i => i.name == name

/-- The loop over the entries of `getifaddrs` (capi.c:77-94): the address that was bound to. -/
def bindInterface (name : Bytes) (family : Family) : List Iface → Option Nat
  | [] => none
  | i :: r =>
    if i.name ≠ name then bindInterface name family r
    else match i.addr with
      | none => bindInterface name family r
      | some (f, a) =>
        if family ≠ f then bindInterface name family r
        else if i.binds then some a
        else bindInterface name family r

/-- The loop over the addresses of the local name (capi.c:117-140). -/
def bindAddress : List (Nat × Bool) → Option Nat
  | [] => none
  | (a, ok) :: r => if ok then some a else bindAddress r

/-- `_OWPClientBind` (capi.c:57-146): the address the socket is bound to; it never reports an error in `err_ret`. -/
def clientBind (c : Cand) (name : Bytes) : Option Nat :=
  if isInterface c.ifaces name then
    match c.ifaces2 with
    | none => none
    | some l => bindInterface name c.family l
  else
    match c.locals with
    | none => none
    | some l => bindAddress l

/-- The newest socket is tied to an interface, if one was asked for (capi.c:184-190; `OWPSocketInterfaceBind`, api.c:3886-3914); `none`: goes to `cleanup`. -/
def bindDevice (dev : Option Bytes) (c : Cand) (n : Net) : Option Net :=
  match dev with
  | none => some n
  | some d => if !c.device then none else if !c.dup then none else some (n.change fun s => { s with device := some d })

/-- The newest socket is bound to a local address, if one was asked for (capi.c:192-199). -/
def bindLocal (loc : Option Bytes) (c : Cand) (n : Net) : Option Net :=
  match loc with
  | none => some n
  | some l => (clientBind c l).map fun a => n.change fun s => { s with bound := some a }

/-- The newest socket is connected, and the records are set (capi.c:204-236). -/
def connectTo (c : Cand) (n : Net) : Net × Bool :=
  let n := { n with contacted := c.addr :: n.contacted }
  if !c.connect then (n.close, false)
  else
    let n := n.change fun s => { s with peer := some c.addr }
    if !c.records then (n.close, false)
    else
      let n := { n with record := some c.addr }
      if !c.localRecord then (n.close, false) else (n, true)

/-- `TryAddr` (capi.c:169-237): true if it connected. -/
def tryAddr (loc dev : Option Bytes) (c : Cand) (n : Net) : Net × Bool :=
  if !c.socket then (n, false)
  else
    let n := { n with socks := { family := c.family } :: n.socks }
    match bindDevice dev c n with
    | none => (n.close, false)
    | some n =>
      match bindLocal loc c n with
      | none => (n.close, false)
      | some n => connectTo c n

/-- A loop over the addresses of one family (capi.c:313-321, 328-336). -/
def tryAll (loc dev : Option Bytes) (family : Family) : List Cand → Net → Net × Option Cand
  | [], n => (n, none)
  | c :: r, n =>
    if c.family ≠ family then tryAll loc dev family r n
    else
      match tryAddr loc dev c n with
      | (n, true) => (n, some c)
      | (n, false) => tryAll loc dev family r n

/-- `_OWPClientConnect` (capi.c:259-370) for a server that is given by its name: the addresses of version 6, then those of version 4. -/
def clientConnect (only4 only6 : Bool) (loc dev : Option Bytes) (addrs : List Cand) (n : Net) : Net × Option Cand :=
  match if only4 then (n, none) else tryAll loc dev .v6 addrs n with
  | (n, some c) => (n, some c)
  | (n, none) => if only6 then (n, none) else tryAll loc dev .v4 addrs n

/-! ## The server's socket -/

/-- One address to listen on, and what the system answers: `inUse` tells why `bind` failed. -/
structure Seat where
  family : Family
  addr : Nat
  socket : Bool
  reuse : Bool
  both : Bool
  bind : Bool
  inUse : Bool
  records : Bool
deriving DecidableEq

/-- What `OpenSocket` returns: a socket, -1 or -2. -/
inductive Opened where
  | seat (s : Seat)
  | no
  | stop
deriving DecidableEq

/-- `OpenSocket` (sapi.c:35-100) over the addresses of a family. -/
def openSocket (family : Family) : List Seat → Net → Net × Opened
  | [], n => (n, .no)
  | s :: r, n =>
    if s.family ≠ family then openSocket family r n
    else if !s.socket then openSocket family r n
    else
      let n := { n with socks := { family := family } :: n.socks }
      if !s.reuse then openSocket family r n.close
      else if s.family = .v6 ∧ !s.both then openSocket family r n.close
      else if s.bind then
        let n := n.change fun k => { k with bound := some s.addr }
        if !s.records then (n, .no) else ({ n with record := some s.addr }, .seat s)
      else if s.inUse then (n, .stop)
      else openSocket family r n.close

/-- The addresses of version 6, and those of version 4 only if that gave -1 (sapi.c:167-178). -/
def openEither (seats : List Seat) (n : Net) : Net × Opened :=
  match openSocket .v6 seats n with
  | (n, .no) => openSocket .v4 seats n
  | x => x

/-- `OWPServerSockCreateCommon` (sapi.c:134-204) with a record that has no socket yet; `listen` succeeds or not. On failure the record is freed, and with it the socket that it has. -/
def serverSocket (listens : Bool) (seats : List Seat) (n : Net) : Net × Option Seat :=
  match openEither seats n with
  | (n, .seat s) => if listens then (n, some s) else ({ n with record := none }.close, none)
  | (n, _) => (n, none)

end Owamp.Connect
