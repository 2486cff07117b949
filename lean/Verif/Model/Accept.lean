import Verif.Model.Protocol
/-!
# Model of connection set-up: `OWPControlAccept` (`owamp/sapi.c`) and `OWPControlOpen` (`owamp/capi.c`)

The random source, the clock, the application's hooks and the address lookups are parameters. Both
functions return whether they return a handle, and the connection record as they leave it: what they
wrote to the socket can be read off it also when they fail.
-/
namespace Owamp.Ctl
open Owamp.Codec

/-- Answer of an application hook: `True`; `False` with `*err_ret == OWPErrOK`; `False` with an error. -/
inductive Ask where
  | yes
  | no
  | error
deriving DecidableEq, Repr

/-- The hook `OWPGetPF` (context.c:793-818) asked for the pass-phrase of a user: an error, unknown user, or
the pass-phrase. -/
inductive PF where
  | error
  | unknown
  | known (pf : Bytes)
deriving DecidableEq, Repr

/-- A `char` array read as a C string. -/
def cstr (b : Bytes) : Bytes := b.takeWhile (· ≠ 0#8)

/-- Arguments and environment of `OWPControlAccept`. -/
structure AcceptEnv where
  /-- `mode_offered` -/
  offered : U32
  /-- random bytes (sapi.c:336) -/
  challenge : Bytes
  salt : Bytes
  /-- `ctx->pbkdf2_count` -/
  count : U32
  getPF : Bytes → PF
  /-- whether `I2pbkdf2` succeeds -/
  kdfOk : Bool
  /-- random IV (sapi.c:449), `none` if the source fails -/
  iv : Option Bytes
  /-- the hook `OWPCheckControlPolicy` for a mode and an authenticated user, if any -/
  policy : U32 → Option Bytes → Ask
  uptime : U64

/-- The part of `OWPControlAcceptCommon` for ciphered modes (sapi.c:406-476): whether it goes on. When
the user is unknown the token is decrypted with an empty pass-phrase (`pf` is null, `pf_len` 0). -/
def authenticate (K : Cbc.Kdf) (e : AcceptEnv) (token : Bytes) (c : Conn) : Bool × Conn :=
  if ¬ c.cipher then (true, c) else
  match e.getPF (cstr c.userid) with
  | .error => (false, (writeServerStart c .failure 0).2)
  | .unknown =>
    if ¬ e.kdfOk then (false, (writeServerStart c .failure 0).2)
    else (false, (writeServerStart c .reject 0).2)
  | .known pf =>
    if ¬ e.kdfOk then (false, (writeServerStart c .failure 0).2) else
    let t := Cbc.decryptToken K pf e.salt e.count token
    if e.challenge ≠ get t 0 16 then (false, (writeServerStart c .reject 0).2) else
    match e.iv with
    | none => (false, (writeServerStart c .failure 0).2)
    | some iv =>
      (true, { c with
        writeIV := iv, aesKey := get t 16 16, hmacKey := get t 32 32, sendAcc := [], recvAcc := [] })

/-- What `OWPControlAcceptCommon` does with the set-up response (sapi.c:387-508). The exclusive choice of
a mode is lines 388-394, the test that it was offered line 396 (a bitwise *or*). -/
def decideAccept (K : Cbc.Kdf) (e : AcceptEnv) (token : Bytes) (c : Conn) : Bool × Conn :=
  if c.mode ≠ 1#32 ∧ (¬ c.twoway ∨ c.mode ≠ 8#32) ∧ c.mode ≠ 2#32 ∧ c.mode ≠ 4#32 then (false, c)
  else if c.mode ||| e.offered = 0 then (false, (writeServerStart c .reject 0).2)
  else
    match authenticate K e token c with
    | (false, c) => (false, c)
    | (true, c) =>
      match e.policy c.mode (if c.cipher then some c.userid else none) with
      | .no => (false, (writeServerStart c .reject 0).2)
      | .error => (false, (writeServerStart c .failure 0).2)
      | .yes =>
        match writeServerStart c .accept e.uptime with
        | (some _, c) => (true, c)
        | (none, c) => (false, c)

/-- `OWPControlAcceptCommon` (sapi.c:247-518) from the greeting on. Failures of the clock (lines 343,
380) are not modelled. -/
def controlAccept (K : Cbc.Kdf) (e : AcceptEnv) (c : Conn) : Bool × Conn :=
  match writeServerGreeting c ⟨e.offered, e.challenge, e.salt, e.count⟩ with
  | (none, c) => (false, c)
  | (some _, c) =>
    if e.offered = 0 then (false, c) else
    match readSetupResponse c with
    | (none, c) => (false, c)
    | (some s, c) => decideAccept K e s.token { c with mode := s.mode, readIV := s.clientIV }

/-- The modes the daemon offers a client (owampd.c:677-684): open mode is dropped when the limit class of
the client's address does not allow it. -/
def daemonOffer (mode : U32) (allowOpen : Bool) : U32 :=
  if mode &&& 1#32 ≠ 0 ∧ ¬ allowOpen then mode &&& ~~~ 1#32 else mode

/-- Arguments and environment of `OWPControlOpen`. -/
structure OpenEnv where
  /-- `mode_req_mask` -/
  requested : U32
  /-- user name, a C string, or null -/
  userid : Option Bytes
  getPF : Bytes → PF
  policy : U32 → Option Bytes → Ask
  /-- random session keys and IV -/
  aesKey : Bytes
  hmacKey : Bytes
  iv : Bytes
  /-- content of the uninitialised array `token` (capi.c:404), not sent in open mode -/
  junk : Bytes

/-- Outcome of the mode selection. -/
inductive Choice where
  | mode (m : U32)
  | none
  | error
deriving DecidableEq, Repr

/-- One branch of the selection (for example capi.c:492-499). -/
def tryMode (avail : Bool) (ask : Ask) (m : U32) (next : Choice) : Choice :=
  if avail then
    match ask with
    | .yes => .mode m
    | .no => next
    | .error => .error
  else next

/-- "Pick highest level mode still available" (capi.c:489-537). -/
def chooseMode (twoway : Bool) (avail : U32) (ask : U32 → Ask) : Choice :=
  tryMode (avail &&& 4#32 ≠ 0) (ask 4#32) 4#32 <|
  tryMode (avail &&& 2#32 ≠ 0) (ask 2#32) 2#32 <|
  tryMode (twoway ∧ avail &&& 8#32 ≠ 0) (ask 8#32) 8#32 <|
  tryMode (avail &&& 1#32 ≠ 0) (ask 1#32) 1#32 .none

/-- `strncpy(userid_buffer, userid, 80)` into a zeroed buffer (capi.c:471). -/
def useridBuf (u : Bytes) : Bytes := put (zeros 80) 0 (u.take 80)

/-- Keys, IV and token of a ciphered connection (capi.c:542-587). -/
def makeToken (K : Cbc.Kdf) (e : OpenEnv) (g : Greeting) (pf : Bytes) (c : Conn) : Bytes × Conn :=
  if c.cipher then
    (Cbc.encryptToken K pf g.salt g.count (g.challenge ++ e.aesKey ++ e.hmacKey),
      { c with aesKey := e.aesKey, hmacKey := e.hmacKey, sendAcc := [], recvAcc := [], writeIV := e.iv })
  else (e.junk, c)

/-- The pass-phrase asked for (capi.c:470-482): only with a user name and if a ciphered mode is
available. -/
def askPF (e : OpenEnv) (avail : U32) : PF :=
  match e.userid with
  | some u => if avail &&& 14#32 ≠ 0 then e.getPF (u.take 80) else .unknown
  | none => .unknown

/-- The end of `OWPControlOpenCommon` (capi.c:601-645): response and answer. -/
def finishOpen (c : Conn) (token : Bytes) : Bool × Conn :=
  match writeSetupResponse c token with
  | (none, c) => (false, c)
  | (some _, c) =>
    match readServerStart c with
    | (some (acc, _), c) => (acc = .accept, c)
    | (none, c) => (false, c)

/-- The mode is chosen: keys and token, response, answer (capi.c:542-645). -/
def openIn (K : Cbc.Kdf) (e : OpenEnv) (g : Greeting) (pf : Bytes) (c : Conn) : Choice → Bool × Conn
  | .mode m =>
    let t := makeToken K e g pf { c with mode := m }
    finishOpen t.2 t.1
  | _ => (false, c)

/-- What `OWPControlOpenCommon` does with the greeting (capi.c:460-645). Failures of the random source
and of the clock are not modelled. -/
def answerGreeting (K : Cbc.Kdf) (e : OpenEnv) (g : Greeting) (c : Conn) : Bool × Conn :=
  let avail := g.modes &&& e.requested
  let c := e.userid.elim c fun u => if avail &&& 14#32 ≠ 0 then { c with userid := useridBuf u } else c
  match askPF e avail with
  | .error => (false, c)
  | .unknown =>
    openIn K e g [] c (chooseMode c.twoway (avail &&& ~~~ 14#32) (fun m => e.policy m none))
  | .known pf =>
    openIn K e g pf c (chooseMode c.twoway avail (fun m => e.policy m (some c.userid)))

/-- `OWPControlOpenCommon` (capi.c:386-672) from the greeting on. -/
def controlOpen (K : Cbc.Kdf) (e : OpenEnv) (c : Conn) : Bool × Conn :=
  match readServerGreeting c with
  | (none, c) => (false, c)
  | (some g, c) => answerGreeting K e g c

end Owamp.Ctl
