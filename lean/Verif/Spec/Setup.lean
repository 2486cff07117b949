import Verif.Spec.Channel
import Verif.Model.Accept
/-!
# What connection set-up promises (RFC 4656 section 3.1, RFC 5357 section 3.1)
-/
namespace Owamp.Spec.Setup
open Owamp.Ctl Owamp.Spec.Channel

/-- Open 1, authenticated 2, encrypted 4 and, for two-way connections, mixed 8. -/
def IsMode (twoway : Bool) (m : U32) : Prop := m = 1#32 ∨ m = 2#32 ∨ m = 4#32 ∨ (twoway = true ∧ m = 8#32)

/-- Mode `m` is in the set `s`. -/
def InSet (m s : U32) : Prop := s &&& m = m

/-- Every mode but open needs a shared secret. -/
def Ciphered (m : U32) : Prop := m ≠ 1#32

/-- Encrypted before authenticated before mixed before open. -/
def rank (m : U32) : Nat := if m = 4#32 then 3 else if m = 2#32 then 2 else if m = 8#32 then 1 else 0

/-- A user name was given and its pass-phrase is known. -/
def Knows (e : OpenEnv) : Prop := ∃ u pf, e.userid = some u ∧ e.getPF (u.take 80) = .known pf

/-- The client could use mode `m`: both sides want it, it exists, and if it needs a secret there is one. -/
structure Usable (twoway : Bool) (offered : U32) (e : OpenEnv) (m : U32) : Prop where
  mode : IsMode twoway m
  offered : InSet m offered
  requested : InSet m e.requested
  secret : Ciphered m → Knows e

/-- The token that proves knowledge of the pass-phrase and carries the session keys: AES-128-CBC, zero
IV, under the key derived from the pass-phrase and the server's salt. -/
def tokenFor (K : Cbc.Kdf) (pf salt : Bytes) (count : U32) (challenge aesKey hmacKey : Bytes) : Bytes :=
  (cbc (K.derive pf salt count.toNat) (zeros 16) (blocksOf (challenge ++ aesKey ++ hmacKey))).flatten

/-- A server and a client have run set-up against each other and each returned a handle: what one wrote
is what the other read. -/
structure Exchange (K : Cbc.Kdf) (e : AcceptEnv) (o : OpenEnv) (S C S' C' : Conn) : Prop where
  accepted : controlAccept K e S = (true, S')
  opened : controlOpen K o C = (true, C')
  toClient : C.inp = S'.out
  toServer : S.inp = C'.out

/-- A connection that has just been allocated (context.c:337-411) over a working socket. -/
structure Fresh (c : Conn) : Prop where
  ready : Ready c
  state : c.state = .invalid
  out : c.out = []
  user : c.userid = zeros 80
  acc : c.sendAcc = [] ∧ c.recvAcc = []

end Owamp.Spec.Setup
