import Verif.Spec.Channel
/-!
# Conversations over a control connection
-/
namespace Owamp.Spec.Conversation
open Owamp.Ctl Owamp.Spec.Channel

/-- One side sends the plaintext `p`, or reads `n` blocks. -/
inductive Ev where
  | sendA (p : Bytes)
  | sendB (p : Bytes)
  | recvA (n : Nat)
  | recvB (n : Nat)

/-- Both ends of a connection, with what each has sent and got so far, as plaintext. -/
structure Sys where
  a : Conn
  b : Conn
  sentA : Bytes
  sentB : Bytes
  gotA : Bytes
  gotB : Bytes

/-- What `send` put on the socket arrives at the peer in order; a read of `n` blocks waits until they
are there. -/
def step (s : Sys) : Ev → Sys
  | .sendA p =>
    let c := (sendBuf s.a p).2.2
    { s with
      a := c, b := { s.b with inp := s.b.inp ++ c.out.drop s.a.out.length }, sentA := s.sentA ++ p }
  | .sendB p =>
    let c := (sendBuf s.b p).2.2
    { s with
      b := c, a := { s.a with inp := s.a.inp ++ c.out.drop s.b.out.length }, sentB := s.sentB ++ p }
  | .recvA n =>
    if 16 * n ≤ s.a.inp.length ∧ 16 * n ≤ 400 then
      let c := (recvBlocks s.a 0 n).2
      { s with a := c, gotA := s.gotA ++ get c.msg 0 (16 * n) }
    else s
  | .recvB n =>
    if 16 * n ≤ s.b.inp.length ∧ 16 * n ≤ 400 then
      let c := (recvBlocks s.b 0 n).2
      { s with b := c, gotB := s.gotB ++ get c.msg 0 (16 * n) }
    else s

def run (s : Sys) (es : List Ev) : Sys := es.foldl step s

/-- Only whole blocks are sent. -/
def WholeBlocks : Ev → Prop
  | .sendA p => p.length % 16 = 0
  | .sendB p => p.length % 16 = 0
  | _ => True

/-- Sender side: add text to the MAC and send it, or send the digest. -/
inductive SOp where
  | text (p : Bytes)
  | digest

/-- The plaintext stream for a list of operations, with `pending` the text since the last digest. -/
def stream (H : Mac) (key pending : Bytes) : List SOp → Bytes
  | [] => []
  | .text p :: ops => p ++ stream H key (pending ++ p) ops
  | .digest :: ops => (H.hash key pending).take 16 ++ stream H key [] ops

/-- Text since the last digest after the operations. -/
def pendingAfter (pending : Bytes) : List SOp → Bytes
  | [] => pending
  | .text p :: ops => pendingAfter (pending ++ p) ops
  | .digest :: ops => pendingAfter [] ops

/-- Receiver side: read `n` blocks of text, or read a block and check it as digest. -/
inductive ROp where
  | text (n : Nat)
  | check

/-- Verdicts of the checks on the plaintext stream `P`, stopping at the first failure, together with
the rest of the stream and the text since the last digest; `none` if the stream is too short. -/
def verdict (H : Mac) (key : Bytes) : Bytes → Bytes → List ROp → Option (Bool × Bytes × Bytes)
  | pending, P, [] => some (true, pending, P)
  | pending, P, .text n :: ops =>
    if 16 * n ≤ P.length then verdict H key (pending ++ P.take (16 * n)) (P.drop (16 * n)) ops else none
  | pending, P, .check :: ops =>
    if 16 ≤ P.length then
      if P.take 16 = (H.hash key pending).take 16 then verdict H key [] (P.drop 16) ops
      else some (false, [], P.drop 16)
    else none

/-- The receiver operations that fit the sender operations. -/
def mirror : SOp → ROp
  | .text p => .text (p.length / 16)
  | .digest => .check

/-- Running the sender operations with the code. -/
def sendAll (H : Mac) (c : Conn) : List SOp → Conn
  | [] => c
  | .text p :: ops => sendAll H (sendBuf (sendHmacAdd c p) p).2.2 ops
  | .digest :: ops => sendAll H (sendBuf (sendDigest H c).2 (sendDigest H c).1).2.2 ops

/-- Running the receiver operations with the code; `none` if a read fails. -/
def recvAll (H : Mac) (c : Conn) : List ROp → Option (Bool × Conn)
  | [] => some (true, c)
  | .text n :: ops =>
    match recvBlocks c 0 n with
    | (.done, c) => recvAll H (recvHmacAdd c (get c.msg 0 (16 * n))) ops
    | _ => none
  | .check :: ops =>
    match recvBlocks c 0 1 with
    | (.done, c) =>
      match recvCheck H c (get c.msg 0 16) with
      | (true, c) => recvAll H c ops
      | (false, c) => some (false, c)
    | _ => none

/-- A message of `k` blocks of which the first `off` bytes were read before and are in `msg`: the block
that follows it on the stream is its digest, and nothing is pending at `c'`. -/
def Covered (H : Mac) (c c' : Conn) (off k : Nat) : Prop :=
  DigestOf H c (get c.msg 0 off ++ (plainIn c).take (16 * k - off)) (get (plainIn c) (16 * k - off) 16) ∧
  (c.cipher = true → c'.recvAcc = [])

end Owamp.Spec.Conversation
