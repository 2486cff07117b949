import Verif.Spec.Asking
/-!
# Two programs at the two ends of a connection

Each side is a function of its end of the connection, whose `inp` is all that will ever come in. The two are run against each other by giving each side what the other has written so far,
until nothing more is written.
-/
namespace Owamp.Spec.Exchange
open Owamp.Ctl Owamp.Spec.Channel Owamp.Spec.Asking

/-- What the client and the server have written after `n` rounds: the client runs on what the server has written so far, then the server on what the client has written. -/
def exchange {α β : Type} (client : Conn → α × Conn) (server : Conn → β × Conn) (A B : Conn) : Nat → Bytes × Bytes
  | 0 => ([], [])
  | n + 1 =>
    let x := (client { A with inp := (exchange client server A B n).2 }).2.out.drop A.out.length
    (x, (server { B with inp := x }).2.out.drop B.out.length)

/-- After some rounds nothing more is written, and then the results and the connections are as `P` says. -/
def Settles {α β : Type} (client : Conn → α × Conn) (server : Conn → β × Conn) (A B : Conn) (P : α → Conn → β → Conn → Prop) : Prop :=
  ∃ n, (∀ m, n ≤ m → exchange client server A B m = exchange client server A B n) ∧
    let p := exchange client server A B n
    let a := client { A with inp := p.2 }
    let b := server { B with inp := p.1 }
    P a.1 a.2 b.1 b.2

/-- Nothing is under way on a one-way control connection, and the two ends are in step. -/
structure Calm (A B : Conn) : Prop where
  quiet : Quiet A B
  state : A.state = .requestOnly ∧ B.state = .requestOnly
  oneway : A.twoway = false ∧ B.twoway = false

end Owamp.Spec.Exchange
