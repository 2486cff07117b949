import Verif.Model.Server
import Verif.Props.Protocol
import Verif.Lemmas.Asking
/-!
# C38: what the client is told when the server's loop refuses a fetch
-/
namespace Owamp.Props
open Owamp.Ctl Owamp.Codec Owamp.Spec.Channel

variable {ρ : Type}

/-- C38, in the server's loop: a fetch that is refused is answered with the reason and no records, no skip ranges and no
next packet, the client reads just that, and the server goes on to the next request. -/
theorem C38_refusal_told (H : Mac) (t : Turn ρ) (S S1 C : Conn) (q : U32 × U32 × Bytes) (acc : Accept)
    (hr : readFetchSession H S = (some q, S1)) (hp : t.onFetch q = .refuse acc) (hv : acc ≠ .invalid) (ha : acc ≠ .accept)
    (rS : Ready S1) (rC : Ready C) (L : Linked S1 C) (hS : S1.state.fetchAck = true) (hC : C.state.fetchAck = true) :
    (processFetchSession H t S).rc = .warning ∧ (processFetchSession H t S).c.state.request = true ∧
    ∃ w, (processFetchSession H t S).c.out = S1.out ++ w ∧
      ∀ rest, C.inp = w ++ rest → ∃ C', readFetchAck H C = (some ⟨acc, 0, 0, 0, 0⟩, C') ∧ C'.inp = rest ∧ C'.state.request = true ∧
        Linked (processFetchSession H t S).c C' := by
  obtain ⟨A', h1, h2, _, _, h3, h4⟩ := C10_fetch_ack H S1 C rS rC L ⟨acc, 0, 0, 0, 0⟩ hv hS hC
  dsimp only at h1
  have e : processFetchSession H t S = ⟨[.fetchSession], false, .warning, A'⟩ := by
    unfold processFetchSession
    rw [hr]
    dsimp only
    rw [hp]
    dsimp only
    rw [h1]
  rw [e]
  refine ⟨rfl, ?_, _, h2, ?_⟩
  · show A'.state.request = true
    rw [h3]
    simp [ha]
  · intro rest hi
    obtain ⟨C', g1, g2, _, _, g3, g4⟩ := h4 rest hi
    refine ⟨C', ?_, g2, ?_, g4⟩
    · rw [g1]
      rfl
    · rw [g3]
      simp [ha]

/-- C15, in the loop of a two-way server: a request that is not expected is answered as a refused test request, with no port and
no session, and the server goes on to the next request; the client reads just that. -/
theorem C15_unexpected_told (H : Mac) (S C : Conn) (tw : S.twoway = true) (rS : Ready S) (rC : Ready C) (L : Linked S C)
    (hC : C.state.acceptSession = true) :
    (unexpectedRequestType H S).rc = .ok ∧ (unexpectedRequestType H S).c.state = .requestOnly ∧
    ∃ w, (unexpectedRequestType H S).c.out = S.out ++ w ∧
      ∀ rest, C.inp = w ++ rest → ∃ C', readAcceptSession H C = (some (.unsupported, 0, zeros 16), C') ∧ C'.inp = rest ∧
        Linked (unexpectedRequestType H S).c C' := by
  obtain ⟨A', h1, h2, _, _, h3, h4⟩ := C10_accept_session H (S.setState { S.state with acceptSession := true }) C rS rC L .unsupported 0 (zeros 16)
    (zeros_length _) (by decide) rfl hC
  dsimp only at h1
  rw [← writeAccept_none] at h1
  have e : unexpectedRequestType H S = ⟨[], true, .ok, A'.setState .requestOnly⟩ := by
    unfold unexpectedRequestType
    rw [if_neg (by rw [tw]; decide)]
    dsimp only
    rw [h1]
    rfl
  rw [e]
  refine ⟨rfl, rfl, _, h2, ?_⟩
  intro rest hi
  obtain ⟨C', g1, g2, _, _, _, g4⟩ := h4 rest hi
  exact ⟨C', g1, g2, g4⟩

example (H : Mac) := C15_unexpected_told H { demoA with twoway := true, state := .requestOnly }
  { demoB with twoway := true, state := { request := true, acceptSession := true } } rfl demo_linked.1 demo_linked.2.1 demo_linked.2.2.1 rfl

/-- Hypotheses met: a request for all of a session that the server has read. -/
example (H : Mac) : ∃ q S S1 C, readFetchSession H S = (some q, S1) ∧ Ready S1 ∧ Ready C ∧ Linked S1 C ∧
    S1.state.fetchAck = true ∧ C.state.fetchAck = true := by
  obtain ⟨C, _, h0, _, rC, sC, h⟩ := C10_fetch_session H demoA { demoB with inp := sealed demoA (fetchLayout 0#32 0xffffffff#32 (List.replicate 16 5#8) ++
      tag H demoA (fetchLayout 0#32 0xffffffff#32 (List.replicate 16 5#8))) } demo_linked.1 demo_linked.2.1 demo_linked.2.2.1 0#32 0xffffffff#32
    (List.replicate 16 5#8) rfl rfl rfl rfl rfl rfl rfl rfl
  obtain ⟨S1, h1, _, _, r1, s1, l1⟩ := h [] (List.append_nil _).symm
  unfold afterType at h1
  split at h1
  rename_i ty S _
  split at h1
  · exact ⟨_, S, S1, C, h1, r1, rC, ⟨l1.2, l1.1⟩, by rw [s1], by rw [sC]⟩
  · cases h1

end Owamp.Props
