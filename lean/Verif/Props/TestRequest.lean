import Verif.Model.TestRequest
import Verif.Spec.TestRequest
import Verif.Props.Setup
/-!
# C21: an open-mode client cannot aim server traffic at a third party
-/
namespace Owamp.Props
open Owamp.Ctl Owamp.Spec.Channel Owamp.Spec.TestRequest

theorem unless_grant (n : Option No) (k : Verdict) (p : U16) (s : Bytes) (d : Option SockAddr)
    (h : Verdict.unless n k = .grant p s d) : n = none ∧ k = .grant p s d := by
  cases n with
  | none => exact ⟨rfl, h⟩
  | some x => cases h

theorem if_none {α : Type} (p : Prop) [Decidable p] (x : Option α) (h : (if p then x else none) = none) (hp : p) : x = none := by
  rwa [if_pos hp] at h

/-- A granted one-way session: what was checked. -/
theorem answerOW_grant (e : TestEnv) (cipher : Bool) (r : TestReq) (p : U16) (s : Bytes) (d : Option SockAddr)
    (h : answerTestOW e cipher r = .grant p s d) :
    ¬ (r.confReceiver = true ∧ r.confSender = true) ∧
    d = (if r.confSender then some r.receiver else none) ∧
    (r.confReceiver = true → e.newSid = some s ∧ e.policy false r.receiver r.sender r.spec = none ∧ e.endpoint r.receiver = none) ∧
    (r.confReceiver = false → s = r.sid) ∧
    (r.confSender = true → e.policy true r.sender r.receiver r.spec = none ∧ e.endpoint r.sender = none ∧
      (cipher = false → 0 < e.sameAddr e.remote r.receiver)) := by
  unfold answerTestOW at h
  split at h
  · cases h
  · rename_i sid hsid
    split at h
    · cases h
    · split at h
      · cases h
      · rename_i hboth
        obtain ⟨h1, h⟩ := unless_grant _ _ _ _ _ h
        obtain ⟨h2, h⟩ := unless_grant _ _ _ _ _ h
        obtain ⟨h3, h⟩ := unless_grant _ _ _ _ _ h
        obtain ⟨h4, h⟩ := unless_grant _ _ _ _ _ h
        obtain ⟨h5, h⟩ := unless_grant _ _ _ _ _ h
        obtain ⟨h6, h⟩ := unless_grant _ _ _ _ _ h
        obtain ⟨h7, h⟩ := unless_grant _ _ _ _ _ h
        simp only [Verdict.grant.injEq] at h
        obtain ⟨_, hs, hd⟩ := h
        subst hs
        refine ⟨hboth, hd.symm, ?_, ?_, ?_⟩
        · intro hr
          rw [if_pos hr] at hsid
          exact ⟨hsid, if_none _ _ h1 hr, if_none _ _ h2 hr⟩
        · intro hr
          rw [hr] at hsid
          simpa using hsid.symm
        · intro hr
          refine ⟨if_none _ _ h5 hr, if_none _ _ h6 hr, ?_⟩
          intro hc
          by_cases hle : e.sameAddr e.remote r.receiver ≤ 0
          · exact absurd (if_none _ _ h4 ⟨hr, by simp [hc], hle⟩) (by simp)
          · omega

/-- **C21, part.** On a one-way control connection in open mode, for every input, policy and
environment: a session that the server has agreed to and that makes it send packets sends them to the
IP address of the control client, provided the address comparison (I2util) only reports equality of
equal addresses. Missing: two-way sessions, for which it is false (`C21_twoway_third_party`). -/
theorem C21_oneway_partial {ρ : Type} (H : Mac) (e : TestEnv) (t : Turn ρ) (c : Conn) (s : Session)
    (hsound : ∀ a b, 0 < e.sameAddr a b → SameHost a b)
    (hopen : c.cipher = false) (htw : c.twoway = false)
    (h : (processTest H e t c).2 = some s) (d : SockAddr) (hd : s.dest = some d) : SameHost e.remote d := by
  unfold processTest at h
  dsimp only at h
  split at h
  · cases h
  · rename_i r _ c' hr
    split at h
    · cases h
    · rename_i port sid dest ha
      split at h
      · simp only [Option.some.injEq] at h
        subst h
        simp only at hd
        unfold answerTest at ha
        rw [htw, hopen] at ha
        simp only [Bool.false_eq_true, if_false] at ha
        obtain ⟨_, g2, _, _, g5⟩ := answerOW_grant _ _ _ _ _ _ ha
        rw [hd] at g2
        by_cases hs : r.confSender = true
        · rw [if_pos hs] at g2
          cases g2
          exact hsound _ _ ((g5 hs).2.2 rfl)
        · rw [if_neg hs] at g2; cases g2
      · cases h

/-- A server at 10.0.0.1 with a client at 10.0.0.2, no policy of its own. -/
def demoTest : TestEnv where
  remote := .v4 0x0a000002#32 4000#16
  localAddr := .v4 0x0a000001#32 861#16
  newSid := some (List.replicate 16 1#8)
  schedOk := true
  policy := fun _ _ _ _ => none
  named := true
  sameAddr := fun a b => if SameHost a b then 1 else 0
  endpoint := fun _ => none
  port := 9000#16
  hook := none

/-- A request for the server to send to `dst`, or for a reflector towards `dst`. -/
def askFor (twoway : Bool) (dst : U32) : ReqArgs where
  sender := .v4 (if twoway then dst else 0x0a000001#32) 8000#16
  receiver := .v4 (if twoway then 0x0a000001#32 else dst) 8001#16
  confSender := true
  confReceiver := false
  sid := if twoway then none else some (List.replicate 16 2#8)
  spec := ⟨1#64, 2#64, 0#32, 0#32, 10#32, if twoway then [] else [.literal 5#64]⟩
  zeroAddr := false

/-- The server after it has read the first block of what a client wrote for that request. -/
def demoAsked (twoway : Bool) (dst : U32) : Conn :=
  (readRequestType (openConn twoway (writeTestRequest anyMac (openConn twoway []) (askFor twoway dst)).2.out)).2

/-- A non-trivial case: the client asks for packets to itself, and gets them; it asks for packets to
somebody else, and is rejected. -/
example : ((processTest anyMac demoTest openTurn (demoAsked false 0x0a000002#32)).2.map (·.dest)) =
      some (some (.v4 0x0a000002#32 8001#16)) ∧
    (processTest anyMac demoTest openTurn (demoAsked false 0x0a090909#32)).2 = none ∧
    (demoAsked false 0x0a000002#32).cipher = false := by decide +kernel

/-- **C21 fails for two-way sessions.** A client at 10.0.0.2, in open mode, gets the server to set up a
reflector that answers to 10.9.9.9. -/
theorem C21_twoway_third_party :
    (demoAsked true 0x0a090909#32).cipher = false ∧
    ((processTest anyMac demoTest openTurn (demoAsked true 0x0a090909#32)).2.map (·.dest)) =
      some (some (.v4 0x0a090909#32 8000#16)) ∧
    ¬ SameHost demoTest.remote (.v4 0x0a090909#32 8000#16) := by decide +kernel

end Owamp.Props
