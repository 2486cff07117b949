import Verif.Lemmas.Broker
import Verif.Lemmas.Limits
import Verif.Spec.Limits
/-!
# C44: messages between the daemon and the processes that serve connections
-/
namespace Owamp.Props
open Owamp.Policy Owamp.Spec.Limits

/-- The three kinds of queries. -/
def IsQuery (q : U32) : Prop := q = mesgRequest ∨ q = mesgRelease ∨ q = mesgClaim

/-- C44: a query is read as it was sent. -/
theorem C44_query (big : Bool) (q l : U32) (v : U64) (hq : IsQuery q) (rest : Bytes) (c : Bool) :
    readQuery big ⟨queryFrame big q l v ++ rest, c⟩ = .query q l v ⟨rest, c⟩ := readQuery_frame big q l v hq rest c

/-- C44: bytes are taken for a query only if they are those of that query. Hence a frame that is damaged is rejected, or is
the frame of another query. -/
theorem C44_query_only (big : Bool) (s : Source) (q l : U32) (v : U64) (rest : Source) (h : readQuery big s = .query q l v rest) :
    s.data = queryFrame big q l v ++ rest.data ∧ IsQuery q := ⟨(readQuery_some h).1, (readQuery_some h).2.1⟩

/-- C44: a frame that differs from a query's only in its marks or its type is rejected, and the process is stopped. -/
theorem C44_damaged (claimOver : U64 → U64 → Bool) (big : Bool) (b : Bytes) (hb : b.length = 28)
    (h : b.take 8 ≠ word big 0xfefefefe ++ word big 0xbeef ∨ b.drop 24 ≠ word big 0xfefefefe) (t : Tree) (c : Nat) (closed : Bool) :
    checkFd claimOver big t (some c) ⟨b, closed⟩ = ⟨some c, t, [], true⟩ := by
  have hbad : readQuery big ⟨b, closed⟩ = .bad := by
    cases hr : readQuery big ⟨b, closed⟩ with
    | bad => rfl
    | none =>
      exfalso
      unfold readQuery at hr
      have hn : readn 28 ⟨b, closed⟩ = .got (b.take 28) ⟨b.drop 28, closed⟩ := by unfold readn; rw [if_pos (by dsimp only; omega)]
      rw [hn] at hr
      dsimp only at hr
      split at hr
      · cases hr
      · split at hr <;> cases hr
    | query q l v rest =>
      exfalso
      obtain ⟨h1, h2, _⟩ := readQuery_some hr
      dsimp only at h1
      have hl := congrArg List.length h1
      rw [List.length_append, queryFrame_length, hb] at hl
      have hnil : rest.data = [] := List.length_eq_zero_iff.1 (by omega)
      rw [hnil, List.append_nil] at h1
      have e1 : (queryFrame big q l v).take 8 = word big mesgMark ++ word big mesgResource := by
        unfold queryFrame
        simp only [List.append_assoc]
        rw [← List.append_assoc, List.take_left' (by simp)]
      have e2 : (queryFrame big q l v).drop 24 = word big mesgMark := by
        unfold queryFrame
        rw [List.drop_left' (by simp)]
      rw [h1] at h
      rcases h with h | h
      · exact h e1
      · exact h e2
  unfold checkFd
  dsimp only
  rw [hbad]

/-- C44: the class that a process announces is read as it was sent; the message fits into its buffer. -/
theorem C44_class (big : Bool) (name : Bytes) (h0 : 0#8 ∉ name) (hl : name.length ≤ 80) (rest : Bytes) (c : Bool) :
    ∃ f, classFrame big name = some f ∧ f.length ≤ 93 ∧ readClass big ⟨f ++ rest, c⟩ = .named name ⟨rest, c⟩ :=
  readClass_frame big name h0 hl rest c

/-- C44: bytes are taken for the announcement of a class only if they are that announcement. -/
theorem C44_class_only (big : Bool) (s : Source) (name : Bytes) (rest : Source) (h : readClass big s = .named name rest) :
    ∃ f, classFrame big name = some f ∧ s.data = f ++ rest.data := by
  obtain ⟨f, h1, h2, _⟩ := readClass_some h
  exact ⟨f, h1, h2⟩

/-- C44: an answer is read as it was sent. -/
theorem C44_response (big : Bool) (m : U32) (rest : Bytes) (c : Bool) :
    readResponse big ⟨response big m ++ rest, c⟩ = (m, some ⟨rest, c⟩) := readResponse_frame big m rest c

/-- C44: an answer is taken for positive or negative only if this answer was sent. -/
theorem C44_response_only (big : Bool) (s : Source) (m : U32) (r : Option Source) (h : readResponse big s = (m, r)) (hm : m ≠ mesgInvalid) :
    ∃ rest, r = some rest ∧ s.data = response big m ++ rest.data := readResponse_some h hm

/-- A process whose class is known asks its queries one after the other; each comes with whether a signal interrupts the
wait for its answer. The answers it sees, and the link afterwards. -/
def asks (claimOver : U64 → U64 → Bool) (big : Bool) (k : Link) : List (Event × Bool) → List U32 × Link
  | [] => ([], k)
  | (ev, intr) :: evs =>
    let r := ask claimOver big ev.cls k ev.query ev.limit ev.value intr
    let h := asks claimOver big r.2 evs
    (r.1 :: h.1, h.2)

theorem ask_clean (claimOver : U64 → U64 → Bool) (big : Bool) (c : Nat) (t : Tree) (q l : U32) (v : U64) (hq : IsQuery q) :
    ask claimOver big c ⟨t, []⟩ q l v false =
      (if (demand claimOver t c q l v).1 then mesgOk else mesgDenied, ⟨(demand claimOver t c q l v).2, []⟩) := by
  unfold ask
  have hr := readQuery_frame big q l v hq [] false
  rw [List.append_nil] at hr
  have hc : checkFd claimOver big t (some c) ⟨queryFrame big q l v, false⟩ =
      ⟨some c, (demand claimOver t c q l v).2, response big (if (demand claimOver t c q l v).1 then mesgOk else mesgDenied), false⟩ := by
    unfold checkFd
    dsimp only
    rw [hr]
  have hx := readResponse_frame big (if (demand claimOver t c q l v).1 then mesgOk else mesgDenied) [] false
  rw [List.append_nil] at hx
  dsimp only
  rw [hc]
  dsimp only
  rw [if_neg Bool.false_ne_true, List.nil_append, hx]

/-- C44: a process that is not interrupted sees the answers of the daemon to its demands, whatever it asks and as often as it
asks, and the classes are those after these demands. What is missing: interruptions, see `C44_stale`. -/
theorem C44_answers_partial (claimOver : U64 → U64 → Bool) (big : Bool) (t : Tree) (evs : List Event) (hq : ∀ ev ∈ evs, IsQuery ev.query) :
    asks claimOver big ⟨t, []⟩ (evs.map (·, false)) =
      ((history claimOver t evs).2.map (fun a => if a.2 then 1 else 2), ⟨(history claimOver t evs).1, []⟩) := by
  induction evs generalizing t with
  | nil => rfl
  | cons ev evs ih =>
    rw [List.map_cons, asks, ask_clean _ _ _ _ _ _ _ (hq ev List.mem_cons_self)]
    dsimp only
    rw [ih _ (fun x hx => hq x (List.mem_cons_of_mem _ hx)), history]
    rfl

/-- A class with a bandwidth limit of 10. -/
def linkTree : Tree := [⟨text ['r'], none, [⟨limBandwidth, 10, 0⟩]⟩]

/-- C44 is false of a process that a signal interrupts while it waits for an answer (as the end of one of its test processes
does): the answer stays in the socket, and is taken for the answer to the next query. Here a request for 7 of 10 is
granted, its release is interrupted, 20 are denied by the daemon, but the process reads the answer to the release. -/
theorem C44_stale (big : Bool) :
    (asks (fun _ _ => true) big ⟨linkTree, []⟩ [(⟨0, mesgRequest, limBandwidth, 7⟩, false), (⟨0, mesgRelease, limBandwidth, 7⟩, true),
      (⟨0, mesgRequest, limBandwidth, 20⟩, false)]).1 = [mesgOk, mesgInvalid, mesgOk] ∧
    (history (fun _ _ => true) linkTree [⟨0, mesgRequest, limBandwidth, 7⟩, ⟨0, mesgRelease, limBandwidth, 7⟩,
      ⟨0, mesgRequest, limBandwidth, 20⟩]).2.map (·.2) = [true, true, false] := by
  cases big <;> decide +kernel

/-- Non-vacuity: a frame for each byte order, a damaged one, and an exchange. -/
example : IsQuery mesgRequest ∧ queryFrame false mesgRequest limDisk 0x0102030405060708 =
    [0xfe, 0xfe, 0xfe, 0xfe, 0xef, 0xbe, 0, 0, 0xed, 0xfe, 0, 0, 3, 0, 0, 0, 8, 7, 6, 5, 4, 3, 2, 1, 0xfe, 0xfe, 0xfe, 0xfe] ∧
    queryFrame true mesgRequest limDisk 5 =
    [0xfe, 0xfe, 0xfe, 0xfe, 0, 0, 0xbe, 0xef, 0, 0, 0xfe, 0xed, 0, 0, 0, 3, 0, 0, 0, 0, 0, 0, 0, 5, 0xfe, 0xfe, 0xfe, 0xfe] :=
  ⟨.inl rfl, by decide +kernel, by decide +kernel⟩
example : readQuery false ⟨(queryFrame false mesgRequest limDisk 5).set 26 0, false⟩ = .bad := by decide +kernel
example : readClass false ⟨[0xfe, 0xfe, 0xfe, 0xfe, 0xef, 0xcd, 0, 0, 114, 111, 0, 0xfe, 0xfe, 0xfe, 0xfe, 9], true⟩ =
    .named [114, 111] ⟨[9], true⟩ := by decide +kernel
example : (asks (fun _ _ => true) false ⟨linkTree, []⟩ [(⟨0, mesgRequest, limBandwidth, 7⟩, false), (⟨0, mesgRequest, limBandwidth, 7⟩, false),
    (⟨0, mesgRelease, limBandwidth, 7⟩, false), (⟨0, mesgRequest, limBandwidth, 7⟩, false)]).1 = [1, 2, 1, 1] := by decide +kernel

end Owamp.Props
