import Verif.Lemmas.PowstreamInv
import Verif.Lemmas.PowstreamFresh
/-!
# C73: the times in the names of the files of powstream

`(run g init es).outs` is all that is seen of a run of powstream under the circumstances `es`, from the start of its main loop, in order.
-/
namespace Owamp.Props
open Owamp.Pow

/-- Every data file of a complete session bears the start time that was asked for and the time the last packet is due, and so does its summary,
provided no set-up of another session has failed since the session began, or no summaries are asked for. Missing: without that condition it is false
(`C73_session_moved`). -/
theorem C73_sessions_partial (g : Cfg) (hN : 0 < g.npackets) (hs : g.summaries.isSome) (es : List Ev) (a b : List Out) (sid : Nat) (s e : U64) :
    (∀ seqs skips, (run g init es).outs = a ++ .data sid s e false seqs skips :: b →
      ∃ a1 a2 st, a = a1 ++ .begun sid st :: a2 ∧ ((g.bucket = 0 ∨ .failed ∉ a2) → s = st ∧ e = sentAt (g.gap sid) st g.npackets)) ∧
    ((run g init es).outs = a ++ .whole sid s e false :: b →
      ∃ a1 a2 st, a = a1 ++ .begun sid st :: a2 ∧ ((g.bucket = 0 ∨ .failed ∉ a2) → s = st ∧ e = sentAt (g.gap sid) st g.npackets)) := by
  have key := (run_inv g hN hs es init (init_inv g)).1
  refine ⟨fun seqs skips h => ?_, fun h => ?_⟩
  · obtain ⟨a1, a2, st, h1, h2⟩ := key a _ b h
    refine ⟨a1, a2, st, h1, fun hh => ?_⟩
    exact ⟨(h2 hh).1, (if_neg (by decide)).mp (h2 hh).2⟩
  · obtain ⟨a1, a2, st, h1, h2⟩ := key a _ b h
    exact ⟨a1, a2, st, h1, fun hh => ⟨(h2 hh).1, (h2 hh).2 rfl⟩⟩

/-- Every summary is of as many packets as asked for, from a multiple of that number, within the session, and bears the times these packets are due (the start of
the first is the time the packet before is due, or the start of the session), provided no set-up of another session has failed since the session began.
Missing: without that condition it is false (`C73_setup_failure`). -/
theorem C73_summaries_partial (g : Cfg) (hN : 0 < g.npackets) (hs : g.summaries.isSome) (es : List Ev) (a b : List Out) (sid : Nat) (s e : U64) (lo hi : Nat)
    (h : (run g init es).outs = a ++ .summ sid s e lo hi :: b) :
    hi = lo + g.bucket ∧ g.bucket ∣ lo ∧ hi ≤ g.npackets ∧
      ∃ a1 a2 st, a = a1 ++ .begun sid st :: a2 ∧ (.failed ∉ a2 → s = sentAt (g.gap sid) st lo ∧ e = sentAt (g.gap sid) st hi) := by
  obtain ⟨k1, k2, k3, a1, a2, st, h1, h2⟩ := (run_inv g hN hs es init (init_inv g)).1 a _ b h
  exact ⟨k1, k2, k3, a1, a2, st, h1, fun hh => h2 (Or.inr hh)⟩

/-- The data file of a session that is cut short bears the time the last packet in it that was sent is due, provided that the skip ranges in it are in order, that it has no record of
the first packet of a skip range, and that no set-up has failed since the session began. Missing: without the second condition it is false (`C73_skip_begin`). -/
theorem C73_early_partial (g : Cfg) (hN : 0 < g.npackets) (hs : g.summaries.isSome) (es : List Ev) (a b : List Out) (sid : Nat) (s e : U64)
    (seqs : List Nat) (skips : List (Nat × Nat)) (h : (run g init es).outs = a ++ .data sid s e true seqs skips :: b)
    (hasc : Ascending skips) (hbeg : ∀ n ∈ seqs, ∀ r ∈ skips, r.1 ≠ n) :
    ∃ a1 a2 st, a = a1 ++ .begun sid st :: a2 ∧
      ((g.bucket = 0 ∨ .failed ∉ a2) → s = st ∧ ∃ k, LastOf seqs skips k ∧ e = sentAt (g.gap sid) st (k + 1)) := by
  obtain ⟨a1, a2, st, h1, h2⟩ := (run_inv g hN hs es init (init_inv g)).1 a _ b h
  refine ⟨a1, a2, st, h1, fun hh => ?_⟩
  obtain ⟨k1, k2⟩ := h2 hh
  rw [if_pos rfl] at k2
  obtain ⟨k, k3, k4⟩ := k2
  have := maxSends_last hasc seqs 0 k hbeg k3
  exact ⟨k1, k, ⟨this.1, this.2.2⟩, k4⟩

theorem lastEnd_quiet (g : Cfg) (a m : List Out) (sid : Nat) (st : U64) (hq : ∀ o ∈ m, o ≠ .closed ∧ ∀ i t, o ≠ .begun i t) :
    lastEnd g (a ++ .begun sid st :: m) = some (sentAt (g.gap sid) st g.npackets) := by
  rw [show a ++ Out.begun sid st :: m = (a ++ [.begun sid st]) ++ m by simp, lastEnd_neutrals g _ m hq, lastEnd_append]
  rfl

/-- One session follows another without a gap and without overlap: unless everything was closed in between, it starts when the last packet of the one
before is due, or later, if at some attempt to set it up that time could no longer be met; then at the time that could. -/
theorem C73_follows (g : Cfg) (hN : 0 < g.npackets) (hs : g.summaries.isSome) (es : List Ev) (a m b : List Out) (sid sid' : Nat) (st st' : U64)
    (h : (run g init es).outs = a ++ .begun sid st :: m ++ .begun sid' st' :: b) (hq : ∀ o ∈ m, o ≠ .closed ∧ ∀ i t, o ≠ .begun i t) :
    st' = sentAt (g.gap sid) st g.npackets ∨
      (sentAt (g.gap sid) st g.npackets < st' ∧ .tried st' ∈ a ++ .begun sid st :: m) := by
  exact (run_inv g hN hs es init (init_inv g)).1 (a ++ .begun sid st :: m) _ b h _ (lastEnd_quiet g a m sid st hq)

/-- The first session, and the first one after everything was closed, starts at the time that could be met at some attempt since, not at a time left from
before. -/
theorem C73_anew (g : Cfg) (es : List Ev) (a m b : List Out) (sid : Nat) (st : U64) (h : (run g init es).outs = a ++ m ++ .begun sid st :: b)
    (ha : a = [] ∨ ∃ a', a = a' ++ [.closed]) (hm : ∀ o ∈ m, o ≠ .closed ∧ ∀ i t, o ≠ .begun i t) : .tried st ∈ m := by
  have key := (run_fine g es init (init_fine g)).all (a ++ m) sid st b h
  have h1 : lastEnd g a = none ∧ since a = [] := by
    rcases ha with rfl | ⟨a', rfl⟩
    · exact ⟨rfl, rfl⟩
    · exact ⟨by rw [lastEnd_append], since_closed a'⟩
  have h2 := key (by rw [lastEnd_neutrals g a m hm]; exact h1.1)
  rw [since_neutrals a m hm, h1.2] at h2
  exact h2

/-! ### Examples -/

/-- Four packets, two to a summary, packet `i` due `i + 1` seconds after the one before. -/
def demoPow : Cfg := ⟨4, 2, seconds 1, 3, 0, false, fun _ i => seconds (i + 1)⟩

def demoPowWrite (seqs : List Nat) (skips : List (Nat × Nat)) : WriteEnv := ⟨true, true, true, seqs, skips, .linked, .linked⟩

def demoPowSig (seqs : List Nat) (skips : List (Nat × Nat)) : Sig := ⟨false, ⟨true, demoPowWrite seqs skips⟩, ⟨true, demoPowWrite seqs skips⟩⟩

/-- All is well at time `now`; a session set up would be `sid`. -/
def demoPowEv (now sid : Nat) : Ev :=
  ⟨none, ⟨seconds now, seconds now, sid, .done⟩, .timeUp, true, true, true, .wrote, demoPowWrite [0, 1, 2, 3] [], ⟨true, demoPowWrite [0] []⟩, demoPowSig [0] []⟩

/-- A session of two summaries, the next one begins when it ends. -/
def demoPowRun : List Ev :=
  [demoPowEv 1000 1, demoPowEv 1000 9, demoPowEv 1001 2, demoPowEv 1017 9, demoPowEv 1017 9, demoPowEv 1018 9, demoPowEv 1024 9, demoPowEv 1024 9, demoPowEv 1025 9]

theorem C73_example : demoPow.summaries.isSome = true ∧ (run demoPow init demoPowRun).outs =
    [.tried (seconds 1010), .begun 1 (seconds 1010), .tried (seconds 1011), .begun 2 (seconds 1020),
     .summ 1 (seconds 1010) (seconds 1013) 0 2, .summ 1 (seconds 1013) (seconds 1020) 2 4,
     .data 1 (seconds 1010) (seconds 1020) false [0, 1, 2, 3] [], .whole 1 (seconds 1010) (seconds 1020) false] := by decide +kernel

/-- The claims apply to this run: the second session follows the first. -/
example : (seconds 1020 = sentAt (demoPow.gap 1) (seconds 1010) 4) ∨ (sentAt (demoPow.gap 1) (seconds 1010) 4 < seconds 1020 ∧
    Out.tried (seconds 1020) ∈ [.tried (seconds 1010)] ++ .begun 1 (seconds 1010) :: [.tried (seconds 1011)]) :=
  C73_follows demoPow (by decide) (by decide +kernel) demoPowRun [.tried (seconds 1010)] [.tried (seconds 1011)] _ 1 2 (seconds 1010) (seconds 1020)
    (C73_example.2) (by intro o ho; rw [List.mem_singleton] at ho; rw [ho]; exact ⟨nofun, nofun⟩)

/-- A signal cuts the session short when packets 0, 1 and 2 are in its file, packet 2 having been skipped with packet 1. -/
def demoPowCut (seqs : List Nat) (skips : List (Nat × Nat)) : List Ev :=
  demoPowRun.take 5 ++ [{ demoPowEv 1018 9 with sig := some (demoPowSig seqs skips) }]

theorem C73_early_example : (run demoPow init (demoPowCut [0, 2] [(1, 2)])).outs =
    [.tried (seconds 1010), .begun 1 (seconds 1010), .tried (seconds 1011), .begun 2 (seconds 1020),
     .summ 1 (seconds 1010) (seconds 1013) 0 2, .closed,
     .data 1 (seconds 1010) (seconds 1011) true [0, 2] [(1, 2)], .whole 1 (seconds 1010) (seconds 1011) true, .closed] := by decide +kernel

/-- The program goes on after the signal, a set-up fails, then a session begins. -/
def demoPowAnew : List Ev :=
  demoPowCut [0, 2] [(1, 2)] ++ [{ demoPowEv 1019 3 with setup := ⟨seconds 1019, seconds 1019, 3, .failed .timed⟩ }, demoPowEv 1030 3]

theorem C73_anew_example : (run demoPow init demoPowAnew).outs =
    [.tried (seconds 1010), .begun 1 (seconds 1010), .tried (seconds 1011), .begun 2 (seconds 1020),
     .summ 1 (seconds 1010) (seconds 1013) 0 2, .closed,
     .data 1 (seconds 1010) (seconds 1011) true [0, 2] [(1, 2)], .whole 1 (seconds 1010) (seconds 1011) true, .closed,
     .tried (seconds 1029), .failed, .tried (seconds 1040), .begun 3 (seconds 1040)] := by decide +kernel

/-- It meets the conditions of `C73_anew`. -/
example : Out.tried (seconds 1040) ∈ [Out.tried (seconds 1029), .failed, .tried (seconds 1040)] :=
  C73_anew demoPow demoPowAnew ((run demoPow init demoPowAnew).outs.take 9) [.tried (seconds 1029), .failed, .tried (seconds 1040)] [] 3 (seconds 1040)
    (by decide +kernel) (Or.inr ⟨(run demoPow init demoPowAnew).outs.take 8, by decide +kernel⟩)
    (by
      intro o ho
      simp only [List.mem_cons, List.not_mem_nil, or_false] at ho
      rcases ho with rfl | rfl | rfl <;> exact ⟨nofun, nofun⟩)

/-- It meets the conditions of `C73_early_partial`. -/
example : Ascending [(1, 2)] ∧ ∃ a1 a2 st, (run demoPow init (demoPowCut [0, 3] [(1, 2)])).outs.take 6 = a1 ++ .begun 1 st :: a2 ∧
    ((demoPow.bucket = 0 ∨ .failed ∉ a2) → seconds 1010 = st ∧ ∃ k, LastOf [0, 3] [(1, 2)] k ∧ seconds 1020 = sentAt (demoPow.gap 1) st (k + 1)) :=
  ⟨⟨by simp, by simp⟩, C73_early_partial demoPow (by decide) (by decide +kernel) (demoPowCut [0, 3] [(1, 2)]) _
    ((run demoPow init (demoPowCut [0, 3] [(1, 2)])).outs.drop 7) 1 (seconds 1010) (seconds 1020) [0, 3] [(1, 2)] (by decide +kernel)
    ⟨by simp, by simp⟩ (by simp)⟩

/-! ### Where the code departs from the property -/

/-- The claim of `C73_early_partial` without its condition on the first packet of a skip range is false: packets 1 and 2 were not sent, yet the file of a session
cut short with records of packets 0 and 1 bears the time packet 1 is due. -/
theorem C73_skip_begin : ∃ g es a b s e, 0 < g.npackets ∧ g.summaries.isSome = true ∧
    (run g init es).outs = a ++ .data 1 s e true [0, 1] [(1, 2)] :: b ∧ Out.failed ∉ a ∧ Ascending [(1, 2)] ∧
    a.filter (fun o => match o with | .begun .. => true | _ => false) = [.begun 1 s, .begun 2 (sentAt (g.gap 1) s 4)] ∧
    LastOf [0, 1] [(1, 2)] 0 ∧ e = sentAt (g.gap 1) s 2 ∧ e ≠ sentAt (g.gap 1) s 1 := by
  refine ⟨demoPow, demoPowCut [0, 1] [(1, 2)], (run demoPow init (demoPowCut [0, 1] [(1, 2)])).outs.take 6, (run demoPow init (demoPowCut [0, 1] [(1, 2)])).outs.drop 7,
    seconds 1010, seconds 1013, by decide, by decide +kernel, by decide +kernel, by decide +kernel, ?_, by decide +kernel, ?_, by decide +kernel, by decide +kernel⟩
  · exact ⟨by simp, by simp⟩
  · refine ⟨Or.inr rfl, ?_⟩
    intro n hn hs
    simp only [List.mem_cons, List.not_mem_nil, or_false] at hn
    rcases hn with rfl | rfl
    · omega
    · exact absurd ⟨(1, 2), by simp, by simp, by simp⟩ hs

/-- The set-up of the second session fails once, while the first is under way. -/
def demoPowFail : List Ev :=
  [demoPowEv 1000 1, demoPowEv 1000 9, { demoPowEv 1001 2 with setup := ⟨seconds 1001, seconds 1001, 2, .failed .opening⟩ }, demoPowEv 1001 9, demoPowEv 1001 9,
   demoPowEv 1002 2, demoPowEv 1021 9, demoPowEv 1021 9]

/-- When the next session cannot be set up while one is under way, the program starts over with the summaries of that one, but not with its
schedule: the summary of packets 0 and 1, due up to second 1013, bears the end time 1017. -/
theorem C73_setup_failure : (run demoPow init demoPowFail).outs =
    [.tried (seconds 1010), .begun 1 (seconds 1010), .failed, .tried (seconds 1012), .begun 2 (seconds 1020), .summ 1 (seconds 1010) (seconds 1017) 0 2] ∧
    sentAt (demoPow.gap 1) (seconds 1010) 2 = seconds 1013 := by decide +kernel

/-- The second session is set up too late for the first summary, then its set-up fails. -/
def demoPowMoved : List Ev :=
  [demoPowEv 1000 1, demoPowEv 1000 9, demoPowEv 1018 2, demoPowEv 1018 9, demoPowEv 1018 9,
   { demoPowEv 1019 2 with setup := ⟨seconds 1019, seconds 1019, 2, .failed .opening⟩ }, demoPowEv 1019 9, demoPowEv 1019 9,
   demoPowEv 1019 2, demoPowEv 1035 9, demoPowEv 1035 9, demoPowEv 1035 9, demoPowEv 1050 9, demoPowEv 1050 9, demoPowEv 1050 9]

/-- Then even the data file of the session has the wrong times: the session runs from second 1010 to second 1020, the file says from 1020 to 1020. -/
theorem C73_session_moved : (run demoPow init demoPowMoved).outs =
    [.tried (seconds 1010), .begun 1 (seconds 1010), .summ 1 (seconds 1010) (seconds 1013) 0 2, .failed, .tried (seconds 1029), .begun 2 (seconds 1029),
     .summ 1 (seconds 1020) (seconds 1031) 0 2, .summ 1 (seconds 1031) (seconds 1046) 2 4,
     .data 1 (seconds 1020) (seconds 1020) false [0, 1, 2, 3] [], .whole 1 (seconds 1020) (seconds 1020) false] ∧
    sentAt (demoPow.gap 1) (seconds 1010) 4 = seconds 1020 := by decide +kernel

/-- `SIGHUP` while the data of the first summary are fetched: the program uses the file it has just closed. -/
theorem C73_fetch_signal : (run { demoPow with sender := true } init
      (demoPowRun.take 4 ++ [{ demoPowEv 1017 9 with collected := .skipSignal ⟨false, ⟨false, demoPowWrite [] []⟩, ⟨false, demoPowWrite [] []⟩⟩ }, demoPowEv 1018 3, demoPowEv 1040 9,
        demoPowEv 1040 9])).outs =
    [.tried (seconds 1010), .begun 1 (seconds 1010), .tried (seconds 1011), .begun 2 (seconds 1020), .closed, .closed,
     .tried (seconds 1028), .begun 3 (seconds 1028), .crashed] := by decide +kernel

end Owamp.Props
