import Verif.Lemmas.Fetch
import Verif.Props.DataFile
/-!
# C36, C37, C38: fetching a session
-/
namespace Owamp.Props
open Owamp.Codec Owamp.Ctl Owamp.File Owamp.Fetch Owamp.Spec.DataFile Owamp.Spec.Channel Owamp.Spec.Fetch Owamp.Spec.Request

/-- What a reader of the file that the client wrote finds there. -/
theorem fetchedFile_read (remote : SockAddr) (h : HdrIn) (hs : Storable h) (hone : h.twoway = false) (fin : Bool) (next : U32)
    (skips : List Skip) (ws : List DataRec) (hd : ∀ r ∈ ws, Stamp r.send ∧ Stamp r.recv) (hw : ws.length < 2 ^ 32)
    (hk : 8 * skips.length < 2 ^ 32) :
    let file := fetchedFile remote h fin next skips ws
    (∃ hd pos, readHeader file = .ok hd pos ∧ hd.twoway = false ∧ hd.finished = (if fin then 1 else 2) ∧ hd.next = next ∧
      hd.nskip.toNat = skips.length ∧ hd.ndata.toNat = ws.length ∧
      hd.pre = some
        { sender := noScope h.sender, receiver := noScope h.receiver, confSender := h.confSender
          confReceiver := h.confReceiver, sid := h.sid, nslots := BitVec.ofNat 32 h.spec.slots.length
          npackets := h.spec.npackets, padding := h.spec.padding, startTime := h.spec.startTime
          lossTimeout := h.spec.lossTimeout, typeP := h.spec.typeP }) ∧
    recordsSeen file = ws ∧ readSlots file (BitVec.ofNat 32 h.spec.slots.length) = some h.spec.slots ∧
    readSkips file (BitVec.ofNat 32 skips.length) = some skips := by
  intro file
  obtain ⟨g, hg⟩ : ∃ g, g = hdrOf (ackOf fin next skips ws.length) (requestOf remote h) := ⟨_, rfl⟩
  have hgs : Storable g := by rw [hg]; exact storable_fetched remote h hs hone _
  have hj : (zeros 112).length = 112 := zeros_length _
  have hsl : (skipBytes skips) = (skips.map encodeSkip).flatten := by
    unfold skipBytes
    rw [Nat.mod_eq_of_lt hk, ← skipText_length skips, List.take_length]
  have hskl := skipText_length skips
  have hfl := flat_length ws hd
  have hgk : g.nskip.toNat = skips.length := by
    rw [hg]; show (BitVec.ofNat 32 skips.length).toNat = _
    rw [BitVec.toNat_ofNat]; exact Nat.mod_eq_of_lt (by omega)
  have hgn : g.ndata.toNat = ws.length := by
    rw [hg]; show (BitVec.ofNat 32 ws.length).toNat = _
    rw [BitVec.toNat_ofNat]; exact Nat.mod_eq_of_lt hw
  have hgr : g.recSize.toNat = 0 := by rw [hg]; rfl
  have hgt : g.twoway = false := by rw [hg]; rfl
  obtain ⟨tail, htail⟩ : ∃ tail, tail = (skips.map encodeSkip).flatten ++ flat ws := ⟨_, rfl⟩
  have htl : tail.length = 8 * skips.length + 25 * ws.length := by rw [htail, List.length_append, hskl, hfl]
  have hw1 : (writeHeader (zeros 112) g).1 = g.fixed ++ requestPart g.args g.sid := by rw [writeHeader_eq _ _ hj hgs]
  have hfile : file = (writeHeader (zeros 112) g).1 ++ tail := by
    rw [hw1, htail, ← hsl, hg]; show fetchedFile _ _ _ _ _ _ = _
    unfold fetchedFile
    simp only [List.append_assoc]
    rfl
  obtain ⟨_, c2, c3⟩ := C32_header_partial (zeros 112) g tail hj hgs (by rw [hgk]; exact hk) (by rw [hgr]; omega) 25
    (by rw [hgt]; rfl) (by rw [hgk, hgn, htl]; omega)
  rw [← hfile] at c2 c3
  have hcount : (if g.finished = 1 ∧ g.twoway = false then g.ndata
      else BitVec.ofNat 32 ((tail.length - 8 * g.nskip.toNat) / 25)).toNat = ws.length := by
    split
    · exact hgn
    · rw [htl, hgk, show (8 * skips.length + 25 * ws.length - 8 * skips.length) / 25 = ws.length by omega, BitVec.toNat_ofNat]
      exact Nat.mod_eq_of_lt hw
  have hwl := writeHeader_length (zeros 112) g hj hgs
  have hoset : (wantedOsets g).2 = headerEnd g.spec.slots.length + 8 * skips.length := by
    unfold wantedOsets
    dsimp only
    by_cases hz : g.nskip = 0
    · rw [if_neg (by simp [hz])]
      have : skips.length = 0 := by rw [← hgk, hz]; rfl
      simp [this]
    · rw [if_pos hz, hgk]
  refine ⟨⟨_, _, c2, hgt, ?_, ?_, hgk, hcount, ?_⟩, ?_, ?_, ?_⟩
  · rw [hg]; cases fin <;> rfl
  · rw [hg]; rfl
  · rw [hgt, hg]
    show some _ = some _
    simp only [hdrOf, requestOf, noScope_seen, Bool.false_or]
  · unfold recordsSeen
    rw [c2]
    dsimp only
    rw [hcount, hgt, hoset]
    unfold parseRecords
    simp only [Bool.false_eq_true, if_false]
    rw [if_neg (by omega), if_pos trivial]
    have hpre : ((writeHeader (zeros 112) g).1 ++ (skips.map encodeSkip).flatten).length =
        headerEnd g.spec.slots.length + 8 * skips.length := by rw [List.length_append, hwl, hskl]
    rw [← hpre]
    have := parseLoop_feed 25 (decodeDataRec 3) keep recLayout ws (fun r hr => by
      have := C12_record_partial r (hd r hr).1 (hd r hr).2
      exact this.2) file ((writeHeader (zeros 112) g).1 ++ (skips.map encodeSkip).flatten) [] ws.length []
      (by rw [hfile, htail, List.append_nil, List.append_assoc]; rfl) (Nat.le_refl _)
    rw [this, List.take_length, feed_keep]; rfl
  · rw [hg] at c3; exact c3
  · have hos := osets_wanted g hgs (by rw [hgk]; exact hk) (by rw [hgr]; omega)
    have hlt := osets_lt g hgs
    have hri := readInitial_fixed 3#32 (finWord g.finished) g.next g.nskip g.ndata (BitVec.ofNat 64 g.osets.1)
      (BitVec.ofNat 64 g.osets.2) (requestPart g.args g.sid ++ tail) (Or.inl rfl)
      (by rw [toNat_small _ hlt.1]; omega) (by rw [toNat_small _ hlt.2]; omega)
    have hf2 : file = fixedLayout 3#32 (finWord g.finished) g.next g.nskip g.ndata (BitVec.ofNat 64 g.osets.1)
        (BitVec.ofNat 64 g.osets.2) ++ (requestPart g.args g.sid ++ tail) := by
      rw [hfile, hw1, fixed_eq, hgt, List.append_assoc]; rfl
    rw [← hf2] at hri
    unfold readSkips
    rw [hri]
    simp only [Option.bind_some]
    have hgk' : g.nskip = BitVec.ofNat 32 skips.length := by rw [hg]; rfl
    rw [if_neg (by decide), if_neg (by rw [hgk']; simp), toNat_small _ hlt.1, if_neg (by omega), ← hgk', hgk]
    show skipLoop file g.osets.1 skips.length = _
    by_cases hz : skips = []
    · rw [hz]; rfl
    · have hnz : g.nskip ≠ 0 := by
        intro e
        rw [e] at hgk
        exact hz (List.length_eq_zero_iff.1 hgk.symm)
      have h1 : g.osets.1 = (writeHeader (zeros 112) g).1.length := by
        rw [hos, hwl]; unfold wantedOsets; dsimp only; rw [if_pos hnz]
      rw [h1]
      exact skipLoop_ok skips file _ (flat ws) (by rw [hfile, htail, List.append_assoc])

/-- C36: the client gets the header, the schedule, the skip ranges and exactly the records of the range, in order. What
is missing for the full statement: of a session that is not finished no record beyond the last packet that arrived
is sent (`C36_unfinished_is_cut`), the schedule has less than 2^28 - 1 slots (`C37_slot_count_wraps`) and there are
less than 2^29 skip ranges (`C36_skip_count_wraps`), and a session between IPv6 link-local addresses can be fetched
over a link-local control connection only. -/
theorem C36_fetch_partial (H : Mac) (E : Env) (remote loc : SockAddr) (junk : Bytes) (hj : junk.length = 112) (A B : Conn)
    (P : Peers A B) (first last : U32) (sid : Bytes) (hsid : sid.length = 16)
    (f : Bytes) (h : HdrIn) (fin : Bool) (next : U32) (skips : List Skip) (rs : List DataRec)
    (hst : Stored f h fin next skips rs) (hE : Grants E first last sid f)
    (hfull : first = 0 ∧ last = 0xFFFFFFFF#32 → fin = true) (hk : 8 * skips.length < 2 ^ 32)
    (hs1 : scopeKnown remote false h.sender) (hs2 : scopeKnown remote false h.receiver) :
    let wanted := inRange first (lastSent fin last rs) rs
    ∃ blocks file,
      Conversation H E remote loc junk first last sid A B blocks (.fetched (BitVec.ofNat 32 wanted.length) file) ∧
      (∃ hd pos, readHeader file = .ok hd pos ∧ hd.twoway = false ∧ hd.finished = (if fin then 1 else 2) ∧ hd.next = next ∧
        hd.nskip.toNat = skips.length ∧ hd.ndata.toNat = wanted.length ∧
        hd.pre = some
          { sender := noScope h.sender, receiver := noScope h.receiver, confSender := h.confSender
            confReceiver := h.confReceiver, sid := h.sid, nslots := BitVec.ofNat 32 h.spec.slots.length
            npackets := h.spec.npackets, padding := h.spec.padding, startTime := h.spec.startTime
            lossTimeout := h.spec.lossTimeout, typeP := h.spec.typeP }) ∧
      recordsSeen file = wanted ∧ readSlots file (BitVec.ofNat 32 h.spec.slots.length) = some h.spec.slots ∧
      readSkips file (BitVec.ofNat 32 skips.length) = some skips := by
  intro wanted
  refine ⟨_, _, serve_travels H E remote loc junk hj A B P first last sid hsid f h fin next skips rs hst hE hfull hs1 hs2, ?_⟩
  exact fetchedFile_read remote h hst.header hst.oneway fin next skips wanted
    (fun r hr => hst.records r (List.mem_filter.1 hr).1)
    (Nat.lt_of_le_of_lt (inRange_length_le _ _ _) hst.nrecs) hk

/-- C36 for a session that finished normally, as the statement has it. -/
theorem C36_finished (H : Mac) (E : Env) (remote loc : SockAddr) (junk : Bytes) (hj : junk.length = 112) (A B : Conn)
    (P : Peers A B) (first last : U32) (sid : Bytes) (hsid : sid.length = 16)
    (f : Bytes) (h : HdrIn) (next : U32) (skips : List Skip) (rs : List DataRec)
    (hst : Stored f h true next skips rs) (hE : Grants E first last sid f) (hk : 8 * skips.length < 2 ^ 32)
    (hs1 : scopeKnown remote false h.sender) (hs2 : scopeKnown remote false h.receiver) :
    ∃ blocks file n,
      Conversation H E remote loc junk first last sid A B blocks (.fetched n file) ∧
      recordsSeen file = inRange first last rs ∧
      readSlots file (BitVec.ofNat 32 h.spec.slots.length) = some h.spec.slots ∧
      readSkips file (BitVec.ofNat 32 skips.length) = some skips := by
  obtain ⟨b, file, c, _, d, e, g⟩ := C36_fetch_partial H E remote loc junk hj A B P first last sid hsid f h true next skips rs hst hE
    (fun _ => rfl) hk hs1 hs2
  exact ⟨b, file, _, c, d, e, g⟩

/-- C36, the whole session. -/
theorem C36_complete (rs : List DataRec) : inRange 0 0xFFFFFFFF#32 rs = rs := inRange_all rs

/-- The records of a range: an independent reading of `inRange`. -/
theorem C36_range (first last : U32) (rs : List DataRec) :
    (inRange first last rs).Sublist rs ∧
    ∀ r, r ∈ inRange first last rs ↔ r ∈ rs ∧ first.toNat ≤ r.seq.toNat ∧ r.seq.toNat ≤ last.toNat := by
  refine ⟨List.filter_sublist, fun r => ?_⟩
  unfold inRange
  rw [List.mem_filter, decide_eq_true_iff]

/-- C37: the answer to a fetch of `n` records, `m` skip ranges and `k` slots has 12 + `k` + ⌈`m`/2⌉ + ⌈25`n`/16⌉ blocks, and
the client reads just these and is still in step. (The size of the skip ranges is a 32 bit product on both
sides: with 2^29 of them and more some do not travel, but the ends agree.) What is missing: 2^28 - 1 slots and more,
see `C37_slot_count_wraps`. -/
theorem C37_framing_partial (H : Mac) (E : Env) (remote loc : SockAddr) (junk : Bytes) (hj : junk.length = 112) (A B : Conn)
    (P : Peers A B) (first last : U32) (sid : Bytes) (hsid : sid.length = 16)
    (f : Bytes) (h : HdrIn) (fin : Bool) (next : U32) (skips : List Skip) (rs : List DataRec)
    (hst : Stored f h fin next skips rs) (hE : Grants E first last sid f)
    (hfull : first = 0 ∧ last = 0xFFFFFFFF#32 → fin = true)
    (hs1 : scopeKnown remote false h.sender) (hs2 : scopeKnown remote false h.receiver) :
    ∃ file,
      Conversation H E remote loc junk first last sid A B
        (12 + h.spec.slots.length + ((8 * skips.length) % 2 ^ 32 + 15) / 16 +
          (25 * (inRange first (lastSent fin last rs) rs).length + 15) / 16)
        (.fetched (BitVec.ofNat 32 (inRange first (lastSent fin last rs) rs).length) file) :=
  ⟨_, serve_travels H E remote loc junk hj A B P first last sid hsid f h fin next skips rs hst hE hfull hs1 hs2⟩

/-- C37 fails for a session of 2^28 - 1 slots: of a file with the header that `OWPWriteDataHeader` writes for it the
server sends no slots at all, though the request it sends announces them. -/
theorem C37_slot_count_wraps (h : HdrIn) (hone : h.twoway = false) (h1 : h.nskip = 0) (h2 : h.ndata = 0)
    (hn : h.spec.slots.length = 2 ^ 28 - 1) (body : Bytes) :
    ∃ p, readInitial (h.fixed ++ body) = some p ∧ trSize p = 0 := by
  have e1 : h.osets = (0, 152) := by
    unfold HdrIn.osets HdrIn.oset
    rw [if_neg (by simp [h1]), if_neg (by simp [h2]), hn]
  have := readInitial_fixed 3#32 (finWord h.finished) h.next h.nskip h.ndata 0 152 body (Or.inl rfl) (by decide) (by decide)
  rw [fixed_eq, e1, hone]
  exact ⟨_, this, rfl⟩

/-- C36 fails for 2^29 skip ranges: none of them travels. -/
theorem C36_skip_count_wraps (skips : List Skip) (hn : skips.length = 2 ^ 29) : skipBytes skips = [] := by
  unfold skipBytes
  rw [hn]
  rfl

/-! ## C38 -/

theorem header_error (E : Env) (first last : U32) (n lt ft : Nat) (a : Accept)
    (h : header E first last n lt ft = .error a) : a = .failure ∨ a = .reject := by
  fun_induction header E first last n lt ft
  all_goals first
    | (simp only [Except.error.injEq] at h; subst h; simp; done)
    | (exact absurd h (by simp))
    | (rename_i ih; exact ih h)

/-- Which reading of the header a positive answer rests on. -/
theorem header_ok (E : Env) (first last : U32) (n lt ft : Nat) (f : Bytes) (p : Init)
    (h : header E first last n lt ft = .ok (f, p)) :
    ∃ m p', n ≤ m ∧ f = E.file m ∧ readInitial (E.file m) = some p' ∧ p.finished = p'.finished ∧
      (p'.finished = 1 ∨ ¬ (first = 0 ∧ last = 0xFFFFFFFF#32)) ∧
      (p'.finished ≠ 0 ∨ ∃ p0, n < m ∧ readInitial (E.file (m - 1)) = some p0 ∧ p0.finished ≠ 0) := by
  fun_induction header E first last n lt ft
  all_goals first
    | (simp only [reduceCtorEq] at h; done)
    | (rename_i ih
       obtain ⟨m, p', h1, h2, h3, h4, h5, h6⟩ := ih h
       refine ⟨m, p', by omega, h2, h3, h4, h5, ?_⟩
       rcases h6 with h6 | ⟨p0, h6, h7⟩
       · exact Or.inl h6
       · exact Or.inr ⟨p0, by omega, h7⟩)
    | skip
  · rename_i n _ _ p0 hp _ hz h1
    simp only [Except.ok.injEq, Prod.mk.injEq] at h
    obtain ⟨rfl, rfl⟩ := h
    exact ⟨n, p0, Nat.le_refl _, rfl, hp, rfl, Or.inl h1, Or.inl hz⟩
  · rename_i n _ _ p0 hp _ hz _ _ p1 hp1 hc
    simp only [Except.ok.injEq, Prod.mk.injEq] at h
    obtain ⟨rfl, rfl⟩ := h
    refine ⟨n + 1, p1, by omega, rfl, hp1, rfl, ?_, Or.inr ⟨p0, by omega, by simpa using hp, hz⟩⟩
    by_cases h1 : p1.finished = 1
    · exact Or.inl h1
    · exact Or.inr fun hh => hc ⟨hh.1, hh.2, h1⟩

/-- C38: a request for the complete session is refused as long as no reading of the file says that the session finished
normally, whatever the other processes do to the file and its locks meanwhile. -/
theorem C38_complete_refused (H : Mac) (E : Env) (remote loc : SockAddr) (junk : Bytes) (A B : Conn) (P : Peers A B)
    (sid : Bytes) (hsid : sid.length = 16) (hpol : E.policy 0 0xFFFFFFFF#32 sid ≠ none)
    (hfile : ∀ n p, readInitial (E.file n) = some p → p.finished ≠ 1) :
    Conversation H E remote loc junk 0 0xFFFFFFFF#32 sid A B 2 .refused := by
  apply refuse_travels H E remote loc junk A B P 0 0xFFFFFFFF#32 sid hsid
  intro c
  cases hp : E.policy 0 0xFFFFFFFF#32 sid with
  | none => exact absurd hp hpol
  | some b =>
    cases b with
    | false =>
      refine ⟨.reject, by decide, by decide, fun c0 h0 => ?_⟩
      unfold serve; rw [h0]; simp only; rw [hp]
    | true =>
      by_cases ho : E.opens sid = true
      · cases hh : header E 0 0xFFFFFFFF#32 0 0 0 with
        | error a =>
          refine ⟨a, ?_, ?_, fun c0 h0 => ?_⟩
          · rcases header_error E _ _ 0 0 0 a hh with x | x <;> rw [x] <;> decide
          · rcases header_error E _ _ 0 0 0 a hh with x | x <;> rw [x] <;> decide
          · unfold serve; rw [h0]; simp only; rw [hp]; simp only; rw [if_pos ho, hh]
        | ok fp =>
          obtain ⟨m, p', _, _, h3, _, h5, _⟩ := header_ok E _ _ 0 0 0 fp.1 fp.2 hh
          rcases h5 with h5 | h5
          · exact absurd h5 (hfile m p' h3)
          · exact absurd ⟨rfl, rfl⟩ h5
      · refine ⟨.reject, by decide, by decide, fun c0 h0 => ?_⟩
        unfold serve; rw [h0]; simp only; rw [hp]; simp only; rw [if_neg ho]

/-- C38: no range of a session that is marked as failed when the request arrives is returned. What is missing for
"never": the mark is not looked at again after the file has been locked, see `C38_failed_in_between`. -/
theorem C38_failed_partial (H : Mac) (E : Env) (remote loc : SockAddr) (junk : Bytes) (A B : Conn) (P : Peers A B)
    (first last : U32) (sid : Bytes) (hsid : sid.length = 16) (hpol : E.policy first last sid ≠ none)
    (p : Init) (hfile : readInitial (E.file 0) = some p) (hz : p.finished = 0) :
    Conversation H E remote loc junk first last sid A B 2 .refused := by
  apply refuse_travels H E remote loc junk A B P first last sid hsid
  intro c
  have hh : header E first last 0 0 0 = .error .failure := by
    rw [header, hfile]
    simp only
    split <;> first | rfl | rw [if_pos hz]
  cases hp : E.policy first last sid with
  | none => exact absurd hp hpol
  | some b =>
    cases b with
    | false =>
      refine ⟨.reject, by decide, by decide, fun c0 h0 => ?_⟩
      unfold serve; rw [h0]; simp only; rw [hp]
    | true =>
      by_cases ho : E.opens sid = true
      · refine ⟨.failure, by decide, by decide, fun c0 h0 => ?_⟩
        unfold serve; rw [h0]; simp only; rw [hp]; simp only; rw [if_pos ho, hh]
      · refine ⟨.reject, by decide, by decide, fun c0 h0 => ?_⟩
        unfold serve; rw [h0]; simp only; rw [hp]; simp only; rw [if_neg ho]

/-- C38, over every behaviour of the other processes: a session that was marked as failed at the last reading of its
header is only returned if an earlier reading said otherwise. -/
theorem C38_failed_seen_otherwise (E : Env) (first last : U32) (f : Bytes) (p : Init)
    (h : header E first last 0 0 0 = .ok (f, p)) (hz : p.finished = 0) :
    ∃ m p0, f = E.file (m + 1) ∧ readInitial (E.file m) = some p0 ∧ p0.finished ≠ 0 := by
  obtain ⟨m, p', _, h2, _, h4, _, h6⟩ := header_ok E first last 0 0 0 f p h
  rcases h6 with h6 | ⟨p0, hm, h7, h8⟩
  · exact absurd (h4 ▸ hz) h6
  · refine ⟨m - 1, p0, ?_, h7, h8⟩
    rw [show m - 1 + 1 = m by omega]; exact h2

/-- The header of a session of which nothing is counted yet, with the given mark. -/
def openFile (h : HdrIn) (mark : U32) (rs : List DataRec) : Bytes :=
  fixedLayout 3 mark 0 0 0 0 (BitVec.ofNat 64 (headerEnd h.spec.slots.length)) ++ requestPart h.args h.sid ++
    (rs.map recLayout).flatten

theorem openFile_stored (h : HdrIn) (hs : Storable h) (hone : h.twoway = false) (rs : List DataRec)
    (hd : ∀ r ∈ rs, Stamp r.send ∧ Stamp r.recv) (hn : rs.length < 2 ^ 32) : Stored (openFile h 2 rs) h false 0 [] rs :=
  ⟨hs, hone, hd, hn, by decide, 0, 0, [], by unfold openFile; rw [List.append_nil]; rfl, (nomatch ·),
    fun _ => ⟨rfl, rfl, Or.inl ⟨rfl, by decide⟩⟩⟩

/-- C38 fails in between: a session that is open when the fetch process first looks and marked as failed by the receiver
before the file is locked is answered positively, with its records, for every range but the complete one. -/
theorem C38_failed_in_between (E : Env) (first last : U32) (h : HdrIn) (hs : Storable h)
    (rs : List DataRec) (hd : ∀ r ∈ rs, Stamp r.send ∧ Stamp r.recv) (hn : rs.length < 2 ^ 32)
    (h0 : E.file 0 = openFile h 2 rs) (h1 : E.file 1 = openFile h 0 rs) (hl : E.lock 0 = .got)
    (hpart : ¬ (first = 0 ∧ last = 0xFFFFFFFF#32)) :
    ∃ p, header E first last 0 0 0 = .ok (openFile h 0 rs, p) ∧ p.finished = 0 ∧
      ∀ c, ∃ q, plan c first last (openFile h 0 rs) p = some q ∧
        q.sendrecs.toNat = (inRange first (lastSent false last rs) rs).length := by
  have hHl := headerEnd_lt h hs
  have hrl := requestPart_length h hs
  have hfl : ((rs.map recLayout).flatten).length = 25 * rs.length := flat_length rs hd
  have hHn : (BitVec.ofNat 64 (headerEnd h.spec.slots.length)).toNat = headerEnd h.spec.slots.length := by
    rw [BitVec.toNat_ofNat]; exact Nat.mod_eq_of_lt (by omega)
  have hri : ∀ mark : U32, readInitial (openFile h mark rs) = some
      { version := 3, recSize := 25, finished := finishedType mark.toNat, next := 0, nskip := 0, ndata := 0, osetSkip := 0
        osetData := (headerEnd h.spec.slots.length : Nat), hdrLen := (headerEnd h.spec.slots.length : Nat) } := by
    intro mark
    have := readInitial_fixed 3 mark 0 0 0 0 (BitVec.ofNat 64 (headerEnd h.spec.slots.length))
      (requestPart h.args h.sid ++ (rs.map recLayout).flatten) (Or.inl rfl) (by decide) (by rw [hHn]; omega)
    rw [hHn, ← List.append_assoc] at this
    exact this
  have hlen : (openFile h 0 rs).length = headerEnd h.spec.slots.length + 25 * rs.length := by
    unfold openFile
    rw [List.length_append, List.length_append, fixedLayout_length, hrl, hfl]
    unfold headerEnd; omega
  obtain ⟨p, hp⟩ : ∃ p : Init, p =
      { version := 3, recSize := 25, finished := finishedType (0 : U32).toNat, next := 0, nskip := 0, ndata := 0
        osetSkip := 0, osetData := (headerEnd h.spec.slots.length : Nat), hdrLen := (headerEnd h.spec.slots.length : Nat) } :=
    ⟨_, rfl⟩
  have hcnt : (countRecs (openFile h 0 rs) p).toNat = rs.length := by
    unfold countRecs
    rw [hp]
    dsimp only
    rw [if_pos rfl, hlen]
    show (BitVec.ofInt 32 (Int.tdiv ((headerEnd h.spec.slots.length + 25 * rs.length : Nat) -
      (headerEnd h.spec.slots.length : Nat)) ((25 : Nat) : Int))).toNat = _
    rw [nat_tdiv _ _ _ (by omega), ofInt_nat, BitVec.toNat_ofNat,
      show (headerEnd h.spec.slots.length + 25 * rs.length - headerEnd h.spec.slots.length) / 25 = rs.length by omega]
    exact Nat.mod_eq_of_lt hn
  refine ⟨{ p with ndata := countRecs (openFile h 0 rs) p }, ?_, by rw [hp]; rfl, fun c => ?_⟩
  · rw [header, h0, hri 2]
    simp only
    rw [if_neg (by decide), if_neg (by decide), if_neg (by decide), hl]
    simp only
    rw [h1, hri 0]
    simp only
    rw [if_neg (fun hh => hpart ⟨hh.1, hh.2.1⟩), ← hp]
    rw [hp]
  · have hparse : ∀ s, parse (openFile h 0 rs) { p with ndata := countRecs (openFile h 0 rs) p } s = feed doRecord rs s :=
      parse_at _ _ [] _ h hs rs hd (by rw [hp]) (by rw [hp]) hcnt
        (fixedLayout_length 3 0 0 0 0 0 (BitVec.ofNat 64 (headerEnd h.spec.slots.length)))
        (by rw [List.append_nil]; rfl)
    have hsize : ∀ k, k ≤ rs.length → (BitVec.ofNat 32 k).toNat = k := by
      intro k hk; rw [BitVec.toNat_ofNat]; exact Nat.mod_eq_of_lt (by omega)
    unfold plan
    dsimp only
    rw [if_neg (fun hh => hpart hh.2), hparse, feed_count rs _ rfl]
    simp only [Nat.zero_add]
    by_cases hcut : p.finished ≠ 1 ∧ maxAfter 0 rs < last
    · rw [if_pos hcut, hparse, feed_count rs _ rfl]
      have hlt := hcut.2
      rw [BitVec.lt_def, lastArrived_lt] at hlt
      have hl : lastSent false last rs = maxAfter 0 rs := by
        unfold lastSent
        rw [if_neg (by decide), Nat.min_eq_right (Nat.le_of_lt hlt), ← lastArrived_lt, BitVec.ofNat_toNat, BitVec.setWidth_eq]
      simp only [Nat.zero_add]
      refine ⟨_, rfl, ?_⟩
      rw [hl]
      exact hsize _ (inRange_length_le _ _ _)
    · rw [if_neg hcut]
      have h2 : ¬ maxAfter 0 rs < last := fun hh => hcut ⟨by rw [hp]; exact (by decide : finishedType (0 : U32).toNat ≠ 1), hh⟩
      rw [BitVec.lt_def, lastArrived_lt] at h2
      have hl : lastSent false last rs = last := by
        unfold lastSent
        rw [if_neg (by decide), Nat.min_eq_left (by omega), BitVec.ofNat_toNat, BitVec.setWidth_eq]
      refine ⟨_, rfl, ?_⟩
      rw [hl]
      exact hsize _ (inRange_length_le _ _ _)

/-! ## Cases -/

/-- A packet that did not arrive. -/
def demoFetchLost (seq : U32) : DataRec := ⟨seq, ⟨0x100000000#64, true, 1, 1⟩, ⟨0, true, 1, 1⟩, 255⟩

theorem demoFetchLost_stamp (seq : U32) : Stamp (demoFetchLost seq).send ∧ Stamp (demoFetchLost seq).recv := by
  unfold Stamp; dsimp only [demoFetchLost]; decide

def demoFetchRecs : List DataRec := [demoFileRec 0, demoFileRec 1, demoFileRec 2, demoFetchLost 3]

theorem demoFetch_stamp : ∀ r ∈ demoFetchRecs, Stamp r.send ∧ Stamp r.recv := by
  intro r hr
  simp only [demoFetchRecs, List.mem_cons, List.not_mem_nil, or_false] at hr
  rcases hr with rfl | rfl | rfl | rfl
  · exact demoFileRec_stamp _
  · exact demoFileRec_stamp _
  · exact demoFileRec_stamp _
  · exact demoFetchLost_stamp _

/-- C36 fails for a session that is not finished: packet 3 is recorded as lost, but only the records up to packet 2,
the last one that arrived, are sent. -/
theorem C36_unfinished_is_cut : ∃ f rs, Stored f demoFileHdr false 0 [] rs ∧
    (inRange 1 9 rs).map (·.seq) = [1, 2, 3] ∧ (inRange 1 (lastSent false 9 rs) rs).map (·.seq) = [1, 2] :=
  ⟨openFile demoFileHdr 2 demoFetchRecs, demoFetchRecs,
    openFile_stored demoFileHdr demoFileHdr_storable rfl demoFetchRecs demoFetch_stamp (by decide),
    by decide +kernel, by decide +kernel⟩

/-- A finished file. -/
def demoFetchFile : Bytes :=
  fixedLayout 3 1 5 1 4 (BitVec.ofNat 64 (headerEnd demoFileHdr.spec.slots.length + 100))
    (BitVec.ofNat 64 (headerEnd demoFileHdr.spec.slots.length)) ++ requestPart demoFileHdr.args demoFileHdr.sid ++
    (demoFetchRecs.map recLayout).flatten ++ ([⟨7, 9⟩].map encodeSkip).flatten

theorem demoFetchFile_stored : Stored demoFetchFile demoFileHdr true 5 [⟨7, 9⟩] demoFetchRecs :=
  ⟨demoFileHdr_storable, rfl, demoFetch_stamp, by decide, by decide, 4, _, _, rfl, fun _ => ⟨rfl, rfl, by decide⟩, (nomatch ·)⟩

def demoFetchEnv (f : Bytes) : Env := { policy := fun _ _ _ => some true, opens := fun _ => true, file := fun _ => f, lock := fun _ => .got }

theorem demoFetchEnv_grants (f : Bytes) (first last : U32) (sid : Bytes) : Grants (demoFetchEnv f) first last sid f :=
  ⟨rfl, rfl, fun _ => rfl, fun _ => rfl⟩

theorem demo_peers : Peers demoB demoA :=
  ⟨demo_linked.2.1, demo_linked.1, demo_linked.2.2.1, rfl, rfl, rfl, rfl, rfl, rfl, rfl⟩

example (H : Mac) (loc : SockAddr) := C36_finished H (demoFetchEnv demoFetchFile) (.v4 1 861) loc (zeros 112) (zeros_length _) demoB
  demoA demo_peers 1 2 demoFileHdr.sid demoFileHdr_storable.sid demoFetchFile demoFileHdr 5 _ _ demoFetchFile_stored
  (demoFetchEnv_grants _ _ _ _) (by decide) trivial trivial
example (H : Mac) (loc : SockAddr) := C36_fetch_partial H (demoFetchEnv (openFile demoFileHdr 2 demoFetchRecs)) (.v4 1 861) loc
  (zeros 112) (zeros_length _) demoB demoA demo_peers 1 9 demoFileHdr.sid demoFileHdr_storable.sid _ demoFileHdr false 0 [] _
  (openFile_stored demoFileHdr demoFileHdr_storable rfl demoFetchRecs demoFetch_stamp (by decide))
  (demoFetchEnv_grants _ _ _ _) (by decide) (by decide) trivial trivial
/-- The fetch of the complete file has 12 + 2 + 1 + 7 blocks. -/
example (H : Mac) (loc : SockAddr) : ∃ file, Conversation H (demoFetchEnv demoFetchFile) (.v4 1 861) loc (zeros 112) 0 0xFFFFFFFF#32
    demoFileHdr.sid demoB demoA 22 (.fetched 4 file) :=
  C37_framing_partial H (demoFetchEnv demoFetchFile) (.v4 1 861) loc (zeros 112) (zeros_length _) demoB
    demoA demo_peers 0 0xFFFFFFFF#32 demoFileHdr.sid demoFileHdr_storable.sid demoFetchFile demoFileHdr true 5 _ _
    demoFetchFile_stored (demoFetchEnv_grants _ _ _ _) (fun _ => rfl) trivial trivial
example : ∃ h : HdrIn, h.twoway = false ∧ h.nskip = 0 ∧ h.ndata = 0 ∧ h.spec.slots.length = 2 ^ 28 - 1 :=
  ⟨{ demoFileHdr with spec := { demoFileHdr.spec with slots := List.replicate (2 ^ 28 - 1) (.literal 0) } }, rfl, rfl, rfl,
    List.length_replicate⟩
example : ∃ skips : List Skip, skips.length = 2 ^ 29 := ⟨List.replicate (2 ^ 29) ⟨1, 1⟩, List.length_replicate⟩

/-- The whole of an open file is refused, whatever it becomes of the lock. -/
example (H : Mac) (loc : SockAddr) (lock : Nat → Lock) :=
  C38_complete_refused H { demoFetchEnv (openFile demoFileHdr 2 demoFetchRecs) with lock := lock } (.v4 1 861) loc (zeros 112) demoB
    demoA demo_peers demoFileHdr.sid demoFileHdr_storable.sid (by exact nofun) (fun n p hp => by
      obtain ⟨q, hq, hF⟩ := stored_header (demoFetchEnv (openFile demoFileHdr 2 demoFetchRecs)) 1 9 _ demoFileHdr false 0 []
        demoFetchRecs (openFile_stored demoFileHdr demoFileHdr_storable rfl demoFetchRecs demoFetch_stamp (by decide))
        (fun _ => rfl) (fun _ => rfl) (by decide)
      obtain ⟨m, p', _, _, h3, h4, _, _⟩ := header_ok _ _ _ _ _ _ _ _ hq
      have e : p' = p := Option.some.inj (h3.symm.trans hp)
      rw [← e, ← h4, hF.finished]
      decide)
example (E : Env) (h0 : E.file 0 = openFile demoFileHdr 2 demoFetchRecs) (h1 : E.file 1 = openFile demoFileHdr 0 demoFetchRecs)
    (hl : E.lock 0 = .got) :=
  C38_failed_in_between E 1 2 demoFileHdr demoFileHdr_storable demoFetchRecs demoFetch_stamp (by decide) h0 h1 hl (by decide)
example : ∃ E : Env, E.file 0 = openFile demoFileHdr 2 demoFetchRecs ∧ E.file 1 = openFile demoFileHdr 0 demoFetchRecs ∧
    E.lock 0 = .got :=
  ⟨{ demoFetchEnv [] with file := fun n => if n = 0 then openFile demoFileHdr 2 demoFetchRecs else openFile demoFileHdr 0 demoFetchRecs },
    rfl, rfl, rfl⟩

end Owamp.Props
