import Verif.Lemmas.DataFile
/-!
# C32-C35: session data files
-/
namespace Owamp.Props
open Owamp.File Owamp.Spec.DataFile Owamp.Spec.Channel Owamp.Spec.Request Owamp.Codec Owamp.Ctl

/-- A one-way session of two slots. -/
def demoFileHdr : HdrIn :=
  { sender := .v4 0x0A000001#32 5000#16, receiver := .v4 0x0A000002#32 6000#16, confSender := false, confReceiver := true
    sid := (List.range 16).map (BitVec.ofNat 8)
    spec := { startTime := 0xE0000000_00000000#64, lossTimeout := 0x2_00000000#64, typeP := 0, padding := 10, npackets := 3
              slots := [.literal 0x1_00000000#64, .randExp 0x80000000#64] }
    twoway := false, finished := 2, next := 0, nskip := 0, ndata := 0, recSize := 0 }

theorem demoFileHdr_storable : Storable demoFileHdr where
  family := trivial
  sid := rfl
  conf := Or.inr (Or.inr rfl)
  packets := by decide
  slots := by decide
  known := by
    intro s hs
    simp only [demoFileHdr, List.mem_cons, List.not_mem_nil, or_false] at hs
    rcases hs with rfl | rfl <;> trivial
  few := by decide

/-- The offsets to be stored: skip ranges first if there are any. -/
def wantedOsets (h : HdrIn) : Nat × Nat :=
  let e := headerEnd h.spec.slots.length
  if h.nskip ≠ 0 then (e, e + 8 * h.nskip.toNat)
  else (if h.ndata ≠ 0 then e + h.recSize.toNat * h.ndata.toNat else 0, e)

theorem osets_wanted (h : HdrIn) (hs : Storable h) (h1 : 8 * h.nskip.toNat < 2 ^ 32)
    (h2 : h.recSize.toNat * h.ndata.toNat < 2 ^ 32) : h.osets = wantedOsets h := by
  unfold HdrIn.osets wantedOsets
  rw [oset_eq h hs, Nat.mul_comm h.nskip.toNat, Nat.mod_eq_of_lt h1, Nat.mul_comm h.ndata.toNat, Nat.mod_eq_of_lt h2]

/-- C32: the header is written in the documented layout. -/
theorem C32_layout (junk : Bytes) (h : HdrIn) (hj : junk.length = 112) (hs : Storable h)
    (h1 : 8 * h.nskip.toNat < 2 ^ 32) (h2 : h.recSize.toNat * h.ndata.toNat < 2 ^ 32) :
    writeHeader junk h =
      (fixedLayout (if h.twoway then 131 else 3) (if h.finished = 0 then 0 else if h.finished = 1 then 1 else 2)
        h.next h.nskip h.ndata (BitVec.ofNat 64 (wantedOsets h).1) (BitVec.ofNat 64 (wantedOsets h).2)
        ++ requestPart h.args h.sid, true) := by
  rw [writeHeader_eq junk h hj hs, fixed_eq, osets_wanted h hs h1 h2]
  congr 3
  unfold finWord
  by_cases a : h.finished = 0
  · simp [a]
  · by_cases b : h.finished = 1
    · simp [b]
    · simp [a, b]

/-- C32: a header that can be stored is read back with the same fields, slots and offsets, whatever follows it
in the file, provided that the file is long enough for the records announced. Missing for "identical": the
scope of IPv6 addresses (`C32_scope_lost`), `conf_sender` of two-way sessions (`C32_twoway_conf_sender`), and
headers of 2^32 bytes and more (`C32_slot_count_wraps`). The number of records is that of the header only for
finished one-way sessions; otherwise the number of records that the file holds. -/
theorem C32_header_partial (junk : Bytes) (h : HdrIn) (tail : Bytes) (hj : junk.length = 112) (hs : Storable h)
    (h1 : 8 * h.nskip.toNat < 2 ^ 32) (h2 : h.recSize.toNat * h.ndata.toNat < 2 ^ 32)
    (rec : Nat) (hrec : rec = if h.twoway then 50 else 25)
    (hfit : 8 * h.nskip.toNat + rec * h.ndata.toNat ≤ tail.length) :
    (writeHeader junk h).2 = true ∧
    readHeader ((writeHeader junk h).1 ++ tail) =
      .ok { version := if h.twoway then 131 else 3, recSize := rec, twoway := h.twoway
            finished := if h.finished = 0 then 0 else if h.finished = 1 then 1 else 2
            pre := some
              { sender := noScope h.sender
                receiver := noScope h.receiver
                confSender := h.twoway || h.confSender
                confReceiver := h.confReceiver
                sid := h.sid
                nslots := BitVec.ofNat 32 h.spec.slots.length
                npackets := h.spec.npackets
                padding := h.spec.padding
                startTime := h.spec.startTime
                lossTimeout := h.spec.lossTimeout
                typeP := h.spec.typeP }
            next := h.next, nskip := h.nskip
            ndata := if h.finished = 1 ∧ h.twoway = false then h.ndata
                     else BitVec.ofNat 32 ((tail.length - 8 * h.nskip.toNat) / rec)
            osetSkip := ((wantedOsets h).1 : Int), osetData := ((wantedOsets h).2 : Int) } (wantedOsets h).2 ∧
    readSlots ((writeHeader junk h).1 ++ tail) (BitVec.ofNat 32 h.spec.slots.length) = some h.spec.slots := by
  have hw := writeHeader_eq junk h hj hs
  have hl := writeHeader_length junk h hj hs
  have ho := osets_lt h hs
  have hwo := osets_wanted h hs h1 h2
  have t1 := toNat_small _ ho.1
  have t2 := toNat_small _ ho.2
  have hE : 0 < headerEnd h.spec.slots.length := by unfold headerEnd; omega
  have hdata : (wantedOsets h).2 = headerEnd h.spec.slots.length + 8 * h.nskip.toNat := by
    unfold wantedOsets
    dsimp only
    by_cases hz : h.nskip = 0
    · rw [if_neg (by simp [hz])]; simp [hz]
    · rw [if_pos hz]
  refine ⟨by rw [hw], ?_, ?_⟩
  · have := readHeader_fixed h hs (finWord h.finished) h.next h.nskip h.ndata (BitVec.ofNat 64 h.osets.1)
      (BitVec.ofNat 64 h.osets.2) tail (by rw [t1]; omega) (by rw [t2]; omega) rec hrec ((writeHeader junk h).1 ++ tail)
      (by rw [hw, ← fixed_eq]) (by rw [t2, hwo, hdata, List.length_append, hl]; omega)
    rw [this, t1, t2, hwo]
    have hff : finishedType (finWord h.finished).toNat = if h.finished = 0 then 0 else if h.finished = 1 then 1 else 2 := by
      unfold finWord
      by_cases a : h.finished = 0
      · simp [a, finishedType]
      · by_cases b : h.finished = 1
        · simp [b, finishedType]
        · simp [a, b, finishedType]
    have hlen : ((writeHeader junk h).1 ++ tail).length - (wantedOsets h).2 = tail.length - 8 * h.nskip.toNat := by
      rw [hdata, List.length_append, hl]; omega
    rw [hff, hlen]
    have hiff : ((if h.finished = 0 then 0 else if h.finished = 1 then 1 else 2) = 1) ↔ h.finished = 1 := by
      by_cases a : h.finished = 0
      · simp [a]
      · by_cases b : h.finished = 1
        · simp [b]
        · simp [a, b]
    simp only [hiff]
  · refine readSlots_fixed h hs (finWord h.finished) h.next h.nskip h.ndata (BitVec.ofNat 64 h.osets.1)
      (BitVec.ofNat 64 h.osets.2) tail _ (by rw [hw, ← fixed_eq]) (by rw [t1]; omega) (by rw [t2]; omega) ?_
    rw [t1, t2, hwo]
    unfold wantedOsets
    dsimp only
    by_cases hz : h.nskip = 0
    · rw [if_neg (by simp [hz])]
      right
      refine ⟨rfl, ?_⟩
      by_cases hy : h.ndata = 0
      · left; simp [hy]
      · right; rw [if_pos hy]; omega
    · rw [if_pos hz]
      left; exact ⟨rfl, by omega⟩

/-- C32 fails for the scope of an IPv6 address. -/
theorem C32_scope_lost : ∃ h : HdrIn, Storable h ∧ h.nskip = 0 ∧ h.ndata = 0 ∧
    ∃ hd pos p, readHeader ((writeHeader (zeros 112) h).1 ++ []) = .ok hd pos ∧ hd.pre = some p ∧ p.sender ≠ h.sender := by
  obtain ⟨h, hh⟩ : ∃ h, h = { demoFileHdr with sender := .v6 0xfe80#128 5000#16 3#32, receiver := .v6 0xfe81#128 6000#16 3#32 } :=
    ⟨_, rfl⟩
  have hs : Storable h := by
    subst hh
    exact ⟨trivial, rfl, Or.inr (Or.inr rfl), demoFileHdr_storable.packets, demoFileHdr_storable.slots,
      demoFileHdr_storable.known, demoFileHdr_storable.few⟩
  have e1 : h.nskip = 0 := by subst hh; rfl
  have e2 : h.ndata = 0 := by subst hh; rfl
  have := (C32_header_partial (zeros 112) h [] rfl hs (by simp [e1]) (by simp [e2]) _ rfl (by simp [e1, e2])).2.1
  refine ⟨h, hs, e1, e2, _, _, _, this, rfl, ?_⟩
  subst hh
  exact (nomatch ·)

/-- C32 fails for `conf_sender` of a two-way session, which is always read as true. -/
theorem C32_twoway_conf_sender : ∃ h : HdrIn, Storable h ∧ h.nskip = 0 ∧ h.ndata = 0 ∧
    ∃ hd pos p, readHeader ((writeHeader (zeros 112) h).1 ++ []) = .ok hd pos ∧ hd.pre = some p ∧
      p.confSender ≠ h.confSender := by
  obtain ⟨h, hh⟩ : ∃ h, h = { demoFileHdr with twoway := true } := ⟨_, rfl⟩
  have hs : Storable h := by
    subst hh
    exact ⟨trivial, rfl, Or.inl rfl, demoFileHdr_storable.packets, demoFileHdr_storable.slots,
      demoFileHdr_storable.known, demoFileHdr_storable.few⟩
  have e1 : h.nskip = 0 := by subst hh; rfl
  have e2 : h.ndata = 0 := by subst hh; rfl
  have := (C32_header_partial (zeros 112) h [] rfl hs (by simp [e1]) (by simp [e2]) _ rfl (by simp [e1, e2])).2.1
  refine ⟨h, hs, e1, e2, _, _, _, this, rfl, ?_⟩
  subst hh
  exact (nomatch ·)

/-- C32 fails for a session of 2^28-1 slots: the data are said to start inside the header. -/
theorem C32_slot_count_wraps (h : HdrIn) (h1 : h.nskip = 0) (hn : h.spec.slots.length = 2 ^ 28 - 1) :
    h.osets.2 = 152 ∧ headerEnd h.spec.slots.length = 2 ^ 32 + 152 := by
  have e : h.osets.2 = h.oset := by unfold HdrIn.osets; rw [if_neg (by simp [h1])]
  rw [e]
  unfold HdrIn.oset headerEnd
  rw [hn]
  exact ⟨rfl, rfl⟩

example : ∃ h : HdrIn, h.nskip = 0 ∧ h.spec.slots.length = 2 ^ 28 - 1 :=
  ⟨{ demoFileHdr with spec := { demoFileHdr.spec with slots := List.replicate (2 ^ 28 - 1) (.literal 0) } }, rfl,
    List.length_replicate⟩

example : (writeHeader (zeros 112) demoFileHdr).1.length = 200 :=
  writeHeader_length _ _ rfl demoFileHdr_storable

/-! ## C33 -/

/-- The file of a one-way session: header and records, one after the other. -/
def oneWayFile (junk : Bytes) (h : HdrIn) (rs : List DataRec) : Option Bytes :=
  (script ([openFile junk h] ++ rs.map fun r f => writeRecord f r) []).map (after [])

theorem oneWayFile_eq (junk : Bytes) (h : HdrIn) (rs : List DataRec) (hj : junk.length = 112) (hs : Storable h)
    (hd : ∀ r ∈ rs, Stamp r.send ∧ Stamp r.recv) :
    oneWayFile junk h rs = some ((writeHeader junk h).1 ++ (rs.map recLayout).flatten) := by
  obtain ⟨ws, e1, e2, _⟩ := script_records rs hd (writeHeader junk h).1
  have op : openFile junk h [] = some [⟨0, (writeHeader junk h).1⟩] := by
    unfold openFile; rw [if_pos (by rw [writeHeader_eq junk h hj hs])]
  have ha : after [] [⟨0, (writeHeader junk h).1⟩] = (writeHeader junk h).1 := pwrite_new _
  have := script_one (openFile junk h) _ [] _ ws op (by rw [ha]; exact e1)
  unfold oneWayFile
  rw [show [openFile junk h] ++ (rs.map fun r f => writeRecord f r) = openFile junk h :: (rs.map fun r f => writeRecord f r) from rfl,
    this, Option.map_some, after_append, ha, e2]

/-- C33: after a header and any records are written, the header announces as many records, and reading `n`
records gives the callback the first `n` of them in order, ending early as it asks. The reader reports an error
exactly if the callback does, or if more records are asked for than there are and the callback wants them
all. -/
theorem C33_records_partial (junk : Bytes) (h : HdrIn) (rs : List DataRec) (hj : junk.length = 112) (hs : Storable h)
    (hone : h.twoway = false) (h1 : h.nskip = 0) (h2 : h.ndata = 0) (hfin : h.finished ≠ 1)
    (hd : ∀ r ∈ rs, Stamp r.send ∧ Stamp r.recv) (hn : rs.length < 2 ^ 32) :
    ∃ f hd pos, oneWayFile junk h rs = some f ∧ readHeader f = .ok hd pos ∧ hd.ndata.toNat = rs.length ∧ hd.version = 3 ∧
      ∀ (σ : Type) (proc : σ → DataRec → Int × σ) (s : σ) (n : Nat),
        parseRecords proc f pos n hd.version s =
          if n ≤ rs.length then feed proc (rs.take n) s
          else if goesOn proc rs s then (.fatal, (feed proc rs s).2) else feed proc rs s := by
  have hk : ∀ r ∈ rs, (recLayout r).length = 25 ∧ decodeDataRec 3 (recLayout r) = some r :=
    fun r hr => (C12_record_partial r (hd r hr).1 (hd r hr).2).2
  have hlen := flatten_map_length recLayout 25 rs (fun r hr => (hk r hr).1)
  have hr := (C32_header_partial junk h (rs.map recLayout).flatten hj hs (by simp [h1]) (by simp [h2]) _ rfl
    (by simp [h1, h2])).2.1
  have hw : (wantedOsets h).2 = headerEnd h.spec.slots.length := by
    unfold wantedOsets; dsimp only; rw [if_neg (by simp [h1])]
  refine ⟨_, _, _, oneWayFile_eq junk h rs hj hs hd, hr, ?_, by simp [hone], ?_⟩
  · dsimp only
    rw [if_neg (by simp [hfin]), hlen, h1, hone]
    simp
    omega
  · intro σ proc s n
    dsimp only
    rw [parseRecords, hone]
    simp only [Bool.false_eq_true, if_false]
    rw [if_neg (by omega), if_pos trivial, hw, ← writeHeader_length junk h hj hs]
    by_cases hle : n ≤ rs.length
    · rw [if_pos hle]
      exact parseLoop_feed 25 (decodeDataRec 3) proc recLayout rs hk _ _ [] n s (by simp) hle
    · rw [if_neg hle]
      exact parseLoop_short 25 (decodeDataRec 3) proc recLayout rs hk _ _ [] n s (by simp) (by simp) (by omega)

/-- C33: in particular a callback that takes every record gets exactly the records written. -/
theorem C33_all_records (junk : Bytes) (h : HdrIn) (rs : List DataRec) (hj : junk.length = 112) (hs : Storable h)
    (hone : h.twoway = false) (h1 : h.nskip = 0) (h2 : h.ndata = 0) (hfin : h.finished ≠ 1)
    (hd : ∀ r ∈ rs, Stamp r.send ∧ Stamp r.recv) (hn : rs.length < 2 ^ 32) :
    ∃ f, oneWayFile junk h rs = some f ∧ recordsSeen f = rs := by
  obtain ⟨f, hd, pos, e1, e2, e3, _, e5⟩ := C33_records_partial junk h rs hj hs hone h1 h2 hfin hd hn
  refine ⟨f, e1, ?_⟩
  unfold recordsSeen
  rw [e2]
  dsimp only
  rw [e5, e3, if_pos (Nat.le_refl _), List.take_length, feed_keep]
  rfl

/-- A stored two-way record. -/
def twLayout (r : TWDataRec) : Bytes := recLayout r.sent ++ recLayout r.reflected

/-- The file of a two-way session. -/
def twoWayFile (junk : Bytes) (h : HdrIn) (rs : List TWDataRec) : Option Bytes :=
  (script ([openFile junk h] ++ rs.map fun r f => writeTWRecord f r) []).map (after [])

theorem script_twrecords (rs : List TWDataRec)
    (hd : ∀ r ∈ rs, Stamp r.sent.send ∧ Stamp r.sent.recv ∧ Stamp r.reflected.send ∧ Stamp r.reflected.recv) : ∀ f,
    ∃ ws, script (rs.map fun r f => writeTWRecord f r) f = some ws ∧ after f ws = f ++ (rs.map twLayout).flatten := by
  induction rs with
  | nil => intro f; exact ⟨[], rfl, by simp [after]⟩
  | cons r rs ih =>
    intro f
    obtain ⟨a, b, c, d⟩ := hd r (by simp)
    obtain ⟨ws, e1, e2⟩ := ih (fun x hx => hd x (by simp [hx])) (f ++ twLayout r)
    have he := (C12_twoway_record_partial r a b c d).1
    have ha : after f [⟨f.length, twLayout r⟩] = f ++ twLayout r := by simp [after, pwrite_end]
    have op : writeTWRecord f r = some [⟨f.length, twLayout r⟩] := by unfold writeTWRecord; rw [he]; rfl
    refine ⟨_, script_one (fun f => writeTWRecord f r) _ f _ ws op (by rw [ha]; exact e1), ?_⟩
    rw [after_append, ha, e2]
    simp

/-- C33 for two-way files. -/
theorem C33_twoway_records_partial (junk : Bytes) (h : HdrIn) (rs : List TWDataRec) (hj : junk.length = 112) (hs : Storable h)
    (htwo : h.twoway = true) (h1 : h.nskip = 0) (h2 : h.ndata = 0)
    (hd : ∀ r ∈ rs, Stamp r.sent.send ∧ Stamp r.sent.recv ∧ Stamp r.reflected.send ∧ Stamp r.reflected.recv)
    (hn : rs.length < 2 ^ 32) :
    ∃ f hd pos, twoWayFile junk h rs = some f ∧ readHeader f = .ok hd pos ∧ hd.ndata.toNat = rs.length ∧
      (∀ (σ : Type) (proc : σ → TWDataRec → Int × σ) (s : σ) (n : Nat),
        parseTWRecords proc f pos n hd.version s =
          if n ≤ rs.length then feed proc (rs.take n) s
          else if goesOn proc rs s then (.fatal, (feed proc rs s).2) else feed proc rs s) ∧
      twoWayRecordsSeen f = rs := by
  have hk : ∀ r ∈ rs, (twLayout r).length = 50 ∧ decodeTWDataRec 131 (twLayout r) = some r := by
    intro r hr
    obtain ⟨a, b, c, d⟩ := hd r hr
    refine ⟨?_, (C12_twoway_record_partial r a b c d).2⟩
    unfold twLayout
    rw [List.length_append, (C12_record_partial _ a b).2.1, (C12_record_partial _ c d).2.1]
  have hlen := flatten_map_length twLayout 50 rs (fun r hr => (hk r hr).1)
  have hr := (C32_header_partial junk h (rs.map twLayout).flatten hj hs (by simp [h1]) (by simp [h2]) _ rfl
    (by simp [h1, h2])).2.1
  have hw : (wantedOsets h).2 = headerEnd h.spec.slots.length := by
    unfold wantedOsets; dsimp only; rw [if_neg (by simp [h1])]
  have hfile : twoWayFile junk h rs = some ((writeHeader junk h).1 ++ (rs.map twLayout).flatten) := by
    obtain ⟨ws, e1, e2⟩ := script_twrecords rs hd (writeHeader junk h).1
    have op : openFile junk h [] = some [⟨0, (writeHeader junk h).1⟩] := by
      unfold openFile; rw [if_pos (by rw [writeHeader_eq junk h hj hs])]
    have ha : after [] [⟨0, (writeHeader junk h).1⟩] = (writeHeader junk h).1 := pwrite_new _
    have := script_one (openFile junk h) _ [] _ ws op (by rw [ha]; exact e1)
    unfold twoWayFile
    rw [show [openFile junk h] ++ (rs.map fun r f => writeTWRecord f r) =
      openFile junk h :: (rs.map fun r f => writeTWRecord f r) from rfl,
      this, Option.map_some, after_append, ha, e2]
  have hnd : (BitVec.ofNat 32 (((rs.map twLayout).flatten.length - 8 * h.nskip.toNat) / 50)).toNat = rs.length := by
    rw [hlen, h1]; simp; omega
  have hp : ∀ (σ : Type) (proc : σ → TWDataRec → Int × σ) (s : σ) (n : Nat),
      parseTWRecords proc ((writeHeader junk h).1 ++ (rs.map twLayout).flatten) (wantedOsets h).2 n 131 s =
        if n ≤ rs.length then feed proc (rs.take n) s
        else if goesOn proc rs s then (.fatal, (feed proc rs s).2) else feed proc rs s := by
    intro σ proc s n
    rw [parseTWRecords, if_pos rfl, hw, ← writeHeader_length junk h hj hs]
    by_cases hle : n ≤ rs.length
    · rw [if_pos hle]
      exact parseLoop_feed 50 (decodeTWDataRec 131) proc twLayout rs hk _ _ [] n s (by simp) hle
    · rw [if_neg hle]
      exact parseLoop_short 50 (decodeTWDataRec 131) proc twLayout rs hk _ _ [] n s (by simp) (by simp) (by omega)
  simp only [htwo, if_true, Bool.true_eq_false, and_false, if_false] at hr
  refine ⟨_, _, _, hfile, hr, hnd, hp, ?_⟩
  unfold twoWayRecordsSeen
  rw [hr]
  dsimp only
  rw [hp, hnd, if_pos (Nat.le_refl _), List.take_length, feed_keep]
  rfl

/-- C33 fails when `OWPParseRecords` is given a two-way file: it reads the first record into a buffer half its
size. -/
theorem C33_twoway_overflow {σ : Type} (proc : σ → DataRec → Int × σ) (f : Bytes) (pos n : Nat) (s : σ) (hn : 0 < n)
    (hf : pos + 50 ≤ f.length) : (parseRecords proc f pos n 131 s).1 = .overflow := by
  unfold parseRecords
  rw [if_neg (by omega), if_neg (by omega), if_pos rfl, if_pos ⟨hn, by omega⟩]

/-! ## C34 -/

/-- The skip ranges of a session, 8 bytes each, take up less than one record. -/
def FewRanges (skips : List Skip) : Prop := skips.length ≤ 3

/-- C34: whenever in the life of a session file the writer dies, at whatever byte, a reader sees a prefix of the
records written, if the session skipped packets in at most three ranges. Missing: more ranges
(`C34_ranges_read_as_records`), and the copying of the file by a clean-up that drops records. -/
theorem C34_crash_partial (junk : Bytes) (h : HdrIn) (rs : List DataRec) (status : Nat) (skips : List Skip) (next : U32)
    (hj : junk.length = 112) (hs : Storable h) (hone : h.twoway = false) (hns : h.nskip = 0) (hnd : h.ndata = 0)
    (hd : ∀ r ∈ rs, Stamp r.send ∧ Stamp r.recv) (hst : status ≤ 2) (hrs : 25 * rs.length < 2 ^ 32)
    (hfew : FewRanges skips) :
    ∃ ws, script (life junk h rs status skips next) [] = some ws ∧
      ∀ i k, recordsSeen (crashed [] ws i k) <+: rs := by
  obtain ⟨ws, e1, _, e3⟩ := life_ok junk h rs status skips next hj hs hone hns hnd hd hst hrs
  refine ⟨ws, e1, fun i k => ?_⟩
  have hf := hs.few
  refine kept_seen _ (by unfold headerEnd; omega) rs hd _ _ ?_ (e3 i k)
  rw [flatten_map_length encodeSkip 8 skips (fun s _ => encodeSkip_length s)]
  unfold FewRanges at hfew
  omega

/-- C34: a crash while the receiver writes its file loses exactly the records not completely written. -/
theorem C34_receiving (junk : Bytes) (h : HdrIn) (rs : List DataRec) (hj : junk.length = 112) (hs : Storable h)
    (hone : h.twoway = false) (h1 : h.nskip = 0) (h2 : h.ndata = 0) (hfin : h.finished ≠ 1)
    (hd : ∀ r ∈ rs, Stamp r.send ∧ Stamp r.recv) (hn : rs.length < 2 ^ 32) (k : Nat) :
    ∃ f, oneWayFile junk h rs = some f ∧
      recordsSeen (f.take k) = rs.take ((k - headerEnd h.spec.slots.length) / 25) := by
  have hk : ∀ r ∈ rs, (recLayout r).length = 25 ∧ decodeDataRec 3 (recLayout r) = some r :=
    fun r hr => (C12_record_partial r (hd r hr).1 (hd r hr).2).2
  have hlen := flatten_map_length recLayout 25 rs (fun r hr => (hk r hr).1)
  have hwl := writeHeader_length junk h hj hs
  have hwe := writeHeader_eq junk h hj hs
  have hfew := hs.few
  have hw : (wantedOsets h).2 = headerEnd h.spec.slots.length := by
    unfold wantedOsets; dsimp only; rw [if_neg (by simp [h1])]
  refine ⟨_, oneWayFile_eq junk h rs hj hs hd, ?_⟩
  by_cases hkl : k ≤ headerEnd h.spec.slots.length
  · -- nothing but a part of the header
    have hz : (k - headerEnd h.spec.slots.length) / 25 = 0 := by
      rw [Nat.sub_eq_zero_of_le hkl]
    rw [hz, List.take_zero, List.take_append_of_le_length (by omega)]
    have hkept : Kept 3#32 (headerEnd h.spec.slots.length) (([] : List DataRec).map recLayout).flatten
        ((writeHeader junk h).1.take k) := by
      have hx : (writeHeader junk h).1 = fixedLayout 3#32 (finWord h.finished) h.next h.nskip h.ndata
          (BitVec.ofNat 64 h.osets.1) (BitVec.ofNat 64 (headerEnd h.spec.slots.length)) ++ requestPart h.args h.sid := by
        rw [hwe, fixed_eq, hone, osets_wanted h hs (by simp [h1]) (by simp [h2]), hw]; rfl
      refine kept_short _ _ _ _ _ hwl (by unfold headerEnd; omega) ?_ ?_
      · rw [hx]; exact fixed_first ..
      · rw [hx]; exact fixed_oset ..
    have := kept_seen (headerEnd h.spec.slots.length) (by unfold headerEnd; omega) [] (by simp) [] _ (by simp) (by simpa using hkept)
    exact List.prefix_nil.1 this
  · -- the header and some bytes of the records
    have et : ((writeHeader junk h).1 ++ (rs.map recLayout).flatten).take k =
        (writeHeader junk h).1 ++ (rs.map recLayout).flatten.take (k - headerEnd h.spec.slots.length) := by
      rw [List.take_append, List.take_of_length_le (by omega), hwl]
    have hr := (C32_header_partial junk h ((rs.map recLayout).flatten.take (k - headerEnd h.spec.slots.length)) hj hs
      (by simp [h1]) (by simp [h2]) _ rfl (by simp [h1, h2])).2.1
    rw [et]
    unfold recordsSeen
    rw [hr]
    dsimp only
    rw [parseRecords, hone]
    simp only [Bool.false_eq_true, if_false, and_true, h1, hfin]
    rw [if_neg (by omega), if_pos trivial]
    have hcount : (BitVec.ofNat 32 ((((rs.map recLayout).flatten.take (k - headerEnd h.spec.slots.length)).length -
        8 * (0#32).toNat) / 25)).toNat = min ((k - headerEnd h.spec.slots.length) / 25) rs.length := by
      rw [List.length_take, hlen, BitVec.toNat_ofNat]
      simp only [BitVec.toNat_ofNat, Nat.zero_mod, Nat.mul_zero, Nat.sub_zero]
      rw [Nat.mod_eq_of_lt (by omega)]
      omega
    rw [show (BitVec.ofNat 32 ((((rs.map recLayout).flatten.take (k - headerEnd h.spec.slots.length)).length -
        8 * BitVec.toNat 0) / 25)).toNat = min ((k - headerEnd h.spec.slots.length) / 25) rs.length from hcount]
    have hpos : (wantedOsets h).2 ≤ ((writeHeader junk h).1 ++
        (rs.map recLayout).flatten.take (k - headerEnd h.spec.slots.length)).length := by
      rw [hw, List.length_append, hwl]; omega
    have hbody : ((writeHeader junk h).1 ++ (rs.map recLayout).flatten.take (k - headerEnd h.spec.slots.length)).drop
        (wantedOsets h).2 <+: (rs.map recLayout).flatten ++ [] := by
      rw [List.drop_append, List.drop_eq_nil_of_le (by omega), hw, hwl, Nat.sub_self, List.nil_append, List.append_nil]
      exact List.take_prefix _ _
    have := parseLoop_keep 25 (decodeDataRec 3) recLayout (by omega) rs hk _ (wantedOsets h).2
      (min ((k - headerEnd h.spec.slots.length) / 25) rs.length) [] hbody (by simp) hpos (by
        rw [hw, List.length_append, hwl, List.length_take, hlen]; omega)
    rw [this.1]
    dsimp only
    rw [← List.take_take, List.take_length]

/-- C34: after the last write of its life the file gives all the records, the number of skip ranges and the ranges,
and the sender's next sequence number. -/
theorem C34_finished (junk : Bytes) (h : HdrIn) (rs : List DataRec) (status : Nat) (skips : List Skip) (next : U32)
    (hj : junk.length = 112) (hs : Storable h) (hone : h.twoway = false) (hns : h.nskip = 0) (hnd : h.ndata = 0)
    (hd : ∀ r ∈ rs, Stamp r.send ∧ Stamp r.recv) (hst : status ≤ 2) (hrs : 25 * rs.length < 2 ^ 32)
    (hsk : skips.length < 2 ^ 32) :
    ∃ ws, script (life junk h rs status skips next) [] = some ws ∧
      (∃ hd pos, readHeader (after [] ws) = .ok hd pos ∧ hd.finished = 1 ∧ hd.next = next ∧
        hd.nskip.toNat = skips.length ∧ hd.ndata.toNat = rs.length) ∧
      recordsSeen (after [] ws) = rs ∧
      readSkips (after [] ws) (BitVec.ofNat 32 skips.length) = some skips := by
  obtain ⟨ws, e1, e2, _⟩ := life_ok junk h rs status skips next hj hs hone hns hnd hd hst hrs
  have hk : ∀ r ∈ rs, (recLayout r).length = 25 ∧ decodeDataRec 3 (recLayout r) = some r :=
    fun r hr => (C12_record_partial r (hd r hr).1 (hd r hr).2).2
  have hlen := flatten_map_length recLayout 25 rs (fun r hr => (hk r hr).1)
  have hskl := flatten_map_length encodeSkip 8 skips (fun s _ => encodeSkip_length s)
  have hrl := requestPart_length h hs
  have hfew := hs.few
  obtain ⟨H, hH⟩ : ∃ H, H = headerEnd h.spec.slots.length := ⟨_, rfl⟩
  have hHlt : H < 2 ^ 33 := by rw [hH]; unfold headerEnd; omega
  rw [← hH] at e2
  have t1 := toNat_small H (by omega)
  have t2 := toNat_small (H + 25 * rs.length) (by omega)
  have hnn : (BitVec.ofNat 32 rs.length).toNat = rs.length := by rw [BitVec.toNat_ofNat, Nat.mod_eq_of_lt (by omega)]
  have hflen : (after [] ws).length = H + 25 * rs.length + 8 * skips.length := by
    rw [e2, List.length_append, List.length_append, List.length_append, fixedLayout_length, hrl, hlen, hskl, hH]
    unfold headerEnd; omega
  have hr := readHeader_fixed h hs 1 next (BitVec.ofNat 32 skips.length) (BitVec.ofNat 32 rs.length)
    (BitVec.ofNat 64 (H + 25 * rs.length)) (BitVec.ofNat 64 H) ((rs.map recLayout).flatten ++ (skips.map encodeSkip).flatten)
    (by rw [t2]; omega) (by rw [t1]; omega) 25 (by rw [hone]; rfl) (after [] ws)
    (by rw [e2, hone]; simp only [List.append_assoc]; rfl) (by rw [t1, hnn, hflen]; omega)
  have hi := readInitial_fixed 3#32 1 next (BitVec.ofNat 32 skips.length) (BitVec.ofNat 32 rs.length)
    (BitVec.ofNat 64 (H + 25 * rs.length)) (BitVec.ofNat 64 H)
    (requestPart h.args h.sid ++ ((rs.map recLayout).flatten ++ (skips.map encodeSkip).flatten))
    (Or.inl rfl) (by rw [t2]; omega) (by rw [t1]; omega)
  refine ⟨ws, e1, ⟨_, _, hr, rfl, rfl, ?_, ?_⟩, ?_, ?_⟩
  · dsimp only; rw [BitVec.toNat_ofNat, Nat.mod_eq_of_lt hsk]
  · dsimp only; rw [if_pos ⟨rfl, hone⟩, hnn]
  · unfold recordsSeen
    rw [hr]
    dsimp only
    rw [if_pos ⟨rfl, hone⟩, hnn, t1, parseRecords, hone]
    simp only [Bool.false_eq_true, if_false]
    rw [if_neg (by omega), if_pos trivial]
    have hpre : (fixedLayout 3 1 next (BitVec.ofNat 32 skips.length) (BitVec.ofNat 32 rs.length)
        (BitVec.ofNat 64 (H + 25 * rs.length)) (BitVec.ofNat 64 H) ++ requestPart h.args h.sid).length = H := by
      rw [List.length_append, fixedLayout_length, hrl, hH]; unfold headerEnd; omega
    have := parseLoop_feed 25 (decodeDataRec 3) keep recLayout rs hk (after [] ws) _ _ rs.length [] e2 (Nat.le_refl _)
    rw [hpre] at this
    rw [this, List.take_length, feed_keep]; rfl
  · unfold readSkips
    have e2' : after [] ws = fixedLayout 3#32 1 next (BitVec.ofNat 32 skips.length) (BitVec.ofNat 32 rs.length)
        (BitVec.ofNat 64 (H + 25 * rs.length)) (BitVec.ofNat 64 H) ++ (requestPart h.args h.sid ++
        ((rs.map recLayout).flatten ++ (skips.map encodeSkip).flatten)) := by
      rw [e2]; simp only [List.append_assoc]; rfl
    rw [← e2'] at hi
    rw [hi]
    simp only [Option.bind_some]
    rw [if_neg (by decide), if_neg (by simp), t2, if_neg (by omega)]
    have hloop : ∀ (sk : List Skip) (f pre : Bytes), f = pre ++ (sk.map encodeSkip).flatten →
        skipLoop f pre.length sk.length = some sk := by
      intro sk
      induction sk with
      | nil => intro f pre _; rfl
      | cons a sk ih =>
        intro f pre hf
        have hl := encodeSkip_length a
        have e : f = pre ++ (encodeSkip a ++ (sk.map encodeSkip).flatten) := by rw [hf]; simp
        have hg : get f pre.length 8 = encodeSkip a := by
          rw [e, get_append_right _ _ _ _ (Nat.le_refl _), Nat.sub_self, get_zero_append _ _ _ hl.symm]
        have hr := ih f (pre ++ encodeSkip a) (by rw [e]; simp only [List.append_assoc])
        rw [List.length_append, hl] at hr
        rw [List.length_cons, skipLoop, rd_ok _ _ _ (by rw [e]; simp only [List.length_append]; omega), hg, Option.bind_some, hr]
        have : decodeSkip (encodeSkip a) = a := by
          unfold decodeSkip encodeSkip get32 put32
          have l1 : (put (zeros 8) 0 (enc32 a.first)).length = 8 := by rw [put_length _ _ _ (by simp)]; simp
          rw [get_put_before _ _ _ _ _ (by omega) (by rw [l1]; simp), get_put_same _ _ _ _ (by simp) (by simp),
            get_put_same _ _ _ _ (by simp) (by rw [l1]; simp), dec_enc32, dec_enc32]
        simp [this]
    have hn : (BitVec.ofNat 32 skips.length).toNat = skips.length := by rw [BitVec.toNat_ofNat, Nat.mod_eq_of_lt hsk]
    rw [hn]
    have hpl : (fixedLayout 3#32 1 next (BitVec.ofNat 32 skips.length) (BitVec.ofNat 32 rs.length)
        (BitVec.ofNat 64 (H + 25 * rs.length)) (BitVec.ofNat 64 H) ++ requestPart h.args h.sid ++ (rs.map recLayout).flatten).length
        = H + 25 * rs.length := by
      rw [List.length_append, List.length_append, fixedLayout_length, hrl, hlen, hH]; unfold headerEnd; omega
    have := hloop skips (after [] ws) _ e2
    rw [← this]
    congr 1
    rw [Int.toNat_natCast]
    exact hpl.symm

/-- C34: a fetched file holds the skip ranges before the records; a crash while it is written leaves a prefix of the
records as well. -/
theorem C34_fetched (junk : Bytes) (h : HdrIn) (rs : List DataRec) (skips : List Skip) (hj : junk.length = 112)
    (hs : Storable h) (hone : h.twoway = false) (hns : h.nskip.toNat = skips.length) (h1 : 8 * skips.length < 2 ^ 32)
    (h2 : h.recSize.toNat * h.ndata.toNat < 2 ^ 32)
    (hd : ∀ r ∈ rs, Stamp r.send ∧ Stamp r.recv) (k : Nat) :
    recordsSeen (((writeHeader junk h).1 ++ (skips.map encodeSkip).flatten ++ (rs.map recLayout).flatten).take k) <+: rs := by
  have hfew := hs.few
  have hwl := writeHeader_length junk h hj hs
  have hskl := flatten_map_length encodeSkip 8 skips (fun s _ => encodeSkip_length s)
  have hwo := osets_wanted h hs (by rw [hns]; exact h1) h2
  have hw : (wantedOsets h).2 = headerEnd h.spec.slots.length + 8 * skips.length := by
    rw [← hns]
    unfold wantedOsets
    dsimp only
    by_cases hz : h.nskip = 0
    · rw [if_neg (by simp [hz])]; simp [hz]
    · rw [if_pos hz]
  have hx : (writeHeader junk h).1 = fixedLayout 3#32 (finWord h.finished) h.next h.nskip h.ndata
      (BitVec.ofNat 64 h.osets.1) (BitVec.ofNat 64 (headerEnd h.spec.slots.length + 8 * skips.length)) ++
      requestPart h.args h.sid := by
    rw [writeHeader_eq junk h hj hs, fixed_eq, hone, hwo, hw]; rfl
  have hhl : ((writeHeader junk h).1 ++ (skips.map encodeSkip).flatten).length =
      headerEnd h.spec.slots.length + 8 * skips.length := by rw [List.length_append, hwl, hskl]
  have g1 : get ((writeHeader junk h).1 ++ (skips.map encodeSkip).flatten) 0 8 = magic ++ enc32 3#32 := by
    rw [hx, List.append_assoc]; exact fixed_first ..
  have g2 : get ((writeHeader junk h).1 ++ (skips.map encodeSkip).flatten) 32 8 =
      enc64 (BitVec.ofNat 64 (headerEnd h.spec.slots.length + 8 * skips.length)) := by
    rw [hx, List.append_assoc]; exact fixed_oset ..
  refine kept_seen (headerEnd h.spec.slots.length + 8 * skips.length) (by unfold headerEnd; omega) rs hd [] _ (by simp) ?_
  rw [List.append_nil]
  by_cases hkl : k ≤ ((writeHeader junk h).1 ++ (skips.map encodeSkip).flatten).length
  · rw [List.take_append_of_le_length hkl]
    exact kept_short _ _ _ _ _ hhl (by unfold headerEnd; omega) g1 g2
  · rw [List.take_append, List.take_of_length_le (by omega)]
    exact kept_append _ _ _ _ _ hhl (by unfold headerEnd; omega) g1 g2 (List.take_prefix _ _)

/-- A record as a receiver writes it. -/
def demoFileRec (seq : U32) : DataRec :=
  ⟨seq, ⟨0xE0000001_00000000#64, true, 1, 10⟩, ⟨0xE0000001_10000000#64, true, 1, 10⟩, 64⟩

theorem demoFileRec_stamp (seq : U32) : Stamp (demoFileRec seq).send ∧ Stamp (demoFileRec seq).recv := by
  unfold Stamp; dsimp only [demoFileRec]; decide

/-- C34 fails for a session with four skip ranges: if the control process dies after it has written them and before
it marks the file finished, a reader takes the first 25 of their 32 bytes for a record. -/
theorem C34_ranges_read_as_records : ∃ (ws : List Write) (i k : Nat),
    script (life (zeros 112) demoFileHdr [demoFileRec 0] 2
      [⟨1, 0x20002⟩, ⟨0x20004, 0x20005⟩, ⟨0x20007, 0x20008⟩, ⟨0x2000A, 0x2000B⟩] 0x20010) [] = some ws ∧
    ¬ recordsSeen (crashed [] ws i k) <+: [demoFileRec 0] ∧ (recordsSeen (crashed [] ws i k)).length = 2 := by
  have key : (match script (life (zeros 112) demoFileHdr [demoFileRec 0] 2
      [⟨1, 0x20002⟩, ⟨0x20004, 0x20005⟩, ⟨0x20007, 0x20008⟩, ⟨0x2000A, 0x2000B⟩] 0x20010) [] with
      | none => false
      | some ws => decide ((recordsSeen (crashed [] ws 4 32)).length = 2)) = true := by decide +kernel
  cases hw : script (life (zeros 112) demoFileHdr [demoFileRec 0] 2
      [⟨1, 0x20002⟩, ⟨0x20004, 0x20005⟩, ⟨0x20007, 0x20008⟩, ⟨0x2000A, 0x2000B⟩] 0x20010) [] with
  | none => rw [hw] at key; cases key
  | some ws =>
    rw [hw] at key
    have hl : (recordsSeen (crashed [] ws 4 32)).length = 2 := of_decide_eq_true key
    refine ⟨ws, 4, 32, rfl, ?_, hl⟩
    intro hp
    have := hp.length_le
    simp [hl] at this

/-- The premises of `C34_crash_partial` and `C34_finished` are met by a session with two records and a range. -/
example : ∃ ws, script (life (zeros 112) demoFileHdr [demoFileRec 0, demoFileRec 2] 2 [⟨1, 1⟩] 3) [] = some ws ∧
    ∀ i k, recordsSeen (crashed [] ws i k) <+: [demoFileRec 0, demoFileRec 2] :=
  C34_crash_partial _ _ _ _ _ _ rfl demoFileHdr_storable rfl rfl rfl
    (by intro r hr; simp only [List.mem_cons, List.not_mem_nil, or_false] at hr
        rcases hr with rfl | rfl <;> exact demoFileRec_stamp _) (by decide) (by decide) (by unfold FewRanges; decide)

/-! ## C35 -/

/-- C35: the estimate is at least the size of the file with one record per packet, if the file has less than 2^32
bytes. Missing: larger files (`C35_estimate_wraps`). -/
theorem C35_diskspace_partial (junk : Bytes) (h : HdrIn) (rs : List DataRec) (hj : junk.length = 112) (hs : Storable h)
    (hd : ∀ r ∈ rs, Stamp r.send ∧ Stamp r.recv) (hn : rs.length = h.spec.npackets.toNat)
    (hsmall : headerEnd h.spec.slots.length + 25 * rs.length + 16 < 2 ^ 32) :
    ∃ f, oneWayFile junk h rs = some f ∧ f.length ≤ testDiskspace h.spec := by
  refine ⟨_, oneWayFile_eq junk h rs hj hs hd, ?_⟩
  have hlen := flatten_map_length recLayout 25 rs (fun r hr => (C12_record_partial r (hd r hr).1 (hd r hr).2).2.1)
  rw [List.length_append, writeHeader_length junk h hj hs, hlen]
  unfold testDiskspace
  unfold headerEnd at *
  rw [Nat.mod_eq_of_lt (show h.spec.slots.length < 2 ^ 32 by omega),
    Nat.mod_eq_of_lt (show 56 + 112 + 16 * (h.spec.slots.length + 1) < 2 ^ 32 by omega),
    Nat.mod_eq_of_lt (show h.spec.npackets.toNat * 25 < 2 ^ 32 by omega), ← hn]
  omega

/-- C35 fails for 171798692 packets: the estimate is 4 bytes for all of their records. -/
theorem C35_estimate_wraps (t : TestSpec) (hn : t.npackets = 171798692#32) (hs : t.slots.length = 1) :
    testDiskspace t = 204 ∧ testDiskspace t < headerEnd 1 + 25 * t.npackets.toNat := by
  unfold testDiskspace headerEnd
  rw [hn, hs]
  decide

example : ∃ t : TestSpec, t.npackets = 171798692#32 ∧ t.slots.length = 1 :=
  ⟨{ demoFileHdr.spec with npackets := 171798692#32, slots := [.literal 1] }, rfl, rfl⟩

example : ∃ f, oneWayFile (zeros 112) demoFileHdr [demoFileRec 0, demoFileRec 1, demoFileRec 2] = some f ∧
    f.length ≤ testDiskspace demoFileHdr.spec :=
  C35_diskspace_partial _ _ _ rfl demoFileHdr_storable
    (by intro r hr; simp only [List.mem_cons, List.not_mem_nil, or_false] at hr
        rcases hr with rfl | rfl | rfl <;> exact demoFileRec_stamp _) rfl (by decide)

end Owamp.Props
