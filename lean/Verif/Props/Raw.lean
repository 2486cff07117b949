import Verif.Lemmas.Raw
import Verif.Props.DataFile
/-!
# C94: raw output has a line for every record of a file
-/
namespace Owamp.Props
open Owamp.Codec Owamp.Ctl Owamp.File Owamp.Policy Owamp.Print Owamp.Raw Owamp.Spec.Print Owamp.Spec.Ports Owamp.Spec.Raw Owamp.Spec.DataFile

/-- **C94.** Whatever the file: the raw output has one line for each record that a reader of the file is given, in their order, with the number,
both times in full, whether the clocks were synchronised, both errors and the TTL. -/
theorem C94_raw (E : Nat → Bytes) (hE : ∀ e, Word (E e)) (f : Bytes) : Match (Tells E) (rows (oneWay E f).1) (recordsSeen f) := by
  rw [oneWay_eq, rows_flatMap]
  · exact match_map _ _ _ fun r _ => fields_tell E r
  · intro l hl
    obtain ⟨r, _, e⟩ := List.mem_map.1 hl
    subst e
    exact ⟨(by simp [fields]), fields_words E hE r⟩

/-- C94 for two-way sessions: a line has what was recorded of the way there and of the way back. -/
theorem C94_raw_twoway (E : Nat → Bytes) (hE : ∀ e, Word (E e)) (f : Bytes) : Match (TellsTW E) (rows (twoWay E f).1) (twoWayRecordsSeen f) := by
  rw [twoWay_eq, rows_flatMap]
  · exact match_map _ _ _ fun r _ => ⟨rfl, fields_tell E r.sent, fields_tell E r.reflected⟩
  · intro l hl
    obtain ⟨r, _, e⟩ := List.mem_map.1 hl
    subst e
    refine ⟨(by simp [fields]), fun x hx => ?_⟩
    rcases List.mem_append.1 hx with h | h
    · exact fields_words E hE _ x h
    · exact fields_words E hE _ x h

/-- C94: nothing else can be read from a line. -/
theorem C94_one_reading (E : Nat → Bytes) (fs : List Bytes) (r r' : DataRec) (h : Tells E fs r) (h' : Tells E fs r') :
    r.seq = r'.seq ∧ r.send.owptime = r'.send.owptime ∧ r.send.sync = r'.send.sync ∧ r.recv.owptime = r'.recv.owptime ∧
      r.recv.sync = r'.recv.sync ∧ r.ttl = r'.ttl := by
  obtain ⟨a1, a2, a3, a4, a5, a6, ha, b1, b2, b3, b4, b5, b6⟩ := h
  obtain ⟨a1', a2', a3', a4', a5', a6', ha', c1, c2, c3, c4, c5, c6⟩ := h'
  rw [ha] at ha'
  simp only [List.cons.injEq, and_true] at ha'
  obtain ⟨e1, e2, e3, _, e4, e5, _, e6⟩ := ha'
  subst e1 e2 e3 e4 e5 e6
  have bool : ∀ (s : Bytes) (b b' : Bool), IsFlag s b → IsFlag s b' → b = b' := by
    intro s b b' h h'
    have := h.2.2.symm.trans h'.2.2
    revert this
    cases b <;> cases b' <;> decide
  refine ⟨?_, ?_, bool _ _ _ b3 c3, ?_, bool _ _ _ b5 c5, ?_⟩
  · exact BitVec.eq_of_toNat_eq (b1.2.2.symm.trans c1.2.2)
  · exact BitVec.eq_of_toNat_eq (b2.2.2.2.symm.trans c2.2.2.2)
  · exact BitVec.eq_of_toNat_eq (b4.2.2.2.symm.trans c4.2.2.2)
  · exact BitVec.eq_of_toNat_eq (b6.2.2.symm.trans c6.2.2)

theorem value_zero (s : Bytes) (h : ∀ d ∈ s, Digit d) : value s = 0 ↔ s = List.replicate s.length 48#8 := by
  induction s with
  | nil => simp [value]
  | cons d s ih =>
    have ih := ih (fun x hx => h x (by simp [hx]))
    have hd := h d (by simp)
    unfold Digit at hd
    have hp : 0 < 10 ^ s.length := Nat.pow_pos (by omega)
    rw [value, List.length_cons, List.replicate_succ, List.cons.injEq, ← ih]
    constructor
    · intro h0
      have h1 : (d.toNat - 48) * 10 ^ s.length = 0 := by omega
      have h2 : d.toNat - 48 = 0 := by
        rcases Nat.mul_eq_zero.1 h1 with h | h
        · exact h
        · omega
      exact ⟨BitVec.eq_of_toNat_eq (show d.toNat = 48 by omega), by omega⟩
    · rintro ⟨e, h0⟩
      rw [e, h0]
      simp

/-- C94: the line of a lost packet is known by its fifth field, twenty zeros. -/
theorem C94_lost (E : Nat → Bytes) (fs : List Bytes) (r : DataRec) (h : Tells E fs r) :
    r.recv.owptime = 0 ↔ fs[4]? = some (text (List.replicate 20 '0')) := by
  obtain ⟨a1, a2, a3, a4, a5, a6, ha, _, _, _, ⟨hl, _, hd, hv⟩, _⟩ := h
  have e : text (List.replicate 20 '0') = List.replicate 20 48#8 := by decide
  rw [ha, e, show ([a1, a2, a3, E (errorOf r.send), a4, a5, E (errorOf r.recv), a6] : List Bytes)[4]? = some a4 from rfl, Option.some.injEq, ← hl,
    ← value_zero a4 hd, hv]
  exact ⟨fun h => by rw [h]; rfl, fun h => BitVec.eq_of_toNat_eq h⟩

/-- C94: a file whose header was accepted and for which the program reports success: all the records that it holds were printed. (For a file
that is too short for what its header says this fails: `C94_cut_silent`.) -/
theorem C94_complete_partial (E : Nat → Bytes) (hE : ∀ e, Word (E e)) (f : Bytes) (h : Header) (pos : Nat) (hf : readHeader f = .ok h pos)
    (hg : (oneWay E f).2 = .good) : (rows (oneWay E f).1).length = h.ndata.toNat := by
  have hm := C94_raw E hE f
  have len : ∀ {α β : Type} (R : α → β → Prop) (l : List α) (m : List β), Match R l m → l.length = m.length := by
    intro α β R l m h
    induction h with
    | nil => rfl
    | cons _ _ _ _ _ _ ih => rw [List.length_cons, List.length_cons, ih]
  rw [len _ _ _ hm]
  unfold recordsSeen
  rw [hf]
  dsimp only
  apply parseRecords_count
  unfold oneWay at hg
  rw [hf] at hg
  dsimp only at hg
  split at hg
  · cases hg
  · have : printraw E = fun s r => (0, s ++ row (fields E r)) := rfl
    rw [this, parseRecords_all (fun s r => s ++ row (fields E r))] at hg
    dsimp only at hg
    cases hx : (parseRecords keep f pos h.ndata.toNat h.version []).1 with
    | ok => rfl
    | fatal => rw [hx] at hg; cases hg
    | overflow => rw [hx] at hg; cases hg

/-- C94 for two-way sessions. -/
theorem C94_complete_twoway_partial (E : Nat → Bytes) (hE : ∀ e, Word (E e)) (f : Bytes) (h : Header) (pos : Nat) (hf : readHeader f = .ok h pos)
    (hg : (twoWay E f).2 = .good) : (rows (twoWay E f).1).length = h.ndata.toNat := by
  have hm := C94_raw_twoway E hE f
  have len : ∀ {α β : Type} (R : α → β → Prop) (l : List α) (m : List β), Match R l m → l.length = m.length := by
    intro α β R l m h
    induction h with
    | nil => rfl
    | cons _ _ _ _ _ _ ih => rw [List.length_cons, List.length_cons, ih]
  rw [len _ _ _ hm]
  unfold twoWayRecordsSeen
  rw [hf]
  dsimp only
  apply parseTWRecords_count
  unfold twoWay at hg
  rw [hf] at hg
  dsimp only at hg
  split at hg
  · cases hg
  · have : printrawTW E = fun s r => (0, s ++ row (fields E r.sent ++ fields E r.reflected)) := rfl
    rw [this, parseTWRecords_all (fun s r => s ++ row (fields E r.sent ++ fields E r.reflected))] at hg
    dsimp only at hg
    cases hx : (parseTWRecords keep f pos h.ndata.toNat h.version []).1 with
    | ok => rfl
    | fatal => rw [hx] at hg; cases hg
    | overflow => rw [hx] at hg; cases hg

/-- C94: the file of a session while it is received: success, and a line for each record that was written. -/
theorem C94_written (E : Nat → Bytes) (hE : ∀ e, Word (E e)) (junk : Bytes) (h : HdrIn) (rs : List DataRec) (hj : junk.length = 112) (hs : Storable h)
    (hone : h.twoway = false) (h1 : h.nskip = 0) (h2 : h.ndata = 0) (hfin : h.finished ≠ 1)
    (hd : ∀ r ∈ rs, Stamp r.send ∧ Stamp r.recv) (hn : rs.length < 2 ^ 32) (hne : rs ≠ []) :
    ∃ f, oneWayFile junk h rs = some f ∧ (oneWay E f).2 = .good ∧ Match (Tells E) (rows (oneWay E f).1) rs := by
  obtain ⟨f, hd', pos, e1, e2, e3, e4, e5⟩ := C33_records_partial junk h rs hj hs hone h1 h2 hfin hd hn
  obtain ⟨f', e1', e6⟩ := C33_all_records junk h rs hj hs hone h1 h2 hfin hd hn
  rw [e1] at e1'
  cases e1'
  refine ⟨f, e1, ?_, by rw [← e6]; rw [e6]; have := C94_raw E hE f; rw [e6] at this; exact this⟩
  unfold oneWay
  rw [e2]
  dsimp only
  have : hd'.ndata ≠ 0 := by
    intro h0
    rw [h0] at e3
    exact hne (List.length_eq_zero_iff.1 e3.symm)
  rw [if_neg (fun hh => this hh.1)]
  have : printraw E = fun s r => (0, s ++ row (fields E r)) := rfl
  dsimp only
  rw [this, parseRecords_all (fun s r => s ++ row (fields E r)), e5, if_pos (by rw [e3]; exact Nat.le_refl _), feed_keep]
  rfl

/-- C94 for the file of a two-way session. -/
theorem C94_written_twoway (E : Nat → Bytes) (hE : ∀ e, Word (E e)) (junk : Bytes) (h : HdrIn) (rs : List TWDataRec) (hj : junk.length = 112)
    (hs : Storable h) (htwo : h.twoway = true) (h1 : h.nskip = 0) (h2 : h.ndata = 0)
    (hd : ∀ r ∈ rs, Stamp r.sent.send ∧ Stamp r.sent.recv ∧ Stamp r.reflected.send ∧ Stamp r.reflected.recv)
    (hn : rs.length < 2 ^ 32) (hne : rs ≠ []) :
    ∃ f, twoWayFile junk h rs = some f ∧ (twoWay E f).2 = .good ∧ Match (TellsTW E) (rows (twoWay E f).1) rs := by
  obtain ⟨f, hd', pos, e1, e2, e3, e5, e6⟩ := C33_twoway_records_partial junk h rs hj hs htwo h1 h2 hd hn
  refine ⟨f, e1, ?_, by have := C94_raw_twoway E hE f; rw [e6] at this; exact this⟩
  unfold twoWay
  rw [e2]
  dsimp only
  have : hd'.ndata ≠ 0 := by
    intro h0
    rw [h0] at e3
    exact hne (List.length_eq_zero_iff.1 e3.symm)
  rw [if_neg (fun hh => this hh.1)]
  have : printrawTW E = fun s r => (0, s ++ row (fields E r.sent ++ fields E r.reflected)) := rfl
  dsimp only
  rw [this, parseTWRecords_all (fun s r => s ++ row (fields E r.sent ++ fields E r.reflected)), e5, if_pos (by rw [e3]; exact Nat.le_refl _), feed_keep]
  rfl

/-- The file of a finished session with two records. -/
def demoFinished : Bytes :=
  match script (life (zeros 112) demoFileHdr [demoFileRec 0, demoFileRec 1] 1 [] 3) [] with
  | none => []
  | some ws => after [] ws

/-- C94 fails for a file that lost its end: the program prints nothing, not even the records that are there, and reports success. -/
theorem C94_cut_silent (E : Nat → Bytes) : recordsSeen demoFinished = [demoFileRec 0, demoFileRec 1] ∧
    oneWay E demoFinished.dropLast = ([], .good) := by
  refine ⟨by decide +kernel, ?_⟩
  have h1 : readHeader demoFinished.dropLast = .bad true := by decide +kernel
  have h2 : (readInitial demoFinished.dropLast).map (·.version) = some 3 := by decide +kernel
  unfold oneWay
  rw [h1]
  dsimp only
  cases hi : readInitial demoFinished.dropLast with
  | none => rw [hi] at h2; cases h2
  | some p =>
    rw [hi] at h2
    have hv : p.version = 3 := by simpa using h2
    dsimp only
    rw [hv]
    rfl

/-- The text of an error of the examples. -/
def demoErr (e : Nat) : Bytes := digits e

theorem demoErr_word (e : Nat) : Word (demoErr e) := word_of_number _ _ (digits_number e)

/-- The raw output of the file of a session that goes on, with an arrival and a loss. -/
example : ∃ f, oneWayFile (zeros 112) demoFileHdr [demoFileRec 0, { demoFileRec 1 with recv := ⟨0, true, 1, 10⟩ }] = some f ∧
    (oneWay demoErr f).2 = .good ∧ Match (Tells demoErr) (rows (oneWay demoErr f).1) [demoFileRec 0, { demoFileRec 1 with recv := ⟨0, true, 1, 10⟩ }] :=
  C94_written demoErr demoErr_word (zeros 112) demoFileHdr _ rfl demoFileHdr_storable rfl rfl rfl (by decide)
    (by intro r hr
        simp only [List.mem_cons, List.not_mem_nil, or_false] at hr
        rcases hr with rfl | rfl
        · exact demoFileRec_stamp 0
        · exact ⟨(demoFileRec_stamp 1).1, by unfold Stamp; decide⟩) (by decide) (by simp)

example : ∃ f, twoWayFile (zeros 112) { demoFileHdr with twoway := true } [⟨demoFileRec 0, demoFileRec 7⟩] = some f ∧
    (twoWay demoErr f).2 = .good ∧ Match (TellsTW demoErr) (rows (twoWay demoErr f).1) [⟨demoFileRec 0, demoFileRec 7⟩] :=
  C94_written_twoway demoErr demoErr_word (zeros 112) { demoFileHdr with twoway := true } _ rfl
    ⟨demoFileHdr_storable.family, demoFileHdr_storable.sid, Or.inl rfl, demoFileHdr_storable.packets, demoFileHdr_storable.slots,
      demoFileHdr_storable.known, demoFileHdr_storable.few⟩ rfl rfl rfl
    (by intro r hr
        simp only [List.mem_cons, List.not_mem_nil, or_false] at hr
        subst hr
        exact ⟨(demoFileRec_stamp 0).1, (demoFileRec_stamp 0).2, (demoFileRec_stamp 7).1, (demoFileRec_stamp 7).2⟩) (by decide) (by simp)

/-- A header that was accepted, and success. -/
example : ∃ h pos, readHeader demoFinished = .ok h pos ∧ (oneWay demoErr demoFinished).2 = .good ∧ h.ndata.toNat = 2 := by
  have key : (match readHeader demoFinished with | .bad _ => false | .ok h _ => decide (h.ndata.toNat = 2)) = true := by decide +kernel
  cases hr : readHeader demoFinished with
  | bad b => rw [hr] at key; cases key
  | ok h pos =>
    rw [hr] at key
    exact ⟨h, pos, rfl, by decide +kernel, of_decide_eq_true key⟩

end Owamp.Props
