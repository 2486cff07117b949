import Verif.Props.Clean
import Verif.Lemmas.CleanUp
import Verif.Spec.CleanUp
/-!
# C66: the clean-up after a lost control connection
-/
namespace Owamp.Props
open Owamp.Num64 Owamp.Codec Owamp.File Owamp.Ctl Owamp.Clean Owamp.Spec.Clean Owamp.Spec.DataFile

attribute [local irreducible] fixedLayout requestPart recLayout headerEnd

section
variable {env : Env} {junk : Bytes} {h : HdrIn} {rs : List DataRec} {status : Nat} {f : Bytes} {ctx : Sched.Ctx} {ds : List Nat}
  {nextSeq : U32} {next stop : Nat}

/-- The file of a session with these records. -/
def cleanedFile (h : HdrIn) (fi : U32) (ks : List DataRec) : Bytes :=
  fixedLayout 3#32 fi 0 0 (BitVec.ofNat 32 ks.length) 0 (BitVec.ofNat 64 (headerEnd h.spec.slots.length)) ++ requestPart h.args h.sid ++
    (ks.map recLayout).flatten

/-- What a reader sees of such a file. -/
theorem cleanedFile_seen (h : HdrIn) (hs : Storable h) (hone : h.twoway = false) (fi : U32) (ks : List DataRec)
    (hst : ∀ r ∈ ks, Stamp r.send ∧ Stamp r.recv) (hn : ks.length < 2 ^ 32) : recordsSeen (cleanedFile h fi ks) = ks :=
  (seen_fixed h hs hone fi 0 0 (BitVec.ofNat 32 ks.length) 0 ks hst (by decide)
    (by rw [BitVec.toNat_ofNat, Nat.mod_eq_of_lt hn]) _ rfl).1

theorem cleanedFile_initial (h : HdrIn) (hs : Storable h) (fi : U32) (ks : List DataRec) :
    readInitial (cleanedFile h fi ks) =
      some { version := 3, recSize := 25, finished := finishedType fi.toNat, next := 0, nskip := 0, ndata := BitVec.ofNat 32 ks.length, osetSkip := 0
             osetData := (headerEnd h.spec.slots.length : Int), hdrLen := (headerEnd h.spec.slots.length : Int) } := by
  unfold cleanedFile
  rw [List.append_assoc]
  exact receiverFile_initial h hs fi _ _

/-- What the first pass leaves when it succeeds. -/
theorem Recorded.ok_shape (S : Recorded env junk h rs status f ctx ds nextSeq next stop) (hw : Within env.interp)
    (hdr : Drained env next stop h.spec.lossTimeout.toNat rs) (fuel : Nat) (f' : Bytes) (m : U32) (o : Nat)
    (hok : clean env f h.spec ctx nextSeq (BitVec.ofNat 64 stop) fuel = some (.ok f' m o)) :
    f' = cleanedFile h (BitVec.ofNat 32 status) (rs.filter (kept next stop h.spec.lossTimeout.toNat)) ∧
    ((rs = [] ∧ m = 0#32) ∨ ∃ l, l < rs.length ∧ (∀ r ∈ rs.take l, kept next stop h.spec.lossTimeout.toNat r = true) ∧
      (l = 0 ∨ ∃ r, rs[l]? = some r ∧ kept next stop h.spec.lossTimeout.toNat r = true) ∧
      m = topSeq 0#32 ((rs.drop l).filter (kept next stop h.spec.lossTimeout.toNat)) ∧
      o = headerEnd h.spec.slots.length + 25 * l) := by
  have hsize := S.size
  by_cases hne : rs = []
  · subst hne
    have hf := S.file_eq
    have hi := receiverFile_initial h S.storable (BitVec.ofNat 32 status) 0 (requestPart h.args h.sid)
    simp only [List.map_nil, List.flatten_nil, List.append_nil] at hf
    rw [← hf] at hi
    have hfl : f.length = headerEnd h.spec.slots.length := by
      rw [hf, List.length_append, fixedLayout_length, requestPart_length h S.storable]; unfold headerEnd; omega
    have hfin : finish env f ⟨none, 0, 0⟩ 0 = .ok f 0 0 := by
      unfold finish writeNumData
      dsimp only [copyBack]
      rw [hi, Option.bind_some]
      dsimp only
      rw [if_neg (by omega), if_neg (by omega)]
      dsimp only
      have : after f [⟨20, enc32 0⟩] = f := by
        show pwrite f 20 (enc32 0) = f
        rw [hf, pwrite_ndata]
      rw [this]
    unfold clean at hok
    rw [hi] at hok
    dsimp only at hok
    rw [hfl, Int.sub_self] at hok
    rw [if_neg (by simp), if_pos (by simp), hfin] at hok
    simp only [Option.some.injEq, Result.ok.injEq] at hok
    refine ⟨?_, Or.inl ⟨rfl, hok.2.1.symm⟩⟩
    rw [← hok.1, hf]
    unfold cleanedFile
    simp
  · have hcase : clean env f h.spec ctx nextSeq (BitVec.ofNat 64 stop) fuel = none ∨
        clean env f h.spec ctx nextSeq (BitVec.ofNat 64 stop) fuel = some (.failed f) ∨
        ∃ l p, l < rs.length ∧ p.version = 3 ∧ p.recSize = 25 ∧ p.osetData = (headerEnd h.spec.slots.length : Int) ∧
          (∀ r ∈ rs.take l, kept next stop h.spec.lossTimeout.toNat r = true ∧ ¬ contradicts next r) ∧
          (l = 0 ∨ ∃ r, rs[l]? = some r ∧ kept next stop h.spec.lossTimeout.toNat r = true) ∧
          clean env f h.spec ctx nextSeq (BitVec.ofNat 64 stop) fuel =
            some (fromLow env p f next stop h.spec.lossTimeout.toNat (BitVec.ofNat 32 rs.length) l) := by
      obtain ⟨p, hv, hr, ho, hc⟩ := S.clean_eq hne fuel
      have hpos : 0 < rs.length := List.length_pos_iff.2 hne
      have hn : (BitVec.ofNat 32 rs.length).toNat = rs.length := by rw [BitVec.toNat_ofNat, Nat.mod_eq_of_lt (by omega)]
      have h0 := S.recAt_eq p hv hr ho 0 (by omega)
      have h0' := List.getElem?_eq_getElem hpos
      generalize rs[0] = r0 at h0'
      rw [hc]
      unfold locate
      rw [h0, h0']
      dsimp only
      by_cases hlt : timeOf h.spec.lossTimeout.toNat r0 <
          threshold (lastTime h.spec.startTime.toNat ds next) stop h.spec.lossTimeout.toNat
      · rw [if_neg (by simpa using hlt), hn]
        have hth : threshold (lastTime h.spec.startTime.toNat ds next) stop h.spec.lossTimeout.toNat ≤ stop := by
          rw [S.threshold_eq]; omega
        rw [search_congr env hw _ _ (recAt p f) (fun i => rs[i]?) rs.length (by omega) (fun i hi => S.recAt_eq p hv hr ho i hi) fuel 0 _ rs.length stop
          (by omega) (Nat.le_refl _) hlt hth S.stop64]
        cases hsr : search env h.spec.lossTimeout.toNat (threshold (lastTime h.spec.startTime.toNat ds next) stop h.spec.lossTimeout.toNat)
            (fun i => rs[i]?) fuel 0 (timeOf h.spec.lossTimeout.toNat r0) rs.length stop with
        | none => exact Or.inl rfl
        | some x =>
          cases x with
          | none => exact Or.inr (Or.inl rfl)
          | some l =>
            obtain ⟨hl, hall⟩ := C31_safe env _ _ stop rs r0 hw h0' hlt hth S.stop64 (by omega) S.sortedTimes fuel l hsr
            have hb := S.before (l + 1) hall
            refine Or.inr (Or.inr ⟨l, p, hl, hv, hr, ho, ?_, Or.inr ⟨rs[l], List.getElem?_eq_getElem hl, ?_⟩, rfl⟩)
            · exact fun r hr => hb r (List.take_subset_take_left rs (by omega) hr)
            · exact (hb rs[l] (List.mem_take_iff_getElem.2 ⟨l, by omega, rfl⟩)).1
      · rw [if_pos hlt]
        exact Or.inr (Or.inr ⟨0, p, hpos, hv, hr, ho, by simp, Or.inl rfl, rfl⟩)
    rcases hcase with hc | hc | ⟨l, p, hl, hv, hr, ho, hpre, hat, hc⟩
    · rw [hc] at hok; cases hok
    · rw [hc] at hok; simp at hok
    · rw [hc] at hok
      obtain ⟨hbad, hgood⟩ := S.fromLow_eq p hv hr ho l (by omega) hpre
      by_cases hcon : ∃ r ∈ rs, contradicts next r
      · rw [hbad hcon] at hok; simp at hok
      · obtain ⟨f'', m', o', e1, e2, e3, e4⟩ := hgood hcon hdr
        rw [e1] at hok
        simp only [Option.some.injEq, Result.ok.injEq] at hok
        obtain ⟨rfl, rfl, rfl⟩ := hok
        exact ⟨e2, Or.inr ⟨l, hl, fun r hr => (hpre r hr).1, hat, e3, e4⟩⟩

/-- What the second pass puts back of its temporary file is all of it: either the stream was flushed, or no record was kept after a dropped one. -/
def Flushed (env : Env) (keep : DataRec → Prop) (ks : List DataRec) : Prop :=
  (∀ n, env.drain n = n) ∨ ∃ A B, ks = A ++ B ∧ (∀ r ∈ A, keep r) ∧ (∀ r ∈ B, ¬ keep r)

/-- The second pass on the file of the first one, from record `i` on. -/
theorem trimFrom_eq (env : Env) (h : HdrIn) (hs : Storable h) (fi : U32) (ks : List DataRec) (hst : ∀ r ∈ ks, Stamp r.send ∧ Stamp r.recv)
    (hsize : 25 * ks.length < 2 ^ 32) (p : Init) (hp : readInitial (cleanedFile h fi ks) = some p) (m : U32) (i : Nat) (hi : i ≤ ks.length)
    (hfl : Flushed env (fun r => r.seq ≤ m) (ks.drop i)) :
    trimFrom env p (cleanedFile h fi ks) m ((headerEnd h.spec.slots.length + 25 * i : Nat) : Int) =
      .done (cleanedFile h 2#32 (ks.take i ++ (ks.drop i).filter fun r => decide (r.seq ≤ m))) false := by
  rw [cleanedFile_initial h hs] at hp
  have hp := (Option.some.inj hp).symm
  have hv : p.version = 3 := by rw [hp]
  have hrs : p.recSize = 25 := by rw [hp]
  have ho : p.osetData = (headerEnd h.spec.slots.length : Int) := by rw [hp]
  have hnd : p.ndata = BitVec.ofNat 32 ks.length := by rw [hp]
  have hn : (BitVec.ofNat 32 ks.length).toNat = ks.length := by rw [BitVec.toNat_ofNat, Nat.mod_eq_of_lt (by omega)]
  obtain ⟨hdr, hhdr⟩ : ∃ hdr, hdr = fixedLayout 3#32 fi 0 0 (BitVec.ofNat 32 ks.length) 0
    (BitVec.ofNat 64 (headerEnd h.spec.slots.length)) ++ requestPart h.args h.sid := ⟨_, rfl⟩
  have hpl : hdr.length = headerEnd h.spec.slots.length := by
    rw [hhdr, List.length_append, fixedLayout_length, requestPart_length h hs]; unfold headerEnd; omega
  obtain ⟨f, hf⟩ : ∃ f, f = cleanedFile h fi ks := ⟨_, rfl⟩
  have hf' : f = hdr ++ (ks.map recLayout).flatten := by rw [hf, hhdr]; rfl
  have hsplit : ks.take i ++ ks.drop i = ks := List.take_append_drop i ks
  have htl : (ks.take i).length = i := by rw [List.length_take, Nat.min_eq_left hi]
  have hdl : (ks.drop i).length = ks.length - i := List.length_drop
  obtain ⟨s', e1, e2, e3, e4⟩ := trim_eq p hdr f m hv hrs (by rw [ho, hpl]) (ks.drop i) (ks.take i) ⟨none, BitVec.ofNat 32 ks.length, 0⟩
    (by rw [hsplit]; exact hst) (by rw [hsplit]; exact hsize) (by rw [hsplit]; exact hf')
  rw [htl, hdl, hpl] at e1
  rw [htl, hdl, hpl, show i + (ks.length - i) = ks.length by omega] at e2
  rw [hdl] at e3
  have hlenAll := flatten_map_length recLayout 25 ks
    (fun r hr => (C12_record_partial r (hst r hr).1 (hst r hr).2).2.1)
  obtain ⟨out, hout⟩ : ∃ out, out = ks.take i ++ (ks.drop i).filter fun r => decide (r.seq ≤ m) := ⟨_, rfl⟩
  have hcont : contents (headerEnd h.spec.slots.length) f ks.length s' = hdr ++ (out.map recLayout).flatten := by
    rw [e2, hout, List.map_append, List.flatten_append, ← List.append_assoc]
    congr 1
    show f.take _ = _
    have hlt := flatten_map_length recLayout 25 (ks.take i)
      (fun r hr => (C12_record_partial r (hst r (List.mem_of_mem_take hr)).1 (hst r (List.mem_of_mem_take hr)).2).2.1)
    rw [htl] at hlt
    have e : f = (hdr ++ ((ks.take i).map recLayout).flatten) ++ ((ks.drop i).map recLayout).flatten := by
      rw [hf']
      conv => lhs; rw [← hsplit]
      rw [List.map_append, List.flatten_append, List.append_assoc]
    rw [e, List.take_left' (by rw [List.length_append, hpl, hlt])]
  have hback : copyBack env f s'.tmp = hdr ++ (out.map recLayout).flatten := by
    unfold contents at hcont
    cases ht : s'.tmp with
    | none =>
      rw [ht] at hcont
      dsimp only [copyBack] at hcont ⊢
      rw [← hcont, List.take_of_length_le (by rw [hf', List.length_append, hpl, hlenAll]; omega)]
    | some t =>
      obtain ⟨a, b⟩ := t
      rw [ht] at hcont
      dsimp only [copyBack] at hcont ⊢
      rcases hfl with hd | ⟨A, B, hAB, hA, hB⟩
      · rw [hd, List.take_length, hcont]
      · have := e4 ⟨A, B, hAB, hA, hB, Or.inl rfl⟩
        rw [ht] at this
        rcases this with this | ⟨a', this⟩
        · cases this
        · simp only [Option.some.injEq, Prod.mk.injEq] at this
          rw [this.2] at hcont ⊢
          simpa using hcont
  have hnum : s'.num = BitVec.ofNat 32 out.length := by
    rw [e3]
    have h1 : ((ks.drop i).filter fun r => decide (r.seq ≤ m)).length ≤ ks.length - i := by
      rw [← hdl]; exact List.length_filter_le _ _
    have h2 : out.length = i + ((ks.drop i).filter fun r => decide (r.seq ≤ m)).length := by rw [hout, List.length_append, htl]
    rw [h2]
    generalize ((ks.drop i).filter fun r => decide (r.seq ≤ m)).length = k at h1 ⊢
    apply BitVec.eq_of_toNat_eq
    dsimp only
    rw [BitVec.toNat_sub, BitVec.toNat_ofNat, BitVec.toNat_ofNat, BitVec.toNat_ofNat]
    omega
  rw [← hf, ← hout]
  have hj : (BitVec.ofInt 32 ((((headerEnd h.spec.slots.length + 25 * i : Nat) : Int) - (headerEnd h.spec.slots.length : Int)).tdiv ((25 : Nat) : Int))).toNat = i := by
    have : ((headerEnd h.spec.slots.length + 25 * i : Nat) : Int) - (headerEnd h.spec.slots.length : Int) = ((25 * i : Nat) : Int) := by omega
    rw [this, ← Int.ofNat_tdiv, Nat.mul_div_cancel_left _ (by omega), BitVec.ofInt_natCast, BitVec.toNat_ofNat, Nat.mod_eq_of_lt (by omega)]
  unfold trimFrom
  rw [if_neg (by omega)]
  dsimp only
  rw [ho, hrs, hj, hnd, hn, Int.toNat_natCast, e1]
  dsimp only
  rw [hback, hnum]
  have hi0 := receiverFile_initial h hs fi (BitVec.ofNat 32 ks.length) (requestPart h.args h.sid ++ (out.map recLayout).flatten)
  rw [← List.append_assoc, ← hhdr] at hi0
  unfold writeNumData
  rw [hi0, Option.bind_some]
  dsimp only
  rw [if_neg (by omega), if_neg (by omega)]
  dsimp only
  unfold writeFinished
  rw [if_neg (by omega)]
  dsimp only
  congr 1
  show pwrite (pwrite _ 20 _) 8 _ = _
  rw [hhdr, List.append_assoc, pwrite_ndata, pwrite_fin]
  unfold cleanedFile
  rw [List.append_assoc]

/-- What the parse of the whole file finds, and what is done then. -/
theorem fromMax_eq (env : Env) (h : HdrIn) (hs : Storable h) (fi : U32) (ks : List DataRec) (hst : ∀ r ∈ ks, Stamp r.send ∧ Stamp r.recv)
    (hsize : 25 * ks.length < 2 ^ 32) (p : Init) (hp : readInitial (cleanedFile h fi ks) = some p) :
    ((∀ r ∈ ks, Lost r) → fromMax env p (cleanedFile h fi ks) = .done (cleanedFile h fi []) true) ∧
    ((∃ r ∈ ks, ¬ Lost r) → ∃ i, i ≤ ks.length ∧ fromMax env p (cleanedFile h fi ks) =
      trimFrom env p (cleanedFile h fi ks) (topSeq 0#32 (ks.filter fun r => !lost r)) ((headerEnd h.spec.slots.length + 25 * i : Nat) : Int)) := by
  have hp0 := hp
  rw [cleanedFile_initial h hs] at hp
  have hp := (Option.some.inj hp).symm
  have hv : p.version = 3 := by rw [hp]
  have hrs : p.recSize = 25 := by rw [hp]
  have ho : p.osetData = (headerEnd h.spec.slots.length : Int) := by rw [hp]
  have hnd : p.ndata = BitVec.ofNat 32 ks.length := by rw [hp]
  have hn : (BitVec.ofNat 32 ks.length).toNat = ks.length := by rw [BitVec.toNat_ofNat, Nat.mod_eq_of_lt (by omega)]
  obtain ⟨hdr, hhdr⟩ : ∃ hdr, hdr = fixedLayout 3#32 fi 0 0 (BitVec.ofNat 32 ks.length) 0
    (BitVec.ofNat 64 (headerEnd h.spec.slots.length)) ++ requestPart h.args h.sid := ⟨_, rfl⟩
  have hpl : hdr.length = headerEnd h.spec.slots.length := by
    rw [hhdr, List.length_append, fixedLayout_length, requestPart_length h hs]; unfold headerEnd; omega
  obtain ⟨f, hf⟩ : ∃ f, f = cleanedFile h fi ks := ⟨_, rfl⟩
  have hf' : f = hdr ++ (ks.map recLayout).flatten := by rw [hf, hhdr]; rfl
  obtain ⟨m', e1, e2, e3, e4, e5⟩ := getMaxRecv_feed ks ⟨false, 0, 0, 0, 0⟩ (by simp; omega) (BitVec.le_refl _)
  have hparse : parseRecords getMaxRecv f p.osetData.toNat p.ndata.toNat p.version ⟨false, 0, 0, 0, 0⟩ = (.ok, m') := by
    rw [hv, hnd, hn, ho, Int.toNat_natCast, ← hpl]
    unfold parseRecords
    rw [if_neg (by omega), if_pos rfl]
    have := parseLoop_feed 25 (decodeDataRec 3) getMaxRecv recLayout ks
      (fun r hr => (C12_record_partial r (hst r hr).1 (hst r hr).2).2) f hdr [] ks.length ⟨false, 0, 0, 0, 0⟩ (by rw [hf', List.append_nil]) (Nat.le_refl _)
    rw [List.take_length] at this
    rw [this, e1]
  rw [← hf]
  constructor
  · intro hl
    have hfound : m'.found = false := by
      rw [e2, Bool.false_or, List.any_eq_false]
      intro r hr
      simp [(lost_iff r).2 (hl r hr)]
    unfold fromMax
    rw [if_neg (by omega), hparse]
    dsimp only
    rw [if_pos (by simp [hfound]), ho, Int.toNat_natCast]
    have ht : f.take (headerEnd h.spec.slots.length) = hdr := by rw [hf', List.take_left' hpl]
    rw [ht]
    have hi0 := receiverFile_initial h hs fi (BitVec.ofNat 32 ks.length) (requestPart h.args h.sid)
    rw [← hhdr] at hi0
    unfold writeNumData
    rw [hi0, Option.bind_some]
    dsimp only
    rw [if_neg (by omega), if_neg (by omega)]
    dsimp only
    congr 1
    show pwrite _ 20 _ = _
    rw [hhdr, pwrite_ndata]
    unfold cleanedFile
    simp
  · rintro ⟨r, hr, hl⟩
    have hfound : m'.found = true := by
      rw [e2, Bool.false_or, List.any_eq_true]
      refine ⟨r, hr, ?_⟩
      have : lost r = false := by
        cases hh : lost r with
        | false => rfl
        | true => exact absurd ((lost_iff r).1 hh) hl
      simp [this]
    have hib : m'.indexBad.toNat ≤ ks.length := by
      rw [BitVec.le_def] at e4
      simp at e5
      omega
    refine ⟨m'.indexBad.toNat, hib, ?_⟩
    unfold fromMax
    rw [if_neg (by omega), hparse]
    dsimp only
    rw [if_neg (by simp [hfound]), e3, ho, hrs, Nat.mod_eq_of_lt (by omega)]
    congr 1
    omega

theorem filter_below (ks : List DataRec) (P : DataRec → Prop) [DecidablePred P] (m : U32) (i : Nat)
    (hP : ∀ r ∈ ks, P r → r.seq ≤ m) :
    ((ks.take i ++ (ks.drop i).filter fun r => decide (r.seq ≤ m)).filter fun r => decide (P r)) = ks.filter fun r => decide (P r) := by
  have : (ks.drop i).filter (fun r => decide (P r)) = ((ks.drop i).filter fun r => decide (r.seq ≤ m)).filter fun r => decide (P r) := by
    rw [List.filter_filter]
    apply List.filter_congr
    intro r hr
    by_cases h : P r
    · simp [h, hP r (List.mem_of_mem_drop hr) h]
    · simp [h]
  rw [List.filter_append, ← this, ← List.filter_append, List.take_append_drop]

/-- The outcome of the clean-up of one file whose first pass succeeds. -/
theorem Recorded.outcome (S : Recorded env junk h rs status f ctx ds 0xFFFFFFFF#32 next stop) (hw : Within env.interp)
    (hdr : Drained env next stop h.spec.lossTimeout.toNat rs) (fuel : Nat) (f' : Bytes) (m : U32) (o : Nat)
    (hok : clean env f h.spec ctx 0xFFFFFFFF#32 (BitVec.ofNat 64 stop) fuel = some (.ok f' m o)) :
    (m ≠ 0#32 → cleanUpFile env f h.spec ctx (BitVec.ofNat 64 stop) fuel =
      some (.done (cleanedFile h 2#32 (rs.filter (kept next stop h.spec.lossTimeout.toNat))) false)) ∧
    (m = 0#32 → (∀ r ∈ rs.filter (kept next stop h.spec.lossTimeout.toNat), Lost r) → cleanUpFile env f h.spec ctx (BitVec.ofNat 64 stop) fuel =
      some (.done (cleanedFile h (BitVec.ofNat 32 status) []) true)) ∧
    (m = 0#32 → (∃ r ∈ rs.filter (kept next stop h.spec.lossTimeout.toNat), ¬ Lost r) → (∀ n, env.drain n = n) →
      ∃ i, i ≤ (rs.filter (kept next stop h.spec.lossTimeout.toNat)).length ∧ cleanUpFile env f h.spec ctx (BitVec.ofNat 64 stop) fuel =
        some (.done (cleanedFile h 2#32 ((rs.filter (kept next stop h.spec.lossTimeout.toNat)).take i ++
          ((rs.filter (kept next stop h.spec.lossTimeout.toNat)).drop i).filter fun r =>
            decide (r.seq ≤ topSeq 0#32 ((rs.filter (kept next stop h.spec.lossTimeout.toNat)).filter fun r => !lost r)))) false)) := by
  obtain ⟨hf', hcase⟩ := S.ok_shape hw hdr fuel f' m o hok
  have hsize := S.size
  obtain ⟨ks, hks⟩ : ∃ ks, ks = rs.filter (kept next stop h.spec.lossTimeout.toNat) := ⟨_, rfl⟩
  have hst : ∀ r ∈ ks, Stamp r.send ∧ Stamp r.recv := fun r hr => S.stamps r (List.mem_filter.1 (hks ▸ hr)).1
  have hkl : ks.length ≤ rs.length := by rw [hks]; exact List.length_filter_le _ _
  rw [← hks] at hf' ⊢
  obtain ⟨p, hp⟩ : ∃ p, readInitial (cleanedFile h (BitVec.ofNat 32 status) ks) = some p := ⟨_, cleanedFile_initial h S.storable _ _⟩
  have hcu : cleanUpFile env f h.spec ctx (BitVec.ofNat 64 stop) fuel = some
      (if m = 0#32 then fromMax env p (cleanedFile h (BitVec.ofNat 32 status) ks)
       else trimFrom env p (cleanedFile h (BitVec.ofNat 32 status) ks) m (o : Int)) := by
    unfold cleanUpFile
    rw [hok, Option.map_some]
    dsimp only
    rw [hf', hp]
  have hmax := fromMax_eq env h S.storable (BitVec.ofNat 32 status) ks hst (by omega) p hp
  refine ⟨?_, ?_, ?_⟩
  · intro hm
    rw [hcu, if_neg hm]
    rcases hcase with ⟨_, h0⟩ | ⟨l, hl, hpre, _, hm', ho⟩
    · exact absurd h0 hm
    · have hsplit : rs.take l ++ rs.drop l = rs := List.take_append_drop l rs
      have htl : (rs.take l).length = l := by rw [List.length_take, Nat.min_eq_left (by omega)]
      have hfil : ks = rs.take l ++ (rs.drop l).filter (kept next stop h.spec.lossTimeout.toNat) := by
        rw [hks]
        conv => lhs; rw [← hsplit]
        rw [List.filter_append, List.filter_eq_self.2 hpre]
      have hdrop : ks.drop l = (rs.drop l).filter (kept next stop h.spec.lossTimeout.toNat) := by
        rw [hfil, List.drop_left' htl]
      have hall : ∀ r ∈ ks.drop l, r.seq ≤ m := by
        intro r hr
        rw [hdrop] at hr
        rw [hm']
        exact (topSeq_spec _ _).2.1 r hr
      rw [ho, trimFrom_eq env h S.storable _ ks hst (by omega) p hp m l (by rw [hfil, List.length_append, htl]; omega)
        (Or.inr ⟨ks.drop l, [], by simp, hall, by simp⟩)]
      rw [List.filter_eq_self.2 (fun r hr => decide_eq_true (hall r hr)), List.take_append_drop]
  · intro hm hl
    rw [hcu, if_pos hm, hmax.1 hl]
  · intro hm hl hd
    obtain ⟨i, hi, he⟩ := hmax.2 hl
    refine ⟨i, hi, ?_⟩
    rw [hcu, if_pos hm, he, trimFrom_eq env h S.storable _ ks hst (by omega) p hp _ i hi (Or.inl hd)]

/-- C66: when the first pass over the file of a recorded session succeeds (`C30_cleans_partial` says when), so does the whole clean-up. A reader then sees,
in the original order, some of the records to keep, among them every one that should stay. Missing: records that should go
can stay, see `C66_trailing_stay`. Assumed: the streams of the temporary files are flushed (see `C30_unflushed`). -/
theorem C66_received_kept_partial (S : Recorded env junk h rs status f ctx ds 0xFFFFFFFF#32 next stop) (hw : Within env.interp)
    (hfl : ∀ n, env.drain n = n) (fuel : Nat)
    (hok : ∃ f' m o, clean env f h.spec ctx 0xFFFFFFFF#32 (BitVec.ofNat 64 stop) fuel = some (.ok f' m o)) :
    ∃ f'' locked, cleanUpFile env f h.spec ctx (BitVec.ofNat 64 stop) fuel = some (.done f'' locked) ∧
      (recordsSeen f'').Sublist (rs.filter (kept next stop h.spec.lossTimeout.toNat)) ∧
      (staying next stop h.spec.lossTimeout.toNat rs).Sublist (recordsSeen f'') := by
  obtain ⟨f', m, o, hok⟩ := hok
  obtain ⟨h1, h2, h3⟩ := S.outcome hw (Or.inl hfl) fuel f' m o hok
  have hsize := S.size
  unfold staying
  dsimp only
  obtain ⟨ks, hks⟩ : ∃ ks, ks = rs.filter (kept next stop h.spec.lossTimeout.toNat) := ⟨_, rfl⟩
  have hst : ∀ r ∈ ks, Stamp r.send ∧ Stamp r.recv := fun r hr => S.stamps r (List.mem_filter.1 (hks ▸ hr)).1
  have hkl : ks.length ≤ rs.length := by rw [hks]; exact List.length_filter_le _ _
  rw [← hks] at h1 h2 h3 ⊢
  have hseen : ∀ (fi : U32) (qs : List DataRec), qs.Sublist ks → recordsSeen (cleanedFile h fi qs) = qs := by
    intro fi qs hq
    exact cleanedFile_seen h S.storable S.oneway fi qs (fun r hr => hst r (hq.subset hr)) (by have := hq.length_le; omega)
  by_cases hm : m = 0#32
  · by_cases hl : ∀ r ∈ ks, Lost r
    · refine ⟨_, _, h2 hm hl, ?_, ?_⟩
      · rw [hseen _ [] (List.nil_sublist _)]; exact List.nil_sublist _
      · rw [hseen _ [] (List.nil_sublist _)]
        have : ks.filter (fun r => decide (Reached ks r)) = [] := by
          rw [List.filter_eq_nil_iff]
          intro r _
          rw [decide_eq_true_iff]
          rintro ⟨q, hq, hn, _⟩
          exact hn (hl q hq)
        rw [this]; exact List.nil_sublist _
    · have hl' : ∃ r ∈ ks, ¬ Lost r := by
        apply Decidable.byContradiction
        intro hh
        exact hl fun r hr => Decidable.byContradiction fun hx => hh ⟨r, hr, hx⟩
      obtain ⟨i, hi, he⟩ := h3 hm hl' hfl
      have hsub : (ks.take i ++ (ks.drop i).filter fun r => decide (r.seq ≤ topSeq 0#32 (ks.filter fun r => !lost r))).Sublist ks := by
        have := List.Sublist.append (List.Sublist.refl (ks.take i)) (List.filter_sublist (l := ks.drop i)
          (p := fun r => decide (r.seq ≤ topSeq 0#32 (ks.filter fun r => !lost r))))
        rw [List.take_append_drop] at this
        exact this
      refine ⟨_, _, he, by rw [hseen _ _ hsub]; exact hsub, ?_⟩
      rw [hseen _ _ hsub]
      have := filter_below ks (Reached ks) (topSeq 0#32 (ks.filter fun r => !lost r)) i (by
        rintro r _ ⟨q, hq, hn, hle⟩
        refine BitVec.le_trans hle ((topSeq_spec _ _).2.1 q (List.mem_filter.2 ⟨hq, ?_⟩))
        cases hh : lost q with
        | false => rfl
        | true => exact absurd ((lost_iff q).1 hh) hn)
      rw [← this]
      exact List.filter_sublist
  · refine ⟨_, _, h1 hm, by rw [hseen _ ks (List.Sublist.refl _)]; exact List.Sublist.refl _, ?_⟩
    rw [hseen _ ks (List.Sublist.refl _)]
    exact List.filter_sublist

/-- C66 fails: unless the last record to keep is that of packet 0, nothing is removed, however many lost records there are behind the last packet
received. The largest number found by the first pass counts the lost records too, and the second pass starts where the first one did. The
file is marked incomplete and its lock released. -/
theorem C66_trailing_stay (S : Recorded env junk h rs status f ctx ds 0xFFFFFFFF#32 next stop) (hw : Within env.interp)
    (hdr : Drained env next stop h.spec.lossTimeout.toNat rs) (fuel : Nat)
    (hok : ∃ f' m o, clean env f h.spec ctx 0xFFFFFFFF#32 (BitVec.ofNat 64 stop) fuel = some (.ok f' m o))
    (x : DataRec) (hx : (rs.filter (kept next stop h.spec.lossTimeout.toNat)).getLast? = some x) (hx0 : x.seq ≠ 0#32) :
    ∃ f'' p, cleanUpFile env f h.spec ctx (BitVec.ofNat 64 stop) fuel = some (.done f'' false) ∧
      recordsSeen f'' = rs.filter (kept next stop h.spec.lossTimeout.toNat) ∧ readInitial f'' = some p ∧ p.finished = 2 := by
  obtain ⟨f', m, o, hok⟩ := hok
  obtain ⟨_, hcase⟩ := S.ok_shape hw hdr fuel f' m o hok
  have hsize := S.size
  have hkl : (rs.filter (kept next stop h.spec.lossTimeout.toNat)).length ≤ rs.length := List.length_filter_le _ _
  have hm : m ≠ 0#32 := by
    rcases hcase with ⟨h0, _⟩ | ⟨l, hl, hpre, hat, hm, _⟩
    · rw [h0] at hx; simp at hx
    · have hsplit : rs.take l ++ rs.drop l = rs := List.take_append_drop l rs
      have hne : (rs.drop l).filter (kept next stop h.spec.lossTimeout.toNat) ≠ [] := by
        rcases hat with rfl | ⟨r, hr, hk⟩
        · rw [List.drop_zero]; intro hh; rw [hh] at hx; simp at hx
        · intro hh
          have hmem : r ∈ rs.drop l := by
            obtain ⟨h1, rfl⟩ := List.getElem?_eq_some_iff.1 hr
            exact List.mem_drop_iff_getElem.2 ⟨0, by omega, by simp⟩
          exact absurd hk (by simpa using (List.filter_eq_nil_iff.1 hh) r hmem)
      have hxin : x ∈ (rs.drop l).filter (kept next stop h.spec.lossTimeout.toNat) := by
        have : rs.filter (kept next stop h.spec.lossTimeout.toNat) =
            rs.take l ++ (rs.drop l).filter (kept next stop h.spec.lossTimeout.toNat) := by
          conv => lhs; rw [← hsplit]
          rw [List.filter_append, List.filter_eq_self.2 hpre]
        rw [this, List.getLast?_append] at hx
        cases hg : ((rs.drop l).filter (kept next stop h.spec.lossTimeout.toNat)).getLast? with
        | none => exact absurd (List.getLast?_eq_none_iff.1 hg) hne
        | some y =>
          rw [hg] at hx
          obtain rfl : y = x := by simpa using hx
          exact List.mem_of_getLast? hg
      have := (topSeq_spec ((rs.drop l).filter (kept next stop h.spec.lossTimeout.toNat)) 0#32).2.1 x hxin
      rw [← hm] at this
      intro h0
      rw [h0, BitVec.le_def] at this
      exact hx0 (BitVec.eq_of_toNat_eq (by simpa using this))
  refine ⟨_, _, (S.outcome hw hdr fuel f' m o hok).1 hm, ?_, cleanedFile_initial h S.storable _ _, rfl⟩
  exact cleanedFile_seen h S.storable S.oneway _ _ (fun r hr => S.stamps r (List.mem_filter.1 hr).1) (by omega)

/-- C66 fails in another way: when nothing is to keep, or only a lost packet 0, the file ends with no records as it should, but its lock is not
released and it is not marked incomplete: its status is what the receiver wrote. -/
theorem C66_lock_kept (S : Recorded env junk h rs status f ctx ds 0xFFFFFFFF#32 next stop) (hw : Within env.interp)
    (hdr : Drained env next stop h.spec.lossTimeout.toNat rs) (fuel : Nat)
    (hok : ∃ f' m o, clean env f h.spec ctx 0xFFFFFFFF#32 (BitVec.ofNat 64 stop) fuel = some (.ok f' m o))
    (hl : ∀ r ∈ rs.filter (kept next stop h.spec.lossTimeout.toNat), Lost r ∧ r.seq = 0#32) :
    ∃ f'' p, cleanUpFile env f h.spec ctx (BitVec.ofNat 64 stop) fuel = some (.done f'' true) ∧
      recordsSeen f'' = [] ∧ readInitial f'' = some p ∧ p.finished = status := by
  obtain ⟨f', m, o, hok⟩ := hok
  obtain ⟨_, hcase⟩ := S.ok_shape hw hdr fuel f' m o hok
  have hm : m = 0#32 := by
    rcases hcase with ⟨_, h0⟩ | ⟨l, _, _, _, hm, _⟩
    · exact h0
    · rcases (topSeq_spec ((rs.drop l).filter (kept next stop h.spec.lossTimeout.toNat)) 0#32).2.2 with h0 | ⟨r, hr, h0⟩
      · rw [hm, h0]
      · rw [hm, ← h0]
        have hr := List.mem_filter.1 hr
        exact (hl r (List.mem_filter.2 ⟨List.mem_of_mem_drop hr.1, hr.2⟩)).2
  have hst := S.statusIs
  refine ⟨_, _, (S.outcome hw hdr fuel f' m o hok).2.1 hm (fun r hr => (hl r hr).1), ?_, cleanedFile_initial h S.storable _ _, ?_⟩
  · exact cleanedFile_seen h S.storable S.oneway _ [] (by simp) (by simp)
  · show finishedType (BitVec.ofNat 32 status).toNat = status
    rw [BitVec.toNat_ofNat, Nat.mod_eq_of_lt (by omega)]
    unfold finishedType
    rw [if_pos hst]

/-- A first pass that fails leaves the file locked and as it was. -/
theorem C66_failed (env : Env) (f f' : Bytes) (t : TestSpec) (ctx : Sched.Ctx) (stop : U64) (fuel : Nat)
    (hbad : clean env f t ctx 0xFFFFFFFF#32 stop fuel = some (.failed f')) :
    cleanUpFile env f t ctx stop fuel = some (.failed f') := by
  unfold cleanUpFile; rw [hbad]; rfl
end

/-! ## Concrete sessions -/

/-- Three packets received, the next two lost. -/
def demoTrailRecs : List DataRec :=
  [demoCleanRec 0 16 20, demoCleanRec 1 32 33, demoCleanRec 2 48 50, demoCleanLost 3 64, demoCleanLost 4 80]

theorem demoTrail (drain : Nat → Nat) :
    ∃ f, Recorded (demoCleanEnv drain) (zeros 112) demoCleanHdr demoTrailRecs 2 f demoCleanCtx (List.replicate 10 0x1_00000000) 0xFFFFFFFF#32 10
      demoCleanStop := by
  refine demoClean_recorded demoTrailRecs ?_ (by decide) ?_ (by decide) drain
  · intro r hr
    simp only [demoTrailRecs, List.mem_cons, List.not_mem_nil, or_false] at hr
    rcases hr with rfl | rfl | rfl | rfl | rfl <;> unfold Stamp <;> decide
  · intro r hr
    simp only [demoTrailRecs, List.mem_cons, List.not_mem_nil, or_false] at hr
    rcases hr with rfl | rfl | rfl | rfl | rfl
    · exact ⟨by decide, fun _ => by decide, fun h => absurd h (by decide)⟩
    · exact ⟨by decide, fun _ => by decide, fun h => absurd h (by decide)⟩
    · exact ⟨by decide, fun _ => by decide, fun h => absurd h (by decide)⟩
    · exact ⟨by decide, fun h => absurd (by decide) h, fun _ => by decide⟩
    · exact ⟨by decide, fun h => absurd (by decide) h, fun _ => by decide⟩

/-- The first pass on this session succeeds. -/
theorem demoTrail_ok (drain : Nat → Nat) (f : Bytes)
    (S : Recorded (demoCleanEnv drain) (zeros 112) demoCleanHdr demoTrailRecs 2 f demoCleanCtx (List.replicate 10 0x1_00000000) 0xFFFFFFFF#32 10
      demoCleanStop) : ∃ f' m o,
    clean (demoCleanEnv drain) f demoCleanHdr.spec demoCleanCtx 0xFFFFFFFF#32 (BitVec.ofNat 64 demoCleanStop) 5 = some (.ok f' m o) := by
  obtain ⟨f', m, o, h1, _⟩ := (C30_cleans_partial S exactInterp_within exactInterp_inside
    (by intro r hr
        simp only [demoTrailRecs, List.mem_cons, List.not_mem_nil, or_false] at hr
        rcases hr with rfl | rfl | rfl | rfl | rfl <;> decide) (by decide) (by decide) 5 (by decide)).2 (by decide)
    (Or.inr ⟨demoTrailRecs, [], by simp, by decide, by simp⟩)
  exact ⟨f', m, o, h1⟩

/-- C66 fails for this session: it is cleaned up, whatever the streams do, and keeps both lost records behind the last packet received. -/
theorem C66_trailing_example (drain : Nat → Nat) : ∃ f f'',
    Recorded (demoCleanEnv drain) (zeros 112) demoCleanHdr demoTrailRecs 2 f demoCleanCtx (List.replicate 10 0x1_00000000) 0xFFFFFFFF#32 10
      demoCleanStop ∧
    cleanUpFile (demoCleanEnv drain) f demoCleanHdr.spec demoCleanCtx (BitVec.ofNat 64 demoCleanStop) 5 = some (.done f'' false) ∧
    recordsSeen f'' = demoTrailRecs ∧
    staying 10 demoCleanStop 0x1_00000000 demoTrailRecs = [demoCleanRec 0 16 20, demoCleanRec 1 32 33, demoCleanRec 2 48 50] := by
  obtain ⟨f, S⟩ := demoTrail drain
  have hk : demoTrailRecs.filter (kept 10 demoCleanStop demoCleanHdr.spec.lossTimeout.toNat) = demoTrailRecs := by decide +kernel
  obtain ⟨f'', p, h1, h2, _⟩ := C66_trailing_stay S exactInterp_within (Or.inr ⟨demoTrailRecs, [], by simp, by decide, by simp⟩) 5
    (demoTrail_ok drain f S) (demoCleanLost 4 80) (by rw [hk]; rfl) (by decide)
  exact ⟨f, f'', S, h1, by rw [h2, hk], by decide +kernel⟩

/-- The premises of `C66_received_kept_partial` are met. -/
example : ∃ f f'' locked, cleanUpFile (demoCleanEnv id) f demoCleanHdr.spec demoCleanCtx (BitVec.ofNat 64 demoCleanStop) 5 = some (.done f'' locked) ∧
    demoCleanRec 2 48 50 ∈ recordsSeen f'' := by
  obtain ⟨f, S⟩ := demoTrail id
  obtain ⟨f'', lk, h1, _, h3⟩ := C66_received_kept_partial S exactInterp_within (fun _ => rfl) 5 (demoTrail_ok id f S)
  exact ⟨f, f'', lk, h1, h3.subset (by decide +kernel)⟩

/-- The premises of `C66_lock_kept` are met by a session whose only record is that packet 0 was lost. -/
example : ∃ f f'', cleanUpFile (demoCleanEnv id) f demoCleanHdr.spec demoCleanCtx (BitVec.ofNat 64 demoCleanStop) 5 = some (.done f'' true) ∧
    recordsSeen f'' = [] := by
  obtain ⟨f, S⟩ := demoClean_recorded [demoCleanLost 0 16]
    (by intro r hr; obtain rfl : r = demoCleanLost 0 16 := by simpa using hr
        unfold Stamp; decide) (by decide)
    (by intro r hr; obtain rfl : r = demoCleanLost 0 16 := by simpa using hr
        exact ⟨by decide, fun h => absurd (by decide) h, fun _ => by decide⟩) (by decide) id
  obtain ⟨f', m, o, h1, _⟩ := (C30_cleans_partial S exactInterp_within exactInterp_inside
    (by intro r hr; obtain rfl : r = demoCleanLost 0 16 := by simpa using hr
        decide) (by decide) (by decide) 5 (by decide)).2 (by decide) (Or.inl fun _ => rfl)
  obtain ⟨f'', _, h2, h3, _⟩ := C66_lock_kept S exactInterp_within (Or.inl fun _ => rfl) 5 ⟨f', m, o, h1⟩ (by
    intro r hr
    obtain rfl : r = demoCleanLost 0 16 := by simpa using (List.mem_filter.1 hr).1
    exact ⟨by decide, rfl⟩)
  exact ⟨f, f'', h2, h3⟩

/-! ## All the sessions of a connection -/

/-- What becomes of one session: a sender is left alone, so is a receiver without a file; a file is cleaned. -/
def CleanedAs (env : Env) (stop : U64) (fuel : Nat) (t : FileSes) (l : Left) : Prop :=
  ∃ send file, t.ep = some (send, file) ∧
    match send, file with
    | false, some f => ∃ f', cleanUpFile env f t.spec t.ctx stop fuel = some (.done f' l.locked) ∧ l.file = some f'
    | _, file => l = ⟨file, false⟩

/-- C66: when the clean-up of a connection reports success, every session has an endpoint and the file of every receiver was cleaned. -/
theorem C66_sessions (env : Env) (stop : U64) (fuel : Nat) : ∀ (ts : List FileSes) (ls : List Left),
    cleanUpSessions env false stop fuel ts = some (true, ls) →
    ls.length = ts.length ∧ ∀ (i : Nat) (t : FileSes) (l : Left), ts[i]? = some t → ls[i]? = some l → CleanedAs env stop fuel t l := by
  intro ts
  unfold cleanUpSessions
  simp only [Bool.false_eq_true, if_false]
  induction ts with
  | nil => intro ls h; simp [cleanUpLoop] at h; subst h; simp
  | cons t ts ih =>
    intro ls h
    have key : ∀ (l : Left) (r : Option (Bool × List Left)), r = cleanUpLoop env stop fuel ts →
        r.map (fun r => (r.1, l :: r.2)) = some (true, ls) → CleanedAs env stop fuel t l →
        ls.length = (t :: ts).length ∧ ∀ (i : Nat) (t' : FileSes) (l' : Left), (t :: ts)[i]? = some t' → ls[i]? = some l' → CleanedAs env stop fuel t' l' := by
      intro l r hr hm hc
      cases r with
      | none => cases hm
      | some r =>
        obtain ⟨b, ls'⟩ := r
        simp only [Option.map_some, Option.some.injEq, Prod.mk.injEq] at hm
        obtain ⟨rfl, rfl⟩ := hm
        obtain ⟨g1, g2⟩ := ih ls' hr.symm
        refine ⟨by simp [g1], ?_⟩
        intro i t' l' h1 h2
        cases i with
        | zero =>
          simp only [List.getElem?_cons_zero, Option.some.injEq] at h1 h2
          subst h1; subst h2; exact hc
        | succ i => exact g2 i t' l' (by simpa using h1) (by simpa using h2)
    rw [cleanUpLoop] at h
    rcases ht : t.ep with _ | ⟨send, file⟩
    · rw [ht] at h; simp at h
    · rw [ht] at h
      cases send with
      | true => exact key _ _ rfl h ⟨true, file, ht, by cases file <;> rfl⟩
      | false =>
        cases file with
        | none => exact key _ _ rfl h ⟨false, none, ht, rfl⟩
        | some f =>
          dsimp only at h
          cases hc : cleanUpFile env f t.spec t.ctx stop fuel with
          | none => rw [hc] at h; simp at h
          | some c =>
            rw [hc] at h
            cases c with
            | undefined => simp at h
            | failed f' => simp at h
            | done f' lk => exact key _ _ rfl h ⟨false, some f, ht, f', hc, rfl⟩

/-- C66 fails after a session that cannot be cleaned: it stays locked, and the files of the sessions behind it are left as they were. -/
theorem C66_stops_at_failure (env : Env) (stop : U64) (fuel : Nat) (t : FileSes) (b : List FileSes) (f f' : Bytes)
    (ht : t.ep = some (false, some f)) (hbad : cleanUpFile env f t.spec t.ctx stop fuel = some (.failed f')) :
    ∀ (a : List FileSes) (la : List Left), cleanUpSessions env false stop fuel a = some (true, la) →
      cleanUpSessions env false stop fuel (a ++ t :: b) =
        some (false, la ++ ⟨some f', true⟩ :: b.map fun x => ⟨x.ep.bind (·.2), false⟩) := by
  intro a
  unfold cleanUpSessions
  simp only [Bool.false_eq_true, if_false]
  induction a with
  | nil =>
    intro la h
    simp [cleanUpLoop] at h
    subst h
    rw [List.nil_append, cleanUpLoop, ht]
    dsimp only
    rw [hbad]
    rfl
  | cons x a ih =>
    intro la h
    have key : ∀ l : Left, (cleanUpLoop env stop fuel a).map (fun r => (r.1, l :: r.2)) = some (true, la) →
        (cleanUpLoop env stop fuel (a ++ t :: b)).map (fun r => (r.1, l :: r.2)) =
          some (false, la ++ ⟨some f', true⟩ :: b.map fun x => ⟨x.ep.bind (·.2), false⟩) := by
      intro l hm
      cases hr : cleanUpLoop env stop fuel a with
      | none => rw [hr] at hm; cases hm
      | some r =>
        obtain ⟨bb, ls'⟩ := r
        rw [hr] at hm
        simp only [Option.map_some, Option.some.injEq, Prod.mk.injEq] at hm
        obtain ⟨rfl, rfl⟩ := hm
        rw [ih ls' hr]
        rfl
    rw [List.cons_append, cleanUpLoop]
    rw [cleanUpLoop] at h
    rcases hx : x.ep with _ | ⟨send, file⟩
    · rw [hx] at h; simp at h
    · rw [hx] at h
      cases send with
      | true => exact key _ h
      | false =>
        cases file with
        | none => exact key _ h
        | some g =>
          dsimp only at h ⊢
          cases hc : cleanUpFile env g x.spec x.ctx stop fuel with
          | none => rw [hc] at h; simp at h
          | some c =>
            rw [hc] at h
            cases c with
            | undefined => simp at h
            | failed f' => simp at h
            | done f' lk => exact key _ h

/-- A session with a file that is no session file stops the clean-up before the session of `demoTrail`. -/
example (t : FileSes) (f : Bytes) (ht : t.ep = some (false, some f)) :
    cleanUpSessions (demoCleanEnv id) false 0 5 [⟨demoCleanHdr.spec, demoCleanCtx, some (false, some [1, 2, 3])⟩, t] =
      some (false, [⟨some [1, 2, 3], true⟩, ⟨some f, false⟩]) := by
  have := C66_stops_at_failure (demoCleanEnv id) 0 5 ⟨demoCleanHdr.spec, demoCleanCtx, some (false, some [1, 2, 3])⟩ [t] [1, 2, 3] [1, 2, 3] rfl
    (by decide +kernel) [] [] rfl
  simpa [ht] using this

/-- For a two-way connection nothing is done. -/
theorem C66_twoway (env : Env) (stop : U64) (fuel : Nat) (ts : List FileSes) :
    cleanUpSessions env true stop fuel ts = some (true, ts.map fun t => ⟨t.ep.bind (·.2), false⟩) := rfl

end Owamp.Props
