import Verif.Lemmas.Request
import Verif.Spec.DataFile
import Verif.Props.Records
/-!
# Session data files
-/
namespace Owamp.File
open Owamp.Spec.DataFile Owamp.Spec.Channel Owamp.Spec.Request Owamp.Codec Owamp.Ctl

theorem pwrite_end (f bs : Bytes) : pwrite f f.length bs = f ++ bs := by
  simp [pwrite, zeros]

theorem pwrite_inside (f bs : Bytes) (off : Nat) (h : off ≤ f.length) : pwrite f off bs = put f off bs := by
  simp [pwrite, put, zeros, Nat.sub_eq_zero_of_le h]

theorem pwrite_new (bs : Bytes) : pwrite [] 0 bs = bs := by simp [pwrite, zeros]

theorem rd_ok (f : Bytes) (o n : Nat) (h : o + n ≤ f.length) : rd f o n = some (get f o n) := if_pos h
theorem rd_none (f : Bytes) (o n : Nat) (h : ¬ o + n ≤ f.length) : rd f o n = none := if_neg h

theorem fixedLayout_length (v fi ne ns nd : U32) (os od : U64) : (fixedLayout v fi ne ns nd os od).length = 40 := by
  simp [fixedLayout]

theorem offT_enc (x : U64) (h : x.toNat < 2 ^ 63) : (BitVec.ofNat 64 (beDec (enc64 x))).toInt = (x.toNat : Int) := by
  rw [dec_enc64, BitVec.toInt_eq_toNat_of_lt (by omega)]

/-- What the initial header of a version 3 file says. -/
theorem readInitial_fixed (v fi ne ns nd : U32) (os od : U64) (body : Bytes) (hv : v = 3#32 ∨ v = 131#32)
    (hos : os.toNat < 2 ^ 63) (hod : od.toNat < 2 ^ 63) :
    readInitial (fixedLayout v fi ne ns nd os od ++ body) =
      some { version := v.toNat, recSize := if v = 3#32 then 25 else 50, finished := finishedType fi.toNat
             next := ne, nskip := ns, ndata := nd, osetSkip := (os.toNat : Int), osetData := (od.toNat : Int)
             hdrLen := (od.toNat : Int) } := by
  have hl := fixedLayout_length v fi ne ns nd os od
  have hmag : magic.length = 4 := rfl
  have e : fixedLayout v fi ne ns nd os od ++ body =
      magic ++ (enc32 v ++ (enc32 fi ++ (enc32 ne ++ (enc32 ns ++ (enc32 nd ++ (enc64 os ++ (enc64 od ++ body))))))) := by
    simp only [fixedLayout, List.append_assoc]; rfl
  have hlen : (fixedLayout v fi ne ns nd os od ++ body).length = 40 + body.length := by
    rw [List.length_append, hl]
  generalize hF : fixedLayout v fi ne ns nd os od ++ body = F at *
  have g0 : get F 0 4 = magic := by rw [e]; fields [hmag]
  have g1 : get F 4 4 = enc32 v := by rw [e]; fields [hmag]
  have g2 : get F 8 4 = enc32 fi := by rw [e]; fields [hmag]
  have g3 : get F 12 4 = enc32 ne := by rw [e]; fields [hmag]
  have g4 : get F 16 4 = enc32 ns := by rw [e]; fields [hmag]
  have g5 : get F 20 4 = enc32 nd := by rw [e]; fields [hmag]
  have g6 : get F 24 8 = enc64 os := by rw [e]; fields [hmag]
  have g7 : get F 32 8 = enc64 od := by rw [e]; fields [hmag]
  clear e hF
  have gv : get32 F 4 = v := by unfold get32; rw [g1, dec_enc32]
  unfold readInitial
  rw [if_neg (by omega), if_neg (by simp [g0])]
  simp only [gv, offT, g6, g7, offT_enc os hos, offT_enc od hod, get32, g1, g2, g3, g4, g5, dec_enc32]
  rw [rd_ok _ 8 32 (by omega)]
  rcases hv with h | h <;> subst h <;> rfl

theorem slotBytes_ok (ss : List Sched.Slot) (h : ∀ s ∈ ss, Known s) : slotBytes ss = (slotsText ss, true) := by
  induction ss with
  | nil => rfl
  | cons s ss ih =>
    rw [slotBytes, encodeSlot_ok s (h s (by simp)), ih (fun x hx => h x (by simp [hx]))]
    rfl

theorem requestPart_length (h : HdrIn) (hs : Storable h) :
    (requestPart h.args h.sid).length = 128 + 16 * h.spec.slots.length := by
  unfold requestPart
  rw [List.length_append, List.length_append, List.length_append,
    requestLayout_length _ _ _ hs.sid hs.family, zeros_length, show h.args.spec = h.spec from rfl,
    slotsText_length _ hs.known]
  omega

theorem oset_eq (h : HdrIn) (hs : Storable h) : h.oset = headerEnd h.spec.slots.length := by
  have := hs.few
  unfold HdrIn.oset headerEnd
  rw [Nat.mod_eq_of_lt (show h.spec.slots.length < 2 ^ 32 by omega), Nat.mod_eq_of_lt this]
  omega

/-- The finished word written. -/
def finWord (n : Nat) : U32 := if n = 0 ∨ n = 1 then BitVec.ofNat 32 n else 2#32

theorem fixed_eq (h : HdrIn) : h.fixed =
    fixedLayout (if h.twoway then 131#32 else 3#32) (finWord h.finished) h.next h.nskip h.ndata
      (BitVec.ofNat 64 h.osets.1) (BitVec.ofNat 64 h.osets.2) := rfl

theorem writeHeader_eq (junk : Bytes) (h : HdrIn) (hj : junk.length = 112) (hs : Storable h) :
    writeHeader junk h = (h.fixed ++ requestPart h.args h.sid, true) := by
  obtain ⟨m, h1, _, h3⟩ := encodePreamble_any 112 (Nat.le_refl _) junk false h.args hj hs.family
    (fun s e => by simp only [HdrIn.args, Option.some.injEq] at e; rw [← e]; exact hs.sid)
    (by rcases hs.conf with c | c | c <;> simp [HdrIn.args, c])
    (Or.inr ⟨hs.packets, hs.slots⟩)
  unfold writeHeader
  rw [h1, slotBytes_ok _ hs.known]
  simp only [if_true]
  rw [h3]
  simp only [requestPart, HdrIn.args, List.append_assoc, Option.getD_some]

theorem writeHeader_length (junk : Bytes) (h : HdrIn) (hj : junk.length = 112) (hs : Storable h) :
    (writeHeader junk h).1.length = headerEnd h.spec.slots.length := by
  rw [writeHeader_eq junk h hj hs, List.length_append, requestPart_length h hs, fixed_eq, fixedLayout_length]
  unfold headerEnd; omega

theorem osets_lt (h : HdrIn) (hs : Storable h) : h.osets.1 < 2 ^ 34 ∧ h.osets.2 < 2 ^ 34 := by
  have ho := oset_eq h hs
  have := hs.few
  unfold headerEnd at ho
  have h1 : (h.nskip.toNat * 8) % 2 ^ 32 < 2 ^ 32 := Nat.mod_lt _ (by decide)
  have h2 : (h.ndata.toNat * h.recSize.toNat) % 2 ^ 32 < 2 ^ 32 := Nat.mod_lt _ (by decide)
  unfold HdrIn.osets
  split
  · dsimp only; constructor <;> omega
  · dsimp only; constructor
    · split <;> omega
    · omega

theorem toNat_small (n : Nat) (h : n < 2 ^ 34) : (BitVec.ofNat 64 n).toNat = n := by
  rw [BitVec.toNat_ofNat]; exact Nat.mod_eq_of_lt (by omega)

theorem slotLoop_ok (ss : List Sched.Slot) : ∀ (f pre rest : Bytes), (∀ s ∈ ss, Known s) →
    f = pre ++ slotsText ss ++ rest → slotLoop f pre.length ss.length = some ss := by
  induction ss with
  | nil => intro f pre rest _ _; rfl
  | cons s ss ih =>
    intro f pre rest hk hf
    have h1 := hk s (by simp)
    have hl := slotLayout_length s h1
    have e : f = pre ++ (slotLayout s ++ (slotsText ss ++ rest)) := by
      rw [hf]; simp only [slotsText, List.map_cons, List.flatten_cons, List.append_assoc]
    have hg : get f pre.length 16 = slotLayout s := by
      rw [e, get_append_right _ _ _ _ (Nat.le_refl _), Nat.sub_self, get_zero_append _ _ _ hl.symm]
    have hlen : pre.length + 16 ≤ f.length := by rw [e]; simp only [List.length_append]; omega
    have hr := ih f (pre ++ slotLayout s) rest (fun x hx => hk x (by simp [hx])) (by rw [e]; simp only [List.append_assoc])
    rw [List.length_append, hl] at hr
    rw [List.length_cons, slotLoop, rd_ok _ _ _ hlen, hg]
    simp only [Option.bind_some]
    rw [decodeSlot_ok s h1]
    simp only [Option.bind_some, hr, Option.map_some]

theorem readPreamble_ok (h : HdrIn) (hs : Storable h) (fixed tail : Bytes) (hf : fixed.length = 40) (v : Nat)
    (hv : v = 3 ∨ v = 131) :
    readPreamble (fixed ++ requestPart h.args h.sid ++ tail) v =
      some (some
        { sender := noScope h.sender
          receiver := noScope h.receiver
          confSender := h.twoway || h.confSender
          confReceiver := h.confReceiver
          sid := h.sid
          nslots := BitVec.ofNat 32 h.spec.slots.length
          npackets := h.spec.npackets
          padding := h.spec.padding
          startTime := h.spec.startTime
          lossTimeout := h.spec.lossTimeout
          typeP := h.spec.typeP }) := by
  have hp : preambleAt v = 40 := by rcases hv with h | h <;> subst h <;> rfl
  have hR := requestLayout_length false h.args h.sid hs.sid hs.family
  have hrl := requestPart_length h hs
  have hd := decodePreamble_ok false false h.args h.sid hs.sid hs.family
    (by rcases hs.conf with c | c | c <;> simp [HdrIn.args, c])
  have hg : get (fixed ++ requestPart h.args h.sid ++ tail) 40 112 = requestLayout false h.args h.sid ++ zeros 16 := by
    have e : fixed ++ requestPart h.args h.sid ++ tail =
        fixed ++ ((requestLayout false h.args h.sid ++ zeros 16) ++ (slotsText h.args.spec.slots ++ zeros 16 ++ tail)) := by
      simp only [requestPart, List.append_assoc]
    rw [e, get_append_right _ _ _ _ (by omega), hf, Nat.sub_self, get_zero_append _ _ _ (by
      rw [List.length_append, hR, zeros_length])]
  have hc : decodePreamble false (requestLayout false h.args h.sid ++ zeros 16) false =
      decodePreamble false (requestLayout false h.args h.sid) false :=
    decodePreamble_congr _ _ _ _ (fun o n ho => get_append_left _ _ _ _ (by omega))
  have hb : ∀ x, bare false false x = noScope x := by intro x; cases x <;> rfl
  unfold readPreamble
  rw [if_pos (by omega), hp, rd_ok _ _ _ (by simp only [List.length_append]; omega), hg]
  simp only [Option.bind_some]
  rw [hc, hd]
  simp [HdrIn.args, hb]

theorem nat_tdiv (a b c : Nat) (h : b ≤ a) : ((a : Int) - (b : Int)).tdiv (c : Int) = (((a - b) / c : Nat) : Int) := by
  rw [← Int.ofNat_sub h]; rfl

theorem ofInt_nat (n : Nat) : BitVec.ofInt 32 (n : Int) = BitVec.ofNat 32 n := by
  exact BitVec.ofInt_ofNat 32 n

/-- A file that starts with a header, as `OWPReadDataHeader` sees it. -/
theorem readHeader_fixed (h : HdrIn) (hs : Storable h) (fi ne ns nd : U32) (os od : U64) (tail : Bytes)
    (hos : os.toNat < 2 ^ 63) (hod : od.toNat < 2 ^ 63) (rec : Nat) (hrec : rec = if h.twoway then 50 else 25)
    (f : Bytes) (hf : f = fixedLayout (if h.twoway then 131#32 else 3#32) fi ne ns nd os od ++ requestPart h.args h.sid ++ tail)
    (hfit : od.toNat + rec * nd.toNat ≤ f.length) :
    readHeader f =
      .ok { version := if h.twoway then 131 else 3, recSize := rec, twoway := h.twoway
            finished := finishedType fi.toNat
            pre := some
              { sender := noScope h.sender
                receiver := noScope h.receiver
                confSender := h.twoway || h.confSender
                confReceiver := h.confReceiver
                sid := h.sid
                nslots := BitVec.ofNat 32 h.spec.slots.length
                npackets := h.spec.npackets
                padding := h.spec.padding
                startTime := h.spec.startTime
                lossTimeout := h.spec.lossTimeout
                typeP := h.spec.typeP }
            next := ne, nskip := ns
            ndata := if finishedType fi.toNat = 1 ∧ h.twoway = false then nd
                     else BitVec.ofNat 32 ((f.length - od.toNat) / rec)
            osetSkip := (os.toNat : Int), osetData := (od.toNat : Int) } od.toNat := by
  have h1 := readInitial_fixed (if h.twoway then 131#32 else 3#32) fi ne ns nd os od (requestPart h.args h.sid ++ tail)
    (by cases h.twoway <;> simp) hos hod
  rw [← List.append_assoc, ← hf] at h1
  have h2 := readPreamble_ok h hs (fixedLayout (if h.twoway then 131#32 else 3#32) fi ne ns nd os od) tail
    (fixedLayout_length ..)
  rw [← hf] at h2
  have hr : 0 < rec := by rw [hrec]; split <;> omega
  have hq : nd.toNat ≤ (f.length - od.toNat) / rec := by
    rw [Nat.le_div_iff_mul_le hr, Nat.mul_comm]; omega
  unfold readHeader
  rw [h1]
  dsimp only
  rw [h2 _ (by cases h.twoway <;> simp)]
  dsimp only
  rw [if_neg (by omega)]
  cases ht : h.twoway
  · have hrec' : rec = 25 := by rw [hrec, ht]; rfl
    subst hrec'
    simp only [Bool.false_eq_true, if_false, if_true]
    have e : ((f.length : Int) - (od.toNat : Int)).tdiv ((25 : Nat) : Int) = _ := nat_tdiv f.length od.toNat 25 (by omega)
    rw [e, if_neg (by omega), ofInt_nat]
    congr 1
    simp only [Header.mk.injEq, true_and, and_true]
    refine ⟨rfl, rfl, ?_⟩
    by_cases hx : finishedType fi.toNat = 1
    · simp [hx]
    · simp [hx]
  · have hrec' : rec = 50 := by rw [hrec, ht]; rfl
    subst hrec'
    simp only [if_true]
    have hne : ¬ (131#32 = 3#32) := by decide
    rw [if_neg hne]
    have e : ((f.length : Int) - (od.toNat : Int)).tdiv ((50 : Nat) : Int) = _ := nat_tdiv f.length od.toNat 50 (by omega)
    rw [e, if_neg (by omega), ofInt_nat]
    congr 1
    simp only [Header.mk.injEq, true_and, and_true]
    refine ⟨rfl, rfl, ?_⟩
    simp

theorem readSlots_fixed (h : HdrIn) (hs : Storable h) (fi ne ns nd : U32) (os od : U64) (tail : Bytes)
    (f : Bytes) (hf : f = fixedLayout (if h.twoway then 131#32 else 3#32) fi ne ns nd os od ++ requestPart h.args h.sid ++ tail)
    (hos : os.toNat < 2 ^ 63) (hod : od.toNat < 2 ^ 63)
    (hb : os.toNat = headerEnd h.spec.slots.length ∧ headerEnd h.spec.slots.length ≤ od.toNat ∨
      od.toNat = headerEnd h.spec.slots.length ∧ (os.toNat = 0 ∨ headerEnd h.spec.slots.length ≤ os.toNat)) :
    readSlots f (BitVec.ofNat 32 h.spec.slots.length) = some h.spec.slots := by
  have h1 := readInitial_fixed (if h.twoway then 131#32 else 3#32) fi ne ns nd os od (requestPart h.args h.sid ++ tail)
    (by cases h.twoway <;> simp) hos hod
  rw [← List.append_assoc, ← hf] at h1
  have hfew := hs.few
  have hne := hs.slots
  have hn : (BitVec.ofNat 32 h.spec.slots.length).toNat = h.spec.slots.length := by
    rw [BitVec.toNat_ofNat, Nat.mod_eq_of_lt (by omega)]
  have hsb : ∀ v rs fi' hl, (v = 3 ∨ v = 131) → slotBounds
      { version := v, recSize := rs, finished := fi', next := ne, nskip := ns, ndata := nd, osetSkip := (os.toNat : Int)
        osetData := (od.toNat : Int), hdrLen := hl } = ((headerEnd h.spec.slots.length : Int), 152) := by
    intro v rs fi' hl hv
    unfold slotBounds
    rw [if_neg (by dsimp only; omega)]
    dsimp only
    have hpos : 0 < headerEnd h.spec.slots.length := by unfold headerEnd; omega
    refine Prod.ext ?_ rfl
    dsimp only
    rcases hb with ⟨b1, b2⟩ | ⟨b1, b2 | b2⟩
    · rw [if_neg (by omega)]; omega
    · rw [if_pos (by omega)]; omega
    · rw [if_neg (by omega)]; omega
  unfold readSlots
  rw [h1]
  dsimp only [Option.bind_some]
  rw [if_neg (by cases h.twoway <;> simp), hsb _ _ _ _ (by cases h.twoway <;> simp)]
  dsimp only
  have hby : BitVec.ofInt 32 ((headerEnd h.spec.slots.length : Int) - ((152 : Nat) : Int)) =
      BitVec.ofNat 32 (16 * (h.spec.slots.length + 1)) := by
    have : (headerEnd h.spec.slots.length : Int) - ((152 : Nat) : Int) = ((16 * (h.spec.slots.length + 1) : Nat) : Int) := by
      unfold headerEnd; omega
    rw [this, ofInt_nat]
  have hbn : (BitVec.ofNat 32 (16 * (h.spec.slots.length + 1))).toNat = 16 * (h.spec.slots.length + 1) := by
    rw [BitVec.toNat_ofNat, Nat.mod_eq_of_lt hfew]
  rw [hby, hbn, if_neg (by omega), if_neg (by
    rw [ne_eq, Decidable.not_not]
    apply BitVec.eq_of_toNat_eq
    have e : 16 * (h.spec.slots.length + 1) / 16 = h.spec.slots.length + 1 := by omega
    have e2 : (BitVec.ofNat 32 (h.spec.slots.length + 1)).toNat = h.spec.slots.length + 1 := by
      rw [BitVec.toNat_ofNat]; exact Nat.mod_eq_of_lt (by omega)
    rw [e, BitVec.toNat_sub, hn, e2]
    simp
    omega), hn]
  have hR := requestLayout_length false h.args h.sid hs.sid hs.family
  have hsl := slotsText_length h.spec.slots hs.known
  have ef : f = (fixedLayout (if h.twoway then 131#32 else 3#32) fi ne ns nd os od ++
      (requestLayout false h.args h.sid ++ zeros 16)) ++ slotsText h.spec.slots ++ (zeros 16 ++ tail) := by
    rw [hf]; simp only [requestPart, HdrIn.args, List.append_assoc]
  have hpl : (fixedLayout (if h.twoway then 131#32 else 3#32) fi ne ns nd os od ++
      (requestLayout false h.args h.sid ++ zeros 16)).length = 152 := by
    simp only [List.length_append, fixedLayout_length, hR, zeros_length]
  have hloop := slotLoop_ok h.spec.slots f _ _ hs.known ef
  rw [hpl] at hloop
  rw [hloop]
  have hz : get f (152 + 16 * h.spec.slots.length) 16 = zeros 16 := by
    rw [ef, get_append_right _ _ _ _ (by rw [List.length_append, hpl, hsl]; omega), List.length_append, hpl, hsl, Nat.sub_self,
      get_zero_append _ _ _ (zeros_length 16).symm]
  rw [Option.bind_some, rd_ok _ _ _ (by rw [ef, List.length_append, List.length_append, hpl, hsl, List.length_append, zeros_length]; omega), hz]
  rfl

theorem parseLoop_feed {σ ρ : Type} (len : Nat) (dec : Bytes → Option ρ) (proc : σ → ρ → Int × σ) (enc : ρ → Bytes)
    (rs : List ρ) (hd : ∀ r ∈ rs, (enc r).length = len ∧ dec (enc r) = some r) :
    ∀ (f pre rest : Bytes) (n : Nat) (s : σ), f = pre ++ (rs.map enc).flatten ++ rest → n ≤ rs.length →
      parseLoop len dec proc f pre.length n s = feed proc (rs.take n) s := by
  induction rs with
  | nil =>
    intro f pre rest n s _ hn
    obtain rfl : n = 0 := by simpa using hn
    rfl
  | cons r rs ih =>
    intro f pre rest n s hf hn
    cases n with
    | zero => rfl
    | succ n =>
      obtain ⟨h1, h2⟩ := hd r (by simp)
      have e : f = pre ++ (enc r ++ ((rs.map enc).flatten ++ rest)) := by
        rw [hf]; simp only [List.map_cons, List.flatten_cons, List.append_assoc]
      have hg : get f pre.length len = enc r := by
        rw [e, get_append_right _ _ _ _ (Nat.le_refl _), Nat.sub_self, get_zero_append _ _ _ h1.symm]
      have hl : pre.length + len ≤ f.length := by rw [e]; simp only [List.length_append]; omega
      have hr := fun s' => ih (fun x hx => hd x (by simp [hx])) f (pre ++ enc r) rest n s' (by
        rw [e]; simp only [List.append_assoc]) (by simpa using hn)
      rw [List.length_append, h1] at hr
      rw [parseLoop, rd_ok _ _ _ hl, hg]
      simp only [h2]
      rw [List.take_succ_cons, feed, hr]

/-- More records asked for than there are. -/
theorem parseLoop_short {σ ρ : Type} (len : Nat) (dec : Bytes → Option ρ) (proc : σ → ρ → Int × σ) (enc : ρ → Bytes)
    (rs : List ρ) (hd : ∀ r ∈ rs, (enc r).length = len ∧ dec (enc r) = some r) :
    ∀ (f pre rest : Bytes) (n : Nat) (s : σ), f = pre ++ (rs.map enc).flatten ++ rest → rest.length < len → rs.length < n →
      parseLoop len dec proc f pre.length n s =
        if goesOn proc rs s then (.fatal, (feed proc rs s).2) else feed proc rs s := by
  induction rs with
  | nil =>
    intro f pre rest n s hf hl hn
    obtain ⟨n, rfl⟩ : ∃ m, n = m + 1 := ⟨n - 1, by simp at hn; omega⟩
    rw [parseLoop, rd_none _ _ _ (by rw [hf]; simp; omega)]
    rfl
  | cons r rs ih =>
    intro f pre rest n s hf hrl hn
    obtain ⟨n, rfl⟩ : ∃ m, n = m + 1 := ⟨n - 1, by simp at hn; omega⟩
    obtain ⟨h1, h2⟩ := hd r (by simp)
    have e : f = pre ++ (enc r ++ ((rs.map enc).flatten ++ rest)) := by
      rw [hf]; simp only [List.map_cons, List.flatten_cons, List.append_assoc]
    have hg : get f pre.length len = enc r := by
      rw [e, get_append_right _ _ _ _ (Nat.le_refl _), Nat.sub_self, get_zero_append _ _ _ h1.symm]
    have hl : pre.length + len ≤ f.length := by rw [e]; simp only [List.length_append]; omega
    have hr := fun s' => ih (fun x hx => hd x (by simp [hx])) f (pre ++ enc r) rest n s' (by
      rw [e]; simp only [List.append_assoc]) hrl (by simpa using hn)
    rw [List.length_append, h1] at hr
    rw [parseLoop, rd_ok _ _ _ hl, hg]
    simp only [h2]
    rw [feed, goesOn, hr]
    by_cases hp : (proc s r).1 = 0
    · simp only [hp, if_true, decide_true, Bool.true_and]
    · simp only [hp, if_false, decide_false, Bool.false_and]
      rfl

theorem flatten_map_length {ρ : Type} (enc : ρ → Bytes) (len : Nat) (rs : List ρ) (h : ∀ r ∈ rs, (enc r).length = len) :
    (rs.map enc).flatten.length = len * rs.length := by
  induction rs with
  | nil => simp
  | cons r rs ih =>
    rw [List.map_cons, List.flatten_cons, List.length_append, h r (by simp), ih (fun x hx => h x (by simp [hx])),
      List.length_cons, Nat.mul_add]
    omega

theorem feed_keep {ρ : Type} (rs : List ρ) : ∀ seen, feed keep rs seen = (.ok, seen ++ rs) := by
  induction rs with
  | nil => intro seen; simp [feed]
  | cons r rs ih => intro seen; simp only [feed, keep, if_true]; rw [ih]; simp

/-- What a reader that keeps all records is given: whatever complete records there are, up to `n`. -/
theorem parseLoop_keep {ρ : Type} (len : Nat) (dec : Bytes → Option ρ) (enc : ρ → Bytes) (hlen : 0 < len)
    (rs : List ρ) (hd : ∀ r ∈ rs, (enc r).length = len ∧ dec (enc r) = some r) (f : Bytes) (pos n : Nat) (rest : Bytes)
    (hpre : f.drop pos <+: (rs.map enc).flatten ++ rest) (hrest : rest.length < len) (hpos : pos ≤ f.length)
    (hn : n ≤ (f.length - pos) / len) :
    parseLoop len dec keep f pos n [] = (.ok, rs.take n) ∧ n ≤ rs.length := by
  obtain ⟨t, ht⟩ := hpre
  have hL := flatten_map_length enc len rs (fun r hr => (hd r hr).1)
  have hdl : (f.drop pos).length = f.length - pos := by simp
  have hn' : n * len ≤ f.length - pos := (Nat.le_div_iff_mul_le hlen).1 hn
  have htot : (f.drop pos).length + t.length = len * rs.length + rest.length := by
    have := congrArg List.length ht
    rw [List.length_append, List.length_append, hL] at this; exact this
  have hnr : n ≤ rs.length := by
    apply Nat.le_of_lt_succ
    apply Nat.lt_of_mul_lt_mul_right (a := len)
    rw [Nat.succ_mul, Nat.mul_comm rs.length]
    omega
  refine ⟨?_, hnr⟩
  have hLn := flatten_map_length enc len (rs.take n) (fun r hr => (hd r (List.mem_of_mem_take hr)).1)
  rw [List.length_take, Nat.min_eq_left hnr] at hLn
  -- the first `n` records are a prefix of what is in the file
  have hsplit : (rs.map enc).flatten = ((rs.take n).map enc).flatten ++ ((rs.drop n).map enc).flatten := by
    rw [← List.flatten_append, ← List.map_append, List.take_append_drop]
  have htake : (f.drop pos).take (len * n) = ((rs.take n).map enc).flatten := by
    have h2 : (f.drop pos ++ t).take (len * n) = (f.drop pos).take (len * n) :=
      List.take_append_of_le_length (by rw [hdl, Nat.mul_comm]; exact hn')
    rw [← h2, ht, hsplit, List.append_assoc, List.take_left' hLn]
  have ef : f = f.take pos ++ ((rs.take n).map enc).flatten ++ (f.drop pos).drop (len * n) := by
    rw [List.append_assoc, ← htake, List.take_append_drop, List.take_append_drop]
  have hpl : (f.take pos).length = pos := by simp; omega
  have := parseLoop_feed len dec keep enc (rs.take n) (fun r hr => hd r (List.mem_of_mem_take hr)) f (f.take pos) _ n [] ef
    (by rw [List.length_take]; omega)
  rw [hpl, feed_keep, List.take_take, Nat.min_self] at this
  simpa using this

/-! ## Crashes -/

/-- `P` holds of the file at every crash point. -/
def Safe (P : Bytes → Prop) (f : Bytes) (ws : List Write) : Prop := ∀ i k, P (crashed f ws i k)

theorem safe_nil (P : Bytes → Prop) (f : Bytes) (h : P f) : Safe P f [] := by
  intro i k; simpa [crashed, after] using h

theorem safe_cons (P : Bytes → Prop) (f : Bytes) (w : Write) (ws : List Write)
    (h1 : ∀ k, P (pwrite f w.off (w.bs.take k))) (h2 : Safe P (pwrite f w.off w.bs) ws) : Safe P f (w :: ws) := by
  intro i k
  cases i with
  | zero => exact h1 k
  | succ i => exact h2 i k

theorem safe_append (P : Bytes → Prop) (a b : List Write) : ∀ f, Safe P f a → Safe P (after f a) b → Safe P f (a ++ b) := by
  induction a with
  | nil => intro f _ h; exact h
  | cons w a ih =>
    intro f ha hb
    refine safe_cons P f w (a ++ b) (fun k => ha 0 k) (ih _ (fun i k => ha (i + 1) k) hb)

theorem script_append (a b : List (Bytes → Option (List Write))) : ∀ f wa wb, script a f = some wa →
    script b (after f wa) = some wb → script (a ++ b) f = some (wa ++ wb) := by
  induction a with
  | nil =>
    intro f wa wb ha hb
    simp only [script, Option.some.injEq] at ha
    subst ha; exact hb
  | cons op a ih =>
    intro f wa wb ha hb
    simp only [List.cons_append, script] at ha ⊢
    cases ho : op f with
    | none => rw [ho] at ha; simp at ha
    | some w =>
      rw [ho] at ha
      simp only [Option.bind_some] at ha ⊢
      cases hs : script a (after f w) with
      | none => rw [hs] at ha; simp at ha
      | some w' =>
        rw [hs] at ha
        simp only [Option.map_some, Option.some.injEq] at ha
        subst ha
        rw [ih _ w' wb hs (by rw [← hb]; simp [after])]
        simp

theorem after_append (f : Bytes) (a b : List Write) : after f (a ++ b) = after (after f a) b := by simp [after]

theorem pwrite_partial_end (f bs : Bytes) (k : Nat) : pwrite f f.length (bs.take k) = f ++ bs.take k := pwrite_end _ _

theorem take_le_append (a b : Bytes) (k : Nat) (h : k ≤ a.length) : (a ++ b).take k = a.take k :=
  List.take_append_of_le_length h

/-- Appending records. -/
theorem script_records (rs : List DataRec) (hd : ∀ r ∈ rs, Props.Stamp r.send ∧ Props.Stamp r.recv) : ∀ f,
    ∃ ws, script (rs.map fun r f => writeRecord f r) f = some ws ∧ after f ws = f ++ (rs.map Props.recLayout).flatten ∧
      ∀ P : Bytes → Prop, (∀ k, P (f ++ (rs.map Props.recLayout).flatten.take k)) → Safe P f ws := by
  induction rs with
  | nil =>
    intro f
    refine ⟨[], rfl, by simp [after], ?_⟩
    intro P hP
    exact safe_nil P f (by simpa using hP 0)
  | cons r rs ih =>
    intro f
    obtain ⟨h1, h2⟩ := hd r (by simp)
    obtain ⟨ws, e1, e2, e3⟩ := ih (fun x hx => hd x (by simp [hx])) (f ++ Props.recLayout r)
    have ha : after f [⟨f.length, Props.recLayout r⟩] = f ++ Props.recLayout r := by simp [after, pwrite_end]
    refine ⟨⟨f.length, Props.recLayout r⟩ :: ws, ?_, ?_, ?_⟩
    · simp only [List.map_cons, script, writeRecord, Props.encodeRec_layout r h1 h2, Option.map_some, Option.bind_some]
      rw [ha]
      unfold writeRecord at e1
      rw [e1]; rfl
    · show after (pwrite f f.length _) ws = _
      rw [pwrite_end, e2]; simp
    · intro P hP
      refine safe_cons P f _ ws (fun k => ?_) ?_
      · dsimp only
        rw [pwrite_end]
        have := hP (min k (Props.recLayout r).length)
        rw [List.map_cons, List.flatten_cons, take_le_append _ _ _ (Nat.min_le_right _ _)] at this
        rw [show (Props.recLayout r).take (min k (Props.recLayout r).length) = (Props.recLayout r).take k by
          rw [← List.take_take, List.take_of_length_le (Nat.le_refl _)]] at this
        exact this
      · dsimp only
        rw [pwrite_end]
        apply e3
        intro k
        have := hP ((Props.recLayout r).length + k)
        rw [List.map_cons, List.flatten_cons, List.take_append, List.take_of_length_le (by omega),
          Nat.add_sub_cancel_left, ← List.append_assoc] at this
        exact this

/-- The header is intact as far as there is one, and behind it is a part of `data`. -/
structure Kept (v : U32) (H : Nat) (data f : Bytes) : Prop where
  first : 8 ≤ f.length → get f 0 8 = magic ++ enc32 v
  oset : 40 ≤ f.length → get f 32 8 = enc64 (BitVec.ofNat 64 H)
  body : f.drop H <+: data

theorem kept_inside (v : U32) (H : Nat) (data f bs : Bytes) (off : Nat) (hH : 40 ≤ H) (hf : 40 ≤ f.length)
    (h : Kept v H data f) (h1 : 8 ≤ off) (h2 : off + bs.length ≤ 32) : Kept v H data (pwrite f off bs) := by
  rw [pwrite_inside _ _ _ (by omega)]
  have hl := put_length f bs off (by omega)
  refine ⟨fun _ => ?_, fun _ => ?_, ?_⟩
  · rw [get_put_before _ _ _ _ _ (by omega) (by omega)]; exact h.first (by omega)
  · rw [get_put_after _ _ _ _ _ (by omega) (by omega)]; exact h.oset hf
  · have : (put f off bs).drop H = f.drop H := by
      have e1 := get_put_after f bs off H (f.length - H) (by omega) (by omega)
      have e2 : ∀ x : Bytes, x.length = f.length → get x H (f.length - H) = x.drop H := by
        intro x hx; unfold get; rw [List.take_of_length_le]; simp [hx]
      rw [e2 _ hl, e2 _ rfl] at e1; exact e1
    rw [this]; exact h.body

theorem kept_short (v : U32) (H : Nat) (data hdr : Bytes) (k : Nat) (hH : hdr.length = H) (h40 : 40 ≤ H)
    (h1 : get hdr 0 8 = magic ++ enc32 v) (h2 : get hdr 32 8 = enc64 (BitVec.ofNat 64 H)) :
    Kept v H data (hdr.take k) := by
  have ht : ∀ o n, o + n ≤ (hdr.take k).length → get (hdr.take k) o n = get hdr o n := by
    intro o n h
    rw [List.length_take] at h
    unfold get
    rw [List.drop_take, List.take_take]
    congr 1; omega
  refine ⟨fun hl => ?_, fun hl => ?_, ?_⟩
  · rw [ht _ _ (by omega)]; exact h1
  · rw [ht _ _ (by omega)]; exact h2
  · rw [List.drop_eq_nil_of_le (by rw [List.length_take]; omega)]; exact List.nil_prefix

theorem kept_append (v : U32) (H : Nat) (data hdr x : Bytes) (hH : hdr.length = H) (h40 : 40 ≤ H)
    (h1 : get hdr 0 8 = magic ++ enc32 v) (h2 : get hdr 32 8 = enc64 (BitVec.ofNat 64 H)) (hx : x <+: data) :
    Kept v H data (hdr ++ x) := by
  refine ⟨fun hl => ?_, fun hl => ?_, ?_⟩
  · rw [get_append_left _ _ _ _ (by omega)]; exact h1
  · rw [get_append_left _ _ _ _ (by omega)]; exact h2
  · rw [List.drop_append, List.drop_eq_nil_of_le (by omega), hH, Nat.sub_self, List.nil_append, List.drop_zero]
    exact hx

theorem kept_initial (v : U32) (hv : v = 3#32 ∨ v = 131#32) (H : Nat) (hH : H < 2 ^ 63) (data f : Bytes) (h : Kept v H data f)
    (p : Init) (hp : readInitial f = some p) :
    40 ≤ f.length ∧ p.version = v.toNat ∧ p.recSize = (if v = 3#32 then 25 else 50) ∧ p.hdrLen = (H : Int) := by
  unfold readInitial at hp
  split at hp
  · simp at hp
  rename_i hl
  split at hp
  · simp at hp
  have hf := h.first (by omega)
  have hv4 : get32 f 4 = v := by
    have := get_get f 0 8 4 4 (by omega)
    rw [hf, get_append_right _ _ _ _ (by show 4 ≤ 4; omega)] at this
    rw [show 4 - magic.length = 0 from rfl, get_all _ _ (by simp)] at this
    unfold get32; rw [← this, dec_enc32]
  dsimp only at hp
  rw [hv4, if_neg (by rcases hv with h | h <;> subst h <;> decide), if_neg (by rcases hv with h | h <;> subst h <;> decide),
    if_pos (by rcases hv with h | h <;> subst h <;> decide)] at hp
  by_cases h40 : 8 + 32 ≤ f.length
  · rw [rd_ok _ _ _ h40] at hp
    simp only [Option.map_some, Option.some.injEq] at hp
    subst hp
    refine ⟨h40, rfl, ?_, ?_⟩
    · rcases hv with h | h <;> subst h <;> rfl
    · show offT f 32 = _
      unfold offT
      rw [h.oset (by omega), offT_enc _ (by rw [BitVec.toNat_ofNat]; omega)]
      rw [BitVec.toNat_ofNat, Nat.mod_eq_of_lt (by omega)]
  · rw [rd_none _ _ _ h40] at hp; simp at hp

theorem ofNat32_toNat_le (n : Nat) : (BitVec.ofNat 32 n).toNat ≤ n := by
  rw [BitVec.toNat_ofNat]; exact Nat.mod_le _ _

/-- A header that is accepted announces no more records than there are. -/
theorem kept_header (v : U32) (hv : v = 3#32 ∨ v = 131#32) (H : Nat) (hH : H < 2 ^ 63) (data f : Bytes) (h : Kept v H data f)
    (hd : Header) (pos : Nat) (hr : readHeader f = .ok hd pos) :
    hd.version = v.toNat ∧ pos = H ∧ H ≤ f.length + 50 ∧ hd.ndata.toNat ≤ (f.length - H) / (if v = 3#32 then 25 else 50) := by
  unfold readHeader at hr
  cases hi : readInitial f with
  | none => rw [hi] at hr; simp at hr
  | some p =>
    obtain ⟨_, h2, h3, h4⟩ := kept_initial v hv H hH data f h p hi
    rw [hi] at hr
    dsimp only at hr
    cases hpre : readPreamble f p.version with
    | none => rw [hpre] at hr; simp at hr
    | some pre =>
      rw [hpre] at hr
      dsimp only at hr
      split at hr
      · simp at hr
      split at hr
      · simp at hr
      rename_i hc
      simp only [HdrResult.ok.injEq] at hr
      obtain ⟨rfl, rfl⟩ := hr
      have hrc : ∃ r : Nat, r = (if v = 3#32 then 25 else 50) ∧ (r = 25 ∨ r = 50) := by
        refine ⟨_, rfl, ?_⟩; split <;> simp
      obtain ⟨r, hr1, hr2⟩ := hrc
      rw [← hr1] at h3 ⊢
      rw [h3, h4] at hc
      have hq : (f.length - (H : Int)).tdiv r = (((f.length - H) / r : Nat) : Int) ∧ H ≤ f.length + 50 := by
        by_cases hle : H ≤ f.length
        · exact ⟨nat_tdiv _ _ _ hle, by omega⟩
        · have e : ((f.length : Int) - (H : Int)) = -((H - f.length : Nat) : Int) := by omega
          have hq2 : (-((H - f.length : Nat) : Int)).tdiv r = -(((H - f.length) / r : Nat) : Int) := by
            rw [Int.neg_tdiv]; rfl
          rw [e, hq2] at hc
          rw [e, hq2]
          have hz : (H - f.length) / r = 0 := by
            generalize (H - f.length) / r = q at hc
            omega
          refine ⟨by rw [hz]; simp; rw [Nat.sub_eq_zero_of_le (by omega)]; simp, ?_⟩
          rcases Nat.div_eq_zero_iff.1 hz with h | h <;> rcases hr2 with h' | h' <;> omega
      refine ⟨h2, by simp [h4], hq.2, ?_⟩
      dsimp only
      rw [hq.1] at hc
      split
      · rw [h3, h4, hq.1, ofInt_nat]; exact ofNat32_toNat_le _
      · omega

theorem kept_seen (H : Nat) (hH : H < 2 ^ 63) (rs : List DataRec)
    (hd : ∀ r ∈ rs, Props.Stamp r.send ∧ Props.Stamp r.recv) (rest f : Bytes) (hrest : rest.length < 25)
    (h : Kept 3#32 H ((rs.map Props.recLayout).flatten ++ rest) f) : recordsSeen f <+: rs := by
  unfold recordsSeen
  cases hr : readHeader f with
  | bad b => exact List.nil_prefix
  | ok hdr pos =>
    obtain ⟨e1, e2, _, e4⟩ := kept_header 3#32 (Or.inl rfl) H hH _ f h hdr pos hr
    rw [if_pos rfl] at e4
    subst e2
    dsimp only
    rw [parseRecords, e1, if_neg (by decide), if_pos (by decide)]
    have hk : ∀ r ∈ rs, (Props.recLayout r).length = 25 ∧ decodeDataRec 3 (Props.recLayout r) = some r :=
      fun r hr => (Props.C12_record_partial r (hd r hr).1 (hd r hr).2).2
    by_cases hp : pos ≤ f.length
    · have := parseLoop_keep 25 (decodeDataRec 3) Props.recLayout (by omega) rs hk f pos hdr.ndata.toNat rest h.body hrest hp e4
      rw [show (3#32 : BitVec 32).toNat = 3 from rfl, this.1]
      exact List.take_prefix _ _
    · have : hdr.ndata.toNat = 0 := by
        have : (f.length - pos) = 0 := by omega
        rw [this] at e4; omega
      rw [this]
      exact List.nil_prefix

theorem pwrite_mid (a c c' d : Bytes) (h : c.length = c'.length) (off : Nat) (ho : off = a.length) :
    pwrite (a ++ (c ++ d)) off c' = a ++ (c' ++ d) := by
  subst ho
  rw [pwrite_inside _ _ _ (by simp)]
  unfold put
  rw [List.take_left' rfl, List.drop_append, List.drop_eq_nil_of_le (by omega), List.nil_append, Nat.add_sub_cancel_left,
    ← h, List.drop_left' rfl, List.append_assoc]

section
variable (v fi ne ns nd : U32) (os od : U64) (body : Bytes)

theorem pwrite_fin (a b : U32) : pwrite (fixedLayout v fi ne ns nd os od ++ body) 8 (enc32 a ++ enc32 b) =
    fixedLayout v a b ns nd os od ++ body := by
  have := pwrite_mid (magic ++ enc32 v) (enc32 fi ++ enc32 ne) (enc32 a ++ enc32 b)
    (enc32 ns ++ (enc32 nd ++ (enc64 os ++ (enc64 od ++ body)))) (by simp) 8 (by simp [magic])
  simp only [List.append_assoc, fixedLayout] at this ⊢
  exact this

theorem pwrite_nskip (a : U32) : pwrite (fixedLayout v fi ne ns nd os od ++ body) 16 (enc32 a) =
    fixedLayout v fi ne a nd os od ++ body := by
  have := pwrite_mid (magic ++ enc32 v ++ enc32 fi ++ enc32 ne) (enc32 ns) (enc32 a)
    (enc32 nd ++ (enc64 os ++ (enc64 od ++ body))) (by simp) 16 (by simp [magic])
  simp only [List.append_assoc, fixedLayout] at this ⊢
  exact this

theorem pwrite_ndata (a : U32) : pwrite (fixedLayout v fi ne ns nd os od ++ body) 20 (enc32 a) =
    fixedLayout v fi ne ns a os od ++ body := by
  have := pwrite_mid (magic ++ enc32 v ++ enc32 fi ++ enc32 ne ++ enc32 ns) (enc32 nd) (enc32 a)
    (enc64 os ++ (enc64 od ++ body)) (by simp) 20 (by simp [magic])
  simp only [List.append_assoc, fixedLayout] at this ⊢
  exact this

theorem pwrite_oset (a : U64) : pwrite (fixedLayout v fi ne ns nd os od ++ body) 24 (enc64 a) =
    fixedLayout v fi ne ns nd a od ++ body := by
  have := pwrite_mid (magic ++ enc32 v ++ enc32 fi ++ enc32 ne ++ enc32 ns ++ enc32 nd) (enc64 os) (enc64 a)
    (enc64 od ++ body) (by simp) 24 (by simp [magic])
  simp only [List.append_assoc, fixedLayout] at this ⊢
  exact this

theorem fixed_first : get (fixedLayout v fi ne ns nd os od ++ body) 0 8 = magic ++ enc32 v := by
  have e : fixedLayout v fi ne ns nd os od ++ body = (magic ++ enc32 v) ++
      (enc32 fi ++ enc32 ne ++ enc32 ns ++ enc32 nd ++ enc64 os ++ enc64 od ++ body) := by
    simp only [fixedLayout, List.append_assoc]; rfl
  rw [e, get_zero_append _ _ _ (by simp [magic])]

theorem fixed_oset : get (fixedLayout v fi ne ns nd os od ++ body) 32 8 = enc64 od := by
  have e : fixedLayout v fi ne ns nd os od ++ body = (magic ++ enc32 v ++ enc32 fi ++ enc32 ne ++ enc32 ns ++ enc32 nd ++ enc64 os) ++
      (enc64 od ++ body) := by
    simp only [fixedLayout, List.append_assoc]; rfl
  have hl : (magic ++ enc32 v ++ enc32 fi ++ enc32 ne ++ enc32 ns ++ enc32 nd ++ enc64 os).length = 32 := by simp [magic]
  rw [e, get_append_right _ _ _ _ (by omega), hl, Nat.sub_self, get_zero_append _ _ _ (by simp)]
end

theorem encodeSkip_length (s : Skip) : (encodeSkip s).length = 8 := by
  unfold encodeSkip put32
  rw [put_length _ _ _ (by rw [put_length _ _ _ (by simp)]; simp), put_length _ _ _ (by simp)]; simp

theorem script_one (op : Bytes → Option (List Write)) (ops : List (Bytes → Option (List Write))) (f : Bytes) (w w' : List Write)
    (h1 : op f = some w) (h2 : script ops (after f w) = some w') : script (op :: ops) f = some (w ++ w') := by
  rw [script, h1, Option.bind_some, h2]; rfl

/-- All of a session file's life. -/
theorem life_ok (junk : Bytes) (h : HdrIn) (rs : List DataRec) (status : Nat) (skips : List Skip) (next : U32)
    (hj : junk.length = 112) (hs : Storable h) (hone : h.twoway = false) (hns : h.nskip = 0) (hnd : h.ndata = 0)
    (hd : ∀ r ∈ rs, Props.Stamp r.send ∧ Props.Stamp r.recv) (hst : status ≤ 2) (hrs : 25 * rs.length < 2 ^ 32) :
    ∃ ws, script (life junk h rs status skips next) [] = some ws ∧
      after [] ws = fixedLayout 3 1 next (BitVec.ofNat 32 skips.length) (BitVec.ofNat 32 rs.length)
        (BitVec.ofNat 64 (headerEnd h.spec.slots.length + 25 * rs.length)) (BitVec.ofNat 64 (headerEnd h.spec.slots.length))
        ++ requestPart h.args h.sid ++ (rs.map Props.recLayout).flatten ++ (skips.map encodeSkip).flatten ∧
      Safe (Kept 3#32 (headerEnd h.spec.slots.length) ((rs.map Props.recLayout).flatten ++ (skips.map encodeSkip).flatten)) [] ws := by
  have hHE := oset_eq h hs
  have hfew := hs.few
  have hrl := requestPart_length h hs
  have hrec := flatten_map_length Props.recLayout 25 rs (fun r hr => (Props.C12_record_partial r (hd r hr).1 (hd r hr).2).2.1)
  obtain ⟨H, hH⟩ : ∃ H, H = headerEnd h.spec.slots.length := ⟨_, rfl⟩
  have hH40 : 40 ≤ H := by rw [hH]; unfold headerEnd; omega
  have hHlt : H < 2 ^ 34 := by rw [hH]; unfold headerEnd; omega
  rw [← hH] at hHE ⊢
  have hHn : (BitVec.ofNat 64 H).toNat = H := toNat_small H hHlt
  generalize hRq : requestPart h.args h.sid = req at *
  generalize hDa : (rs.map Props.recLayout).flatten = data at *
  have hreqlen : 40 + req.length = H := by rw [hrl, hH]; unfold headerEnd; omega
  -- the header
  have hos : h.osets = (0, H) := by unfold HdrIn.osets; rw [hns, hnd]; simp [hHE]
  obtain ⟨fi, hfi⟩ : ∃ fi : U32, fi = finWord h.finished := ⟨_, rfl⟩
  have hfix : h.fixed = fixedLayout 3#32 fi h.next 0 0 0 (BitVec.ofNat 64 H) := by
    rw [fixed_eq, hone, hos, hns, hnd, hfi]; rfl
  have hwh := writeHeader_eq junk h hj hs
  rw [hRq, hfix] at hwh
  generalize hF0 : fixedLayout 3#32 fi h.next 0 0 0 (BitVec.ofNat 64 H) ++ req = F0 at hwh
  have hF0l : F0.length = H := by rw [← hF0, List.length_append, fixedLayout_length]; exact hreqlen
  have a1 : get F0 0 8 = magic ++ enc32 3#32 := by rw [← hF0]; exact fixed_first ..
  have a2 : get F0 32 8 = enc64 (BitVec.ofNat 64 H) := by rw [← hF0]; exact fixed_oset ..
  have op1 : openFile junk h [] = some [⟨0, F0⟩] := by unfold openFile; rw [hwh]; rfl
  have af1 : after [] [⟨0, F0⟩] = F0 := pwrite_new F0
  -- the records
  obtain ⟨w2, op2, af2, sf2⟩ := script_records rs hd F0
  rw [hDa] at af2 sf2
  -- status
  have op3 : writeFinished (F0 ++ data) status 0 = some [⟨8, enc32 (BitVec.ofNat 32 status) ++ enc32 0⟩] := if_neg (by omega)
  have af3 : after (F0 ++ data) [⟨8, enc32 (BitVec.ofNat 32 status) ++ enc32 0⟩] =
      fixedLayout 3#32 (BitVec.ofNat 32 status) 0 0 0 0 (BitVec.ofNat 64 H) ++ (req ++ data) := by
    show pwrite _ 8 _ = _
    rw [← hF0, List.append_assoc, pwrite_fin]
  -- count
  have ri : ∀ fi ne ns nd (os : U64) body, os.toNat < 2 ^ 63 →
      readInitial (fixedLayout 3#32 fi ne ns nd os (BitVec.ofNat 64 H) ++ body) = some
        { version := 3, recSize := 25, finished := finishedType fi.toNat, next := ne, nskip := ns, ndata := nd
          osetSkip := (os.toNat : Int), osetData := (H : Int), hdrLen := (H : Int) } := by
    intro fi ne ns nd os body ho
    have := readInitial_fixed 3#32 fi ne ns nd os (BitVec.ofNat 64 H) body (Or.inl rfl) ho (by rw [hHn]; omega)
    rw [hHn] at this
    exact this
  generalize hst' : (BitVec.ofNat 32 status : U32) = st at *
  generalize hn : (BitVec.ofNat 32 rs.length : U32) = n at *
  have hnn : n.toNat = rs.length := by rw [← hn, BitVec.toNat_ofNat, Nat.mod_eq_of_lt (by omega)]
  have op4 : writeNumData (fixedLayout 3#32 st 0 0 0 0 (BitVec.ofNat 64 H) ++ (req ++ data)) n = some [⟨20, enc32 n⟩] := by
    unfold writeNumData
    rw [ri _ _ _ _ _ _ (by decide)]
    simp only [Option.bind_some]
    rw [if_neg (by omega), if_neg (by simp)]
  have af4 : after (fixedLayout 3#32 st 0 0 0 0 (BitVec.ofNat 64 H) ++ (req ++ data)) [⟨20, enc32 n⟩] =
      fixedLayout 3#32 st 0 0 n 0 (BitVec.ofNat 64 H) ++ (req ++ data) := pwrite_ndata ..
  -- skip ranges
  generalize hSk : (skips.map encodeSkip).flatten = sk at *
  have hm : (n.toNat * 25) % 2 ^ 32 = 25 * rs.length := by rw [hnn, Nat.mul_comm, Nat.mod_eq_of_lt hrs]
  have hlen4 : ∀ fi ne ns nd (os : U64), (fixedLayout 3#32 fi ne ns nd os (BitVec.ofNat 64 H) ++ (req ++ data)).length = H + 25 * rs.length := by
    intro fi ne ns nd os
    rw [List.length_append, fixedLayout_length, List.length_append, hrec]; omega
  obtain ⟨w5, op5, af5, sf5⟩ : ∃ w5,
      writeSkips (fixedLayout 3#32 st 0 0 n 0 (BitVec.ofNat 64 H) ++ (req ++ data)) (skips.map encodeSkip) = some w5 ∧
      after (fixedLayout 3#32 st 0 0 n 0 (BitVec.ofNat 64 H) ++ (req ++ data)) w5 =
        fixedLayout 3#32 st 0 0 n 0 (BitVec.ofNat 64 H) ++ (req ++ data ++ sk) ∧
      ∀ P : Bytes → Prop, (∀ k, P (fixedLayout 3#32 st 0 0 n 0 (BitVec.ofNat 64 H) ++ (req ++ data) ++ sk.take k)) →
        Safe P (fixedLayout 3#32 st 0 0 n 0 (BitVec.ofNat 64 H) ++ (req ++ data)) w5 := by
    by_cases hsk : skips.map encodeSkip = []
    · have hsk2 : sk = [] := by rw [← hSk, hsk]; rfl
      refine ⟨[], ?_, by rw [hsk2]; simp [after], ?_⟩
      · unfold writeSkips
        rw [ri _ _ _ _ _ _ (by decide)]
        simp only [Option.bind_some]
        rw [if_pos hsk]
      · intro P hP
        apply safe_nil
        simpa using hP 0
    · refine ⟨[⟨H + 25 * rs.length, sk⟩], ?_, ?_, ?_⟩
      · unfold writeSkips
        rw [ri _ _ _ _ _ _ (by decide)]
        simp only [Option.bind_some]
        rw [if_neg hsk, hm, if_neg (by omega), hSk]
        congr 3
      · show pwrite _ (H + 25 * rs.length) sk = _
        rw [← hlen4 st 0 0 n 0, pwrite_end]; simp only [List.append_assoc]
      · intro P hP
        apply safe_cons
        · intro k
          dsimp only
          rw [← hlen4 st 0 0 n 0, pwrite_end]; exact hP k
        · dsimp only
          rw [← hlen4 st 0 0 n 0, pwrite_end]
          apply safe_nil
          have := hP sk.length
          rwa [List.take_length] at this
  -- number of skip ranges
  generalize hN : (BitVec.ofNat 32 skips.length : U32) = N at *
  have hm2 : (25 * n.toNat) % 2 ^ 32 = 25 * rs.length := by rw [hnn, Nat.mod_eq_of_lt hrs]
  have op6 : writeNumSkip (fixedLayout 3#32 st 0 0 n 0 (BitVec.ofNat 64 H) ++ (req ++ data ++ sk)) N =
      some [⟨16, enc32 N⟩, ⟨24, enc64 (BitVec.ofNat 64 (H + 25 * rs.length))⟩] := by
    unfold writeNumSkip
    rw [ri _ _ _ _ _ _ (by decide)]
    simp only [Option.bind_some]
    rw [if_neg (by omega), if_neg (by simp), hm2]
    have : BitVec.ofInt 64 ((H : Int) + ((25 * rs.length : Nat) : Int)) = BitVec.ofNat 64 (H + 25 * rs.length) := by
      rw [← Int.natCast_add]; exact BitVec.ofInt_ofNat 64 _
    rw [this]
  have af6a : pwrite (fixedLayout 3#32 st 0 0 n 0 (BitVec.ofNat 64 H) ++ (req ++ data ++ sk)) 16 (enc32 N) =
      fixedLayout 3#32 st 0 N n 0 (BitVec.ofNat 64 H) ++ (req ++ data ++ sk) := pwrite_nskip ..
  generalize hO : (BitVec.ofNat 64 (H + 25 * rs.length) : U64) = O at *
  have af6b : pwrite (fixedLayout 3#32 st 0 N n 0 (BitVec.ofNat 64 H) ++ (req ++ data ++ sk)) 24 (enc64 O) =
      fixedLayout 3#32 st 0 N n O (BitVec.ofNat 64 H) ++ (req ++ data ++ sk) := pwrite_oset ..
  have af6 : after (fixedLayout 3#32 st 0 0 n 0 (BitVec.ofNat 64 H) ++ (req ++ data ++ sk)) [⟨16, enc32 N⟩, ⟨24, enc64 O⟩] =
      fixedLayout 3#32 st 0 N n O (BitVec.ofNat 64 H) ++ (req ++ data ++ sk) := by
    show pwrite (pwrite _ 16 _) 24 _ = _
    rw [af6a, af6b]
  have op7 : writeFinished (fixedLayout 3#32 st 0 N n O (BitVec.ofNat 64 H) ++ (req ++ data ++ sk)) 1 next =
      some [⟨8, enc32 1 ++ enc32 next⟩] := rfl
  have af7 : after (fixedLayout 3#32 st 0 N n O (BitVec.ofNat 64 H) ++ (req ++ data ++ sk)) [⟨8, enc32 1 ++ enc32 next⟩] =
      fixedLayout 3#32 1 next N n O (BitVec.ofNat 64 H) ++ (req ++ data ++ sk) := pwrite_fin ..
  -- put together
  have s7 : script [fun f => writeFinished f 1 next] (fixedLayout 3#32 st 0 N n O (BitVec.ofNat 64 H) ++ (req ++ data ++ sk)) =
      some ([⟨8, enc32 1 ++ enc32 next⟩] ++ []) := script_one _ _ _ _ _ op7 rfl
  have s6 := script_one (fun f => writeNumSkip f N) _ _ _ _ op6 (by rw [af6]; exact s7)
  have s5 := script_one (fun f => writeSkips f (skips.map encodeSkip)) _ _ _ _ op5 (by rw [af5]; exact s6)
  have s4 := script_one (fun f => writeNumData f n) _ _ _ _ op4 (by rw [af4]; exact s5)
  have s3 := script_one (fun f => writeFinished f status 0) _ _ _ _ op3 (by rw [af3]; exact s4)
  have s2 := script_append _ _ F0 w2 _ op2 (by rw [af2]; exact s3)
  have s1 := script_one (openFile junk h) _ _ _ _ op1 (by rw [af1]; exact s2)
  refine ⟨[⟨0, F0⟩] ++ (w2 ++ ([⟨8, enc32 st ++ enc32 0⟩] ++ ([⟨20, enc32 n⟩] ++ (w5 ++
    ([⟨16, enc32 N⟩, ⟨24, enc64 O⟩] ++ ([⟨8, enc32 1 ++ enc32 next⟩] ++ [])))))), ?_, ?_, ?_⟩
  · unfold life
    rw [hn, hN]
    simp only [List.append_assoc, List.cons_append, List.nil_append] at s1 ⊢
    exact s1
  · simp only [after_append]
    rw [af1, af2, af3, af4, af5, af6, af7]
    show fixedLayout 3#32 1 next N n O (BitVec.ofNat 64 H) ++ (req ++ data ++ sk) = _
    simp only [List.append_assoc]
    rfl
  · have k0 : ∀ fi ne ns nd (os : U64) x, x <+: data ++ sk →
        Kept 3#32 H (data ++ sk) (fixedLayout 3#32 fi ne ns nd os (BitVec.ofNat 64 H) ++ req ++ x) := by
      intro fi ne ns nd os x hx
      exact kept_append _ _ _ _ _ (by rw [List.length_append, fixedLayout_length]; exact hreqlen) hH40
        (fixed_first ..) (fixed_oset ..) hx
    have k1 : ∀ fi ne ns nd (os : U64), Kept 3#32 H (data ++ sk) (fixedLayout 3#32 fi ne ns nd os (BitVec.ofNat 64 H) ++ (req ++ data)) := by
      intro fi ne ns nd os
      rw [← List.append_assoc]; exact k0 _ _ _ _ _ _ (List.prefix_append _ _)
    have k2 : ∀ fi ne ns nd (os : U64), Kept 3#32 H (data ++ sk) (fixedLayout 3#32 fi ne ns nd os (BitVec.ofNat 64 H) ++ (req ++ data ++ sk)) := by
      intro fi ne ns nd os
      have := k0 fi ne ns nd os _ (List.prefix_refl (data ++ sk))
      simpa only [List.append_assoc] using this
    have l2 : ∀ fi ne ns nd (os : U64) (x : Bytes), 40 ≤ (fixedLayout 3#32 fi ne ns nd os (BitVec.ofNat 64 H) ++ x).length := by
      intro fi ne ns nd os x
      rw [List.length_append, fixedLayout_length]; omega
    have tl : ∀ (b : Bytes) k, (b.take k).length ≤ b.length := by intro b k; rw [List.length_take]; omega
    apply safe_append
    · apply safe_cons
      · intro k
        dsimp only
        rw [show pwrite [] 0 (F0.take k) = F0.take k from pwrite_new _]
        exact kept_short _ _ _ _ _ hF0l hH40 a1 a2
      · dsimp only
        rw [show pwrite [] 0 F0 = F0 from pwrite_new _]
        apply safe_nil
        have := k0 fi h.next 0 0 0 [] List.nil_prefix
        rw [List.append_nil, hF0] at this; exact this
    rw [af1]
    apply safe_append
    · apply sf2
      intro k
      have := k0 fi h.next 0 0 0 (data.take k) ((List.take_prefix _ _).trans (List.prefix_append _ _))
      rw [hF0] at this; exact this
    rw [af2]
    apply safe_append
    · have hk : Kept 3#32 H (data ++ sk) (F0 ++ data) := by
        rw [← hF0, List.append_assoc]; exact k1 ..
      apply safe_cons
      · intro k
        refine kept_inside _ _ _ _ _ _ hH40 (by rw [← hF0, List.append_assoc]; exact l2 ..) hk (by dsimp only; omega) ?_
        have := tl (enc32 st ++ enc32 0) k
        simp only [List.length_append, enc32_length] at this
        dsimp only; omega
      · have := af3
        rw [show after (F0 ++ data) [⟨8, enc32 st ++ enc32 0⟩] = pwrite (F0 ++ data) 8 (enc32 st ++ enc32 0) from rfl] at this
        rw [this]
        exact safe_nil _ _ (k1 ..)
    rw [af3]
    apply safe_append
    · apply safe_cons
      · intro k
        refine kept_inside _ _ _ _ _ _ hH40 (l2 ..) (k1 ..) (by dsimp only; omega) ?_
        have := tl (enc32 n) k
        rw [enc32_length] at this
        dsimp only; omega
      · rw [show pwrite _ 20 (enc32 n) = _ from af4]
        exact safe_nil _ _ (k1 ..)
    rw [af4]
    apply safe_append
    · apply sf5
      intro k
      have := k0 st 0 0 n 0 (data ++ sk.take k) (List.prefix_append_right_inj data |>.2 (List.take_prefix _ _))
      simpa only [List.append_assoc] using this
    rw [af5]
    apply safe_append
    · apply safe_cons
      · intro k
        refine kept_inside _ _ _ _ _ _ hH40 (l2 ..) (k2 ..) (by dsimp only; omega) ?_
        have := tl (enc32 N) k
        rw [enc32_length] at this
        dsimp only; omega
      · rw [show pwrite _ 16 (enc32 N) = _ from af6a]
        apply safe_cons
        · intro k
          refine kept_inside _ _ _ _ _ _ hH40 (l2 ..) (k2 ..) (by dsimp only; omega) ?_
          have := tl (enc64 O) k
          rw [enc64_length] at this
          dsimp only; omega
        · rw [show pwrite _ 24 (enc64 O) = _ from af6b]
          exact safe_nil _ _ (k2 ..)
    rw [af6]
    apply safe_append
    · apply safe_cons
      · intro k
        refine kept_inside _ _ _ _ _ _ hH40 (l2 ..) (k2 ..) (by dsimp only; omega) ?_
        have := tl (enc32 1 ++ enc32 next) k
        simp only [List.length_append, enc32_length] at this
        dsimp only; omega
      · rw [show pwrite _ 8 (enc32 1 ++ enc32 next) = _ from af7]
        exact safe_nil _ _ (k2 ..)
    rw [af7]
    exact safe_nil _ _ (k2 ..)

end Owamp.File
