import Verif.Spec.Hops
import Verif.Props.Receiver
import Verif.Props.TwoWay
import Verif.Props.Reflector
/-!
# C101: the TTL in a record is that of the packet, and every packet sets out with 255
-/
namespace Owamp.Props
open Owamp.Hops Owamp.Sizes Owamp.Spec.Hops

/-! ## What is asked of the socket -/

private theorem setting_last (l : List SockOpt) (o : SockOpt) : setting (l ++ [o]) o.level o.name = some o.value := by
  simp [setting]

private theorem setting_other (l : List SockOpt) (o : SockOpt) (a b : Nat) (h : ¬ (o.level = a ∧ o.name = b)) :
    setting (l ++ [o]) a b = setting l a b := by
  simp [setting, h]

private theorem ask_some {os : Os} {o : SockOpt} {l l' : List SockOpt} (h : ask os o l = some l') : l' = l ++ [o] := by
  unfold ask at h
  split at h
  · exact (Option.some.inj h).symm
  · cases h

private theorem enlarge_keeps {os : Os} {n : Nat} {size : Int} {x : Option Int} {l l' : List SockOpt} (h : enlarge os n size x l = some l')
    (a b : Nat) (ha : a ≠ 1) : setting l' a b = setting l a b := by
  cases x with
  | none => cases h
  | some v =>
    simp only [enlarge] at h
    split at h
    · rw [ask_some h]
      exact setting_other _ _ _ _ (fun e => ha e.1.symm)
    · cases h; rfl

private theorem enlarged {os : Os} {n : Nat} {size : Int} {x : Option Int} {l l' : List SockOpt} (h : enlarge os n size x l = some l') :
    (∃ v, x = some v ∧ size ≤ v ∧ l' = l) ∨ setting l' 1 n = some size := by
  cases x with
  | none => cases h
  | some v =>
    simp only [enlarge] at h
    split at h
    · rw [ask_some h]
      exact Or.inr (setting_last l ⟨1, n, size⟩)
    · cases h; exact Or.inl ⟨v, rfl, by omega, rfl⟩

private theorem class_keeps {os : Os} {af : Family} {typeP : U32} {l l' : List SockOpt} (h : forClass os af typeP l = some l')
    (a b : Nat) (h1 : ¬ (41 = a ∧ 67 = b)) (h2 : ¬ (0 = a ∧ 1 = b)) : setting l' a b = setting l a b := by
  unfold forClass at h
  split at h
  · cases h; rfl
  · cases h
  · split at h
    · rw [ask_some h]; exact setting_other _ _ _ _ h1
    · rw [ask_some h]; exact setting_other _ _ _ _ h2

private theorem receiving_spec {os : Os} {af : Family} {size : Int} {l l' : List SockOpt} (h : forReceiving os af size l = some l') :
    tells l' af ∧ af ≠ .other ∧ ((∃ v, os.rcvbuf = some v ∧ size ≤ v) ∨ setting l' 1 8 = some size) := by
  unfold forReceiving at h
  obtain ⟨l1, h1, h2⟩ := Option.bind_eq_some_iff.1 h
  have hb : (∃ v, os.rcvbuf = some v ∧ size ≤ v) ∨ setting l1 1 8 = some size :=
    (enlarged h1).imp (fun ⟨v, a, b, _⟩ => ⟨v, a, b⟩) id
  cases af with
  | inet =>
    rw [ask_some h2]
    refine ⟨setting_last l1 ⟨0, 12, 1⟩, (fun e => by cases e), hb.imp id fun h => ?_⟩
    rw [setting_other l1 _ _ _ (by decide)]
    exact h
  | inet6 =>
    rw [ask_some h2]
    refine ⟨setting_last l1 ⟨41, 51, 1⟩, (fun e => by cases e), hb.imp id fun h => ?_⟩
    rw [setting_other l1 _ _ _ (by decide)]
    exact h
  | other => cases h2

private theorem sending_spec {os : Os} {af : Family} {size : Int} {typeP : U32} {l l' : List SockOpt} (h : forSending os af size typeP l = some l') :
    ttlSet l' af = some 255 ∧ af ≠ .other ∧ ((∃ v, os.sndbuf = some v ∧ size ≤ v) ∨ setting l' 1 7 = some size) ∧
      (tells l af → tells l' af) ∧ setting l' 1 8 = setting l 1 8 := by
  unfold forSending at h
  obtain ⟨l1, h1, h2⟩ := Option.bind_eq_some_iff.1 h
  obtain ⟨l2, h2, h3⟩ := Option.bind_eq_some_iff.1 h2
  have hb : (∃ v, os.sndbuf = some v ∧ size ≤ v) ∨ setting l1 1 7 = some size :=
    (enlarged h1).imp (fun ⟨v, a, b, _⟩ => ⟨v, a, b⟩) id
  have h8 : setting l1 1 8 = setting l 1 8 := by
    unfold enlarge at h1
    split at h1
    · cases h1
    · split at h1
      · rw [ask_some h1]; exact setting_other _ _ _ _ (by dsimp only; decide)
      · cases h1; rfl
  cases af with
  | inet =>
    have e := ask_some h2
    subst e
    refine ⟨?_, (fun e => by cases e), hb.imp id fun h => ?_, fun ht => ?_, ?_⟩
    · show setting l' 0 2 = some 255
      rw [class_keeps h3 0 2 (by decide) (by decide)]
      exact setting_last l1 ⟨0, 2, 255⟩
    · rw [class_keeps h3 1 7 (by decide) (by decide), setting_other l1 _ _ _ (by decide)]; exact h
    · show setting l' 0 12 = some 1
      rw [class_keeps h3 0 12 (by decide) (by decide), setting_other l1 _ _ _ (by decide), enlarge_keeps h1 _ _ (by decide)]; exact ht
    · rw [class_keeps h3 1 8 (by decide) (by decide), setting_other l1 _ _ _ (by decide)]; exact h8
  | inet6 =>
    have e := ask_some h2
    subst e
    refine ⟨?_, (fun e => by cases e), hb.imp id fun h => ?_, fun ht => ?_, ?_⟩
    · show setting l' 41 16 = some 255
      rw [class_keeps h3 41 16 (by decide) (by decide)]
      exact setting_last l1 ⟨41, 16, 255⟩
    · rw [class_keeps h3 1 7 (by decide) (by decide), setting_other l1 _ _ _ (by decide)]; exact h
    · show setting l' 41 51 = some 1
      rw [class_keeps h3 41 51 (by decide) (by decide), setting_other l1 _ _ _ (by decide), enlarge_keeps h1 _ _ (by decide)]; exact ht
    · rw [class_keeps h3 1 8 (by decide) (by decide), setting_other l1 _ _ _ (by decide)]; exact h8
  | other => cases h2

/-- **C101**, the sockets: if a session is not refused, an endpoint that sends (the one-way sender, both ends of a two-way session) has set the TTL
of its packets to 255, and one that receives has asked for the TTL of what arrives; and its buffers hold a whole packet with its headers, or the program has
asked for that. -/
theorem C101_sockets (os : Os) (twoway send : Bool) (af : Family) (mode padding typeP : U32) (l : List SockOpt)
    (h : prepare os twoway send af mode padding typeP = some l) :
    af ≠ .other ∧ (twoway = true ∨ send = true → ttlSet l af = some 255) ∧ (twoway = true ∨ send = false → tells l af) ∧
      ∃ size, bufferSize twoway af mode padding = some size ∧
        (twoway = true ∨ send = true → (∃ v, os.sndbuf = some v ∧ size ≤ v) ∨ setting l 1 7 = some size) ∧
        (twoway = true ∨ send = false → (∃ v, os.rcvbuf = some v ∧ size ≤ v) ∨ setting l 1 8 = some size) := by
  unfold prepare at h
  obtain ⟨size, hs, h⟩ := Option.bind_eq_some_iff.1 h
  obtain ⟨l1, h1, h2⟩ := Option.bind_eq_some_iff.1 h
  by_cases hr : (twoway || !send) = true
  · rw [if_pos hr] at h1
    obtain ⟨r1, r2, r3⟩ := receiving_spec h1
    by_cases hd : (twoway || send) = true
    · rw [if_pos hd] at h2
      obtain ⟨s1, _, s3, s4, s5⟩ := sending_spec h2
      refine ⟨r2, fun _ => s1, fun _ => s4 r1, size, hs, fun _ => s3, fun _ => ?_⟩
      rw [s5]; exact r3
    · rw [if_neg hd] at h2
      cases h2
      have hd' : ¬ (twoway = true ∨ send = true) := by simpa using hd
      exact ⟨r2, fun x => absurd x hd', fun _ => r1, size, hs, fun x => absurd x hd', fun _ => r3⟩
  · rw [if_neg hr] at h1
    cases h1
    have hr' : ¬ (twoway = true ∨ send = false) := by simpa using hr
    have hd : (twoway || send) = true := by
      cases twoway <;> cases send <;> simp_all
    rw [if_pos hd] at h2
    obtain ⟨s1, s2, s3, _, _⟩ := sending_spec h2
    exact ⟨s2, fun _ => s1, fun x => absurd x hr', size, hs, fun _ => s3, fun x => absurd x hr'⟩

/-! ## What is read from a delivery -/

private theorem beEnc4_take (t : Nat) : (beEnc 4 t).take 4 = beEnc 4 t := by simp [beEnc]

private theorem cint_length (big : Bool) (t : Nat) : (cint big t).length = 4 := by
  unfold cint; split <;> simp [beEnc]

private theorem intByte_cint (big : Bool) (t : Nat) : intByte big (cint big t) = BitVec.ofNat 8 t := by
  have e : beDec (beEnc 4 t) % 256 = t % 256 := by simp [beEnc, beDec]
  have g : BitVec.ofNat 8 (beDec (beEnc 4 t)) = BitVec.ofNat 8 t := by
    apply BitVec.eq_of_toNat_eq
    rw [BitVec.toNat_ofNat, BitVec.toNat_ofNat]
    exact e
  unfold intByte cint
  cases big with
  | true => simpa [beEnc4_take] using g
  | false =>
    have l : ((beEnc 4 t).reverse).take 4 = (beEnc 4 t).reverse := by
      rw [List.take_of_length_le]; simp [beEnc]
    simpa [l] using g

private theorem place_one (w : Nat) (hw : 4 ≤ w) (m : Cmsg) (hm : m.data.length ≤ 4) : place w (ctlRoom w) [m] = ([m], false) := by
  unfold place ctlRoom
  rw [if_neg (by omega), if_neg (by omega)]
  simp [place]

private theorem get8_one (x : Byte) : get8 [x] 0 = x := by
  unfold get8 get beDec
  simp

/-- **C101**, what is told: when the system tells the program the TTL `t` of a datagram, in whichever of the forms, byte orders and word sizes (4 bytes or more),
`recvfromttl` gives the datagram's length (what fits) and `t`. -/
theorem C101_told (big : Bool) (w : Nat) (hw : 4 ≤ w) (af : Family) (l : List SockOpt) (hl : tells l af) (peer bytes : Bytes) (t : Nat) (ht : t < 256)
    (d : Delivery) (hd : Arrives big w af l peer bytes t d) (len : Nat) :
    recvFromTtl big af len (some d) = (((min bytes.length len : Nat) : Int), BitVec.ofNat 8 t) := by
  obtain ⟨_, rfl, ⟨_, m, hm, hp⟩ | ⟨hn, _⟩⟩ := hd
  · have hlen : m.data.length ≤ 4 := by
      cases hm with
      | linux => exact Nat.le_of_eq (cint_length big t)
      | bsd => simp
      | six => exact Nat.le_of_eq (cint_length big t)
    rw [place_one w hw m hlen] at hp
    have h1 : d.ctl = [m] := (congrArg Prod.fst hp).symm
    have h2 : d.cut = false := (congrArg Prod.snd hp).symm
    unfold recvFromTtl
    dsimp only
    rw [h1, h2, if_neg (by simp)]
    cases hm with
    | linux => simp [readTtl, intByte_cint big t]
    | bsd => simp [readTtl, get8_one]
    | six => simp [readTtl, intByte_cint big t]
  · exact absurd hl hn

/-- **C101**, what is not told: without a report, or when the reports did not fit, the TTL is 255 and the datagram is taken all the same. -/
theorem C101_untold (big : Bool) (af : Family) (len : Nat) (d : Delivery) (h : d.ctl = [] ∨ d.cut = true) :
    recvFromTtl big af len (some d) = (((min d.bytes.length len : Nat) : Int), 255) := by
  unfold recvFromTtl
  simp only
  rw [if_pos h]

/-- A piece of ancillary data of another kind than the reports of TTLs of the family. -/
def Foreign (af : Family) (m : Cmsg) : Prop :=
  match af with
  | .inet => ¬ (m.level = 0 ∧ (m.type = 2 ∨ m.type = 12))
  | .inet6 => ¬ (m.level = 41 ∧ m.type = 52)
  | .other => True

/-- **C101**, what is foreign: a datagram that comes with a whole piece of ancillary data of another kind is not taken, whatever else comes with it; the loop
gives its length with a minus sign. -/
theorem C101_foreign (big : Bool) (af : Family) (len : Nat) (d : Delivery) (hc : d.cut = false) (m : Cmsg) (hm : m ∈ d.ctl) (hf : Foreign af m) :
    (recvFromTtl big af len (some d)).1 = -((min d.bytes.length len : Nat) : Int) := by
  have key : ∀ (ms : List Cmsg) (t : Byte), m ∈ ms → (readTtl big af ms t).1 = false := by
    intro ms
    induction ms with
    | nil => intro t h; cases h
    | cons x xs ih =>
      intro t h
      cases af with
      | inet =>
        simp only [readTtl]
        rcases List.mem_cons.1 h with rfl | h
        · have h1 : ¬ (m.level = 0 ∧ m.type = 12) := fun e => hf ⟨e.1, Or.inr e.2⟩
          have h2 : ¬ (m.level = 0 ∧ m.type = 2) := fun e => hf ⟨e.1, Or.inl e.2⟩
          rw [if_neg h1, if_neg h2]
        · split
          · exact ih _ h
          · split
            · exact ih _ h
            · rfl
      | inet6 =>
        simp only [readTtl]
        rcases List.mem_cons.1 h with rfl | h
        · rw [if_neg hf]
        · split
          · exact ih _ h
          · rfl
      | other => rfl
  unfold recvFromTtl
  dsimp only
  rw [if_neg (by rw [hc]; intro h; rcases h with h | h; rw [h] at hm; cases hm; cases h), key d.ctl 255 hm]
  rfl

/-- The loops take a datagram exactly when `recvfromttl` gives the length they expect: what `Recv.Got` says is what the tests of endpoint.c:2325-2329, 2761-2765 see. -/
theorem C101_taken (big : Bool) (af : Family) (len : Nat) (hlen : 0 < len) (i : Bool) (x : Option Delivery) :
    ((got big af len i x).taken len).isSome = decide ((recvFromTtl big af len x).1 = (len : Int)) := by
  cases x with
  | none =>
    have : ¬ ((-1 : Int) = (len : Int)) := by omega
    simp [got, Recv.Got.taken, recvFromTtl, this]
  | some d =>
    have h : (recvFromTtl big af len (some d)).1 = ((min d.bytes.length len : Nat) : Int) ∨
        (recvFromTtl big af len (some d)).1 = -((min d.bytes.length len : Nat) : Int) := by
      unfold recvFromTtl
      dsimp only
      split
      · exact Or.inl rfl
      · split
        · exact Or.inl rfl
        · exact Or.inr rfl
    unfold got
    by_cases hn : (recvFromTtl big af len (some d)).1 < 0
    · simp only [if_pos hn, Recv.Got.taken]
      have : ¬ ((recvFromTtl big af len (some d)).1 = (len : Int)) := by omega
      simp [this]
    · simp only [if_neg hn, Recv.Got.taken]
      by_cases hb : len ≤ d.bytes.length
      · rw [if_pos hb]
        have : (recvFromTtl big af len (some d)).1 = (len : Int) := by omega
        simp [this]
      · rw [if_neg hb]
        have : ¬ ((recvFromTtl big af len (some d)).1 = (len : Int)) := by omega
        simp [this]

/-! ## Records -/

/-- What an endpoint with the socket options `l` meets at one call of `recvfromttl`: nothing (the call fails), or a datagram that left a socket with the options `from'`
with the TTL set there and passed `hops` routers. -/
def Met (big : Bool) (w : Nat) (af : Family) (from' l : List SockOpt) (len : Nat) (g : Recv.Got) (hops : Nat) : Prop :=
  ∃ i x, g = got big af len i x ∧
    ∀ d, x = some d → ∃ (T : Nat) (t : Nat), ttlSet from' af = some (T : Int) ∧ T < 256 ∧ remains T hops = some t ∧ Arrives big w af l d.peer d.bytes t d

theorem met_ttl {big : Bool} {w : Nat} (hw : 4 ≤ w) {af : Family} {from' l : List SockOpt} {len hops : Nat} {g : Recv.Got}
    (hs : ttlSet from' af = some 255) (hl : tells l af) (h : Met big w af from' l len g hops) {peer bytes : Bytes} {ttl : Byte} {i : Bool}
    (hg : g = .dgram peer bytes ttl i) : ttl.toNat + hops = 255 ∧ 0 < ttl.toNat := by
  obtain ⟨j, x, rfl, hx⟩ := h
  cases x with
  | none => simp [got] at hg
  | some d =>
    obtain ⟨T, t, hT, _, hr, ha⟩ := hx d rfl
    have hT' : T = 255 := by
      rw [hs] at hT
      have := Option.some.inj hT
      omega
    subst hT'
    unfold remains at hr
    split at hr
    · have ht : 255 - hops = t := Option.some.inj hr
      have hrc := C101_told big w hw af l hl d.peer d.bytes t (by omega) d ha len
      simp only [got, hrc] at hg
      rw [if_neg (by omega)] at hg
      have e : BitVec.ofNat 8 t = ttl := by injection hg
      have e2 : ttl.toNat = t := by
        rw [← e, BitVec.toNat_ofNat]
        exact Nat.mod_eq_of_lt (by omega)
      omega
    · cases hr

/-- **C101**, one-way: in the results of a session whose two ends are prepared, every record of a packet that arrived carries as TTL what the routers on its way
left of 255, so that 255 less the TTL counts the routers; lost packets carry 255. -/
theorem C101_hops (x : RecvRun) (as : List Recv.Arrival) (h : x.Ok as)
    (oss osr : Os) (af : Family) (mode padding typeP mode' padding' typeP' : U32) (ls lr : List SockOpt)
    (hs : prepare oss false true af mode padding typeP = some ls) (hr : prepare osr false false af mode' padding' typeP' = some lr)
    (big : Bool) (w : Nat) (hw : 4 ≤ w) (hops : Recv.Arrival → Nat) (hm : ∀ a ∈ as, Met big w af ls lr x.c.len a.got (hops a)) :
    ∃ ds, x.Delays ds ∧ ∀ e ∈ (x.after as).entries,
      (Spec.Receiver.isLost e = false → ∃ a ∈ as, Spec.Receiver.Genuine x.c ds a e ∧ e.data.ttl.toNat + hops a = 255 ∧ 0 < e.data.ttl.toNat) ∧
      (Spec.Receiver.isLost e = true → e.data.ttl = 255) := by
  obtain ⟨ds, hd, hg⟩ := C26_only_genuine_partial x as h
  obtain ⟨ds', _, hg'⟩ := C25_scheduled_time x as h
  refine ⟨ds, hd, fun e he => ⟨fun hl => ?_, fun hl => (hg' e he hl).2.2.1⟩⟩
  obtain ⟨a, ha, g⟩ := hg e he hl
  obtain ⟨bytes, ttl, i, r, P, y, d, g1, g2, g3, g4, g5, g6, g7, g8, g9, g10⟩ := id g
  have := met_ttl hw ((C101_sockets _ _ _ _ _ _ _ _ hs).2.1 (Or.inr rfl)) ((C101_sockets _ _ _ _ _ _ _ _ hr).2.2.1 (Or.inr rfl)) (hm a ha) g1
  rw [← g9] at this
  exact ⟨a, ha, g, this⟩

/-- **C101**, two-way, back: in the results of a two-way client every record of a reply carries as TTL of the reply what the routers on the way back left of 255. -/
theorem C101_back (x : TwRun) (ts : List TwoWay.Tick) (e : TwoWay.End) (h : x.Ok ts e)
    (osc oss : Os) (sc ss : Bool) (af : Family) (mode padding typeP mode' padding' typeP' : U32) (lc ls : List SockOpt)
    (hc : prepare osc true sc af mode padding typeP = some lc) (hs : prepare oss true ss af mode' padding' typeP' = some ls)
    (big : Bool) (w : Nat) (hw : 4 ≤ w) (len : TwoWay.Tick → Nat) (hops : TwoWay.Tick → Nat) (hm : ∀ t ∈ ts, Met big w af ls lc (len t) t.got (hops t)) :
    ∀ a ∈ (x.final ts e).entries, Spec.TwoWay.noReply a = false →
      ∃ t ∈ ts, Spec.TwoWay.Genuine x.c t a ∧ a.data.reflected.ttl.toNat + hops t = 255 ∧ 0 < a.data.reflected.ttl.toNat := by
  intro a ha hl
  obtain ⟨t, ht, g⟩ := C69_genuine x ts e h a ha hl
  obtain ⟨peer, bytes, ttl, i, r, P, g1, g2, g3, g4, g5, g6, g7, g8, g9, g10, g11, _⟩ := id g
  have := met_ttl hw ((C101_sockets _ _ _ _ _ _ _ _ hs).2.1 (Or.inl rfl)) ((C101_sockets _ _ _ _ _ _ _ _ hc).2.2.1 (Or.inl rfl)) (hm t ht) g1
  rw [← g11] at this
  exact ⟨t, ht, g, this⟩

/-- **C101**, two-way, out: every reply that left the reflector tells the client (`C71_contents`) as TTL what the routers on the way there left of 255, for the datagram it
answers. -/
theorem C101_out (x : ReflRun) (h : x.Ok) (ps : List Refl.Pass)
    (osc oss : Os) (sc ss : Bool) (af : Family) (mode padding typeP mode' padding' typeP' : U32) (lc ls : List SockOpt)
    (hc : prepare osc true sc af mode padding typeP = some lc) (hs : prepare oss true ss af mode' padding' typeP' = some ls)
    (big : Bool) (w : Nat) (hw : 4 ≤ w) (hops : Refl.Pass → Nat) (hm : ∀ p ∈ ps, Met big w af lc ls x.cfg.len p.got (hops p)) (send : Bool) :
    ∀ y ∈ Spec.Reflector.answers (x.after ps).calls, ∃ p ∈ ps, Spec.Reflector.arrival x.cfg p = some (Spec.Reflector.answered y) ∧
      ∀ rest, ∃ B, Pkt.openReply x.H x.fmt (x.client send) (y.bytes ++ rest) = .plain B ∧
        (Pkt.readReply x.fmt B).ttl.toNat + hops p = 255 ∧ 0 < (Pkt.readReply x.fmt B).ttl.toNat := by
  intro y hy
  have hmem : Spec.Reflector.answered y ∈ ps.filterMap (Spec.Reflector.arrival x.cfg) :=
    (C71_answered x h ps).1.subset (List.mem_map.2 ⟨y, hy, rfl⟩)
  obtain ⟨p, hp, ha⟩ := List.mem_filterMap.1 hmem
  refine ⟨p, hp, ha, fun rest => ?_⟩
  obtain ⟨P, _, _, hrest⟩ := C71_contents x h ps send y (List.mem_of_mem_filter hy)
  obtain ⟨B, err, b1, b2, _⟩ := hrest rest
  refine ⟨B, b1, ?_⟩
  rw [b2]
  unfold Spec.Reflector.arrival at ha
  split at ha
  · rename_i peer bytes ttl i r hgot _
    have e : ttl = y.ttl := congrArg Spec.Reflector.Arrived.ttl (Option.some.inj ha)
    have := met_ttl hw ((C101_sockets _ _ _ _ _ _ _ _ hc).2.1 (Or.inl rfl)) ((C101_sockets _ _ _ _ _ _ _ _ hs).2.2.1 (Or.inl rfl)) (hm p hp) hgot
    rw [e] at this
    exact this
  · cases ha

/-! ## Concrete cases -/

/-- A system whose sockets have buffers of 200000 bytes and take every option. -/
def demoOs : Os := ⟨fun _ => true, some 200000, some 100⟩

/-- Non-vacuity: the ends of an open one-way session with DSCP 46, over IPv4 and IPv6; the send buffer is enlarged. -/
theorem C101_sockets_example :
    prepare demoOs false true .inet 1 0 0x2E000000 = some [⟨1, 7, 170⟩, ⟨0, 2, 255⟩, ⟨0, 1, 184⟩] ∧
    prepare demoOs false false .inet 1 0 0x2E000000 = some [⟨0, 12, 1⟩] ∧
    prepare demoOs true false .inet6 1 0 0 = some [⟨41, 51, 1⟩, ⟨1, 7, 217⟩, ⟨41, 16, 255⟩] ∧
    prepare demoOs false true .inet 1 0 0x80000000 = none ∧
    prepare { demoOs with set := fun o => o.name ≠ 2 } false true .inet 1 0 0 = none := by decide +kernel

/-- A datagram that passed twelve routers. -/
def demoDelivery (bytes : Bytes) : Delivery := ⟨[10, 0, 0, 1], bytes, [⟨0, 2, [243, 0, 0, 0]⟩], false⟩

theorem demo_met (bytes : Bytes) : Met false 8 .inet [⟨1, 7, 170⟩, ⟨0, 2, 255⟩, ⟨0, 1, 184⟩] [⟨0, 12, 1⟩] 14 (got false .inet 14 false (some (demoDelivery bytes))) 12 := by
  refine ⟨false, _, rfl, fun d hd => ?_⟩
  cases hd
  refine ⟨255, 243, by decide, by decide, by decide, rfl, rfl, Or.inl ⟨?_, ⟨0, 2, cint false 243⟩, .linux, ?_⟩⟩
  · show setting [⟨0, 12, 1⟩] 0 12 = some 1
    decide
  · show place 8 (ctlRoom 8) [⟨0, 2, cint false 243⟩] = ([⟨0, 2, [243, 0, 0, 0]⟩], false)
    decide

/-- Non-vacuity of `C101_hops`: the packets of `C24_example`, twelve routers away; the records carry the TTL 243. -/
theorem C101_example :
    (demoRecvRun 100).map (fun x => (x.after ([(1, 0xE6, 102), (2, 0xE7, 104)].map fun p : Byte × Byte × Int =>
        { demoRecvGot [] p.2.2 with got := got false .inet 14 false (some (demoDelivery (demoRecvPkt p.1 p.2.1 1))) } )).entries.map
          fun e => (e.data.seq.toNat, Spec.Receiver.isLost e, e.data.ttl.toNat)) =
      some [(1, false, 243), (0, true, 255), (2, false, 243)] := by decide +kernel

/-- The room for ancillary data is enough for one report; when the system tells something else as well (a time stamp, say), the report behind it is cut off and the TTL in the record
is 255, as if the packet had passed no router. -/
theorem C101_crowded (w : Nat) (hw : w = 4 ∨ w = 8) (big : Bool) (peer bytes : Bytes) (m m' : Cmsg) (h : 0 < m.data.length) :
    recvFromTtl big .inet bytes.length (some ⟨peer, bytes, (place w (ctlRoom w) [m, m']).1, (place w (ctlRoom w) [m, m']).2⟩) = ((bytes.length : Int), 255) := by
  have hc : (place w (ctlRoom w) [m, m']).2 = true := by
    unfold place ctlRoom
    by_cases h1 : (w + 8 + w) < w + 8 + m.data.length
    · rw [if_neg (by omega), if_pos h1]
    · rw [if_neg (by omega), if_neg h1]
      have hd : (m.data.length + w - 1) / w = 1 := by
        rcases hw with rfl | rfl <;> omega
      have : place w (w + 8 + w - (w + 8 + (m.data.length + w - 1) / w * w)) [m'] = ([], true) := by
        rw [hd, Nat.one_mul, Nat.sub_self]
        unfold place
        rw [if_pos (by omega)]
      show (place w _ [m']).2 = true
      rw [this]
  rw [C101_untold _ _ _ _ (Or.inr hc)]
  simp

/-- Non-vacuity of `C101_foreign`: a datagram with another option alone (here of the type of `SO_TIMESTAMP`, 29 of level 1) ends a receiver's session. -/
theorem C101_foreign_example :
    recvFromTtl false .inet 14 (some ⟨[10, 0, 0, 1], List.replicate 14 0, [⟨1, 29, List.replicate 8 0⟩], false⟩) = (-14, 255) ∧
    (demoRecvRun 100).map (fun x => (x.after [{ demoRecvGot [] 102 with
        got := got false .inet 14 false (some ⟨[10, 0, 0, 1], demoRecvPkt 1 0xE6 1, [⟨1, 29, List.replicate 8 0⟩], false⟩) }]).status) =
      some .failed := by decide +kernel

end Owamp.Props
