import Verif.Lemmas.Sender
import Verif.Props.Packet
/-!
# C22, C23: what a sender sends, skips and reports
-/
namespace Owamp.Props
open Owamp.Num64 Owamp.Time Owamp.Pkt Owamp.Ctl Owamp.Codec Owamp.Spec Owamp.Spec.Sender Owamp.Sender

/-! ## C22 -/

/-- **C22** (partial: a session of at least one packet; see `C22_zero_packets`). Whatever the clock, the signals and the
network do, when the sender finishes with next sequence number `n`, every packet below `n` was either handed to the network exactly
once, not before its scheduled time and not later than the loss timeout after it, or is in exactly one skip range; nothing from `n` on
was handed over or skipped. The schedule context may have been used before. -/
theorem C22_accounted_partial (c : Cfg) (sid : Bytes) (slots : List Sched.Slot) (c0 : Sched.Ctx)
    (hc : Sched.create sid ⟨c.npackets, slots⟩ = some c0) (ops : List Sched.Op) (hn : c.npackets ≠ 0)
    (hst : 0 ≤ c.start.sub ∧ c.start.sub < 1000000000) (buf : Bytes) (stamp : TimeStamp)
    (ts : List Tick) (hclk : GoodClock ts) :
    ∃ ds, Delays c.E sid slots 0 0 ds ∧ ds.length = c.npackets.toNat ∧
      let s := run c (init c (Sched.run c.E c0 ops) buf stamp) ts
      s.phase = .finish →
        s.i ≤ c.npackets.toNat ∧
        (∀ k, k < s.i → Accounted (due c.start ds) (nanos c.timeout.toNat) s.calls s.skips k) ∧
        (∀ k, s.i ≤ k → handed k s.calls = [] ∧ s.skips.filter (covers k) = []) := by
  obtain ⟨ds, h1, h2, h3⟩ := C06_schedule c.E sid _ c0 hc
  refine ⟨ds, h3, h2, ?_⟩
  intro s hf
  have h := run_inv c ds hst h2 ts _ hclk (init_inv c sid slots c0 hc ops hn hst buf stamp ds h1 h2)
  change Inv c ds s at h
  exact ⟨h.le, h.before, fun k hk => ⟨h.after (by rw [hf]; decide) k hk, uncovered _ _ _ h.bound hk⟩⟩

/-- Signals are the only thing that stops the loop early. -/
private theorem full_step (c : Cfg) (s : St) (t : Tick) (h1 : t.stop1 = false) (h2 : t.stop2 = false)
    (h : s.phase = .linger ∨ s.phase = .finish → c.npackets.toNat ≤ s.i) :
    (step c s t).phase = .linger ∨ (step c s t).phase = .finish → c.npackets.toNat ≤ (step c s t).i := by
  have hadv : ∀ s : St, (advance c s).phase = .linger ∨ (advance c s).phase = .finish → c.npackets.toNat ≤ (advance c s).i := by
    intro s
    simp only [advance]
    split
    · intro hh
      simp only [prep] at hh
      split at hh <;> simp at hh
    · rename_i hh; intro _; simp only at hh ⊢; omega
  unfold step
  cases hp : s.phase with
  | finish => simp only; intro _; exact h (Or.inr hp)
  | dead => simp only; rw [hp]; intro hh; simp at hh
  | linger =>
    have := h (Or.inl hp)
    simp only [lingerTurn, h1, Bool.false_eq_true, if_false]
    cases t.clock with
    | none => simp
    | some r =>
      simp only
      split
      · exact fun _ => this
      · split
        · exact fun _ => this
        · split
          · exact fun _ => this
          · simp
  | sending =>
    simp only [turn, h1, Bool.false_eq_true, if_false]
    cases t.clock with
    | none => simp
    | some r =>
      simp only
      split
      · split
        · exact hadv _
        · simp only [transmit, h2, Bool.false_eq_true, if_false]
          split
          · simp
          · cases t.send <;> simp only
            · exact hadv _
            · rw [hp]; simp
            · simp
            · exact hadv _
      · split
        · rw [hp]; simp
        · simp

/-- **C22.** A sender that no signal interrupts deals with every packet of the session before it finishes. -/
theorem C22_uninterrupted (c : Cfg) (sid : Bytes) (slots : List Sched.Slot) (c0 : Sched.Ctx)
    (hc : Sched.create sid ⟨c.npackets, slots⟩ = some c0) (ops : List Sched.Op) (hn : c.npackets ≠ 0)
    (hst : 0 ≤ c.start.sub ∧ c.start.sub < 1000000000) (buf : Bytes) (stamp : TimeStamp)
    (ts : List Tick) (hclk : GoodClock ts) (hsig : ∀ t ∈ ts, t.stop1 = false ∧ t.stop2 = false) :
    let s := run c (init c (Sched.run c.E c0 ops) buf stamp) ts
    s.phase = .finish → s.i = c.npackets.toNat := by
  intro s hf
  obtain ⟨ds, h1, h2, h3⟩ := C06_schedule c.E sid _ c0 hc
  have hle := (run_inv c ds hst h2 ts _ hclk (init_inv c sid slots c0 hc ops hn hst buf stamp ds h1 h2)).le
  have key : ∀ (ts : List Tick) (s : St), (∀ t ∈ ts, t.stop1 = false ∧ t.stop2 = false) →
      (s.phase = .linger ∨ s.phase = .finish → c.npackets.toNat ≤ s.i) →
      ((run c s ts).phase = .linger ∨ (run c s ts).phase = .finish → c.npackets.toNat ≤ (run c s ts).i) := by
    intro ts
    induction ts with
    | nil => intro s _ h; exact h
    | cons t ts ih =>
      intro s hs h
      exact ih (step c s t) (fun t' ht' => hs t' (by simp [ht'])) (full_step c s t (hs t (by simp)).1 (hs t (by simp)).2 h)
  refine Nat.le_antisymm hle (key ts _ hsig ?_ (Or.inr hf))
  intro hh
  simp only [init, C06_reset_restores c.E sid _ c0 hc ops, prep] at hh
  simp only [if_true] at hh
  split at hh <;> simp at hh

/-! ### A concrete sender -/

def demoSendMac : Mac := ⟨fun _ _ => List.replicate 20 0, fun _ _ => by simp⟩

/-- Open mode, no padding, three packets one second apart from second 100 on, loss timeout two seconds. -/
def demoSend (n : U32) : Cfg :=
  { H := demoSendMac, E := fun _ _ => List.replicate 16 0x20, fmt := .clear, ep := {}, start := ⟨100, 0⟩
    timeout := 0x200000000, enddelay := ⟨0, 0⟩, npackets := n, pad := fun _ => [] }

def demoSlots : List Sched.Slot := [.literal 0x100000000]
def demoAt (sec sub : Int) : Tick := ⟨false, some ⟨⟨sec, sub⟩, 1, true⟩, false, .ok, true, false⟩
def demoRunSend (n : U32) (ts : List Tick) : Option St :=
  (Sched.create [] ⟨n, demoSlots⟩).map fun c0 => run (demoSend n) (init (demoSend n) c0 (zeros 14) ⟨0, false, 0, 0⟩) ts

/-- Non-vacuity: the clock shows 100 s (wait), 101.5 s (packet 0 goes out), then jumps to 104.9 s: packets 1 (due 102) is skipped,
packet 2 (due 103) still goes out; the run then lingers and finishes. -/
theorem C22_example :
    (demoRunSend 3 [demoAt 100 0, demoAt 101 500000000, { demoAt 104 900000000 with send := .nobufs }, demoAt 104 900000000,
        demoAt 104 900000000, demoAt 200 0]).map (fun s => (s.phase, s.i, s.calls.map fun x => (x.seq, x.res), s.skips)) =
      some (.finish, 3, [(0, .ok), (2, .ok)], [⟨1, 1⟩]) := by decide +kernel

/-- **C22** fails for a session of no packets: the loop body runs before its condition is tested, so packet 0 is sent, and
reported as sent. Its time is the start plus the number 3, the error code of the exhausted schedule. -/
theorem C22_zero_packets :
    (demoRunSend 0 [demoAt 100 1, demoAt 200 0]).map (fun s => (s.phase, s.i, s.calls.map fun x => (x.seq, x.time, x.res))) =
      some (.finish, 1, [(0, ⟨100, 1⟩, .ok)]) := by decide +kernel

/-! ## C23 -/

private theorem inv_all (c : Cfg) (sid : Bytes) (slots : List Sched.Slot) (c0 : Sched.Ctx)
    (hc : Sched.create sid ⟨c.npackets, slots⟩ = some c0) (ops : List Sched.Op) (hn : c.npackets ≠ 0)
    (hst : 0 ≤ c.start.sub ∧ c.start.sub < 1000000000) (buf : Bytes) (stamp : TimeStamp)
    (ts : List Tick) (hclk : GoodClock ts) :
    ∃ ds, Inv c ds (run c (init c (Sched.run c.E c0 ops) buf stamp) ts) := by
  obtain ⟨ds, h1, h2, h3⟩ := C06_schedule c.E sid _ c0 hc
  exact ⟨ds, run_inv c ds hst h2 ts _ hclk (init_inv c sid slots c0 hc ops hn hst buf stamp ds h1 h2)⟩

/-- No list of ranges with the same packets is shorter than a canonical one. -/
theorem canonical_shortest (l m : List Skip) (hl : Canonical l) (h : SameSet l m) : l.length ≤ m.length := by
  have key : ∀ (l m : List Skip), Canonical l → (∀ r ∈ l, ∃ x ∈ m, covers r.first.toNat x = true) →
      (∀ r ∈ l, ∀ x ∈ m, covers (r.last.toNat + 1) x = false) → l.length ≤ m.length := by
    intro l
    induction l with
    | nil => intro m _ _ _; simp
    | cons r l ih =>
      intro m hc h1 h2
      obtain ⟨hne, hp⟩ := hc
      rw [List.pairwise_cons] at hp
      have hm := ih (m.filter fun x => !covers r.first.toNat x) ⟨fun r' hr' => hne r' (by simp [hr']), hp.2⟩ ?_ ?_
      · obtain ⟨x, hx, hcx⟩ := h1 r (by simp)
        have hlt : (m.filter fun x => !covers r.first.toNat x).length < m.length := by
          rcases Nat.lt_or_ge (m.filter fun x => !covers r.first.toNat x).length m.length with hh | hh
          · exact hh
          · have heq := List.Sublist.eq_of_length_le List.filter_sublist hh
            rw [List.filter_eq_self] at heq
            have := heq x hx
            simp [hcx] at this
        simp only [List.length_cons]; omega
      · intro r' hr'
        obtain ⟨x, hx, hcx⟩ := h1 r' (by simp [hr'])
        refine ⟨x, ?_, hcx⟩
        rw [List.mem_filter]
        refine ⟨hx, ?_⟩
        rcases hcov : covers r.first.toNat x with _ | _
        · rfl
        · exfalso
          have g := h2 r (by simp) x hx
          have a := hne r (by simp)
          have b := hp.1 r' hr'
          rw [covers_iff] at hcx hcov
          have : covers (r.last.toNat + 1) x = true := by rw [covers_iff]; omega
          rw [this] at g; cases g
      · intro r' hr' x hx
        exact h2 r' (by simp [hr']) x (List.mem_filter.1 hx).1
  refine key l m hl ?_ ?_
  · intro r hr
    exact (h r.first.toNat).1 ⟨r, hr, by rw [covers_iff]; have := hl.1 r hr; omega⟩
  · intro r hr x hx
    rcases hcov : covers (r.last.toNat + 1) x with _ | _
    · rfl
    · exfalso
      obtain ⟨r', hr', hc'⟩ := (h (r.last.toNat + 1)).2 ⟨x, hx, hcov⟩
      rw [covers_iff] at hc'
      -- `r'` starts after `r.last + 1` or ends before `r`
      have hpos : r' = r ∨ r'.last.toNat + 1 < r.first.toNat ∨ r.last.toNat + 1 < r'.first.toNat := by
        have hp := hl.2
        clear h hx hcov hc'
        have : ∀ (l : List Skip), l.Pairwise (fun a b => a.last.toNat + 1 < b.first.toNat) → r ∈ l → r' ∈ l →
            r' = r ∨ r'.last.toNat + 1 < r.first.toNat ∨ r.last.toNat + 1 < r'.first.toNat := by
          intro l
          induction l with
          | nil => intro _ h; simp at h
          | cons a l ih =>
            intro hp h1 h2
            rw [List.pairwise_cons] at hp
            rcases List.mem_cons.1 h1 with e1 | e1 <;> rcases List.mem_cons.1 h2 with e2 | e2
            · exact Or.inl (e2.trans e1.symm)
            · subst e1; exact Or.inr (Or.inr (hp.1 r' e2))
            · subst e2; exact Or.inr (Or.inl (hp.1 r e1))
            · exact ih hp.2 e1 e2
        exact this l hp hr hr'
      have := hl.1 r hr
      rcases hpos with h | h | h
      · subst h; omega
      · omega
      · omega

/-- **C23.** At every moment the skip list is canonical: no empty range, ascending, no two ranges adjacent or overlapping. It is the
shortest list of ranges with its packets. -/
theorem C23_canonical (c : Cfg) (sid : Bytes) (slots : List Sched.Slot) (c0 : Sched.Ctx)
    (hc : Sched.create sid ⟨c.npackets, slots⟩ = some c0) (ops : List Sched.Op) (hn : c.npackets ≠ 0)
    (hst : 0 ≤ c.start.sub ∧ c.start.sub < 1000000000) (buf : Bytes) (stamp : TimeStamp)
    (ts : List Tick) (hclk : GoodClock ts) :
    let s := run c (init c (Sched.run c.E c0 ops) buf stamp) ts
    Canonical s.skips ∧ ∀ m, SameSet s.skips m → s.skips.length ≤ m.length := by
  intro s
  obtain ⟨ds, h⟩ := inv_all c sid slots c0 hc ops hn hst buf stamp ts hclk
  exact ⟨h.canon, fun m hm => canonical_shortest _ _ h.canon hm⟩

private theorem encodeSkip_eq (x : Skip) : encodeSkip x = Stop.rangeBytes x := by
  rw [eq_pieces (encodeSkip x) [4, 4] (by unfold encodeSkip; simp (disch := blen) only [put32, put_length]; simp)]
  unfold Stop.rangeBytes encodeSkip
  simp only [pieces, List.append_nil]
  rw [show get (put32 (put32 (zeros 8) 0 x.first) 4 x.last) 0 4 = enc32 x.first by fields]
  rw [show get (put32 (put32 (zeros 8) 0 x.first) 4 x.last) (0 + 4) 4 = enc32 x.last by fields]

private theorem canonical_count : ∀ (l : List Skip) (lo n : Nat), Canonical l → (∀ r ∈ l, lo ≤ r.first.toNat) →
    (∀ r ∈ l, r.last.toNat < n) → lo ≤ n → l.length ≤ n - lo := by
  intro l
  induction l with
  | nil => intro lo n _ _ _ _; simp
  | cons r l ih =>
    intro lo n hc hlo hn hle
    obtain ⟨h1, h2⟩ := hc
    rw [List.pairwise_cons] at h2
    have a := h1 r (by simp)
    have b := hn r (by simp)
    have d := hlo r (by simp)
    have := ih (r.last.toNat + 1) n ⟨fun x hx => h1 x (by simp [hx]), h2.2⟩
      (fun x hx => Nat.le_of_lt (h2.1 x hx)) (fun x hx => hn x (by simp [hx])) (by omega)
    simp only [List.length_cons]; omega

/-- **C23.** What a sender that finishes writes for its parent is exactly the stored form of a well-formed account: the next
sequence number, the number of ranges (which fits its 32 bit field), the ranges, each below the next sequence number. Killed by SIGINT, or
when a write fails, it exits with failure. -/
theorem C23_reported (c : Cfg) (sid : Bytes) (slots : List Sched.Slot) (c0 : Sched.Ctx)
    (hc : Sched.create sid ⟨c.npackets, slots⟩ = some c0) (ops : List Sched.Op) (hn : c.npackets ≠ 0)
    (hst : 0 ≤ c.start.sub ∧ c.start.sub < 1000000000) (buf : Bytes) (stamp : TimeStamp)
    (ts : List Tick) (hclk : GoodClock ts) (int ok : Bool) :
    let s := run c (init c (Sched.run c.E c0 ops) buf stamp) ts
    let a : Stop.Account := ⟨BitVec.ofNat 32 s.i, s.skips⟩
    finish s int ok = (if int = false ∧ ok = true then some (Stop.skipFile a) else none) ∧
    Stop.wellFormed a ∧ a.next.toNat = s.i ∧ (BitVec.ofNat 32 a.skips.length).toNat = a.skips.length := by
  intro s a
  obtain ⟨ds, h⟩ := inv_all c sid slots c0 hc ops hn hst buf stamp ts hclk
  change Inv c ds s at h
  have hlt : s.i < 2 ^ 32 := Nat.lt_of_le_of_lt h.le c.npackets.isLt
  have hi : (BitVec.ofNat 32 s.i).toNat = s.i := toNat_ofNat32 _ hlt
  have hcnt := canonical_count s.skips 0 s.i h.canon (fun _ _ => Nat.zero_le _) h.bound (Nat.zero_le _)
  refine ⟨?_, ⟨?_, ?_⟩, hi, toNat_ofNat32 _ (Nat.lt_of_le_of_lt hcnt (by omega))⟩
  · have : s.skips.map encodeSkip = s.skips.map Stop.rangeBytes := by
      apply List.map_congr_left
      intro x _
      exact encodeSkip_eq x
    unfold finish Stop.skipFile
    rw [this]
    cases int <;> cases ok <;> rfl
  · intro r hr
    have := h.canon.1 r hr
    have := h.bound r hr
    simp only [a, hi]
    exact ⟨by omega, by omega⟩
  · exact h.canon.2.imp (fun hab => by omega)

/-- Non-vacuity: packets 0, 1 and 3 are skipped, 2 is sent; two ranges. -/
theorem C23_example :
    (demoRunSend 4 [demoAt 104 500000000, demoAt 104 500000000, { demoAt 104 600000000 with send := .other },
        demoAt 107 0, demoAt 200 0]).map (fun s => (s.phase, s.i, s.calls.map fun x => (x.seq, x.res), s.skips)) =
      some (.finish, 4, [(2, .other)], [⟨0, 1⟩, ⟨3, 3⟩]) ∧
    (demoRunSend 4 [demoAt 104 500000000, demoAt 104 500000000, { demoAt 104 600000000 with send := .other },
        demoAt 107 0, demoAt 200 0]).bind (fun s => finish s false true) =
      some ([0, 0, 0, 4] ++ [0, 0, 0, 2] ++ [0, 0, 0, 0, 0, 0, 0, 1] ++ [0, 0, 0, 3, 0, 0, 0, 3]) := by
  constructor <;> decide +kernel

/-! ## C28: the packets of a whole run -/

/-- A call whose packet the holder of keys `e'` opens, finding the packet's number and the time it was sent. -/
def Understood (c : Cfg) (e' : Ep) (x : Call) : Prop :=
  ∃ P, openPacket c.H c.fmt e' x.bytes = .plain P ∧ seqOf P = BitVec.ofNat 32 x.seq ∧
    timeOf c.fmt P = BitVec.ofNat 64 (ofTimespec x.time + 2208988800 * 2 ^ 32)

private theorem stamped_time (old : TimeStamp) (tv : TimeParts) (e l : Nat) :
    (timespecToTimestamp old tv (some e) (some l)).owptime = BitVec.ofNat 64 (ofTimespec tv + 2208988800 * 2 ^ 32) := by
  have h : BitVec.ofNat 64 (add (ofTimespec tv) (ulongToNum64 jan1970)) = BitVec.ofNat 64 (ofTimespec tv + 2208988800 * 2 ^ 32) := by
    apply BitVec.eq_of_toNat_eq
    simp only [BitVec.toNat_ofNat, add, u64]
    rw [Nat.mod_mod]
    rfl
  simp only [timespecToTimestamp]
  rw [← h]
  split
  · split <;> rfl
  · rfl

/-- **C28.** Over a whole run, whatever the clock, the signals and the network do, and although the payload buffer is reused
from packet to packet and for retries: every packet handed to the network has the session's size and is understood by the receiver, with
its own sequence number and the clock reading at which it was sent (counted from 1900, 2208988800 seconds before 1970). -/
theorem C28_sender_run (c : Cfg) (m : U32) (hf : fmtOW m = some c.fmt) (server server' : Bool)
    (aes hmac sid : Bytes) (hh : hmac.length = 32) (he : c.ep = initKeys m false server true aes hmac sid) (n : Nat)
    (hpad : ∀ i, (c.pad i).length = n) (ctx : Sched.Ctx) (stamp : TimeStamp) (ts : List Tick) :
    ∀ x ∈ (run c (init c ctx (zeros (payloadSize c.fmt n)) stamp) ts).calls,
      x.bytes.length = payloadSize c.fmt n ∧ Understood c (initKeys m false server' false aes hmac sid) x := by
  have hadv : ∀ s : St, (advance c s).calls = s.calls ∧ (advance c s).buf = s.buf := by
    intro s
    simp only [advance]
    split
    · simp only [prep]; split <;> exact ⟨rfl, rfl⟩
    · exact ⟨rfl, rfl⟩
  suffices h : ∀ s : St, s.buf.length = payloadSize c.fmt n →
      (∀ x ∈ s.calls, x.bytes.length = payloadSize c.fmt n ∧ Understood c (initKeys m false server' false aes hmac sid) x) →
      ∀ x ∈ (run c s ts).calls,
        x.bytes.length = payloadSize c.fmt n ∧ Understood c (initKeys m false server' false aes hmac sid) x by
    apply h
    · simp only [init, prep]
      split
      · split <;> simp
      · simp
    · simp only [init, prep]
      split
      · split <;> simp
      · simp
  induction ts with
  | nil => intro s _ h; exact h
  | cons t ts ih =>
    intro s hb h
    have key : (step c s t).buf.length = payloadSize c.fmt n ∧ ∀ x ∈ (step c s t).calls,
        x.bytes.length = payloadSize c.fmt n ∧ Understood c (initKeys m false server' false aes hmac sid) x := by
      unfold step
      cases hp : s.phase with
      | finish => exact ⟨hb, h⟩
      | dead => exact ⟨hb, h⟩
      | linger =>
        simp only [lingerTurn]
        split
        · exact ⟨hb, h⟩
        · cases t.clock with
          | none => exact ⟨hb, h⟩
          | some r =>
            simp only
            split
            · exact ⟨hb, h⟩
            · split
              · exact ⟨hb, h⟩
              · split <;> exact ⟨hb, h⟩
      | sending =>
        simp only [turn]
        split
        · exact ⟨hb, h⟩
        · cases t.clock with
          | none => exact ⟨hb, h⟩
          | some r =>
            simp only
            split
            · split
              · rw [(hadv _).1, (hadv _).2]; exact ⟨hb, h⟩
              · obtain ⟨pkt, P, h1, h2, h3, h4, h5, _⟩ := C28_oneway_understood c.H m c.fmt hf server server' aes hmac sid hh
                  s.buf (c.pad s.i) (by rw [hb, hpad]) (BitVec.ofNat 32 s.i)
                  { timespecToTimestamp s.stamp r.time (some r.err) (some s.last) with sync := r.sync }
                rw [hpad] at h2
                have hnew : ∀ x ∈ s.calls ++ [⟨s.i, r.time, pkt, t.send⟩], x.bytes.length = payloadSize c.fmt n ∧
                    Understood c (initKeys m false server' false aes hmac sid) x := by
                  intro x hx
                  rcases List.mem_append.1 hx with hx | hx
                  · exact h x hx
                  · simp at hx; subst hx
                    refine ⟨h2, P, h3, h4, ?_⟩
                    rw [h5]
                    exact stamped_time s.stamp r.time r.err s.last
                simp only [transmit, he, h1]
                split
                · exact ⟨h2, h⟩
                · cases hsnd : t.send <;> rw [hsnd] at hnew
                  · simp only; rw [(hadv _).1, (hadv _).2]; exact ⟨h2, hnew⟩
                  · exact ⟨h2, hnew⟩
                  · exact ⟨h2, hnew⟩
                  · simp only; rw [(hadv _).1, (hadv _).2]; exact ⟨h2, hnew⟩
            · split <;> exact ⟨hb, h⟩
    exact ih (step c s t) key.1 key.2

/-- Non-vacuity: `demoSend` is the open-mode sender of these hypotheses, and `C22_example` has it hand over two packets. -/
example : fmtOW 1 = some (demoSend 3).fmt ∧ (demoSend 3).ep = initKeys 1 false true true [] [] [] ∧
    (∀ i, ((demoSend 3).pad i).length = 0) := ⟨by decide, by decide, fun _ => rfl⟩

end Owamp.Props
