import Verif.Lemmas.Packet
import Verif.Lemmas.Receiver
import Verif.Spec.Reflector
/-!
# Lemmas about the reflector
-/
namespace Owamp.Refl
open Owamp.Num64 Owamp.Time Owamp.Pkt Owamp.Ctl Owamp.Spec.Reflector
open Owamp.Spec.Receiver (stampOf)
open Owamp.Recv (Got Sig)

theorem reflect_length {H : Mac} {f : Fmt} {e : Ep} {buf : Bytes} {len : Nat} {i : U32} {rcv now : TimeStamp} {ttl : Byte} {r : Bytes}
    (h : reflect H f e buf len i rcv now ttl = some r) : r.length ≤ max len (twPayloadSize f 0) := by
  unfold reflect at h
  cases f with
  | clear => simp only [Option.some.injEq] at h; rw [← h]; exact get_length_le _ _ _
  | auth =>
    obtain ⟨c, _, h⟩ := Option.map_eq_some_iff.1 h
    rw [← h]; exact get_length_le _ _ _
  | enc =>
    obtain ⟨c, _, h⟩ := Option.bind_eq_some_iff.1 h
    obtain ⟨c', _, h⟩ := Option.map_eq_some_iff.1 h
    rw [← h]; exact get_length_le _ _ _

theorem replyStamp_time (r : Sender.Reading) (s : St) : (replyStamp r s).owptime = stampOf r.time := by
  unfold replyStamp
  simp only
  split
  · exact Recv.stamp_owptime _ _ _ _
  · exact Recv.stamp_owptime _ _ _ _

/-- How a reply was made. -/
def Made (c : Cfg) (size : Nat) (y : Call) : Prop :=
  ∃ P spare rcv now, openPacket c.H c.fmt c.ep y.packet = .plain P ∧ y.packet.length = c.len ∧ spare.length = size - c.len ∧
    reflect c.H c.fmt c.ep (P ++ spare) c.len (BitVec.ofNat 32 y.num) rcv now y.ttl = some y.bytes ∧
    rcv.owptime = stampOf y.came ∧ now.owptime = stampOf y.time ∧ y.num < 2 ^ 31

/-- What the attempts to reply add. -/
structure Adds (c : Cfg) (buf recvd packet : Bytes) (ttl : Byte) (came : TimeParts) (dest : Bytes) (s s' : St) (new : List Call) : Prop where
  calls : s'.calls = s.calls ++ new
  same : ∀ y ∈ new, y.num = s.i ∧ y.recvd = recvd ∧ y.packet = packet ∧ y.ttl = ttl ∧ y.came = came ∧ y.dest = dest ∧
    ∃ now, reflect c.H c.fmt c.ep buf c.len (BitVec.ofNat 32 s.i) s.rstamp now ttl = some y.bytes ∧ now.owptime = stampOf y.time
  one : ∀ a y b, new = a ++ y :: b → answers a = []
  le : (answers new).length ≤ 1
  next : s'.phase = .running → s'.i = s.i + 1 ∧ s'.i < 2 ^ 31 ∧ (answers new).length = 1
  buf : s'.buf = s.buf ∨ ∃ bytes : Bytes, s'.buf = bytes ++ buf.drop bytes.length ∧
    bytes.length ≤ max c.len (twPayloadSize c.fmt 0)

theorem answers_append (a b : List Call) : answers (a ++ b) = answers a ++ answers b := List.filter_append ..

theorem reply_adds (c : Cfg) (buf recvd packet : Bytes) (ttl : Byte) (came : TimeParts) (dest : Bytes) (ts : List Try) :
    ∀ s, s.phase = .running → ∃ new, Adds c buf recvd packet ttl came dest s (reply c buf recvd packet ttl came dest ts s) new := by
  induction ts with
  | nil =>
    intro s _
    exact ⟨[], ⟨by simp [reply], by simp, fun a y b h => by simp at h, by simp [answers], fun h => by simp [reply] at h, .inl rfl⟩⟩
  | cons t ts ih =>
    intro s hs
    have none' : ∀ s', s'.calls = s.calls → s'.phase ≠ .running → (s'.buf = s.buf ∨ ∃ bytes : Bytes, s'.buf = bytes ++ buf.drop bytes.length ∧
        bytes.length ≤ max c.len (twPayloadSize c.fmt 0)) → ∃ new, Adds c buf recvd packet ttl came dest s s' new := fun s' h1 h2 h3 =>
      ⟨[], ⟨by rw [h1, List.append_nil], by simp, fun a y b h => by simp at h, by simp [answers], fun h => (h2 h).elim, h3⟩⟩
    rw [reply]
    cases hclk : t.clock with
    | none => exact none' _ rfl (by simp) (.inl rfl)
    | some r =>
      simp only
      cases hr : reflect c.H c.fmt c.ep buf c.len (BitVec.ofNat 32 s.i) s.rstamp (replyStamp r s) ttl with
      | none => exact none' _ rfl (by simp) (.inl rfl)
      | some bytes =>
        simp only
        have hb : ∃ b : Bytes, bytes ++ buf.drop bytes.length = b ++ buf.drop b.length ∧ b.length ≤ max c.len (twPayloadSize c.fmt 0) :=
          ⟨bytes, rfl, reflect_length hr⟩
        split
        · exact none' _ rfl (by simp) (.inr hb)
        · have hy : (⟨s.i, recvd, packet, ttl, came, dest, r.time, bytes, t.send⟩ : Call).num = s.i := rfl
          have hnow : ∃ now, reflect c.H c.fmt c.ep buf c.len (BitVec.ofNat 32 s.i) s.rstamp now ttl = some bytes ∧ now.owptime = stampOf r.time :=
            ⟨_, hr, replyStamp_time r s⟩
          have single : ∀ s', s'.calls = s.calls ++ [⟨s.i, recvd, packet, ttl, came, dest, r.time, bytes, t.send⟩] → t.send ≠ .nobufs →
              (s'.phase = .running → s'.i = s.i + 1 ∧ s'.i < 2 ^ 31) → s'.buf = bytes ++ buf.drop bytes.length →
              ∃ new, Adds c buf recvd packet ttl came dest s s' new := by
            intro s' h1 h2 h3 h4
            refine ⟨_, ⟨h1, ?_, ?_, ?_, ?_, .inr ⟨bytes, h4, reflect_length hr⟩⟩⟩
            · intro y hy
              rw [List.mem_singleton] at hy
              subst hy
              exact ⟨rfl, rfl, rfl, rfl, rfl, rfl, hnow⟩
            · intro a y b h
              cases a with
              | nil => rfl
              | cons x a => simp at h
            · simp [answers, h2]
            · intro hp
              exact ⟨(h3 hp).1, (h3 hp).2, by simp [answers, h2]⟩
          cases hsend : t.send with
          | nobufs =>
            simp only
            obtain ⟨new, A⟩ := ih { s with stamp := replyStamp r s, last := r.err, buf := bytes ++ buf.drop bytes.length,
                                           calls := s.calls ++ [⟨s.i, recvd, packet, ttl, came, dest, r.time, bytes, .nobufs⟩] } hs
            obtain ⟨a1, a2, a3, a4, a5, a6⟩ := A
            refine ⟨⟨s.i, recvd, packet, ttl, came, dest, r.time, bytes, .nobufs⟩ :: new, ⟨?_, ?_, ?_, ?_, ?_, ?_⟩⟩
            · rw [a1]; simp
            · intro y hy
              rcases List.mem_cons.1 hy with rfl | hy
              · exact ⟨rfl, rfl, rfl, rfl, rfl, rfl, hnow⟩
              · exact a2 y hy
            · intro a y b h
              cases a with
              | nil => rfl
              | cons x a =>
                simp only [List.cons_append, List.cons.injEq] at h
                have := a3 a y b h.2
                rw [← h.1]
                simpa [answers] using this
            · simpa [answers] using a4
            · intro hp
              obtain ⟨b1, b2, b3⟩ := a5 hp
              exact ⟨b1, b2, by simpa [answers] using b3⟩
            · rcases a6 with a6 | a6
              · exact .inr ⟨bytes, a6, reflect_length hr⟩
              · exact .inr a6
          | fatal =>
            rw [hsend] at single
            exact single _ rfl (by simp) (by simp) rfl
          | ok =>
            rw [hsend] at single
            simp only
            unfold count
            split
            · exact single _ rfl (by simp) (fun _ => ⟨rfl, by assumption⟩) rfl
            · exact single _ rfl (by simp) (by simp) rfl
          | intr =>
            rw [hsend] at single
            simp only
            unfold count
            split
            · exact single _ rfl (by simp) (fun _ => ⟨rfl, by assumption⟩) rfl
            · exact single _ rfl (by simp) (by simp) rfl
          | other =>
            rw [hsend] at single
            simp only
            unfold count
            split
            · exact single _ rfl (by simp) (fun _ => ⟨rfl, by assumption⟩) rfl
            · exact single _ rfl (by simp) (by simp) rfl

/-- The attempts to reply end with a reply that left. -/
theorem reply_goes (c : Cfg) (buf recvd packet : Bytes) (ttl : Byte) (came : TimeParts) (dest : Bytes) (ts : List Try)
    (hr : ∀ i rcv now, (reflect c.H c.fmt c.ep buf c.len i rcv now ttl).isSome) (hg : GoesThrough ts) :
    ∀ s, ∃ pre y, (reply c buf recvd packet ttl came dest ts s).calls = s.calls ++ pre ++ [y] ∧ answers [y] = [y] ∧ answered y = ⟨dest, recvd, ttl, came⟩ ∧
      y.packet = packet ∧ answers pre = [] ∧
      ((reply c buf recvd packet ttl came dest ts s).phase = s.phase ∨ (reply c buf recvd packet ttl came dest ts s).phase = .undef) := by
  obtain ⟨pre, t, post, rfl, h1, h2, h3, h4⟩ := hg
  induction pre with
  | nil =>
    intro s
    obtain ⟨r, hc⟩ := Option.isSome_iff_exists.1 h4
    obtain ⟨bytes, hb⟩ := Option.isSome_iff_exists.1 (hr (BitVec.ofNat 32 s.i) s.rstamp (replyStamp r s))
    have hph : ∀ s : St, (count s).calls = s.calls ∧ ((count s).phase = s.phase ∨ (count s).phase = .undef) := by
      intro s; unfold count; split
      · exact ⟨rfl, .inl rfl⟩
      · exact ⟨rfl, .inr rfl⟩
    refine ⟨[], ⟨s.i, recvd, packet, ttl, came, dest, r.time, bytes, t.send⟩, ?_⟩
    rw [List.nil_append, reply, hc]
    simp only
    rw [hb]
    simp only
    rw [h3, if_neg (by decide)]
    have hne : t.send ≠ .nobufs := by rcases h2 with h | h | h <;> rw [h] <;> decide
    have ha : answers [(⟨s.i, recvd, packet, ttl, came, dest, r.time, bytes, t.send⟩ : Call)] =
        [⟨s.i, recvd, packet, ttl, came, dest, r.time, bytes, t.send⟩] := by simp [answers, hne]
    rw [List.append_nil]
    have key := hph { s with stamp := replyStamp r s, last := r.err, buf := bytes ++ buf.drop bytes.length,
                             calls := s.calls ++ [⟨s.i, recvd, packet, ttl, came, dest, r.time, bytes, t.send⟩] }
    rcases h2 with h | h | h <;> rw [h] at ha key ⊢ <;> exact ⟨key.1, ha, rfl, trivial, rfl, key.2⟩
  | cons x pre ih =>
    intro s
    obtain ⟨x1, x2, x3⟩ := h1 x (by simp)
    obtain ⟨r, hc⟩ := Option.isSome_iff_exists.1 x3
    obtain ⟨bytes, hb⟩ := Option.isSome_iff_exists.1 (hr (BitVec.ofNat 32 s.i) s.rstamp (replyStamp r s))
    rw [List.cons_append, reply, hc]
    simp only
    rw [hb]
    simp only
    rw [x2, if_neg (by decide), x1]
    simp only
    obtain ⟨p, y, g1, g2, g3, g4, g5, g6⟩ := ih (fun z hz => h1 z (List.mem_cons_of_mem _ hz))
      { s with stamp := replyStamp r s, last := r.err, buf := bytes ++ buf.drop bytes.length,
               calls := s.calls ++ [⟨s.i, recvd, packet, ttl, came, dest, r.time, bytes, .nobufs⟩] }
    refine ⟨⟨s.i, recvd, packet, ttl, came, dest, r.time, bytes, .nobufs⟩ :: p, y, ?_, g2, g3, g4, ?_, g6⟩
    · rw [g1]; simp
    · simpa [answers] using g5

/-- What is true of a reflector that has seen the datagrams `A`; `full` is that none of them was too short. -/
structure Inv (c : Cfg) (size : Nat) (full : Prop) (A : List Arrived) (s : St) : Prop where
  buf : s.buf.length = size
  src : ((answers s.calls).map answered).Sublist A
  num : ∀ a y b, s.calls = a ++ y :: b → y.num = (answers a).length
  made : ∀ y ∈ s.calls, y.dest = c.remote ∧ Made c size y ∧ (y.recvd.length = c.len → y.packet = y.recvd) ∧ (full → y.recvd.length = c.len)
  cnt : s.phase = .running → s.i = (answers s.calls).length ∧ s.i < 2 ^ 31

variable {c : Cfg} {size : Nat} {full : Prop} {A : List Arrived} {s : St}

theorem Inv.skip (h : Inv c size full A s) (B : List Arrived) (s' : St) (h1 : s'.calls = s.calls) (h2 : s'.buf.length = size)
    (h3 : s'.phase = .running → s.phase = .running ∧ s'.i = s.i) : Inv c size full (A ++ B) s' := by
  refine ⟨h2, ?_, ?_, ?_, ?_⟩
  · rw [h1]; exact h.src.trans (List.sublist_append_left _ _)
  · rw [h1]; exact h.num
  · rw [h1]; exact h.made
  · intro hp
    obtain ⟨p1, p2⟩ := h3 hp
    rw [h1, p2]; exact h.cnt p1

theorem Inv.adds (h : Inv c size full A s) (hs : s.phase = .running) {buf recvd packet dest : Bytes} {ttl : Byte} {came : TimeParts} {s' : St} {new : List Call}
    (ha : Adds c buf recvd packet ttl came dest s s' new) (hsize : max c.len (twPayloadSize c.fmt 0) ≤ size) (hbuf : buf.length = size)
    (hd : dest = c.remote) (hst : s.rstamp.owptime = stampOf came) {P spare : Bytes} (hP : openPacket c.H c.fmt c.ep packet = .plain P)
    (hl : packet.length = c.len) (hsp : spare.length = size - c.len) (he : buf = P ++ spare)
    (hrec : recvd.length = c.len → packet = recvd) (hfull : full → recvd.length = c.len) :
    Inv c size full (A ++ [⟨dest, recvd, ttl, came⟩]) s' := by
  obtain ⟨a1, a2, a3, a4, a5, a6⟩ := ha
  obtain ⟨c1, c2⟩ := h.cnt hs
  refine ⟨?_, ?_, ?_, ?_, ?_⟩
  · rcases a6 with a6 | ⟨bytes, a6, a7⟩
    · rw [a6]; exact h.buf
    · rw [a6, List.length_append, List.length_drop, hbuf]; omega
  · rw [a1, answers_append, List.map_append]
    refine h.src.append ?_
    generalize hn : answers new = z at *
    cases z with
    | nil => simp
    | cons y z =>
      have : z = [] := by
        cases z with
        | nil => rfl
        | cons => simp at a4
      subst this
      have hm : y ∈ new := by
        have : y ∈ answers new := by rw [hn]; simp
        exact (List.mem_filter.1 this).1
      obtain ⟨_, b2, _, b4, b5, b6, _⟩ := a2 y hm
      have : answered y = ⟨dest, recvd, ttl, came⟩ := by rw [answered, b2, b4, b5, b6]
      simp [this]
  · intro a y b hab
    rw [a1] at hab
    rcases List.append_eq_append_iff.1 hab with ⟨l, h1, h2⟩ | ⟨l, h1, h2⟩
    · have hy : y ∈ new := by rw [h2]; simp
      rw [(a2 y hy).1, c1, h1, answers_append, a3 l y b h2, List.append_nil]
    · cases l with
      | nil =>
        simp only [List.nil_append] at h2
        have hy : y ∈ new := by rw [← h2]; simp
        rw [(a2 y hy).1, c1, h1, List.append_nil]
      | cons x l =>
        simp only [List.cons_append, List.cons.injEq] at h2
        obtain ⟨h2, -⟩ := h2
        subst h2
        exact h.num a y l h1
  · intro y hy
    rw [a1] at hy
    rcases List.mem_append.1 hy with hy | hy
    · exact h.made y hy
    · obtain ⟨b1, b2, b3, b4, b5, b6, now, b7, b8⟩ := a2 y hy
      refine ⟨b6.trans hd, ⟨P, spare, s.rstamp, now, by rw [b3]; exact hP, by rw [b3]; exact hl, hsp, ?_, by rw [b5]; exact hst, b8, by rw [b1]; exact c2⟩, ?_, ?_⟩
      · rw [b1, b4, ← he]; exact b7
      · rw [b2, b3]; exact hrec
      · rw [b2]; exact hfull
  · intro hp
    obtain ⟨b1, b2, b3⟩ := a5 hp
    refine ⟨?_, b2⟩
    rw [a1, answers_append, List.length_append, b3, b1, c1]

theorem fill_length (c : Cfg) (got : Got) (buf : Bytes) (h : c.len ≤ buf.length) : (fill c got buf).2.length = buf.length := by
  cases got with
  | fail => rfl
  | dgram peer bytes ttl e =>
    simp only [fill, List.length_append, List.length_take, List.length_drop]
    omega

/-- One pass. `full` implies that the pass brings no datagram that is too short together with `EINTR`. -/
theorem step_inv (h : Inv c size full A s) (n : Nat) (hl : c.len = payloadSize c.fmt n) (hsize : size = c.len + (twPayloadSize c.fmt 0 - payloadSize c.fmt 0))
    (p : Pass) (hfull : full → ¬ Short c p) : Inv c size full (A ++ (arrival c p).toList) (step c s p) := by
  have hpl : payloadSize c.fmt n = payloadSize c.fmt 0 + n := by cases c.fmt <;> simp only [payloadSize]
  have htw : payloadSize c.fmt 0 < twPayloadSize c.fmt 0 := by cases c.fmt <;> decide
  have hmax : max c.len (twPayloadSize c.fmt 0) ≤ size := by omega
  by_cases hs : s.phase = .running
  · unfold step
    rw [hs]
    simp only
    have skip : ∀ s', s'.calls = s.calls → s'.buf.length = size → (s'.phase = .running → s'.i = s.i) →
        Inv c size full (A ++ (arrival c p).toList) s' := fun s' h1 h2 h3 => h.skip _ s' h1 h2 fun hp => ⟨hs, h3 hp⟩
    have skip' : ∀ s', s'.calls = s.calls → s'.buf.length = size → s'.phase ≠ .running → Inv c size full (A ++ (arrival c p).toList) s' :=
      fun s' h1 h2 h3 => skip s' h1 h2 fun hp => (h3 hp).elim
    have hfl : (fill c p.got s.buf).2.length = size := by rw [fill_length _ _ _ (by rw [h.buf]; omega)]; exact h.buf
    split
    · exact skip' _ rfl h.buf (by simp)
    · cases hs1 : p.sig1 with
      | int => exact skip' _ rfl h.buf (by simp [Sig.then])
      | usr2 => exact skip' _ rfl h.buf (by simp [Sig.then])
      | none =>
        simp only [Sig.then]
        split
        · exact skip' _ rfl h.buf (by simp)
        · rename_i hwh
          cases hs2 : p.sig2 with
          | int => exact skip' _ rfl hfl (by simp)
          | usr2 => exact skip' _ rfl hfl (by simp)
          | none =>
            simp only
            cases hclk : p.clock with
            | none => exact skip' _ rfl hfl (by simp)
            | some r =>
              simp only
              split
              · exact skip' _ rfl hfl (by simp)
              · cases hs3 : p.sig3 with
                | int => exact skip' _ rfl hfl (by simp)
                | usr2 => exact skip' _ rfl hfl (by simp)
                | none =>
                  simp only
                  cases hs4 : p.sig4 with
                  | int => exact skip' _ rfl hfl (by simp)
                  | usr2 => exact skip' _ rfl hfl (by simp)
                  | none =>
                    simp only
                    cases hgot : p.got with
                    | fail e => rw [hgot] at hfl; exact skip _ rfl hfl (fun _ => rfl)
                    | dgram peer bytes ttl e =>
                      rw [hgot] at hfl hwh
                      have harr : arrival c p = some ⟨peer, bytes.take c.len, ttl, r.time⟩ := by rw [arrival, hgot, hclk]
                      simp only [fill] at hfl ⊢
                      generalize hB : bytes.take c.len ++ s.buf.drop (bytes.take c.len).length = B at *
                      unfold examine
                      split
                      · exact skip _ rfl hfl (fun _ => rfl)
                      · rename_i hpeer
                        have hpeer : peer = c.remote := Decidable.of_not_not hpeer
                        simp only
                        cases hop : openPacket c.H c.fmt c.ep (B.take c.len) with
                        | wrongKey => exact skip' _ rfl hfl (by simp)
                        | badDigest =>
                          refine skip _ rfl ?_ (fun _ => rfl)
                          simp only [List.length_take, List.length_append]
                          omega
                        | plain P =>
                          simp only
                          have hbl : (B.take c.len).length = c.len := by rw [List.length_take]; omega
                          have hPl := openPacket_length _ _ _ _ _ n (hbl.trans hl) hop
                          obtain ⟨new, ha⟩ := reply_adds c (P ++ B.drop c.len) (bytes.take c.len) (B.take c.len) ttl r.time peer p.tries
                            { s with buf := B, rstamp := timespecToTimestamp s.rstamp r.time (some r.err) (some s.rlast), rlast := r.err } hs
                          rw [harr]
                          have h' : Inv c size full A
                            { s with buf := B, rstamp := timespecToTimestamp s.rstamp r.time (some r.err) (some s.rlast), rlast := r.err } :=
                            ⟨hfl, h.src, h.num, h.made, h.cnt⟩
                          refine h'.adds hs ha hmax ?_ hpeer (Recv.stamp_owptime _ _ _ _) hop hbl (by rw [List.length_drop, hfl]) rfl ?_ ?_
                          · rw [List.length_append, List.length_drop, hPl, hbl, hfl]; omega
                          · intro hw
                            rw [← hB]
                            exact List.take_left' hw
                          · intro hf
                            have := hfull hf
                            rw [List.length_take]
                            rcases Nat.lt_or_ge bytes.length c.len with hlt | hge
                            · exfalso
                              apply this
                              refine ⟨peer, bytes, ttl, ?_, hlt⟩
                              simp only [whole, Got.eintr, List.length_take] at hwh
                              have : ¬ min c.len bytes.length = c.len := by omega
                              simp only [this, decide_false, Bool.not_false, Bool.true_and, Bool.not_eq_true'] at hwh
                              rw [hgot]
                              cases e with
                              | true => rfl
                              | false => exact (hwh rfl).elim
                            · omega
  · have : step c s p = s := by unfold step; cases hp : s.phase <;> first | rfl | exact (hs hp).elim
    rw [this]
    exact h.skip _ s rfl h.buf fun hp => (hs hp).elim

theorem run_inv (n : Nat) (hl : c.len = payloadSize c.fmt n) (hsize : size = c.len + (twPayloadSize c.fmt 0 - payloadSize c.fmt 0)) (ps : List Pass) :
    ∀ A s, Inv c size full A s → (∀ p ∈ ps, full → ¬ Short c p) → Inv c size full (A ++ ps.filterMap (arrival c)) (run c s ps) := by
  induction ps with
  | nil => intro A s h _; simpa [run] using h
  | cons p ps ih =>
    intro A s h hp
    have := ih _ _ (step_inv h n hl hsize p (hp p (by simp))) (fun q hq => hp q (by simp [hq]))
    have e : A ++ (p :: ps).filterMap (arrival c) = A ++ (arrival c p).toList ++ ps.filterMap (arrival c) := by
      rw [List.filterMap_cons, List.append_assoc]
      cases arrival c p <;> rfl
    rw [e]
    exact this

theorem init_inv (buf : Bytes) (rstamp stamp : TimeStamp) : Inv c buf.length full [] (init buf rstamp stamp) :=
  ⟨rfl, by simp [init, answers], fun a y b h => by simp [init] at h, fun y hy => by simp [init] at hy, fun _ => ⟨rfl, by show 0 < 2 ^ 31; decide⟩⟩

theorem reply_undef (c : Cfg) (buf recvd packet : Bytes) (ttl : Byte) (came : TimeParts) (dest : Bytes) (ts : List Try) :
    ∀ s, s.phase = .running → (reply c buf recvd packet ttl came dest ts s).phase = .undef →
      2 ^ 31 ≤ s.i + 1 ∧ (answers (reply c buf recvd packet ttl came dest ts s).calls).length = (answers s.calls).length + 1 := by
  induction ts with
  | nil => intro s _ h; simp [reply] at h
  | cons t ts ih =>
    intro s hs
    rw [reply]
    cases hclk : t.clock with
    | none => simp
    | some r =>
      simp only
      cases hr : reflect c.H c.fmt c.ep buf c.len (BitVec.ofNat 32 s.i) s.rstamp (replyStamp r s) ttl with
      | none => simp
      | some bytes =>
        simp only
        split
        · simp
        · have cnt : ∀ s' : St, s'.phase = .running → s'.i = s.i → (answers s'.calls).length = (answers s.calls).length + 1 → (count s').phase = .undef →
              2 ^ 31 ≤ s.i + 1 ∧ (answers (count s').calls).length = (answers s.calls).length + 1 := by
            intro s' h0 h1 h2 h3
            unfold count at h3 ⊢
            by_cases hlt : s'.i + 1 < 2 ^ 31
            · rw [if_pos hlt] at h3
              simp only [h0] at h3
              cases h3
            · rw [if_neg hlt]
              exact ⟨by omega, h2⟩
          cases hsend : t.send with
          | nobufs =>
            simp only
            intro hu
            obtain ⟨a, b⟩ := ih _ (by exact hs) hu
            refine ⟨a, ?_⟩
            rw [b]
            simp [answers]
          | fatal => simp
          | ok => exact cnt _ hs rfl (by simp [answers])
          | intr => exact cnt _ hs rfl (by simp [answers])
          | other => exact cnt _ hs rfl (by simp [answers])

theorem reply_over (c : Cfg) (buf recvd packet : Bytes) (ttl : Byte) (came : TimeParts) (dest : Bytes) (ts : List Try) :
    ∀ s, s.phase = .running → (reply c buf recvd packet ttl came dest ts s).phase ≠ .over := by
  induction ts with
  | nil => intro s _ h; simp [reply] at h
  | cons t ts ih =>
    intro s hs
    have cnt : ∀ s' : St, s'.phase = .running → (count s').phase ≠ .over := by
      intro s' h
      unfold count
      split
      · show s'.phase ≠ .over
        rw [h]; decide
      · simp
    rw [reply]
    cases hclk : t.clock with
    | none => simp
    | some r =>
      simp only
      cases hr : reflect c.H c.fmt c.ep buf c.len (BitVec.ofNat 32 s.i) s.rstamp (replyStamp r s) ttl with
      | none => simp
      | some bytes =>
        simp only
        split
        · simp
        · cases hsend : t.send with
          | nobufs => exact ih _ (by exact hs)
          | fatal => simp
          | ok => exact cnt _ (by exact hs)
          | intr => exact cnt _ (by exact hs)
          | other => exact cnt _ (by exact hs)

/-- How a pass ends well, and how it comes to overflow the counter. -/
theorem step_ends (c : Cfg) (s : St) (p : Pass) (hs : s.phase = .running) :
    ((step c s p).phase = .over → p.sig1 = .usr2 ∨ p.sig2 = .usr2 ∨ p.sig3 = .usr2 ∨ p.sig4 = .usr2) ∧
    ((step c s p).phase = .undef → 2 ^ 31 ≤ s.i + 1 ∧ (answers (step c s p).calls).length = (answers s.calls).length + 1) := by
  unfold step
  rw [hs]
  simp only
  split
  · simp
  · cases hs1 : p.sig1 with
    | int => simp [Sig.then]
    | usr2 => simp [Sig.then]
    | none =>
      simp only [Sig.then]
      split
      · simp
      · cases hs2 : p.sig2 with
        | int => simp
        | usr2 => simp
        | none =>
          simp only
          cases hclk : p.clock with
          | none => simp
          | some r =>
            simp only
            split
            · simp
            · cases hs3 : p.sig3 with
              | int => simp
              | usr2 => simp
              | none =>
                simp only
                cases hs4 : p.sig4 with
                | int => simp
                | usr2 => simp
                | none =>
                  simp only
                  cases hf : (fill c p.got s.buf).1 with
                  | none => simp [hs]
                  | some x =>
                    obtain ⟨peer, recvd, ttl⟩ := x
                    simp only
                    unfold examine
                    split
                    · simp [hs]
                    · cases hop : openPacket c.H c.fmt c.ep ((fill c p.got s.buf).2.take c.len) with
                      | wrongKey => simp
                      | badDigest => simp [hs]
                      | plain P =>
                        exact ⟨fun h => (reply_over _ _ _ _ _ _ _ _ _ (by exact hs) h).elim,
                          fun h => reply_undef _ _ _ _ _ _ _ _ _ (by exact hs) h⟩

theorem step_stay (c : Cfg) (s : St) (p : Pass) (hs : s.phase ≠ .running) : step c s p = s := by
  unfold step; cases hp : s.phase <;> first | rfl | exact (hs hp).elim

end Owamp.Refl
