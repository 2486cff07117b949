import Verif.Lemmas.Reflector
import Verif.Props.TwoWay
import Mathlib.Data.List.Induction
/-!
# C71: two-way tests, the side that reflects
-/
namespace Owamp.Props
open Owamp.Num64 Owamp.Time Owamp.Pkt Owamp.Ctl Owamp.Codec Owamp.Spec Owamp.Spec.Reflector
open Owamp.Refl (Call Try Made)
open Owamp.Spec.Receiver (stampOf)
open Owamp.Recv (Got Sig)

/-- Everything a reflector is given: the session's mode, keys and identifier, the padding `n`, the payload buffer and the uninitialised stamps. -/
structure ReflRun where
  H : Mac
  mode : U32
  fmt : Fmt
  send : Bool
  aes : Bytes
  hmac : Bytes
  sid : Bytes
  remote : Bytes
  n : Nat
  buf : Bytes
  rstamp : TimeStamp
  stamp : TimeStamp

/-- The mode is one for two-way tests, the keys have their size, and the buffer has room for the packet and the longer header of a reply. -/
structure ReflRun.Ok (x : ReflRun) : Prop where
  fmt : fmtTW x.mode = some x.fmt
  key : x.hmac.length = 32
  buf : x.buf.length = payloadSize x.fmt x.n + (twPayloadSize x.fmt 0 - payloadSize x.fmt 0)

def ReflRun.cfg (x : ReflRun) : Refl.Cfg :=
  { H := x.H, fmt := x.fmt, ep := initKeys x.mode true true x.send x.aes x.hmac x.sid, remote := x.remote, len := payloadSize x.fmt x.n }

/-- The state after the passes `ps`. -/
def ReflRun.after (x : ReflRun) (ps : List Refl.Pass) : Refl.St := Refl.run x.cfg (Refl.init x.buf x.rstamp x.stamp) ps

/-- The keys at the client of the session. -/
def ReflRun.client (x : ReflRun) (send : Bool) : Ep := initKeys x.mode true false send x.aes x.hmac x.sid

private theorem inv (x : ReflRun) (h : x.Ok) (ps : List Refl.Pass) (full : Prop) (hf : ∀ p ∈ ps, full → ¬ Short x.cfg p) :
    Refl.Inv x.cfg x.buf.length full (ps.filterMap (arrival x.cfg)) (x.after ps) := by
  have := Refl.run_inv (c := x.cfg) (full := full) (size := x.buf.length) x.n rfl h.buf ps [] _ (Refl.init_inv x.buf x.rstamp x.stamp) hf
  rw [List.nil_append] at this
  exact this

/-- **C71**, which datagrams are answered: the replies that left answer different datagrams among those that arrived, in the order of their arrival, at
most one reply for each; and every packet goes to the session's peer, so only datagrams from that peer are answered. -/
theorem C71_answered (x : ReflRun) (h : x.Ok) (ps : List Refl.Pass) :
    ((answers (x.after ps).calls).map answered).Sublist (ps.filterMap (arrival x.cfg)) ∧ ∀ y ∈ (x.after ps).calls, y.dest = x.remote := by
  have i := inv x h ps False (fun _ _ h => h.elim)
  exact ⟨i.src, fun y hy => (i.made y hy).1⟩

/-- **C71**, numbers: a reply carries as its own number how many replies left before it, so they are numbered 0, 1, 2, … without gap. -/
theorem C71_numbered (x : ReflRun) (h : x.Ok) (ps : List Refl.Pass) :
    (answers (x.after ps).calls).map (·.num) = List.range (answers (x.after ps).calls).length := by
  have i := (inv x h ps False (fun _ _ h => h.elim)).num
  generalize (x.after ps).calls = l at *
  have key : ∀ m b, l = m ++ b → (answers m).map (·.num) = List.range (answers m).length := by
    intro m
    induction m using List.reverseRecOn with
    | nil => intro b _; rfl
    | append_singleton m y ih =>
      intro b hb
      rw [List.append_assoc] at hb
      have hm := ih _ hb
      have hy := i m y b hb
      rw [Refl.answers_append, List.map_append, hm, List.length_append]
      by_cases hr : y.res = .nobufs
      · have : answers [y] = [] := by simp [answers, hr]
        simp [this]
      · have : answers [y] = [y] := by simp [answers, hr]
        rw [this, List.length_singleton, List.range_succ, ← hy]
        rfl
  exact key l [] (by simp)

/-- **C71**, contents: every reply was made from a packet that opens under the keys of the session, and the client of the session reads in it the number,
time and error estimate of that packet, the time read when the datagram arrived, the TTL with which it arrived, the number of the reply and the time read for it, with a
valid error estimate. -/
theorem C71_contents (x : ReflRun) (h : x.Ok) (ps : List Refl.Pass) (send : Bool) :
    ∀ y ∈ (x.after ps).calls, ∃ P, openPacket x.H x.fmt x.cfg.ep y.packet = .plain P ∧
      y.bytes.length = max (payloadSize x.fmt x.n) (twPayloadSize x.fmt 0) ∧
      ∀ rest, ∃ B err, openReply x.H x.fmt (x.client send) (y.bytes ++ rest) = .plain B ∧
        readReply x.fmt B = { sndSeq := seqOf P, sndTime := timeOf x.fmt P, sndErr := errOf x.fmt P, rcvTime := stampOf y.came,
                              ttl := y.ttl, seq := BitVec.ofNat 32 y.num, time := stampOf y.time, err := err } ∧
        err.valid = true := by
  intro y hy
  obtain ⟨P, spare, rcv, now, m1, m2, m3, m4, m5, m6, _⟩ := ((inv x h ps False (fun _ _ h => h.elim)).made y hy).2.1
  obtain ⟨r, r1, r2, r3⟩ := C57_any x.H x.mode x.fmt h.fmt send x.send x.aes x.hmac x.sid h.key y.packet P x.n m2 m1
    (BitVec.ofNat 32 y.num) rcv now y.ttl spare (by rw [m3, h.buf]; exact Nat.add_sub_cancel_left _ _)
  have e : some r = some y.bytes := by rw [← r1, m2]; exact m4
  cases e
  refine ⟨P, m1, r2, fun rest => ?_⟩
  obtain ⟨B, b1, b2⟩ := r3 rest
  exact ⟨B, _, b1, by rw [b2, m5, m6], estimate_valid _⟩

/-- **C71**, genuineness (partial): what is opened and answered is what was received, provided no datagram shorter than the session's packets arrives in a
pass that begins with `errno` left at `EINTR`. Without the proviso it fails: `C71_stale`. -/
theorem C71_genuine_partial (x : ReflRun) (h : x.Ok) (ps : List Refl.Pass) (hs : ∀ p ∈ ps, ¬ Short x.cfg p) :
    ∀ y ∈ (x.after ps).calls, y.packet = y.recvd ∧ y.recvd.length = payloadSize x.fmt x.n := by
  have i := inv x h ps True (fun p hp _ => hs p hp)
  intro y hy
  have hl := (i.made y hy).2.2.2 trivial
  exact ⟨(i.made y hy).2.2.1 hl, hl⟩

/-- **C71**, the range of the numbers: they are below `2 ^ 31`, so that they fit into the field of the reply. -/
theorem C71_number_fits (x : ReflRun) (h : x.Ok) (ps : List Refl.Pass) : ∀ y ∈ (x.after ps).calls, y.num < 2 ^ 31 := by
  intro y hy
  obtain ⟨_, _, _, _, _, _, _, _, _, _, m⟩ := ((inv x h ps False (fun _ _ h => h.elim)).made y hy).2.1
  exact m

private theorem after_snoc (x : ReflRun) (ps : List Refl.Pass) (p : Refl.Pass) : x.after (ps ++ [p]) = Refl.step x.cfg (x.after ps) p := by
  unfold ReflRun.after Refl.run
  rw [List.foldl_append]; rfl

/-- **C71**, the end: the process ends well only when the stop signal was noticed between two replies; and its behaviour becomes undefined only after
`2 ^ 31` replies. -/
theorem C71_ends (x : ReflRun) (h : x.Ok) (ps : List Refl.Pass) :
    (Refl.ended (x.after ps) = some true → ∃ p ∈ ps, p.sig1 = .usr2 ∨ p.sig2 = .usr2 ∨ p.sig3 = .usr2 ∨ p.sig4 = .usr2) ∧
    ((x.after ps).phase = .undef → (answers (x.after ps).calls).length = 2 ^ 31) := by
  have key : ((x.after ps).phase = .over → ∃ p ∈ ps, p.sig1 = .usr2 ∨ p.sig2 = .usr2 ∨ p.sig3 = .usr2 ∨ p.sig4 = .usr2) ∧
      ((x.after ps).phase = .undef → (answers (x.after ps).calls).length = 2 ^ 31) := by
    induction ps using List.reverseRecOn with
    | nil =>
      have : (x.after []).phase = .running := rfl
      rw [this]
      exact ⟨(fun h => nomatch h), (fun h => nomatch h)⟩
    | append_singleton ps p ih =>
      rw [after_snoc]
      by_cases hs : (x.after ps).phase = .running
      · obtain ⟨e1, e2⟩ := Refl.step_ends x.cfg (x.after ps) p hs
        refine ⟨fun h => ⟨p, by simp, e1 h⟩, fun hu => ?_⟩
        obtain ⟨a, b⟩ := e2 hu
        obtain ⟨c1, c2⟩ := (inv x h ps False (fun _ _ h => h.elim)).cnt hs
        rw [b, ← c1]
        omega
      · rw [Refl.step_stay _ _ _ hs]
        exact ⟨fun h => let ⟨q, hq, hr⟩ := ih.1 h; ⟨q, by simp [hq], hr⟩, ih.2⟩
  refine ⟨fun he => key.1 ?_, key.2⟩
  unfold Refl.ended at he
  cases hp : (x.after ps).phase <;> simp_all

/-- **C71**, every packet is answered (partial): while the process runs, a whole packet from the peer that opens under the session's keys is answered in
the pass it arrives in, when nothing disturbs the pass and the network takes the reply in the end. -/
theorem C71_replied_partial (x : ReflRun) (h : x.Ok) (ps : List Refl.Pass) (p : Refl.Pass) (r : Sender.Reading) (hs : (x.after ps).phase = .running) (hc : Calm p r)
    (hg : GoesThrough p.tries) (bytes : Bytes) (ttl : Byte) (e : Bool) (hgot : p.got = .dgram x.remote bytes ttl e)
    (hl : bytes.length = payloadSize x.fmt x.n) (P : Bytes) (ho : openPacket x.H x.fmt x.cfg.ep bytes = .plain P) :
    ∃ y, answers (x.after (ps ++ [p])).calls = answers (x.after ps).calls ++ [y] ∧ answered y = ⟨x.remote, bytes, ttl, r.time⟩ ∧ y.packet = bytes ∧
      ((x.after (ps ++ [p])).phase = .running ∨ (answers (x.after (ps ++ [p])).calls).length = 2 ^ 31) := by
  have i := inv x h ps False (fun _ _ h => h.elim)
  obtain ⟨c1, c2, c3, c4, c5, c6, c7⟩ := hc
  have hlen : x.cfg.len = bytes.length := hl.symm
  have htake : bytes.take x.cfg.len = bytes := List.take_of_length_le (by omega)
  have hbuf : x.cfg.len ≤ (x.after ps).buf.length := by rw [i.buf, h.buf]; exact Nat.le_add_right _ _
  have hstep : ∃ s, s.phase = (x.after ps).phase ∧ s.calls = (x.after ps).calls ∧ ∃ spare : Bytes, spare.length = x.buf.length - x.cfg.len ∧
      x.after (ps ++ [p]) = Refl.reply x.cfg (P ++ spare) bytes bytes ttl r.time x.remote p.tries s := by
    refine ⟨{ x.after ps with
      buf := bytes ++ (x.after ps).buf.drop bytes.length
      rstamp := timespecToTimestamp (x.after ps).rstamp r.time (some r.err) (some (x.after ps).rlast), rlast := r.err }, rfl, rfl, (x.after ps).buf.drop x.cfg.len, ?_, ?_⟩
    · rw [List.length_drop, i.buf]
    · rw [after_snoc, Refl.step, hs]
      simp only
      have hw : Refl.whole x.cfg p.got = true := by rw [hgot]; simp [Refl.whole, hlen]
      rw [c1, c2, c3, c4, c5, c6, c7]
      simp only [Refl.Sig.then, hw]
      rw [hgot]
      simp only [Refl.fill, htake]
      unfold Refl.examine
      simp only [show x.cfg.remote = x.remote from rfl, ne_eq, not_true, if_false]
      have e1 : (bytes ++ (x.after ps).buf.drop bytes.length).take x.cfg.len = bytes := List.take_left' hlen.symm
      have e2 : (bytes ++ (x.after ps).buf.drop bytes.length).drop x.cfg.len = (x.after ps).buf.drop bytes.length := List.drop_left' hlen.symm
      rw [e1, e2]
      have ho' : openPacket x.cfg.H x.cfg.fmt x.cfg.ep bytes = .plain P := ho
      rw [ho', hlen]
      rfl
  obtain ⟨s, s1, s2, spare, s3, s4⟩ := hstep
  have hspare : spare.length = twPayloadSize x.fmt 0 - payloadSize x.fmt 0 := by rw [s3, h.buf]; exact Nat.add_sub_cancel_left _ _
  have hr : ∀ k rcv now, (reflect x.cfg.H x.cfg.fmt x.cfg.ep (P ++ spare) x.cfg.len k rcv now ttl).isSome := by
    intro k rcv now
    obtain ⟨rep, q, _⟩ := C57_any x.H x.mode x.fmt h.fmt false x.send x.aes x.hmac x.sid h.key bytes P x.n hl ho k rcv now ttl spare hspare
    rw [hlen]
    exact Option.isSome_iff_exists.2 ⟨rep, q⟩
  obtain ⟨pre, y, g1, g2, g3, g4, g5, g6⟩ := Refl.reply_goes x.cfg (P ++ spare) bytes bytes ttl r.time x.remote p.tries hr hg s
  rw [← s4] at g1 g6
  refine ⟨y, by rw [g1, Refl.answers_append, Refl.answers_append, g2, g5, s2, List.append_nil], g3, g4, ?_⟩
  rcases g6 with g6 | g6
  · exact .inl (by rw [g6, s1, hs])
  · exact .inr ((C71_ends x h (ps ++ [p])).2 g6)

/-- **C71**, the two ends together: a packet that a sender of the session handed to the network and that reaches the reflector unchanged in an undisturbed pass is answered
with a reply in which the client reads the number of that packet and the time it was sent, whatever either side did before. -/
theorem C71_round_trip (x : ReflRun) (h : x.Ok) (ps : List Refl.Pass) (p : Refl.Pass) (r : Sender.Reading) (hs : (x.after ps).phase = .running)
    (hc : Calm p r) (hg : GoesThrough p.tries)
    (z : TwRun) (ts : List TwoWay.Tick) (e : TwoWay.End) (send : Bool) (hH : z.c.H = x.H) (hz : z.c.fmt = x.fmt) (hk : z.c.ep = x.client send)
    (hlen : z.c.len = payloadSize x.fmt x.n) (hpad : ∀ i, (z.c.pad i).length = x.n) (hbuf : z.buf.length = payloadSize z.c.fmt x.n)
    (q : TwoWay.Call) (hq : q ∈ (z.final ts e).calls) (ttl : Byte) (ei : Bool) (hgot : p.got = .dgram x.remote q.bytes ttl ei) :
    ∃ y, y ∈ (x.after (ps ++ [p])).calls ∧ y.came = r.time ∧
      ∃ B, openReply z.c.H z.c.fmt z.c.ep (y.bytes.take (TwoWay.respLen z.c)) = .plain B ∧
        (readReply z.c.fmt B).sndSeq = BitVec.ofNat 32 q.seq ∧
        (readReply z.c.fmt B).sndTime = BitVec.ofNat 64 (ofTimespec q.time + 2208988800 * 2 ^ 32) ∧
        (readReply z.c.fmt B).rcvTime = stampOf r.time ∧ (readReply z.c.fmt B).ttl = ttl := by
  obtain ⟨u1, P, u2, u3, u4, _⟩ := C70_understood z ts e x.mode (by rw [hz]; exact h.fmt) send x.send x.aes x.hmac x.sid h.key hk x.n hpad hbuf q hq
  rw [hH, hz] at u2
  rw [hz] at u1 u4
  obtain ⟨y, y1, y2, y3, _⟩ := C71_replied_partial x h ps p r hs hc hg q.bytes ttl ei hgot u1 P u2
  have hy : y ∈ (x.after (ps ++ [p])).calls := by
    have : y ∈ answers (x.after (ps ++ [p])).calls := by rw [y1]; simp
    exact (List.mem_filter.1 this).1
  obtain ⟨P', p1, p2, p3⟩ := C71_contents x h (ps ++ [p]) send y hy
  rw [y3] at p1
  have e : P' = P := by
    have := p1.symm.trans u2
    cases this; rfl
  subst e
  obtain ⟨B, err, b1, b2, _⟩ := p3 []
  have e1 : y.came = r.time := congrArg Arrived.at' y2
  have e2 : y.ttl = ttl := congrArg Arrived.ttl y2
  refine ⟨y, hy, e1, B, ?_, ?_, ?_, ?_, ?_⟩
  · rw [hH, hz, hk, List.take_of_length_le]
    · rw [List.append_nil] at b1
      exact b1
    · rw [p2]
      unfold TwoWay.respLen
      rw [hz, hlen]
      have : payloadSize x.fmt 0 ≤ payloadSize x.fmt x.n := by cases x.fmt <;> simp only [payloadSize] <;> omega
      omega
  all_goals rw [hz, b2]
  · exact u3
  · exact u4
  · rw [← e1]
  · exact e2

/-! ## Concrete runs -/

def demoReflRun : ReflRun :=
  { H := demoSendMac, mode := 1, fmt := .clear, send := false, aes := zeros 16, hmac := zeros 32, sid := zeros 16, remote := [10, 0, 0, 1], n := 0
    buf := zeros 41, rstamp := ⟨0, false, 0, 0⟩, stamp := ⟨0, false, 0, 0⟩ }

/-- A pass at `ds` tenths of a second in which `got` is received; the reply is sent a tenth later. -/
def demoReflPass (got : Got) (ds : Int) : Refl.Pass :=
  ⟨true, .none, got, .none, some (demoTwClock ds), true, .none, .none, [⟨some (demoTwClock (ds + 1)), false, .nobufs⟩, ⟨some (demoTwClock (ds + 1)), false, .ok⟩], []⟩

/-- Packet `k` in open mode. -/
def demoReflPacket (k : Byte) : Bytes := [0, 0, 0, k] ++ [0x83, 0xAA, 0x7E, 0xE5, 0x80, 0, 0, k] ++ [0x80, 1]

/-- Packet 7 from the peer; packet 8 from a stranger; packet 9 from the peer; the stop signal. -/
def demoReflPasses : List Refl.Pass :=
  [demoReflPass (.dgram [10, 0, 0, 1] (demoReflPacket 7) 63 false) 1010, demoReflPass (.dgram [10, 0, 0, 2] (demoReflPacket 8) 61 false) 1020,
   demoReflPass (.dgram [10, 0, 0, 1] (demoReflPacket 9) 62 false) 1030, { demoReflPass (.fail true) 1040 with sig2 := .usr2 }]

/-- Of every reply that left: its own number, the number in it of the packet answered, the TTL, and the second the packet came. -/
def demoReflShow (s : Refl.St) : Refl.Phase × List (Nat × Nat × Nat × Int) :=
  (s.phase, (answers s.calls).map fun y => (y.num, (readReply .clear y.bytes).sndSeq.toNat, y.ttl.toNat, y.came.sec))

/-- Non-vacuity for C71: the two packets of the peer are answered, each after one refusal of the kernel. -/
theorem C71_example :
    demoReflShow (demoReflRun.after demoReflPasses) = (.over, [(0, 7, 63, 101), (1, 9, 62, 103)]) ∧
    (demoReflRun.after demoReflPasses).calls.length = 4 := by decide +kernel

private theorem demo_ok' : demoReflRun.Ok := ⟨by decide +kernel, by decide +kernel, by decide +kernel⟩

/-- Non-vacuity: the run meets the hypotheses of C71_answered, C71_contents, C71_genuine_partial, and those of C71_replied_partial in its first and third passes. -/
example : demoReflRun.Ok ∧ (∀ p ∈ demoReflPasses, ¬ Short demoReflRun.cfg p) ∧ (∀ p ∈ demoReflPasses, GoesThrough p.tries) ∧
    (demoReflRun.after (demoReflPasses.take 2)).phase = .running ∧ Calm (demoReflPass (.dgram [10, 0, 0, 1] (demoReflPacket 9) 62 false) 1030) (demoTwClock 1030) ∧
    (openPacket demoReflRun.H .clear demoReflRun.cfg.ep (demoReflPacket 9) = .plain (demoReflPacket 9)) ∧
    (demoReflPacket 9).length = payloadSize demoReflRun.fmt demoReflRun.n := by
  refine ⟨demo_ok', ?_, ?_, by decide +kernel, ⟨rfl, rfl, rfl, rfl, rfl, rfl, rfl⟩, by decide +kernel, by decide +kernel⟩
  · intro p hp
    simp only [demoReflPasses, List.mem_cons, List.not_mem_nil, or_false] at hp
    rcases hp with rfl | rfl | rfl | rfl <;> (rintro ⟨_, _, _, h, _⟩; cases h)
  · intro p hp
    have key : ∀ ds, GoesThrough (demoReflPass (.fail true) ds).tries := fun ds =>
      ⟨[_], _, [], rfl, fun x hx => by rw [List.mem_singleton] at hx; subst hx; exact ⟨rfl, rfl, rfl⟩, .inl rfl, rfl, rfl⟩
    simp only [demoReflPasses, List.mem_cons, List.not_mem_nil, or_false] at hp
    rcases hp with rfl | rfl | rfl | rfl <;> exact key _

/-- Non-vacuity for C71_round_trip: packet 0 of the run of `C67_example` (sent at 101.5 s) is answered, and the client reads its number. -/
theorem C71_round_trip_example :
    ((demoTwRun demoTwCfg).any fun z =>
      ((z.final demoTwPasses (demoTwEnd 1056)).calls.take 1).any fun q =>
        let s := demoReflRun.after [demoReflPass (.dgram [10, 0, 0, 1] q.bytes 63 false) 1017]
        decide (demoReflShow s = (.running, [(0, 0, 63, 101)])) &&
        (answers s.calls).all fun y => decide ((readReply .clear y.bytes).sndTime = BitVec.ofNat 64 (ofTimespec q.time + 2208988800 * 2 ^ 32))) = true := by
  decide +kernel

/-- The sender of that run belongs to the same session. -/
example : demoTwCfg.fmt = demoReflRun.fmt ∧ demoTwCfg.ep = demoReflRun.client true ∧ demoTwCfg.len = payloadSize demoReflRun.fmt demoReflRun.n ∧
    (∀ i, (demoTwCfg.pad i).length = demoReflRun.n) ∧ (zeros demoTwCfg.len).length = payloadSize demoTwCfg.fmt demoReflRun.n :=
  ⟨rfl, by decide +kernel, rfl, fun _ => rfl, rfl⟩

/-! ### What fails -/

/-- **C71** fails for a datagram shorter than a packet that arrives while `errno` is `EINTR` (as it is from the start): an empty datagram from the peer is answered in open mode, with what
the last reply left in the buffer; here a reply to a packet 0 that was never sent. -/
theorem C71_stale :
    demoReflShow (demoReflRun.after [demoReflPass (.dgram [10, 0, 0, 1] (demoReflPacket 7) 63 true) 1010, demoReflPass (.dgram [10, 0, 0, 1] [] 62 true) 1020]) =
      (.running, [(0, 7, 63, 101), (1, 0, 62, 102)]) := by decide +kernel

/-- Anyone can end a reflector: a datagram of another size from another address, with `errno` not `EINTR`, makes it fail. -/
theorem C71_stranger_ends :
    Refl.ended (demoReflRun.after [demoReflPass (.dgram [10, 0, 0, 2] [] 64 false) 1010]) = some false := by decide +kernel

/-- A stop signal that comes between the arrival of a packet and the reply makes the process end with failure, and the packet is not answered. -/
theorem C71_stopped_fails :
    let s := demoReflRun.after [{ demoReflPass (.dgram [10, 0, 0, 1] (demoReflPacket 7) 63 false) 1010 with tries := [⟨some (demoTwClock 1011), true, .ok⟩] }]
    Refl.ended s = some false ∧ s.calls = [] := by decide +kernel

end Owamp.Props
