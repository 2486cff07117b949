import Verif.Lemmas.StopTrip
import Verif.Props.Protocol
import Verif.Props.Server
/-!
# C16, C17: what an accepted stop-sessions message says
-/
namespace Owamp.Props
open Owamp.Ctl Owamp.Spec.Channel Owamp.Spec.Stop Owamp.Codec

abbrev Session := Sess (List FileOp)

/-- Everything that is known when a stop-sessions message has been accepted by a one-way endpoint. The
first block has been read into `msg` by the function that finds out the request type. -/
structure Accepted (H : Mac) (c c' : Conn) (tests tests' : List Session) where
  /-- the sessions named, in the order of the message, each with the account given of it -/
  claims : List (Session × Account)
  /-- the receiving sessions that the message does not name -/
  omitted : List Session
  digest : Bytes
  /-- as many sessions are named as the message says -/
  count : claims.length = (get32 c.msg 4).toNat
  /-- all sessions have an endpoint -/
  endpoints : ∀ t ∈ tests, t.ep.isSome
  /-- every session named is being received here, none is named twice -/
  once : (tests.filter receiving).Perm (claims.map Prod.fst ++ omitted)
  /-- the list of sessions afterwards, with the accounts recorded -/
  after : tests' = (claims.map record).reverse ++ tests.filter sending
  /-- no range ends before it begins -/
  ranges : ∀ k ∈ claims, k.2.skips.length < 2 ^ 32 ∧ ∀ r ∈ k.2.skips, r.first.toNat ≤ r.last.toNat
  /-- the message is the accounts followed by a digest, and nothing else was consumed -/
  text : plainIn c = (claims.map claimText).flatten ++ digest ++ plainIn c'
  dlen : digest.length = 16
  /-- the digest is that of the whole message -/
  bound : DigestOf H c (get c.msg 0 16 ++ (claims.map claimText).flatten) digest

/-- C16, C17, C14: what acceptance of a stop-sessions message means. -/
theorem stop_accepted (H : Mac) (ok : List FileOp → FileOp → Bool) (c c' : Conn) (tests tests' : List Session)
    (acc : Accept) (tw : c.twoway = false) (hiv : IVok c) (hm : c.msg.length = 400)
    (h : readStopSessions H (logFile ok) c tests = (some acc, c', tests')) :
    Nonempty (Accepted H c c' tests tests') := by
  unfold readStopSessions at h
  split at h
  · simp at h
  dsimp only at h
  split at h
  · simp at h
  obtain ⟨k1, k2, k3, k4, k5⟩ := recvHmacAdd_kept c (get c.msg 0 16)
  generalize hc1 : recvHmacAdd c (get c.msg 0 16) = c1 at h k1 k2 k3 k4 k5
  rw [if_neg (by rw [k1.twoway, tw]; simp)] at h
  split at h
  · simp at h
  · rename_i ts rs hp
    obtain ⟨p1, p2, p3⟩ := pull_receivers _ _ _ _ hp
    split at h
    · simp at h
    · rename_i s hl
      obtain ⟨claims, l1, l2, l3, l4, l5⟩ := stop_loop ok _ ⟨c1, rs, ts, []⟩ s (k3 hiv) (k1.len hm) hl
      split at h
      · simp at h
      · unfold readStopEnd at h
        split at h
        · rename_i c3 e3
          have T := recvBlocks_took _ _ _ _ l4.iv e3
          split at h
          · rename_i c4 e4
            obtain ⟨q1, q2, q3, q4, q5⟩ := recvCheck_true H _ _ _ e4
            simp only [Prod.mk.injEq] at h
            obtain ⟨-, rfl, rfl⟩ := h
            have hdl : ((plainIn s.c).take (16 * 1)).length = 16 := by have := T.len; simp; omega
            have hms : s.c.msg.length = 400 := l4.kept.len (k1.len hm)
            have hg : get c3.msg 0 16 = (plainIn s.c).take (16 * 1) := by
              rw [T.msg, get_put_same _ _ _ _ hdl (by omega)]
            have hpl : plainIn (c4.setState { c4.state with stopSessions := false, request := true }) = plainIn c4 := rfl
            dsimp only at l2 l3 l4
            refine ⟨⟨claims, s.receivers, _, l1, p1, ?_, ?_, l5, ?_, hdl, ?_⟩⟩
            · have := List.reverse_perm (tests.filter receiving)
              rw [p3, List.append_nil] at l2
              exact this.symm.trans l2
            · rw [l3, p2]
            · rw [hpl, q2, T.rest, ← k2, l4.text, List.append_assoc, List.take_append_drop]
            · intro hc
              have hc1 : c1.cipher = true := by rw [k1.cipher]; exact hc
              have hcs : s.c.cipher = true := by rw [l4.kept.cipher]; exact hc1
              have hc3 : c3.cipher = true := by rw [(T.kept (by omega)).cipher]; exact hcs
              rw [← hg, (q5 hc3).1, (T.kept (by omega)).key, l4.kept.key, k1.key, T.acc, l4.acc hc1, k5 hc,
                List.append_assoc]
          · simp at h
        · simp at h

/-- C17, the part that holds: every session that an accepted message names is one this side receives,
and none is named twice; the number of sessions named is the one in the message. What is missing is
that every receiving session is named: see `C17_omission_accepted`. -/
theorem C17_named_once_partial (H : Mac) (ok : List FileOp → FileOp → Bool) (c c' : Conn) (tests tests' : List Session)
    (acc : Accept) (tw : c.twoway = false) (hiv : IVok c) (hm : c.msg.length = 400)
    (h : readStopSessions H (logFile ok) c tests = (some acc, c', tests')) :
    ∃ (claims : List (Session × Account)) (omitted : List Session) (digest : Bytes),
      plainIn c = (claims.map claimText).flatten ++ digest ++ plainIn c' ∧ digest.length = 16 ∧
      claims.length = (get32 c.msg 4).toNat ∧
      (tests.filter receiving).Perm (claims.map Prod.fst ++ omitted) ∧
      tests' = (claims.map record).reverse ++ tests.filter sending := by
  obtain ⟨A⟩ := stop_accepted H ok c c' tests tests' acc tw hiv hm h
  exact ⟨A.claims, A.omitted, A.digest, A.text, A.dlen, A.count, A.once, A.after⟩

theorem record_sid (k : Session × Account) : (record k).sid = k.1.sid := rfl

/-- C17 for messages that name as many sessions as are received here: then each is named exactly once,
and afterwards the list holds the same sessions as before. -/
theorem C17_exactly_once_if_counts_match (H : Mac) (ok : List FileOp → FileOp → Bool) (c c' : Conn)
    (tests tests' : List Session) (acc : Accept) (tw : c.twoway = false) (hiv : IVok c) (hm : c.msg.length = 400)
    (hn : (get32 c.msg 4).toNat = (tests.filter receiving).length)
    (h : readStopSessions H (logFile ok) c tests = (some acc, c', tests')) :
    ∃ (claims : List (Session × Account)) (digest : Bytes),
      plainIn c = (claims.map claimText).flatten ++ digest ++ plainIn c' ∧ digest.length = 16 ∧
      (tests.filter receiving).Perm (claims.map Prod.fst) ∧
      (tests'.map Sess.sid).Perm (tests.map Sess.sid) := by
  obtain ⟨A⟩ := stop_accepted H ok c c' tests tests' acc tw hiv hm h
  have ho : A.omitted = [] := by
    have h1 := A.once.length_eq
    have h2 := A.count
    rw [List.length_append, List.length_map] at h1
    exact List.length_eq_zero_iff.1 (by omega)
  have hp := A.once
  rw [ho, List.append_nil] at hp
  refine ⟨A.claims, A.digest, A.text, A.dlen, hp, ?_⟩
  rw [A.after, List.map_append, List.map_reverse]
  have h1 : (A.claims.map record).map Sess.sid = (A.claims.map Prod.fst).map Sess.sid := by
    rw [List.map_map, List.map_map]; rfl
  rw [h1]
  refine (List.Perm.append (List.reverse_perm _) (List.Perm.refl _)).trans ?_
  refine (List.Perm.append (hp.symm.map Sess.sid) (List.Perm.refl _)).trans ?_
  rw [← List.map_append]
  refine List.Perm.map _ ?_
  have hf : tests.filter sending = tests.filter (fun t => !receiving t) := by
    apply List.filter_congr
    intro t ht
    have := A.endpoints t ht
    cases he : t.ep with
    | none => rw [he] at this; simp at this
    | some e => simp [sending, receiving, he]
  rw [hf]
  exact List.filter_append_perm _ _

/-- C16, the part that holds: what an accepted message makes the receiver record of a session is its
next sequence number and ranges none of which ends before it begins. What is missing is their order,
that they are disjoint and that they lie below the next sequence number: see `C16_disorder_accepted`. -/
theorem C16_ranges_partial (H : Mac) (ok : List FileOp → FileOp → Bool) (c c' : Conn) (tests tests' : List Session)
    (acc : Accept) (tw : c.twoway = false) (hiv : IVok c) (hm : c.msg.length = 400)
    (h : readStopSessions H (logFile ok) c tests = (some acc, c', tests')) (t' : Session) (ht : t' ∈ tests')
    (hr : receiving t' = true) :
    ∃ t ∈ tests, ∃ a : Account, t' = record (t, a) ∧ receiving t = true ∧ a.skips.length < 2 ^ 32 ∧
      ∀ r ∈ a.skips, r.first.toNat ≤ r.last.toNat := by
  obtain ⟨A⟩ := stop_accepted H ok c c' tests tests' acc tw hiv hm h
  rw [A.after, List.mem_append, List.mem_reverse, List.mem_map] at ht
  rcases ht with ⟨k, hk, rfl⟩ | ht
  · have hmem : k.1 ∈ tests.filter receiving :=
      A.once.mem_iff.2 (by simp only [List.mem_append, List.mem_map]; exact Or.inl ⟨k, hk, rfl⟩)
    rw [List.mem_filter] at hmem
    exact ⟨k.1, hmem.1, k.2, rfl, hmem.2, A.ranges k hk⟩
  · rw [List.mem_filter] at ht
    have := ht.2
    unfold receiving at hr; unfold sending at this
    cases he : t'.ep with
    | none => rw [he] at hr; simp at hr
    | some e => rw [he] at hr this; simp at hr this; rw [hr] at this; simp at this

/-- C14 for stop-sessions: an accepted message ends in the digest of all of it. -/
theorem C14_stop_sessions (H : Mac) (ok : List FileOp → FileOp → Bool) (c c' : Conn) (tests tests' : List Session)
    (acc : Accept) (tw : c.twoway = false) (hiv : IVok c) (hm : c.msg.length = 400)
    (h : readStopSessions H (logFile ok) c tests = (some acc, c', tests')) :
    ∃ body digest, plainIn c = body ++ digest ++ plainIn c' ∧ digest.length = 16 ∧
      DigestOf H c (get c.msg 0 16 ++ body) digest := by
  obtain ⟨A⟩ := stop_accepted H ok c c' tests tests' acc tw hiv hm h
  exact ⟨_, A.digest, A.text, A.dlen, A.bound⟩

/-- A session received here. -/
def rsess (x : Byte) : Session := ⟨List.replicate 16 x, some ⟨false, [], 0, []⟩⟩
/-- An open-mode connection while sessions run, after the type of a stop-sessions message was read. -/
def stopConn (num : U32) (inp : Bytes) : Conn :=
  { openConn false inp with
    state := { request := true, test := true, stopSessions := true }
    msg := headText .accept num ++ zeros 384 }

/-- Of one session: next sequence number 3, ranges 5-9 and then 2-7. -/
def badAccount : Account := ⟨3#32, [⟨5#32, 9#32⟩, ⟨2#32, 7#32⟩]⟩

/-- The verdict on a message and what the list of sessions is afterwards: identifiers and file contents. -/
def outcome (c : Conn) (tests : List Session) : Option Accept × List (Bytes × Option (List FileOp)) :=
  let r := readStopSessions anyMac (logFile fun _ _ => true) c tests
  (r.1, r.2.2.map fun t => (t.sid, t.ep.map Endpoint.file))

/-- C16 is false: ranges out of order, overlapping and above the next sequence number are accepted and
recorded. -/
theorem C16_disorder_accepted :
    outcome (stopConn 1#32 (claimText (rsess 7#8, badAccount) ++ zeros 16)) [rsess 7#8]
      = (some .accept, [((rsess 7#8).sid, some (recorded badAccount))]) ∧ ¬ wellFormed badAccount := by
  refine ⟨by decide +kernel, fun h => ?_⟩
  have := h.2
  simp [badAccount] at this

/-- C17 is false: a message that names no session is accepted although a session is being received, and
the session disappears from the list. -/
theorem C17_omission_accepted : outcome (stopConn 0#32 (zeros 16)) [rsess 7#8] = (some .accept, []) := by
  decide +kernel

/-- Two sessions received and one sent; the message names both, in the other order. -/
example : outcome (stopConn 2#32 (claimText (rsess 9#8, ⟨3#32, [⟨0#32, 1#32⟩]⟩) ++ claimText (rsess 7#8, ⟨8#32, []⟩) ++ zeros 16))
    [rsess 7#8, ⟨zeros 16, some ⟨true, [], 0, []⟩⟩, rsess 9#8] =
    (some .accept, [((rsess 7#8).sid, some (recorded ⟨8#32, []⟩)), ((rsess 9#8).sid, some (recorded ⟨3#32, [⟨0#32, 1#32⟩]⟩)),
      (zeros 16, some [])]) ∧
    IVok (stopConn 2#32 []) ∧ (stopConn 2#32 []).msg.length = 400 := by
  exact ⟨by decide +kernel, fun h => absurd h (by decide), by decide +kernel⟩

variable {ρ : Type}

/-- The files of the sessions that this side sends hold their accounts. -/
def Speaks (acct : Sess ρ → Account) (ts : List (Sess ρ)) : Prop :=
  ∀ t ∈ ts, ∀ e, t.ep = some e → e.send = true →
    t.sid.length = 16 ∧ e.skipData = skipFile (acct t) ∧ e.skipSize = (skipFile (acct t)).length ∧
    (acct t).skips.length < 2 ^ 32 ∧ ∀ r ∈ (acct t).skips, r.first.toNat ≤ r.last.toNat

/-- The sessions `ts` sent by this side, with their accounts. -/
def accounts (acct : Sess ρ → Account) (ts : List (Sess ρ)) : List (Bytes × Account) :=
  (ts.filter sending).map fun t => (t.sid, acct t)

/-- The stop-sessions message without its digest. -/
def stopLayout (acc : Accept) (is : List (Bytes × Account)) : Bytes :=
  headText acc (BitVec.ofNat 32 is.length) ++ (is.map itemText).flatten

/-- C10, stop-sessions between one-way endpoints: one side sends the accounts of the sessions it sends,
and the other, which receives the same sessions, records every account in the file of its session. -/
theorem C10_stop_sessions (H : Mac) (A B : Conn) (rA : Ready A) (rB : Ready B) (L : Linked A B)
    (hA : A.state.request = true ∧ A.state.test = true) (tA : A.twoway = false)
    (hB : B.state.request = true ∧ B.state.test = true) (hBr : B.state.isReading = false) (tB : B.twoway = false)
    (acc : Accept) (hv : acc ≠ .invalid) (acct : Sess ρ → Account) (tsA : List (Sess ρ)) (tsB : List Session)
    (hS : Speaks acct tsA) (hn : (accounts acct tsA).length < 2 ^ 32) (hep : ∀ t ∈ tsB, t.ep.isSome)
    (hp : ((tsB.filter receiving).map Sess.sid).Perm ((accounts acct tsA).map Prod.fst)) :
    let is := accounts acct tsA
    let body := stopLayout acc is
    ∃ A' tsA', writeStopSessions H A acc (BitVec.ofNat 32 is.length) tsA = (some (), A', tsA') ∧
      A'.out = A.out ++ sealed A (body ++ tag H A body) ∧ A'.inp = A.inp ∧ Ready A' ∧ A'.state = A.state ∧
      ∀ rest, B.inp = sealed A (body ++ tag H A body) ++ rest →
        ∃ (B1 B' : Conn) (claims : List (Session × Account)), readRequestType B = (.stopSessions, B1) ∧
          readStopSessions H goodFile B1 tsB = (some acc, B', (claims.map record).reverse ++ tsB.filter sending) ∧
          claims.map (fun k => (k.1.sid, k.2)) = is ∧ (tsB.filter receiving).Perm (claims.map Prod.fst) ∧
          B'.inp = rest ∧ B'.out = B.out ∧ Ready B' ∧ B'.state = { B.state with stopSessions := false } ∧ Linked A' B' := by
  intro is body
  have hmA := rA.2.1
  have hmB := rB.2.1
  have hia : is = itemsOf acct tsA := rfl
  have hsid : ∀ i ∈ is, i.1.length = 16 ∧ i.2.skips.length < 2 ^ 32 ∧ ∀ r ∈ i.2.skips, r.first.toNat ≤ r.last.toNat := by
    intro i hi
    simp only [is, accounts, List.mem_map, List.mem_filter] at hi
    obtain ⟨x, ⟨hx, hsx⟩, rfl⟩ := hi
    cases hex : x.ep with
    | none => simp [sending, hex] at hsx
    | some ex =>
      obtain ⟨a1, -, -, a4, a5⟩ := hS x hx ex hex (by simpa [sending, hex] using hsx)
      exact ⟨a1, a4, a5⟩
  obtain ⟨k, hk⟩ := items_length is (fun i hi => (hsid i hi).1)
  let head := headText acc (BitVec.ofNat 32 is.length)
  have hhl : head.length = 16 := by simp [head, headText]
  let T := (is.map itemText).flatten
  have hbody : body = head ++ T := rfl
  have hbl : body.length = 16 * (1 + k) := by rw [hbody, List.length_append, hhl, hk]; omega
  -- sending
  let m0 := put32 (put8 (put8 (put A.msg 0 (zeros 16)) 0 3#8) 1 acc.code) 4 (BitVec.ofNat 32 is.length)
  have hm0 : m0.length = 400 := by
    simp (disch := blen) only [m0, put8, put32, put_length]; exact hmA
  have hhead : get m0 0 16 = head := by
    simp only [m0]
    rw [get_pieces _ 0 [1, 1, 2, 4, 8] 16 rfl]
    have z1 : get (zeros 16) 2 2 = zeros 2 := rfl
    have z2 : get (zeros 16) 8 8 = zeros 8 := rfl
    fields
    simp [head, headText, enc8_eq]
  let m1 := put m0 0 (A.wr head)
  have hm1 : m1.length = 400 := by
    have := wr_length A head 1 hhl
    simp only [m1]; rw [put_length _ _ _ (by omega)]; exact hm0
  have rA1 := ready_sentText A rA head m1 hm1
  obtain ⟨m2, tsA', hm2, hw⟩ := write_stop_loop acct tsA (A.sentText head m1) rA1
    (fun t ht e he hs => ⟨(hS t ht e he hs).1, (hS t ht e he hs).2.1, (hS t ht e he hs).2.2.1⟩)
  rw [← hia, sentText_append A _ _ _ _ 1 k hhl hk, ← hbody] at hw
  let A2 := A.sentText body m2
  have rA2 : Ready A2 := ready_sentText A rA body m2 hm2
  have htag : tag H A2 [] = tag H A body := by
    unfold tag
    show (if A.cipher = true then (H.hash A.hmacKey ((if A.cipher then A.sendAcc ++ body else A.sendAcc) ++ [])).take 16 else _) = _
    cases A.cipher <;> simp
  have htl := tag_length H A body
  let m3 := put (put m2 0 (tag H A body)) 0 (A2.wr (tag H A body))
  have hm3 : m3.length = 400 := by
    have := wr_length A2 (tag H A body) 1 htl
    simp (disch := blen) only [m3, put_length]; exact hm2
  let A3 := A2.sentTag (tag H A body) m3
  have rA3 : Ready A3 := ready_sentTag A2 rA2 _ _ hm3
  have hsealed : sealed A (body ++ tag H A body) = A.wr body ++ A2.wr (tag H A body) := by
    rw [sealed_eq A _ (1 + k + 1) (by rw [List.length_append, hbl, htl]; omega)]
    exact wr_append A body _ m2 (1 + k) 1 hbl htl
  refine ⟨A3, tsA', ?_, ?_, rfl, rA3, rfl, ?_⟩
  · unfold writeStopSessions
    rw [if_neg (by simp [hA]), if_neg (by rw [tA]; simp)]
    dsimp only
    rw [show put32 (put8 (put8 (put A.msg 0 (zeros 16)) 0 3#8) 1 acc.code) 4 (BitVec.ofNat 32 is.length) = m0 from rfl, hhead]
    have h1 : sendBlocks (sendHmacAdd { A with msg := m0 } head) head = (.done, A.sentText head m1) := by
      rw [sendText_ok _ (by exact rA.1)]; rfl
    rw [h1]
    dsimp only
    rw [hw]
    dsimp only
    have h2 := sendTag_ok H A2 rA2.1 (put (sendDigest H A2).2.msg 0 (sendDigest H A2).1)
    have hd1 : (sendDigest H A2).1 = tag H A body := by
      rw [← htag]; unfold sendDigest tag
      split <;> simp
    have hd2 : (sendDigest H A2).2.msg = m2 := by unfold sendDigest; split <;> rfl
    rw [hd2, hd1, htag] at h2
    show (match sendBlocks { (sendDigest H A2).2 with msg := put (sendDigest H A2).2.msg 0 (sendDigest H A2).1 } (sendDigest H A2).1 with
      | (.done, c) => ((some (), c, tsA') : Option Unit × Conn × List (Sess ρ))
      | (_, c) => (none, c.fail, tsA')) = _
    rw [hd2, hd1, h2]
  · show A.out ++ A.wr body ++ A2.wr (tag H A body) = _
    rw [hsealed, List.append_assoc]
  · intro rest hi
    -- reading
    have hwb : A.wr body = A.wr head ++ (A.sentText head m1).wr T := wr_append A head T m1 1 k hhl hk
    rw [hsealed, hwb, List.append_assoc, List.append_assoc] at hi
    let r1 := (A.sentText head m1).wr T ++ (A2.wr (tag H A body) ++ rest)
    let B0 : Conn := B.setState (typeState .stopSessions B.state)
    let b1 := put B.msg 0 head
    have hb1 : b1.length = 400 := by simp only [b1]; rw [put_length _ _ _ (by omega)]; exact hmB
    have hg : ∀ o n, o + n ≤ 16 → get b1 o n = get head o n := by
      intro o n h
      show get (put B.msg 0 head) o n = _
      rw [get_put_inside _ _ _ _ _ (by omega) (by omega) (by omega), Nat.sub_zero]
    have hheadF : head = enc8 3#8 ++ (enc8 acc.code ++ (zeros 2 ++ (enc32 (BitVec.ofNat 32 is.length) ++ zeros 8))) := by
      simp [head, headText, enc8_eq]
    have hrb := recv_step A B rA rB L.1 head r1 0 1 hhl hi
    have hty : get8 (B.got 0 head r1).msg 0 = 3#8 := by
      unfold get8
      rw [show get (B.got 0 head r1).msg 0 1 = get head 0 1 from hg 0 1 (by omega), hheadF, get_zero_append _ _ _ (by simp), dec_enc8]
    have hrt := readRequestType_ok B (B.got 0 head r1) .stopSessions hB.1 hBr (by decide) (by simp [hB.2]) hrb rfl hty
    have rB0 : Ready B0 := rB
    let B2 := B0.gotText head b1 r1
    have rB2 : Ready B2 := ready_gotText B0 rB0 _ _ _ hb1
    have L2 : Linked (A.sentText head m1) B2 := linked_text A B0 L _ _ _ _
    have hacc : getAcceptType (get8 ((B.got 0 head r1).setState (typeState .stopSessions B.state)).msg 1) = acc := by
      have : get8 ((B.got 0 head r1).setState (typeState .stopSessions B.state)).msg 1 = acc.code := by
        unfold get8
        have h : get head 1 1 = enc8 acc.code := by rw [hheadF]; fields
        rw [show get ((B.got 0 head r1).setState (typeState .stopSessions B.state)).msg 1 1 = get head 1 1 from hg 1 1 (by omega), h, dec_enc8]
      rw [this, getAcceptType_code]
    have hnum : get32 ((B.got 0 head r1).setState (typeState .stopSessions B.state)).msg 4 = BitVec.ofNat 32 is.length := by
      unfold get32
      have h : get head 4 4 = enc32 (BitVec.ofNat 32 is.length) := by rw [hheadF]; fields
      rw [show get ((B.got 0 head r1).setState (typeState .stopSessions B.state)).msg 4 4 = get head 4 4 from hg 4 4 (by omega), h, dec_enc32]
    have hnumN : (BitVec.ofNat 32 is.length).toNat = is.length := by rw [BitVec.toNat_ofNat, Nat.mod_eq_of_lt hn]
    have hpull : pullReceivers tsB [] = (true, tsB.filter sending, (tsB.filter receiving).reverse) := by
      have gen : ∀ (l : List Session) rs, (∀ t ∈ l, t.ep.isSome) →
          pullReceivers l rs = (true, l.filter sending, (l.filter receiving).reverse ++ rs) := by
        intro l
        induction l with
        | nil => intro rs _; rfl
        | cons t l ih =>
          intro rs h
          obtain ⟨e, he⟩ := Option.isSome_iff_exists.1 (h t (by simp))
          have ih' := fun rs => ih rs (fun x hx => h x (by simp [hx]))
          rw [pullReceivers, he]
          dsimp only
          cases hs : e.send
          · rw [if_neg (by simp), ih', List.filter_cons, List.filter_cons, if_neg (by simp [sending, he, hs]),
              if_pos (by simp [receiving, he, hs])]
            simp
          · rw [if_pos rfl, ih', List.filter_cons, List.filter_cons, if_pos (by simp [sending, he, hs]),
              if_neg (by simp [receiving, he, hs])]
      have := gen tsB [] hep
      rw [List.append_nil] at this
      exact this
    have hperm : ((tsB.filter receiving).reverse.map Sess.sid).Perm (is.map Prod.fst) :=
      ((List.reverse_perm _).map _).trans hp
    obtain ⟨m4, claims, hm4, c1, c2, c3⟩ := read_stop_loop is (A.sentText head m1)
      ⟨B2, (tsB.filter receiving).reverse, tsB.filter sending, []⟩ (A2.wr (tag H A body) ++ rest) rA1 rB2 L2 hperm
      (by intro t ht; simp at ht; exact hep t ht.1) (fun _ => rfl) hsid rfl
    dsimp only at c2 c3
    rw [show B2.gotText (is.map itemText).flatten m4 (A2.wr (tag H A body) ++ rest) =
      B0.gotText body m4 (A2.wr (tag H A body) ++ rest) from gotText_append B0 _ _ _ _ _ _ 1 k hhl hk] at c3
    let B3 := B0.gotText body m4 (A2.wr (tag H A body) ++ rest)
    have rB3 : Ready B3 := ready_gotText B0 rB0 _ _ _ hm4
    have L3 : Linked A2 B3 := linked_text A B0 L _ _ _ _
    have hrd := recv_step A2 B3 rA2 rB3 L3.1 (tag H A body) rest 0 1 htl rfl
    have hck := gotTag_ok H A2 B3 L3.1 0 rest
    rw [htag] at hck
    let m5 := put m4 0 (tag H A body)
    have hm5 : m5.length = 400 := by simp only [m5]; rw [put_length _ _ _ (by omega)]; exact hm4
    let B4 := B3.gotTag (tag H A body) m5 rest
    refine ⟨_, B4.setState { B4.state with stopSessions := false, request := true }, claims, hrt, ?_, c1,
      (List.reverse_perm _).symm.trans c2, rfl, rfl, ?_, ?_, ?_⟩
    · unfold readStopSessions
      have hst : ((B.got 0 head r1).setState (typeState .stopSessions B.state)).state.request = true ∧
          ((B.got 0 head r1).setState (typeState .stopSessions B.state)).state.test = true := hB
      rw [if_neg (by simp [hst])]
      dsimp only
      rw [hacc, hnum, hnumN, if_neg hv]
      have hadd : recvHmacAdd ((B.got 0 head r1).setState (typeState .stopSessions B.state))
          (get ((B.got 0 head r1).setState (typeState .stopSessions B.state)).msg 0 16) = B2 := by
        rw [show get ((B.got 0 head r1).setState (typeState .stopSessions B.state)).msg 0 16 = head from
          (hg 0 16 (by omega)).trans (get_all head 16 (by omega))]
        exact gotText_ok B0 0 head r1
      rw [hadd, if_neg (show ¬ B2.twoway = true by rw [show B2.twoway = B.twoway from rfl, tB]; simp), hpull]
      dsimp only
      rw [c3]
      dsimp only
      rw [if_neg (by simp)]
      unfold readStopEnd
      dsimp only
      rw [show recvBlocks (B0.gotText body m4 (A2.wr (tag H A body) ++ rest)) 0 1 = _ from hrd]
      dsimp only
      have hgt : get (B3.got 0 (tag H A body) rest).msg 0 16 = tag H A body := by
        show get (put m4 0 (tag H A body)) 0 16 = _
        rw [get_put_same _ _ _ _ htl (by omega)]
      rw [hgt, hck]
      rfl
    · exact ready_gotTag B3 rB3 (tag H A body) m5 rest hm5
    · show ({ typeState .stopSessions B.state with stopSessions := false, request := true } : CState) = _
      simp [typeState, hB.1]
    · exact linked_tag A2 B3 L3 (tag H A body) m3 m5 rest

/-- C10, stop-sessions between two-way endpoints: the message is one block and a digest. -/
theorem C10_stop_sessions_twoway (H : Mac) (A B : Conn) (rA : Ready A) (rB : Ready B) (L : Linked A B)
    (hA : A.state.request = true ∧ A.state.test = true) (tA : A.twoway = true)
    (hB : B.state.request = true ∧ B.state.test = true) (hBr : B.state.isReading = false) (tB : B.twoway = true)
    (acc : Accept) (hv : acc ≠ .invalid) (num : U32) (tsA : List (Sess ρ)) (tsB : List Session)
    (hn : num.toNat = tsB.length) :
    let body := headText acc num
    Delivers A B (fun c => let r := writeStopSessions H c acc num tsA; (r.1, r.2.1))
      (afterType .stopSessions fun c => let r := readStopSessions H goodFile c tsB; (r.1, r.2.1))
      (sealed A (body ++ tag H A body)) acc A.state { B.state with stopSessions := false } := by
  intro body
  have hm := rA.2.1
  have hmB := rB.2.1
  let m := put32 (put8 (put8 (put A.msg 0 (zeros 16)) 0 3#8) 1 acc.code) 4 num
  have hml : m.length = 400 := by
    simp (disch := blen) only [m, put8, put32, put_length]; exact hm
  have e : get m 0 (16 * (0 + 1)) = body := by
    simp only [m]
    rw [get_pieces _ 0 [1, 1, 2, 4, 8] (16 * (0 + 1)) rfl]
    have z1 : get (zeros 16) 2 2 = zeros 2 := rfl
    have z2 : get (zeros 16) 8 8 = zeros 8 := rfl
    fields
    simp [body, headText, enc8_eq]
  obtain ⟨h1, h2, h3⟩ := send_msg H A rA m body 1 (by omega) hml e
  refine ⟨A.sentMsg H m 1, ?_, h2, rfl, h3, rfl, ?_⟩
  · dsimp only
    unfold writeStopSessions
    rw [if_neg (by simp [hA]), if_pos tA]
    rw [show sendMsg H A _ 1 = _ from h1]
  · intro rest hi
    have hbl : body.length = 16 := by simp [body, headText]
    have htl := tag_length H A body
    have hb2 : sealed A (plain H A body) = A.wr body ++ (A.sentText body A.msg).wr (tag H A body) := by
      rw [sealed_eq A _ 2 (by rw [plain_length H A body 1 hbl])]
      exact wr_append A body _ A.msg 1 1 hbl htl
    rw [show body ++ tag H A body = plain H A body from rfl, hb2, List.append_assoc] at hi
    let A2 := A.sentText body A.msg
    have rA2 : Ready A2 := ready_sentText A rA body A.msg hm
    let r1 := A2.wr (tag H A body) ++ rest
    let B0 : Conn := B.setState (typeState .stopSessions B.state)
    let b1 := put B.msg 0 body
    have hb1 : b1.length = 400 := by simp only [b1]; rw [put_length _ _ _ (by omega)]; exact hmB
    have hg : ∀ o n, o + n ≤ 16 → get b1 o n = get body o n := by
      intro o n h
      show get (put B.msg 0 body) o n = _
      rw [get_put_inside _ _ _ _ _ (by omega) (by omega) (by omega), Nat.sub_zero]
    have hbodyF : body = enc8 3#8 ++ (enc8 acc.code ++ (zeros 2 ++ (enc32 num ++ zeros 8))) := by
      simp [body, headText, enc8_eq]
    have hrb := recv_step A B rA rB L.1 body r1 0 1 hbl hi
    have hty : get8 (B.got 0 body r1).msg 0 = 3#8 := by
      unfold get8
      rw [show get (B.got 0 body r1).msg 0 1 = get body 0 1 from hg 0 1 (by omega), hbodyF, get_zero_append _ _ _ (by simp), dec_enc8]
    have hrt := readRequestType_ok B (B.got 0 body r1) .stopSessions hB.1 hBr (by decide) (by simp [hB.2]) hrb rfl hty
    let B1 : Conn := (B.got 0 body r1).setState (typeState .stopSessions B.state)
    have hacc : getAcceptType (get8 B1.msg 1) = acc := by
      have : get8 B1.msg 1 = acc.code := by
        unfold get8
        have h : get body 1 1 = enc8 acc.code := by rw [hbodyF]; fields
        rw [show get B1.msg 1 1 = get body 1 1 from hg 1 1 (by omega), h, dec_enc8]
      rw [this, getAcceptType_code]
    have hnum : get32 B1.msg 4 = num := by
      unfold get32
      have h : get body 4 4 = enc32 num := by rw [hbodyF]; fields
      rw [show get B1.msg 4 4 = get body 4 4 from hg 4 4 (by omega), h, dec_enc32]
    let B3 := B0.gotText body b1 r1
    have rB3 : Ready B3 := ready_gotText B0 rB _ _ _ hb1
    have L3 : Linked A2 B3 := linked_text A B0 L _ _ _ _
    have hadd : recvHmacAdd B1 (get B1.msg 0 16) = B3 := by
      rw [show get B1.msg 0 16 = body from (hg 0 16 (by omega)).trans (get_all body 16 (by omega))]
      exact gotText_ok B0 0 body r1
    have htag : tag H A2 [] = tag H A body := by
      unfold tag
      show (if A.cipher = true then (H.hash A.hmacKey ((if A.cipher then A.sendAcc ++ body else A.sendAcc) ++ [])).take 16 else _) = _
      cases A.cipher <;> simp
    have hrd := recv_step A2 B3 rA2 rB3 L3.1 (tag H A body) rest 0 1 htl rfl
    have hck := gotTag_ok H A2 B3 L3.1 0 rest
    rw [htag] at hck
    let m5 := put b1 0 (tag H A body)
    have hm5 : m5.length = 400 := by simp only [m5]; rw [put_length _ _ _ (by omega)]; exact hb1
    let B4 := B3.gotTag (tag H A body) m5 rest
    refine ⟨B4.setState { B4.state with stopSessions := false, request := true }, ?_, rfl, rfl, ?_, ?_, ?_⟩
    · unfold afterType
      rw [hrt]
      simp only [if_true]
      rw [show (B.got 0 body r1).setState (typeState .stopSessions B.state) = B1 from rfl]
      unfold readStopSessions
      have hst : B1.state.request = true ∧ B1.state.test = true := hB
      rw [if_neg (by simp [hst])]
      dsimp only
      rw [hacc, hnum, if_neg hv, hadd, if_pos (show B3.twoway = true from tB), if_neg (by simp [hn])]
      unfold readStopEnd
      dsimp only
      rw [hrd]
      dsimp only
      have hgt : get (B3.got 0 (tag H A body) rest).msg 0 16 = tag H A body := by
        show get (put b1 0 (tag H A body)) 0 16 = _
        rw [get_put_same _ _ _ _ htl (by omega)]
      rw [hgt, hck]
      rfl
    · exact ready_gotTag B3 rB3 (tag H A body) m5 rest hm5
    · show ({ typeState .stopSessions B.state with stopSessions := false, request := true } : CState) = _
      simp [typeState, hB.1]
    · have := linked_tag A2 B3 L3 (tag H A body) m m5 rest
      refine ⟨⟨this.1.1, fun hc => ?_⟩, this.2⟩
      obtain ⟨l1, l2, l3, l4⟩ := this.1.2 hc
      have hiv : (A.sentMsg H m 1).writeIV = (A2.sentTag (tag H A body) m).writeIV := by
        show wireIV A.cipher A.aesKey A.writeIV (plain H A (get m 0 (16 * 1))) = wireIV A.cipher A.aesKey (wireIV A.cipher A.aesKey A.writeIV body) (tag H A body)
        rw [show get m 0 (16 * 1) = body from e]
        exact wireIV_append A.cipher A.aesKey A.writeIV body (tag H A body) 1 1 hbl htl
      refine ⟨l1, l2, hiv.trans l3, ?_⟩
      have : (A.sentMsg H m 1).sendAcc = (A2.sentTag (tag H A body) m).sendAcc := by
        show (if A.cipher then [] else A.sendAcc) = if A.cipher then [] else (if A.cipher then A.sendAcc ++ body else A.sendAcc)
        cases A.cipher <;> rfl
      exact this.trans l4

/-- Hypotheses met: two sessions sent by `A`, both received by `B` beside one that `B` sends. -/
def demoAcct (t : Sess Unit) : Account := if t.sid = zeros 16 then ⟨9#32, [⟨1#32, 2#32⟩, ⟨4#32, 4#32⟩]⟩ else ⟨5#32, []⟩
def demoSess (sid : Bytes) (a : Account) : Sess Unit := ⟨sid, some ⟨true, skipFile a, (skipFile a).length, ()⟩⟩

example (H : Mac) := C10_stop_sessions H { demoA with state := { request := true, test := true } }
  { demoB with state := { request := true, test := true } } (demo_states _ .invalid).1
  (demo_states .invalid _).2.1 (demo_states _ _).2.2.1 ⟨rfl, rfl⟩ rfl ⟨rfl, rfl⟩ rfl rfl .accept (by decide) demoAcct
  [demoSess (zeros 16) ⟨9#32, [⟨1#32, 2#32⟩, ⟨4#32, 4#32⟩]⟩, demoSess (List.replicate 16 5#8) ⟨5#32, []⟩]
  [rsess 5#8, ⟨List.replicate 16 1#8, some ⟨true, [], 0, []⟩⟩, rsess 0#8]
  (by
    intro t ht e he _
    simp only [List.mem_cons, List.not_mem_nil, or_false] at ht
    rcases ht with rfl | rfl
    · simp only [demoSess, Option.some.injEq] at he
      subst he
      exact ⟨rfl, rfl, rfl, by decide, by decide⟩
    · simp only [demoSess, Option.some.injEq] at he
      subst he
      exact ⟨rfl, rfl, rfl, by decide, by decide⟩)
  (by decide) (by decide) (by decide)

end Owamp.Props
