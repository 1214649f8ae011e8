import Verif.Rtp.SessionLemmas
import Verif.Props.RtpHeader

/-!
# Properties C27, C28, C29, C33: RTP sessions
-/

namespace Gosip.Props
open Rtp Spec

/-- **C27 (sequence numbers).** For every history of operations on a fresh session (`log = []`)
and every pattern of write failures: the first packet carries the initial number, every attempt
following a successful write carries the next number modulo 2^16, and one following a failed write
carries the next number or the same. -/
theorem C27_sequence_numbers (w : Writes) (ops : List Op) (s : Sess) (h : s.log = []) :
    Adjacent SeqStep (runOps w ops s).log ∧
    ∀ a ∈ (runOps w ops s).log.head?, seqOf a.1 = s.hdr.seq.toNat := by
  obtain ⟨new, h1, h2, -⟩ := runOps_effect w ops s
  rw [h1, h, List.nil_append]
  exact h2.isChain

/-- **C27 (sequence numbers, no failures).** When every write succeeds the i-th packet of the
session carries the initial number plus i modulo 2^16. -/
theorem C27_sequence_numbers_all_ok (w : Writes) (hw : ∀ n, w n = true) (ops : List Op) (s : Sess)
    (h : s.log = []) (i : Nat) (hi : i < (runOps w ops s).log.length) :
    seqOf (runOps w ops s).log[i].1 = (s.hdr.seq.toNat + i) % 2 ^ 16 := by
  obtain ⟨new, h1, h2, -⟩ := runOps_effect w ops s
  have hlog : ∀ (ops : List Op) (s : Sess), (∀ a ∈ s.log, a.2 = true) →
      ∀ a ∈ (runOps w ops s).log, a.2 = true := by
    have hwr : ∀ (s : Sess) (p : Bytes), (∀ a ∈ s.log, a.2 = true) →
        ∀ a ∈ (s.writeTo w p).2.log, a.2 = true := by
      intro s p hs a ha
      simp only [Sess.writeTo, List.mem_append, List.mem_singleton] at ha
      rcases ha with ha | ha
      · exact hs a ha
      · simp [ha, hw]
    have hst : ∀ (fuel : Nat) (c v : UInt8) (dur : UInt16) (s : Sess),
        (∀ a ∈ s.log, a.2 = true) → ∀ a ∈ (dtmfStart w c v fuel dur s).2.log, a.2 = true := by
      intro fuel
      induction fuel with
      | zero => intro c v dur s hs; exact hs
      | succ n ih =>
        intro c v dur s hs
        unfold dtmfStart
        dsimp only
        split
        · exact hwr _ _ hs
        · split
          · exact hwr _ _ hs
          · exact ih _ _ _ _ (hwr _ _ hs)
    have hen : ∀ (n : Nat) (ev : Bytes) (s : Sess),
        (∀ a ∈ s.log, a.2 = true) → ∀ a ∈ (dtmfEnd w ev n s).2.log, a.2 = true := by
      intro n
      induction n with
      | zero => intro ev s hs; exact hs
      | succ n ih =>
        intro ev s hs
        unfold dtmfEnd
        dsimp only
        split
        · exact hwr _ _ hs
        · exact ih _ _ (hwr _ _ hs)
    intro ops
    induction ops with
    | nil => intro s hs; exact hs
    | cons o t ih =>
      intro s hs
      apply ih
      cases o with
      | setPeer b => exact hs
      | close => exact hs
      | send f =>
        simp only [Op.run, Sess.send]; split
        · exact hs
        · exact hwr _ _ hs
      | sendRaw pt d n =>
        simp only [Op.run, Sess.sendRaw]; split
        · exact hs
        · exact hwr _ _ hs
      | sendDTMF d =>
        simp only [Op.run, Sess.sendDTMF]
        split
        · exact hs
        · split
          · exact hs
          · have := hst 8 (dtmfCodes d) (dtmfVolume &&& 0x3f) 1
              { s with hdr := { s.hdr with pt := dtmfPT, mark := true } } hs
            split
            · rename_i heq
              rw [heq] at this
              exact hen _ _ _ this
            · rename_i heq
              rw [heq] at this
              exact this
  have hall := hlog ops s (by simp [h])
  simp only [h1, h, List.nil_append] at hall hi ⊢
  exact h2.get hall i hi

/-- **C27 (timestamps).** Whatever the write outcomes, all packets of the operation following a
history carry the initial timestamp plus the samples sent during the history modulo 2^32, and the
session's own source identifier; DTMF digits count no samples. -/
theorem C27_timestamps (w : Writes) (pre : List Op) (o : Op) (s : Sess) :
    ∃ new, (runOps w (pre ++ [o]) s).log = (runOps w pre s).log ++ new ∧
      ∀ a ∈ new,
        tsOf a.1 = (s.hdr.ts.toNat + totalSamples pre (s.live, s.peer)) % 2 ^ 32 ∧
        ssrcOf a.1 = s.hdr.ssrc.toNat := by
  obtain ⟨_, -, -, h1, h2, -⟩ := runOps_effect w pre s
  obtain ⟨new, s1, a1, a2, -⟩ := op_effect w o (runOps w pre s)
  refine ⟨new, by simpa [runOps] using a1, fun a ha => ⟨?_, ?_⟩⟩
  · rw [a2.ts a ha, h1]
  · rw [a2.ssrc a ha, h2]

/-- A non-trivial history: frame, digit, raw packet; nine packets on the wire. -/
example : ((runOps (fun _ => true) [.send (Vector.replicate 160 0), .sendDTMF 53,
    .sendRaw 0 b!"xyz" 20, .close, .sendDTMF 53] { hdr := { seq := 65535 } }).log.map
      fun a => (seqOf a.1, tsOf a.1)) =
    [(65535, 0), (0, 160), (1, 160), (2, 160), (3, 160), (4, 160), (5, 160), (6, 160), (7, 160)] := by
  decide +kernel

/-- **C28 (valid digit).** With successful writes, `SendDTMF` of a digit of the alphabet writes
seven packets: marked start, three unmarked updates with growing durations, three identical end
packets with the end bit; same timestamp, volume 6, event code of the digit; the header is left
unmarked with the number advanced by seven and the same timestamp. -/
theorem C28_dtmf_event (w : Writes) (hw : ∀ n, w n = true) (s : Sess) (digit code : UInt8)
    (hd : charToDtmf digit = some code) (hl : s.live = true) (hp : s.peer = true) :
    s.sendDTMF w digit = (true,
      { s with
        hdr := { s.hdr with pt := 101, mark := false, seq := s.hdr.seq + 7 }
        log := s.log ++ (dtmfPackets s code).map fun p => (p, true) }) := by
  have hc : dtmfCodes digit = code ∧ ¬ (code = 0 ∧ digit ≠ 48) := by
    rw [(C26_dtmf_tables digit).2.2] at hd
    split at hd
    · simp at hd
    · rename_i h; cases hd; exact ⟨rfl, h⟩
  obtain ⟨rfl, hc⟩ := hc
  have d1 : ¬ ((1 : UInt16) + dtmfInterval ≥ dtmfDuration) := by decide
  have d2 : ¬ ((1 : UInt16) + dtmfInterval + dtmfInterval ≥ dtmfDuration) := by decide
  have d3 : ¬ ((1 : UInt16) + dtmfInterval + dtmfInterval + dtmfInterval ≥ dtmfDuration) := by decide
  have d4 : (1 : UInt16) + dtmfInterval + dtmfInterval + dtmfInterval + dtmfInterval
      ≥ dtmfDuration := by decide
  unfold Sess.sendDTMF
  simp only [hc, if_false, hl, hp, not_true_eq_false, or_self]
  rw [dtmfStart]; simp only [Sess.writeTo, hw, not_true_eq_false, if_false, d1]
  rw [dtmfStart]; simp only [Sess.writeTo, hw, not_true_eq_false, if_false, d2]
  rw [dtmfStart]; simp only [Sess.writeTo, hw, not_true_eq_false, if_false, d3]
  rw [dtmfStart]; simp only [Sess.writeTo, hw, not_true_eq_false, if_false, d4, if_true]
  simp only [dtmfEnd, Sess.writeTo, hw, not_true_eq_false, if_false, UInt16.add_assoc]
  simp only [dtmfPackets, List.append_assoc, List.cons_append, List.nil_append, List.map_cons,
    List.map_nil]
  have z : s.hdr.seq + UInt16.ofNat 0 = s.hdr.seq := by simp
  rw [z]
  rfl

/-- **C28 (invalid digit).** Any other byte gives an error and leaves the session as it was:
nothing is written. -/
theorem C28_invalid_digit (w : Writes) (s : Sess) (digit : UInt8) (h : charToDtmf digit = none) :
    s.sendDTMF w digit = (false, s) := by
  have hc : dtmfCodes digit = 0 ∧ digit ≠ 48 := by revert h; revert digit; decide +kernel
  unfold Sess.sendDTMF
  simp only [hc, true_and, if_true, ne_eq, not_false_eq_true]

/-- **C28 (failure).** A write failure makes `SendDTMF` fail, without writing further packets;
if it is the first one the marker stays set, so that the next packet of whatever kind is marked. -/
theorem C28_first_write_fails (w : Writes) (s : Sess) (digit code : UInt8)
    (hd : charToDtmf digit = some code) (hl : s.live = true) (hp : s.peer = true)
    (hw : w s.log.length = false) :
    (s.sendDTMF w digit).1 = false ∧ (s.sendDTMF w digit).2.hdr.mark = true ∧
    (s.sendDTMF w digit).2.log.length = s.log.length + 1 := by
  have hc : ¬ (dtmfCodes digit = 0 ∧ digit ≠ 48) := by
    rw [(C26_dtmf_tables digit).2.2] at hd
    split at hd
    · simp at hd
    · rename_i h; exact h
  unfold Sess.sendDTMF
  simp only [hc, if_false, hl, hp, not_true_eq_false, or_self]
  rw [dtmfStart]
  simp [Sess.writeTo, hw]

/-- **C28 (failure, in general).** The packet at which writing fails is the last one written; those before it are those of
the event. -/
theorem C28_stops_at_failure (w : Writes) (s : Sess) (digit code : UInt8)
    (hd : charToDtmf digit = some code) (hl : s.live = true) (hp : s.peer = true) (k : Nat) (hk : k < 7)
    (hok : ∀ j < k, w (s.log.length + j) = true) (hw : w (s.log.length + k) = false) :
    s.sendDTMF w digit = (false,
      { s with
        hdr := { s.hdr with pt := 101, mark := decide (k = 0), seq := s.hdr.seq + UInt16.ofNat k }
        log := s.log ++ ((dtmfPackets s code).take k).map (fun p => (p, true)) ++
          (((dtmfPackets s code).drop k).take 1).map fun p => (p, false) }) := by
  have hc : dtmfCodes digit = code ∧ ¬ (code = 0 ∧ digit ≠ 48) := by
    rw [(C26_dtmf_tables digit).2.2] at hd
    split at hd
    · simp at hd
    · rename_i h; cases hd; exact ⟨rfl, h⟩
  obtain ⟨rfl, hc⟩ := hc
  have d1 : ¬ ((1 : UInt16) + dtmfInterval ≥ dtmfDuration) := by decide
  have d2 : ¬ ((1 : UInt16) + dtmfInterval + dtmfInterval ≥ dtmfDuration) := by decide
  have d3 : ¬ ((1 : UInt16) + dtmfInterval + dtmfInterval + dtmfInterval ≥ dtmfDuration) := by decide
  have d4 : (1 : UInt16) + dtmfInterval + dtmfInterval + dtmfInterval + dtmfInterval
      ≥ dtmfDuration := by decide
  have h0 : 0 < k → w s.log.length = true := fun h => by simpa using hok 0 h
  have hj : ∀ j, j < k → w (s.log.length + j) = true := hok
  unfold Sess.sendDTMF
  simp only [hc, if_false, hl, hp, not_true_eq_false, or_self]
  match k, hk with
  | 0, _ =>
    have hw : w s.log.length = false := hw
    rw [dtmfStart]; simp [Sess.writeTo, dtmfPackets, hw]
    and_intros <;> rfl
  | 1, _ =>
    have a0 := h0 (by omega)
    rw [dtmfStart]; simp [Sess.writeTo, dtmfPackets, a0, d1]
    rw [dtmfStart]; simp [Sess.writeTo, hw]
    and_intros <;> rfl
  | 2, _ =>
    have a0 := h0 (by omega)
    have a1 := hj 1 (by omega)
    rw [dtmfStart]; simp [Sess.writeTo, dtmfPackets, a0, d1]
    rw [dtmfStart]; simp [Sess.writeTo, a1, d2]
    rw [dtmfStart]; simp [Sess.writeTo, hw, UInt16.add_assoc]
    and_intros <;> rfl
  | 3, _ =>
    have a0 := h0 (by omega)
    have a1 := hj 1 (by omega)
    have a2 := hj 2 (by omega)
    rw [dtmfStart]; simp [Sess.writeTo, dtmfPackets, a0, d1]
    rw [dtmfStart]; simp [Sess.writeTo, a1, d2]
    rw [dtmfStart]; simp [Sess.writeTo, a2, d3]
    rw [dtmfStart]; simp [Sess.writeTo, hw, UInt16.add_assoc]
    and_intros <;> rfl
  | 4, _ =>
    have a0 := h0 (by omega)
    have a1 := hj 1 (by omega)
    have a2 := hj 2 (by omega)
    have a3 := hj 3 (by omega)
    rw [dtmfStart]; simp [Sess.writeTo, dtmfPackets, a0, d1]
    rw [dtmfStart]; simp [Sess.writeTo, a1, d2]
    rw [dtmfStart]; simp [Sess.writeTo, a2, d3]
    rw [dtmfStart]; simp [Sess.writeTo, a3, d4]
    simp [dtmfEnd, Sess.writeTo, hw,  UInt16.add_assoc]
    and_intros <;> rfl
  | 5, _ =>
    have a0 := h0 (by omega)
    have a1 := hj 1 (by omega)
    have a2 := hj 2 (by omega)
    have a3 := hj 3 (by omega)
    have a4 := hj 4 (by omega)
    rw [dtmfStart]; simp [Sess.writeTo, dtmfPackets, a0, d1]
    rw [dtmfStart]; simp [Sess.writeTo, a1, d2]
    rw [dtmfStart]; simp [Sess.writeTo, a2, d3]
    rw [dtmfStart]; simp [Sess.writeTo, a3, d4]
    simp [dtmfEnd, Sess.writeTo, hw, a4,  UInt16.add_assoc]
    and_intros <;> rfl
  | 6, _ =>
    have a0 := h0 (by omega)
    have a1 := hj 1 (by omega)
    have a2 := hj 2 (by omega)
    have a3 := hj 3 (by omega)
    have a4 := hj 4 (by omega)
    have a5 := hj 5 (by omega)
    rw [dtmfStart]; simp [Sess.writeTo, dtmfPackets, a0, d1]
    rw [dtmfStart]; simp [Sess.writeTo, a1, d2]
    rw [dtmfStart]; simp [Sess.writeTo, a2, d3]
    rw [dtmfStart]; simp [Sess.writeTo, a3, d4]
    simp [dtmfEnd, Sess.writeTo, hw, a4, a5,  UInt16.add_assoc]
    and_intros <;> rfl

example : charToDtmf 53 = some 5 ∧ charToDtmf 90 = none := by decide

theorem pt0_iff : ∀ b1 : UInt8, b1 &&& mask7 = ulawPT ↔ b1.toNat % 128 = 0 := by decide +kernel

theorem read_cons (h : Header) (b0 b1 b2 b3 b4 b5 b6 b7 b8 b9 b10 b11 : UInt8) (t : Bytes) :
    h.read (b0 :: b1 :: b2 :: b3 :: b4 :: b5 :: b6 :: b7 :: b8 :: b9 :: b10 :: b11 :: t) =
      if b0.toNat / 64 = 2 then
        if b0.toNat / 16 % 2 = 0 then
          (.ok (), { pad := (b0 >>> 5) &&& mask1 == 1, mark := (b1 >>> 7) &&& mask1 == 1,
                     pt := b1 &&& mask7, seq := u16 b2 b3, ts := u32 b4 b5 b6 b7,
                     ssrc := u32 b8 b9 b10 b11 })
        else (.err .extension, h)
      else (.err .badVersion, h) := by
  have hl : ¬ (t.length + 1 + 1 + 1 + 1 + 1 + 1 + 1 + 1 + 1 + 1 + 1 + 1 < 12) := by omega
  simp only [← version_iff, ← ext_iff]
  by_cases h1 : b0 >>> 6 = version
  · by_cases h2 : (b0 >>> 4) &&& 1 = 0
    · simp [Header.read, idx, hl, h1, h2]
    · simp [Header.read, idx, hl, h1, h2]
  · simp [Header.read, idx, hl, h1]

theorem receive_frames (buf : Bytes) (hb : buf.length = 2048) (ps : List Bytes) :
    receive buf ps = .ok ((ps.filter fun p => decide (IsUlawFrame p)).map
      fun p => (p.drop 12).map ulawSampleOf) := by
  induction ps generalizing buf with
  | nil => rfl
  | cons p ps ih =>
    have hlen := receive_buf_length buf p hb
    have hstep : recvPacket buf p =
        (.ok (if IsUlawFrame p then some ((p.drop 12).map ulawSampleOf) else none),
          recvInto buf p) := by
      by_cases hp : p.length = 172
      · have ht : p.take 2048 = p := List.take_of_length_le (by omega)
        have hr : recvInto buf p = p ++ buf.drop 172 := by simp [recvInto, ht, hp]
        match p, hp with
        | b0 :: b1 :: b2 :: b3 :: b4 :: b5 :: b6 :: b7 :: b8 :: b9 :: b10 :: b11 :: t, hp =>
          have ht160 : t.length = 160 := by simpa using hp
          have hamt : ((b0 :: b1 :: b2 :: b3 :: b4 :: b5 :: b6 :: b7 :: b8 :: b9 :: b10 :: b11
              :: t).take 2048).length = 172 := by rw [ht, hp]
          unfold recvPacket
          simp only [hr, hamt, List.cons_append, read_cons]
          by_cases h1 : b0.toNat / 64 = 2
          · by_cases h2 : b0.toNat / 16 % 2 = 0
            · by_cases h3 : b1.toNat % 128 = 0
              · have h3' := (pt0_iff b1).2 h3
                have hf : IsUlawFrame (b0 :: b1 :: b2 :: b3 :: b4 :: b5 :: b6 :: b7 :: b8 :: b9 ::
                    b10 :: b11 :: t) := ⟨hp, h1, h2, h3⟩
                simp only [h1, h2, if_true, h3', ne_eq, not_true_eq_false, if_false, hf]
                rw [if_pos (by simp [headerSize]; omega)]
                simp only [List.drop_succ_cons, List.drop_zero]
                rw [List.take_append_of_le_length (by omega), List.take_of_length_le (by omega)]
              · have hf : ¬ IsUlawFrame (b0 :: b1 :: b2 :: b3 :: b4 :: b5 :: b6 :: b7 :: b8 :: b9 ::
                    b10 :: b11 :: t) := fun h => h3 h.2.2.2
                have h3' := mt (pt0_iff b1).1 h3
                simp only [h1, h2, if_true, h3', ne_eq, not_false_eq_true, hf, if_false]
            · have hf : ¬ IsUlawFrame (b0 :: b1 :: b2 :: b3 :: b4 :: b5 :: b6 :: b7 :: b8 :: b9 ::
                  b10 :: b11 :: t) := fun h => h2 h.2.2.1
              simp only [h1, h2, if_true, hf, if_false]
          · have hf : ¬ IsUlawFrame (b0 :: b1 :: b2 :: b3 :: b4 :: b5 :: b6 :: b7 :: b8 :: b9 ::
                b10 :: b11 :: t) := fun h => h1 h.2.1
            simp only [h1, hf, if_false]
      · have hne : ¬ IsUlawFrame p := fun h => hp h.1
        have hamt : (p.take 2048).length ≠ headerSize + 160 := by
          simp [headerSize]; omega
        have hs := (C24_read_total {} (recvInto buf p)).1
        unfold recvPacket
        simp only [hne, if_false]
        generalize ({} : Header).read (recvInto buf p) = r at hs
        obtain ⟨o, hd⟩ := r
        cases o with
        | ok u =>
          cases u
          simp only [hamt, ne_eq, not_false_eq_true, if_true, ite_self]
        | err e => rfl
        | panic => exact absurd hs (by simp)
    unfold receive
    rw [hstep]
    by_cases h : IsUlawFrame p
    · simp [h, ih _ hlen]
    · simp [h, ih _ hlen]

/-- What `UlawToLinear` makes of a byte is what G.711 says. -/
theorem sampleOf_spec : ∀ c : UInt8,
    ulawSampleOf c = Int16.ofInt (ulawSample c.toNat) ∧ (ulawSampleOf c).toInt = ulawSample c.toNat := by decide +kernel

/-- **C29.** For every sequence of received packets (whatever the initial 2048-byte buffer), the
receiver never panics and delivers, in arrival order, exactly the μ-law decodings of bytes 12..171
of the packets that are complete frames. -/
theorem C29_frames (buf : Bytes) (hb : buf.length = 2048) (ps : List Bytes) :
    receive buf ps = .ok ((ps.filter fun p => decide (IsUlawFrame p)).map
      fun p => (p.drop 12).map fun c => Int16.ofInt (ulawSample c.toNat)) := by
  rw [receive_frames buf hb, show ulawSampleOf = fun c => Int16.ofInt (ulawSample c.toNat) from
    funext fun c => (sampleOf_spec c).1]

/-- A complete frame, and packets that are not. -/
example : IsUlawFrame ([128, 0] ++ List.replicate 170 255) ∧ ¬ IsUlawFrame b!"x" ∧
    ¬ IsUlawFrame ([128, 8] ++ List.replicate 170 255) := by decide +kernel

/-- **C33.** Whatever the random numbers and the outcomes of binding: every port tried is even and
in 16384..32768, at least one and at most ten are tried, all but the last attempt failed with
"address already in use", the reported outcome is that of the last attempt, and giving up on that
error only happens at the tenth attempt. -/
theorem C33_listen (rnd : Nat → Nat) (bind : Nat → Nat → Bind) :
    let r := listen rnd bind
    (∀ p ∈ r.1, p % 2 = 0 ∧ 16384 ≤ p ∧ p ≤ 32768) ∧ 1 ≤ r.1.length ∧ r.1.length ≤ 10 ∧
    (∀ i p, r.1[i]? = some p → i + 1 < r.1.length → bind i p = .inUse) ∧
    (∀ p, r.1[r.1.length - 1]? = some p → r.2 = some (bind (r.1.length - 1) p)) ∧
    (r.2 = some .inUse → r.1.length = 10) := by
  have hport : ∀ x, listenPort x % 2 = 0 ∧ 16384 ≤ listenPort x ∧ listenPort x ≤ 32768 := by
    intro x
    have := Nat.mod_lt x (show 32768 - 16384 + 1 > 0 by decide)
    simp only [listenPort]
    split <;> omega
  have gen : ∀ n i tried last, tried.length = i → i + n = 10 → (1 ≤ i ∨ 1 ≤ n) →
      (∀ p ∈ tried, p % 2 = 0 ∧ 16384 ≤ p ∧ p ≤ 32768) →
      (∀ j p, tried[j]? = some p → bind j p = .inUse) →
      (i ≠ 0 → last = some .inUse) →
      let r := listenLoop rnd bind n i (tried, last)
      (∀ p ∈ r.1, p % 2 = 0 ∧ 16384 ≤ p ∧ p ≤ 32768) ∧ 1 ≤ r.1.length ∧ r.1.length ≤ 10 ∧
      (∀ i p, r.1[i]? = some p → i + 1 < r.1.length → bind i p = .inUse) ∧
      (∀ p, r.1[r.1.length - 1]? = some p → r.2 = some (bind (r.1.length - 1) p)) ∧
      (r.2 = some .inUse → r.1.length = 10) := by
    intro n
    induction n with
    | zero =>
      intro i tried last hi hn hpos hp hb hlast
      simp only [listenLoop]
      refine ⟨hp, by omega, by omega, fun j p h _ => hb j p h, fun p h => ?_, fun _ => by omega⟩
      rw [hlast (by omega), hb _ p h]
    | succ n ih =>
      intro i tried last hi hn hpos hp hb hlast
      simp only [listenLoop]
      split
      · rename_i hin
        apply ih (i + 1) (tried ++ [listenPort (rnd i)]) _ (by simp [hi]) (by omega) (by omega)
        · intro p hm
          rcases List.mem_append.1 hm with hm | hm
          · exact hp p hm
          · rw [List.mem_singleton.1 hm]; exact hport _
        · intro j p h
          rcases Nat.lt_or_ge j tried.length with hj | hj
          · rw [List.getElem?_append_left hj] at h; exact hb j p h
          · rw [List.getElem?_append_right hj] at h
            have hj0 : j - tried.length = 0 := by
              rcases Nat.eq_zero_or_pos (j - tried.length) with h0 | h0
              · exact h0
              · rw [List.getElem?_eq_none (by simp; omega)] at h; simp at h
            rw [hj0] at h
            simp at h
            have : j = i := by omega
            rw [this, ← h]; exact hin
        · intro _; rw [hin]
      · rename_i hin
        refine ⟨?_, by simp, by simp; omega, ?_, ?_, ?_⟩
        · intro p hm
          rcases List.mem_append.1 hm with hm | hm
          · exact hp p hm
          · rw [List.mem_singleton.1 hm]; exact hport _
        · intro j p h hj
          have hj : j < tried.length := by simpa using hj
          simp only [List.getElem?_append_left hj] at h
          exact hb j p h
        · intro p h
          simp [← hi] at h ⊢
          rw [h]
        · intro h
          exact absurd (Option.some.inj h) hin
  exact gen 10 0 [] none rfl rfl (by omega) (by simp) (by simp) (by simp)

example : listen (fun i => 3 * i + 1) (fun i _ => if i < 2 then .inUse else .ok) =
    ([16384, 16388, 16390], some .ok) := by decide +kernel

/-- **C33** (no port is left out). Every even port of the range is tried first for some random numbers, so that a second
session finds a port as long as one of the range is free. -/
theorem C33_every_port (bind : Nat → Nat → Bind) (p : Nat) (h0 : p % 2 = 0) (h1 : 16384 ≤ p) (h2 : p ≤ 32768) :
    ∃ rnd, (listen rnd bind).1.head? = some p := by
  have hp : listenPort (p - 16384) = p := by
    unfold listenPort
    have : (p - 16384) % (32768 - 16384 + 1) = p - 16384 := Nat.mod_eq_of_lt (by omega)
    simp only [this]
    split <;> omega
  have gen : ∀ n i (q : Nat) l last, (listenLoop (fun _ => p - 16384) bind n i (q :: l, last)).1.head? = some q := by
    intro n
    induction n with
    | zero => intro i q l last; rfl
    | succ n ih =>
      intro i q l last
      simp only [listenLoop]
      split
      · exact ih _ _ _ _
      · rfl
  refine ⟨fun _ => p - 16384, ?_⟩
  show (if bind 0 (listenPort (p - 16384)) = .inUse then
    listenLoop (fun _ => p - 16384) bind 9 1 ([listenPort (p - 16384)], some (bind 0 (listenPort (p - 16384))))
    else ([listenPort (p - 16384)], some (bind 0 (listenPort (p - 16384))))).1.head? = some p
  rw [hp]
  split
  · exact gen _ _ _ _ _
  · rfl

example : ∃ rnd, (listen rnd fun _ _ => .ok).1.head? = some 32768 := C33_every_port _ _ rfl (by decide) (by decide)

end Gosip.Props
