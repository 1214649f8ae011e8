import Verif.Rtp.HeaderLemmas

/-!
# Properties C23, C24, C25, C26: RTP header, event header, DTMF tables
-/

namespace Gosip.Props
open Rtp Spec

/-- **C23.** `Write` appends exactly 12 bytes, which are the RFC 3550 fixed header as a 96-bit
big-endian number; `Read` of the result (followed by anything) gives the header back, with the
payload type modulo 128, whatever the receiver held before. -/
theorem C23_header_round_trip (h h0 : Header) (b rest : Bytes) :
    ∃ w, h.write b = b ++ w ∧ w.length = 12 ∧
      beNat w = rtpHeaderNat h.pad h.mark (h.pt.toNat % 128) h.seq.toNat h.ts.toNat h.ssrc.toNat ∧
      h0.read (w ++ rest) = (.ok (), { h with pt := UInt8.ofNat (h.pt.toNat % 128) }) := by
  obtain ⟨p, m, pt, seq, ts, ssrc⟩ := h
  refine ⟨_, rfl, rfl, ?_, ?_⟩
  · have h1 := (ptmark pt m).2.2
    have hs := seq.toNat_lt; have ht := ts.toNat_lt; have hr := ssrc.toNat_lt
    dsimp only at h1 ⊢
    simp only [beNat, List.foldl_cons, List.foldl_nil, h1, rtpHeaderNat]
    rw [b0_toNat]
    simp [Nat.shiftRight_eq_div_pow]
    omega
  · obtain ⟨h1, h2, _⟩ := ptmark pt m
    have h2 := h2.trans (mask7_eq pt)
    simp only [UInt8.shiftLeft_zero] at h1 h2
    have hl : ¬ (rest.length + 1 + 1 + 1 + 1 + 1 + 1 + 1 + 1 + 1 + 1 + 1 + 1 < 12) := by omega
    have v1 : ((version &&& mask2) <<< 6 ||| (1 &&& mask1) <<< 5) >>> 6 = version := by decide
    have v2 : (version &&& mask2) <<< 6 >>> 6 = version := by decide
    have v3 : ((version &&& mask2) <<< 6 ||| (1 &&& mask1) <<< 5) >>> 4 &&& 1 = 0 := by decide
    have v4 : (version &&& mask2) <<< 6 >>> 4 &&& 1 = 0 := by decide
    have v5 : ((version &&& mask2) <<< 6 ||| (1 &&& mask1) <<< 5) >>> 5 &&& mask1 = 1 := by decide
    have v6 : (version &&& mask2) <<< 6 >>> 5 &&& mask1 = 0 := by decide
    cases p <;>
      simp [Header.read, idx, u16_split, u32_split, hl, v1, v2, v3, v4, v5, v6] <;>
      exact ⟨h1, h2⟩

example : ({ mark := true, pt := 101, seq := 666, ts := 160, ssrc := 7 } : Header).write [9] =
    [9, 128, 229, 2, 154, 0, 0, 0, 160, 0, 0, 0, 7] := by decide

/-- **C24.** `Read` never panics; it fails exactly for a slice shorter than 12 bytes, a version
other than 2, or the extension bit; then the header is unchanged. Otherwise the new header is the
one whose RFC 3550 encoding is the packet, CSRC count aside. -/
theorem C24_read_total (h : Header) (b : Bytes) :
    let r := h.read b
    r.1.Safe ∧
    (r.1 = .err .truncated ↔ b.length < 12) ∧
    (r.1 = .err .badVersion ↔ 12 ≤ b.length ∧ (b.headD 0).toNat / 64 ≠ 2) ∧
    (r.1 = .err .extension ↔
      12 ≤ b.length ∧ (b.headD 0).toNat / 64 = 2 ∧ (b.headD 0).toNat / 16 % 2 = 1) ∧
    (r.1 ≠ .ok () → r.2 = h) ∧
    (r.1 = .ok () → beNat (b.take 12) =
      rtpHeaderNat r.2.pad r.2.mark r.2.pt.toNat r.2.seq.toNat r.2.ts.toNat r.2.ssrc.toNat
        + (b.headD 0).toNat % 16 * 2 ^ 88) := by
  rcases Nat.lt_or_ge b.length 12 with hl | hl
  · simp only [Header.read, hl, if_true]
    simp; omega
  · match b, hl with
    | b0 :: b1 :: b2 :: b3 :: b4 :: b5 :: b6 :: b7 :: b8 :: b9 :: b10 :: b11 :: t, _ =>
      have hl : ¬ (t.length + 1 + 1 + 1 + 1 + 1 + 1 + 1 + 1 + 1 + 1 + 1 + 1 < 12) := by omega
      have hb := b0.toNat_lt
      have hb1 := b1.toNat_lt
      by_cases h1 : b0 >>> 6 = version
      · have h1' := (version_iff b0).1 h1
        by_cases h2 : (b0 >>> 4) &&& 1 = 0
        · have h2' := (ext_iff b0).1 h2
          simp [Header.read, idx, hl, h1, h2, h1', h2', rtpHeaderNat, beNat, pad_toNat, mark_toNat,
            mask7_toNat, u16_toNat, u32_toNat]
          omega
        · have h2' : b0.toNat / 16 % 2 = 1 := by
            have := mt (ext_iff b0).2 h2
            omega
          simp [Header.read, idx, hl, h1, h2, h1', h2']
      · have h1' := mt (version_iff b0).2 h1
        simp [Header.read, idx, hl, h1, h1']

example : (({} : Header).read b!"short").1 = .err .truncated := by decide
example : (({} : Header).read [192, 0, 0, 0, 0, 0, 0, 0, 0, 0, 0, 0]).1 = .err .badVersion := by
  decide

/-- **C25.** Writing an event header overwrites exactly the first four bytes, with the RFC 2833
layout, and reading gives it back (volume modulo 64); with fewer than four bytes there is a panic
in both directions, never a silent truncation. -/
theorem C25_event_round_trip (h : EventHeader) (b : Bytes) :
    if 4 ≤ b.length then
      ∃ w, h.write b = .ok (w ++ b.drop 4) ∧ w.length = 4 ∧
        beNat w = eventNat h.event.toNat h.e h.r (h.volume.toNat % 64) h.duration.toNat ∧
        EventHeader.read (w ++ b.drop 4) =
          .ok { h with volume := UInt8.ofNat (h.volume.toNat % 64) }
    else h.write b = .panic ∧ EventHeader.read b = .panic := by
  split
  · rename_i hl
    match b, hl with
    | b0 :: b1 :: b2 :: b3 :: t, _ =>
      obtain ⟨ev, e, r, v, d⟩ := h
      obtain ⟨h1, h2, h3, h4⟩ := volbits v e r
      have hd := d.toNat_lt
      refine ⟨[ev, _, _, _], by simp [EventHeader.write, setIdx]; exact ⟨rfl, rfl, rfl⟩, rfl,
        ?_, ?_⟩
      · simp only [beNat, List.foldl_cons, List.foldl_nil, h4, eventNat]
        simp [Nat.shiftRight_eq_div_pow]
        omega
      · have h3 := h3.trans (and63_eq v)
        simp [EventHeader.read, idx, u16_split]
        exact ⟨h1, h2, h3⟩
  · rename_i hl
    match b, hl with
    | [], _ => simp [EventHeader.write, EventHeader.read, setIdx, idx]
    | [_], _ => simp [EventHeader.write, EventHeader.read, setIdx, idx]
    | [_, _], _ => simp [EventHeader.write, EventHeader.read, setIdx, idx]
    | [_, _, _], _ => simp [EventHeader.write, EventHeader.read, setIdx, idx]
    | _ :: _ :: _ :: _ :: _, hl => simp at hl

example : ({ event := 5, e := true, volume := 6, duration := 400 } : EventHeader).write
    [0, 0, 0, 0, 77] = .ok [5, 134, 1, 144, 77] := by decide

/-- **C26.** `DtmfToChar` maps event n to the n-th character of the RFC 2833 alphabet and rejects
the other events; `CharToDtmf` accepts exactly the alphabet up to letter case and gives the
position back; `SendDTMF`'s table agrees with it (and its validity test with acceptance). -/
theorem C26_dtmf_tables (x : UInt8) :
    dtmfToChar x = dtmfAlphabet[x.toNat]? ∧
    (∀ e, charToDtmf x = some e ↔ dtmfAlphabet[e.toNat]? = some (upper x)) ∧
    (charToDtmf x = if dtmfCodes x = 0 ∧ x ≠ 48 then none else some (dtmfCodes x)) := by
  refine ⟨?_, ?_, ?_⟩
  · revert x; decide +kernel
  · intro e
    have h1 : charToDtmf x = (List.idxOf? (upper x) dtmfAlphabet).map UInt8.ofNat := by
      revert x; decide +kernel
    have h2 : ∀ c : UInt8, ∀ i < 17, dtmfAlphabet[i]? = some c ↔
        (List.idxOf? c dtmfAlphabet).map UInt8.ofNat = some (UInt8.ofNat i) := by decide +kernel
    have h3 : ∀ c : UInt8, ∀ j ∈ List.idxOf? c dtmfAlphabet, j < 17 := by decide +kernel
    rw [h1]
    rcases Nat.lt_or_ge e.toNat 17 with he | he
    · rw [h2 _ _ he]; simp
    · have : dtmfAlphabet[e.toNat]? = none := List.getElem?_eq_none he
      simp only [this, reduceCtorEq, iff_false]
      intro hc
      obtain ⟨j, hj, rfl⟩ := Option.map_eq_some_iff.1 hc
      have := h3 _ j hj
      simp at he; omega
  · revert x; decide +kernel

example : charToDtmf 100 = some 15 ∧ dtmfToChar 15 = some 68 ∧ charToDtmf 101 = none := by decide

end Gosip.Props
