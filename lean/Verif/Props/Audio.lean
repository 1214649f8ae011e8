import Verif.Spec.Audio
import Verif.Props.RtpSession
import Verif.Props.Dsp

/-!
# Property C81: audio
-/

namespace Gosip.Props
open Rtp Spec Dsp

theorem seg_small (x : Int) (hx : x.natAbs ≤ 32635) : 2 ^ (seg (encode x) + 7) ≤ x.natAbs + 132 := by
  obtain ⟨k, hk, h, h1, -, -⟩ := encode_index x ⟨by omega, by omega⟩
  have hs : seg (encode x) = k / 16 := by
    rw [h]; unfold seg; split <;> omega
  rw [hs]
  unfold lowEnd at h1
  omega

theorem heard_ulaw (x : Int16) : SoundsLike x (ulawSampleOf (ulawByte x)) := by
  have hlo : -32768 ≤ x.toInt := Int16.le_toInt x
  have hhi : x.toInt < 32768 := Int16.toInt_lt x
  have hS : Sample x.toInt := ⟨by omega, by omega⟩
  have hlt := C30_ulaw_ranges.1 x.toInt hS
  have hb : (ulawByte x).toNat = encode x.toInt := by
    unfold ulawByte encode at *
    rw [UInt8.toNat_ofNat']
    exact Nat.mod_eq_of_lt hlt
  have hv : (ulawSampleOf (ulawByte x)).toInt = decode (encode x.toInt) := by
    rw [(sampleOf_spec _).2, hb, decode_spec _ hlt]
  refine ⟨fun h => ?_, fun h => ?_, fun h => ?_⟩
  · obtain ⟨h1, h2, h3⟩ := C30_error x.toInt h
    have h4 := seg_small x.toInt h
    rw [hv]
    refine ⟨?_, h2, h3⟩
    have e : 2 ^ (seg (encode x.toInt) + 7) = 32 * 2 ^ (seg (encode x.toInt) + 2) := by
      rw [show seg (encode x.toInt) + 7 = seg (encode x.toInt) + 2 + 5 by omega, Nat.pow_add]; omega
    omega
  · rw [hv]; exact (C30_saturation x.toInt hS).1 h
  · rw [hv]; exact (C30_saturation x.toInt hS).2 h

theorem write_length (h : Header) : (h.write []).length = 12 := by simp [Header.write]

theorem write_version (h : Header) (t : Bytes) :
    ((h.write [] ++ t).getD 0 0).toNat / 64 = 2 ∧ ((h.write [] ++ t).getD 0 0).toNat / 16 % 2 = 0 := by
  simp only [Header.write, List.nil_append, List.cons_append, List.getD_cons_zero]
  cases h.pad <;> decide

/-- Which packets made with `Header.Write` are frames. -/
theorem frame_iff (h : Header) (t : Bytes) : IsUlawFrame (h.write [] ++ t) ↔ t.length = 160 ∧ h.pt.toNat % 128 = 0 := by
  obtain ⟨-, -, -, -, f5, -⟩ := write_fields h t
  obtain ⟨v1, v2⟩ := write_version h t
  unfold IsUlawFrame
  rw [f5, List.length_append, write_length]
  constructor
  · rintro ⟨h1, -, -, h4⟩; exact ⟨by omega, h4⟩
  · rintro ⟨h1, h4⟩; exact ⟨by omega, v1, v2, h4⟩

theorem all2_map {α β : Type} {R : α → β → Prop} (f : α → β) (h : ∀ a, R a (f a)) : ∀ l, All2 R l (l.map f)
  | [] => trivial
  | a :: l => ⟨h a, all2_map f h l⟩

/-- **C81.** `Send` writes one packet: the next of its stream, carrying the frame as μ-law. Whoever receives it with a
session hears one frame of as many samples, each as close to the one sent as μ-law allows. -/
theorem C81_frame (w : Writes) (s : Sess) (f : Frame) (hl : s.live = true) (hp : s.peer = true) :
    ∃ pkt, (s.send w f).2.log = s.log ++ [(pkt, w s.log.length)] ∧ (s.send w f).1 = w s.log.length ∧
      seqOf pkt = s.hdr.seq.toNat ∧ tsOf pkt = s.hdr.ts.toNat ∧ ssrcOf pkt = s.hdr.ssrc.toNat ∧ ptOf pkt = 0 ∧
      pkt.length = 172 ∧
      ∀ buf : Bytes, buf.length = 2048 → ∃ heard, receive buf [pkt] = .ok [heard] ∧ All2 SoundsLike f.toList heard := by
  obtain ⟨f1, f2, f3, -, f5, f6⟩ := write_fields { s.hdr with pt := ulawPT } (f.toList.map ulawByte)
  refine ⟨({ s.hdr with pt := ulawPT } : Header).write [] ++ f.toList.map ulawByte, ?_, ?_, f1, f2, f3, f5, ?_, ?_⟩
  · simp [Sess.send, hl, hp, Sess.writeTo]
  · simp [Sess.send, hl, hp, Sess.writeTo]
  · simp [write_length]
  · intro buf hb
    have hF : IsUlawFrame (({ s.hdr with pt := ulawPT } : Header).write [] ++ f.toList.map ulawByte) :=
      (frame_iff _ _).2 ⟨by simp, rfl⟩
    refine ⟨(f.toList.map ulawByte).map ulawSampleOf, ?_, ?_⟩
    · rw [receive_frames buf hb]
      simp only [List.filter_cons, hF, decide_true, if_true, List.filter_nil, List.map_cons, List.map_nil, f6]
    · rw [List.map_map]; exact all2_map _ heard_ulaw _

/-- **C81.** Without a peer, or after the session was closed, nothing is sent, and that is no error. -/
theorem C81_silent (w : Writes) (s : Sess) (h : s.live = false ∨ s.peer = false) :
    (∀ f, s.send w f = (true, s)) ∧ (∀ pt d n, s.sendRaw w pt d n = (true, s)) ∧
    ∀ digit, s.sendDTMF w digit = ((charToDtmf digit).isSome, s) := by
  have hc : ¬ s.live ∨ ¬ s.peer := by rcases h with h | h <;> simp [h]
  refine ⟨fun f => ?_, fun pt d n => ?_, fun digit => ?_⟩
  · unfold Sess.send
    rw [if_pos hc]
  · unfold Sess.sendRaw
    rw [if_pos hc]
  · unfold Sess.sendDTMF
    dsimp only
    rw [if_pos hc, (C26_dtmf_tables digit).2.2]
    split <;> rfl

/-- **C81.** `SendRaw` writes one packet: the next of its stream, with the payload type and the payload given. -/
theorem C81_raw (w : Writes) (s : Sess) (pt : UInt8) (d : Bytes) (n : UInt32) (hl : s.live = true) (hp : s.peer = true) :
    ∃ pkt, (s.sendRaw w pt d n).2.log = s.log ++ [(pkt, w s.log.length)] ∧ (s.sendRaw w pt d n).1 = w s.log.length ∧
      seqOf pkt = s.hdr.seq.toNat ∧ tsOf pkt = s.hdr.ts.toNat ∧ ssrcOf pkt = s.hdr.ssrc.toNat ∧
      ptOf pkt = pt.toNat % 128 ∧ pkt.drop 12 = d := by
  obtain ⟨f1, f2, f3, -, f5, f6⟩ := write_fields { s.hdr with pt := pt } d
  refine ⟨({ s.hdr with pt := pt } : Header).write [] ++ d, ?_, ?_, f1, f2, f3, f5, f6⟩
  · simp [Sess.sendRaw, hl, hp, Sess.writeTo]
  · simp [Sess.sendRaw, hl, hp, Sess.writeTo]

/-- The frames among packets. -/
def framesIn (l : List Bytes) : List (List Int16) :=
  (l.filter fun p => decide (IsUlawFrame p)).map fun p => (p.drop 12).map ulawSampleOf

theorem framesIn_append (a b : List Bytes) : framesIn (a ++ b) = framesIn a ++ framesIn b := by simp [framesIn]

theorem framesIn_none {l : List Bytes} (h : ∀ p ∈ l, ¬ IsUlawFrame p) : framesIn l = [] := by
  unfold framesIn
  rw [List.filter_eq_nil_iff.2 fun p hp => by simpa using h p hp]
  rfl

theorem all2_append {α β : Type} {R : α → β → Prop} {a c : List α} {b d : List β} (h1 : All2 R a b) (h2 : All2 R c d) :
    All2 R (a ++ c) (b ++ d) := by
  induction a generalizing b with
  | nil => cases b with
    | nil => exact h2
    | cons _ _ => exact h1.elim
  | cons x a ih => cases b with
    | nil => exact h1.elim
    | cons y b => exact ⟨h1.1, ih h1.2⟩

/-- What one operation adds to the log. -/
theorem op_frames (w : Writes) (hw : ∀ n, w n = true) (o : Op) (s : Sess) (ho : NoRawAudio [o]) :
    ∃ new : List (Bytes × Bool), (o.run w s).log = s.log ++ new ∧
      All2 (fun (f : Frame) l => All2 SoundsLike f.toList l) (framesSent [o] (s.live, s.peer)) (framesIn (new.map Prod.fst)) := by
  cases o with
  | setPeer b => exact ⟨[], by simp [Op.run], trivial⟩
  | close => exact ⟨[], by simp [Op.run], trivial⟩
  | send f =>
    by_cases h : s.live = true ∧ s.peer = true
    · obtain ⟨pkt, h1, -, -, -, -, -, -, h2⟩ := C81_frame w s f h.1 h.2
      refine ⟨_, h1, ?_⟩
      obtain ⟨l, h3, h4⟩ := h2 (List.replicate 2048 0) List.length_replicate
      rw [receive_frames _ List.length_replicate] at h3
      simp only [framesSent, h.1, h.2, Bool.and_self, if_true, List.map_cons, List.map_nil]
      have : framesIn [pkt] = [l] := by injection h3
      rw [this]
      exact ⟨h4, trivial⟩
    · have h' : s.live = false ∨ s.peer = false := by
        cases hl : s.live <;> cases hp : s.peer <;> simp [hl, hp] at h ⊢
      refine ⟨[], by simp [Op.run, (C81_silent w s h').1 f], ?_⟩
      have : (s.live && s.peer) = false := by rcases h' with h' | h' <;> simp [h']
      simp only [framesSent, this]
      exact trivial
  | sendRaw pt d n =>
    by_cases h : s.live = true ∧ s.peer = true
    · refine ⟨[(({ s.hdr with pt := pt } : Header).write [] ++ d, w s.log.length)],
        by simp [Op.run, Sess.sendRaw, h.1, h.2, Sess.writeTo], ?_⟩
      rw [framesIn_none]
      · exact trivial
      · intro p hp
        simp only [List.map_cons, List.map_nil, List.mem_singleton] at hp
        rw [hp, frame_iff]
        rintro ⟨k1, k2⟩
        rcases ho pt d n (by simp) with k | k
        · exact k k2
        · exact k k1
    · refine ⟨[], ?_, trivial⟩
      simp only [Op.run, Sess.sendRaw, List.append_nil]
      rw [if_pos]
      cases hl : s.live <;> cases hp : s.peer <;> simp [hl, hp] at h ⊢
  | sendDTMF d =>
    cases hc : charToDtmf d with
    | none => exact ⟨[], by simp [Op.run, C28_invalid_digit w s d hc], trivial⟩
    | some code =>
      by_cases h : s.live = true ∧ s.peer = true
      · refine ⟨(dtmfPackets s code).map fun p => (p, true), by simp [Op.run, C28_dtmf_event w hw s d code hc h.1 h.2], ?_⟩
        rw [framesIn_none]
        · exact trivial
        · intro p hp
          simp only [dtmfPackets, List.map_cons, List.map_nil, List.mem_cons, List.not_mem_nil, or_false] at hp
          rcases hp with rfl | rfl | rfl | rfl | rfl | rfl | rfl <;> rw [frame_iff] <;> simp
      · refine ⟨[], ?_, trivial⟩
        have : (s.sendDTMF w d).2 = s := by
          unfold Sess.sendDTMF
          dsimp only
          split
          · rfl
          · rw [if_pos]
            cases hl : s.live <;> cases hp : s.peer <;> simp [hl, hp] at h ⊢
        simp [Op.run, this]

theorem framesSent_cons (o : Op) (t : List Op) (c : Bool × Bool) :
    framesSent (o :: t) c = framesSent [o] c ++ framesSent t (canSend [o] c) := by
  cases o with
  | send f => simp only [framesSent, canSend]; split <;> rfl
  | _ => rfl

/-- **C81.** Over a network that loses and reorders nothing: the application at the other end hears exactly the frames
that were sent, in order, each as close as μ-law allows; key presses and raw packets of other kinds in between are not taken
for audio. -/
theorem C81_stream (w : Writes) (hw : ∀ n, w n = true) (ops : List Op) (s : Sess) (h : s.log = []) (ho : NoRawAudio ops)
    (buf : Bytes) (hb : buf.length = 2048) :
    ∃ heard, receive buf ((runOps w ops s).log.map Prod.fst) = .ok heard ∧
      All2 (fun (f : Frame) l => All2 SoundsLike f.toList l) (framesSent ops (s.live, s.peer)) heard := by
  have key : ∀ (ops : List Op) (s : Sess), NoRawAudio ops → ∃ new, (runOps w ops s).log = s.log ++ new ∧
      All2 (fun (f : Frame) l => All2 SoundsLike f.toList l) (framesSent ops (s.live, s.peer)) (framesIn (new.map Prod.fst)) := by
    intro ops
    induction ops with
    | nil => exact fun s _ => ⟨[], by simp [runOps], trivial⟩
    | cons o t ih =>
      intro s ho
      obtain ⟨n1, a1, a2⟩ := op_frames w hw o s fun pt d n hm => ho pt d n (by simp at hm; simp [hm])
      obtain ⟨n2, b1, b2⟩ := ih (o.run w s) fun pt d n hm => ho pt d n (List.mem_cons_of_mem _ hm)
      refine ⟨n1 ++ n2, ?_, ?_⟩
      · simp only [runOps, List.foldl_cons] at b1 ⊢
        rw [b1, a1]; simp
      · obtain ⟨_, _, _, _, _, k⟩ := op_effect w o s
        rw [framesSent_cons, ← k, List.map_append, framesIn_append]
        exact all2_append a2 b2
  obtain ⟨new, e, h2⟩ := key ops s ho
  rw [h, List.nil_append] at e
  exact ⟨_, receive_frames buf hb _, by rw [e]; exact h2⟩

-- A frame, a key, a frame that is not sent because the peer is not known, and another frame.
example : let f : Frame := .replicate 160 1000
    framesSent [.send f, .sendDTMF 49, .setPeer false, .send f, .setPeer true, .send f] (true, true) = [f, f] ∧
    ulawSampleOf (ulawByte 1000) = 988 ∧ NoRawAudio [.send f, .sendDTMF 49, .sendRaw 96 b!"abc" 80] := by
  refine ⟨rfl, by decide +kernel, ?_⟩
  intro pt d n h
  simp at h
  simp [h]

end Gosip.Props
