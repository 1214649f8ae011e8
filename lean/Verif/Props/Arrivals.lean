import Verif.Spec.Arrivals
import Verif.Props.Audio

/-!
# Property C86: who is heard, and in which order
-/

namespace Gosip.Props
open Rtp Spec

theorem receiver_frames (buf : Bytes) (hb : buf.length = 2048) (l : List Arrival) :
    receiver buf l = .ok (framesIn (l.map Prod.snd)) := receive_frames buf hb _

/-- **C86**, as far as it holds. What is heard is the sound of the peer's datagrams alone if and only if nobody else sent a
datagram that looks like audio. -/
theorem C86_peer_only_iff_partial (buf : Bytes) (hb : buf.length = 2048) (peer : Bytes × UInt16) (arrived : List Arrival) :
    receiver buf arrived = receiver buf (fromPeer peer arrived) ↔ ∀ a ∈ arrived, IsUlawFrame a.2 → a.1 = peer := by
  rw [receiver_frames buf hb, receiver_frames buf hb]
  have hlen : ∀ l : List Arrival, (framesIn (l.map Prod.snd)).length = l.countP fun a => decide (IsUlawFrame a.2) := by
    intro l
    simp only [framesIn, List.length_map, List.countP_eq_length_filter, List.filter_map]
    rfl
  constructor
  · intro h a ha hf
    injection h with h
    have h := congrArg List.length h
    rw [hlen, hlen, fromPeer, List.countP_filter] at h
    rcases Decidable.em (a.1 = peer) with e | e
    · exact e
    · exfalso
      have : ∀ l : List Arrival, a ∈ l → (l.countP fun x => decide (IsUlawFrame x.2) && decide (x.1 = peer)) <
          l.countP fun x => decide (IsUlawFrame x.2) := by
        intro l hl
        induction l with
        | nil => cases hl
        | cons b l ih =>
          have hle : (l.countP fun x => decide (IsUlawFrame x.2) && decide (x.1 = peer)) ≤
              l.countP fun x => decide (IsUlawFrame x.2) :=
            List.countP_mono_left fun x _ hx => (Bool.and_eq_true_iff.1 hx).1
          rw [List.countP_cons, List.countP_cons]
          rcases List.mem_cons.1 hl with rfl | hl
          · simp only [hf, e, decide_true, decide_false, Bool.and_false, Bool.false_eq_true, if_false, if_true]; omega
          · have := ih hl
            by_cases h1 : IsUlawFrame b.2 <;> by_cases h2 : b.1 = peer <;> simp only [h1, h2, decide_true, decide_false,
              Bool.and_false, Bool.and_true, Bool.false_eq_true, if_false, if_true] <;> omega
      have := this arrived ha
      omega
  · intro h
    congr 1
    unfold framesIn fromPeer
    congr 1
    induction arrived with
    | nil => rfl
    | cons a l ih =>
      have ih := ih fun x hx => h x (List.mem_cons_of_mem _ hx)
      have ha := h a List.mem_cons_self
      by_cases h1 : IsUlawFrame a.2
      · simp [h1, ha h1, ih]
      · by_cases h2 : a.1 = peer <;> simp [h1, h2, ih]

/-- **C86 is false of the code**, always: a frame that anybody sends is heard between what arrived before it and what arrives
after it, as the peer's own frames are. -/
theorem C86_strangers_heard (buf : Bytes) (hb : buf.length = 2048) (before after : List Arrival) (stranger : Bytes × UInt16)
    (p : Bytes) (hp : IsUlawFrame p) :
    ∃ b a, receiver buf before = .ok b ∧ receiver buf after = .ok a ∧
      receiver buf (before ++ (stranger, p) :: after) = .ok (b ++ (p.drop 12).map ulawSampleOf :: a) ∧
      receiver buf (before ++ after) = .ok (b ++ a) := by
  refine ⟨_, _, receiver_frames buf hb _, receiver_frames buf hb _, ?_, ?_⟩
  · rw [receiver_frames buf hb]
    simp [framesIn, hp]
  · rw [receiver_frames buf hb]
    simp [framesIn]

theorem send_frame (w : Writes) (s : Sess) (f : Frame) (hl : s.live = true) (hp : s.peer = true) :
    ∃ pkt, (s.send w f).2.log = s.log ++ [(pkt, w s.log.length)] ∧ IsUlawFrame pkt ∧
      All2 SoundsLike f.toList ((pkt.drop 12).map ulawSampleOf) ∧ (s.send w f).2.live = true ∧ (s.send w f).2.peer = true := by
  obtain ⟨-, -, -, -, -, f6⟩ := write_fields { s.hdr with pt := ulawPT } (f.toList.map ulawByte)
  refine ⟨({ s.hdr with pt := ulawPT } : Header).write [] ++ f.toList.map ulawByte, ?_, (frame_iff _ _).2 ⟨by simp, rfl⟩, ?_, ?_, ?_⟩
  · simp [Sess.send, hl, hp, Sess.writeTo]
  · rw [f6, List.map_map]; exact all2_map _ heard_ulaw _
  · simp [Sess.send, hl, hp, Sess.writeTo]
  · simp [Sess.send, hl, hp, Sess.writeTo]

/-- The packets of a sequence of frames. -/
theorem sends_frames (w : Writes) (fs : List Frame) (s : Sess) (hl : s.live = true) (hp : s.peer = true) :
    ∃ new : List Bytes, (runOps w (fs.map .send) s).log.map Prod.fst = s.log.map Prod.fst ++ new ∧
      All2 (fun (f : Frame) p => IsUlawFrame p ∧ All2 SoundsLike f.toList ((p.drop 12).map ulawSampleOf)) fs new := by
  induction fs generalizing s with
  | nil => exact ⟨[], by simp [runOps], trivial⟩
  | cons f fs ih =>
    obtain ⟨pkt, h1, h2, h3, h4, h5⟩ := send_frame w s f hl hp
    obtain ⟨new, h6, h7⟩ := ih (s.send w f).2 h4 h5
    refine ⟨pkt :: new, ?_, ⟨h2, h3⟩, h7⟩
    simp only [runOps, List.map_cons, List.foldl_cons, Op.run] at h6 ⊢
    rw [h6, h1]
    simp

theorem all2_get {α β : Type} {R : α → β → Prop} {a : List α} {b : List β} (h : All2 R a b) (i : Fin a.length) (d : β) :
    R (a.get i) (b.getD i d) := by
  induction a generalizing b with
  | nil => exact i.elim0
  | cons x a ih => cases b with
    | nil => exact h.elim
    | cons y b =>
      rcases i with ⟨_ | i, hi⟩
      · exact h.1
      · exact ih h.2 ⟨i, Nat.lt_of_succ_lt_succ hi⟩

/-- **C86 is false of the code**, always: frames are heard in whatever order their packets arrive, each as often as its
packet arrives, whatever sequence numbers the packets bear and wherever they come from. `order` says which packet arrives
when. -/
theorem C86_as_delivered (w : Writes) (fs : List Frame) (s : Sess) (hs : s.log = []) (hl : s.live = true) (hp : s.peer = true)
    (buf : Bytes) (hb : buf.length = 2048) (order : List (Fin fs.length)) (arrived : List Arrival)
    (ha : arrived.map Prod.snd = order.map fun i : Fin fs.length => ((runOps w (fs.map .send) s).log.map Prod.fst).getD i []) :
    ∃ heard, receiver buf arrived = .ok heard ∧ Sounds (order.map fs.get) heard := by
  refine ⟨_, receiver_frames buf hb _, ?_⟩
  obtain ⟨new, e, h⟩ := sends_frames w fs s hl hp
  rw [hs, List.map_nil, List.nil_append] at e
  rw [ha, e]
  clear ha
  induction order with
  | nil => exact trivial
  | cons i order ih =>
    obtain ⟨h1, h2⟩ := all2_get h i []
    have : framesIn ((i :: order).map fun i : Fin fs.length => new.getD i []) =
        ((new.getD i []).drop 12).map ulawSampleOf :: framesIn (order.map fun i : Fin fs.length => new.getD i []) := by
      simp only [framesIn, List.map_cons, List.filter_cons]
      rw [if_pos (by simpa using h1)]
      rfl
    rw [this]
    exact ⟨h2, ih⟩

theorem all2_sublist {α β : Type} {R : α → β → Prop} {a : List α} {b c : List β} (h : All2 R a b) (hc : c.Sublist b) :
    ∃ d, d.Sublist a ∧ All2 R d c := by
  induction hc generalizing a with
  | slnil => cases a with
    | nil => exact ⟨[], .slnil, trivial⟩
    | cons _ _ => exact h.elim
  | cons y _ ih => cases a with
    | nil => exact h.elim
    | cons x a =>
      obtain ⟨d, h1, h2⟩ := ih h.2
      exact ⟨d, h1.cons x, h2⟩
  | cons_cons y _ ih => cases a with
    | nil => exact h.elim
    | cons x a =>
      obtain ⟨d, h1, h2⟩ := ih h.2
      exact ⟨x :: d, h1.cons_cons x, h.1, h2⟩

/-- **C86**, as far as it holds. If the network only loses packets, the listener hears some of the frames, in the order in
which they were spoken, none of them twice. -/
theorem C86_losses_partial (w : Writes) (hw : ∀ n, w n = true) (ops : List Op) (s : Sess) (h : s.log = []) (ho : NoRawAudio ops)
    (buf : Bytes) (hb : buf.length = 2048) (arrived : List Arrival)
    (ha : (arrived.map Prod.snd).Sublist ((runOps w ops s).log.map Prod.fst)) :
    ∃ heard fs, receiver buf arrived = .ok heard ∧ fs.Sublist (framesSent ops (s.live, s.peer)) ∧ Sounds fs heard := by
  obtain ⟨l, h1, h2⟩ := C81_stream w hw ops s h ho buf hb
  rw [receive_frames buf hb] at h1
  injection h1 with h1
  subst h1
  obtain ⟨d, h3, h4⟩ := all2_sublist h2 ((ha.filter _).map _)
  exact ⟨_, d, receiver_frames buf hb _, h3, h4⟩

/-- The second of two frames arrives first, and then again. -/
def swapped : List Frame := [.replicate 160 1000, .replicate 160 5]

/-- A new session with a peer. -/
def talking : Sess := { hdr := {} }

-- The conditions of the theorems are met, and the frames are heard as they arrive.
example : ∃ heard, receiver (List.replicate 2048 0)
      ([1, 0, 1].map fun i => ((b!"10.0.0.9", 4000), ((runOps (fun _ => true) (swapped.map .send) talking).log.map Prod.fst).getD i []))
      = .ok heard ∧ Sounds [.replicate 160 5, .replicate 160 1000, .replicate 160 5] heard :=
  C86_as_delivered (fun _ => true) swapped talking rfl rfl rfl _ List.length_replicate [⟨1, by decide⟩, ⟨0, by decide⟩, ⟨1, by decide⟩] _ rfl

-- A datagram that looks like audio, and one that does not.
example : IsUlawFrame ([128, 0] ++ List.replicate 170 7) ∧ ¬ IsUlawFrame ([128, 8] ++ List.replicate 170 7) := by
  decide +kernel

end Gosip.Props
