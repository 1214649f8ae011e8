import Verif.Spec.RtpHistory
import Verif.Rtp.HeaderLemmas
import Verif.Dsp.UlawLemmas

/-!
# Helper lemmas on RTP sessions
-/

namespace Gosip.Rtp
open Spec

theorem write_fields (h : Header) (t : Bytes) :
    seqOf (h.write [] ++ t) = h.seq.toNat ∧ tsOf (h.write [] ++ t) = h.ts.toNat ∧
    ssrcOf (h.write [] ++ t) = h.ssrc.toNat ∧ markOf (h.write [] ++ t) = h.mark ∧
    ptOf (h.write [] ++ t) = h.pt.toNat % 128 ∧ (h.write [] ++ t).drop 12 = t := by
  obtain ⟨p, m, pt, seq, ts, ssrc⟩ := h
  have h1 := (ptmark pt m).2.2
  have hs := seq.toNat_lt; have ht := ts.toNat_lt; have hr := ssrc.toNat_lt
  refine ⟨?_, ?_, ?_, ?_, ?_, ?_⟩
  · simp [seqOf, Header.write, beNat, Nat.shiftRight_eq_div_pow]; omega
  · simp [tsOf, Header.write, beNat, Nat.shiftRight_eq_div_pow]; omega
  · simp [ssrcOf, Header.write, beNat, Nat.shiftRight_eq_div_pow]; omega
  · simp only [markOf, Header.write, List.nil_append, List.cons_append, List.getD_cons_succ,
      List.getD_cons_zero, h1]
    cases m <;> simp <;> omega
  · simp only [ptOf, Header.write, List.nil_append, List.cons_append, List.getD_cons_succ,
      List.getD_cons_zero, h1]
    cases m <;> simp <;> omega
  · simp [Header.write]

/-- The log `l` carries numbers starting at `q`, leaving `q'` as the next number. -/
def Chain : UInt16 → List (Bytes × Bool) → UInt16 → Prop
  | q, [], q' => q = q'
  | q, (p, ok) :: t, q' =>
    seqOf p = q.toNat ∧ ∃ q1, (q1 = q + 1 ∨ (ok = false ∧ q1 = q)) ∧ Chain q1 t q'

theorem Chain.append {q q1 q2 : UInt16} {l l' : List (Bytes × Bool)} (h : Chain q l q1)
    (h' : Chain q1 l' q2) : Chain q (l ++ l') q2 := by
  induction l generalizing q with
  | nil => cases h; exact h'
  | cons a t ih => exact ⟨h.1, h.2.choose, h.2.choose_spec.1, ih h.2.choose_spec.2⟩

theorem Chain.isChain {q q' : UInt16} {l : List (Bytes × Bool)} (h : Chain q l q') :
    Adjacent SeqStep l ∧ ∀ a ∈ l.head?, seqOf a.1 = q.toNat := by
  induction l generalizing q with
  | nil => simp [Adjacent]
  | cons a t ih =>
    obtain ⟨p, ok⟩ := a
    obtain ⟨h1, q1, h2, h3⟩ := h
    obtain ⟨i1, i2⟩ := ih h3
    refine ⟨?_, by simpa using h1⟩
    cases t with
    | nil => simp [Adjacent]
    | cons b t =>
      refine ⟨?_, i1⟩
      have hb := i2 b (by simp)
      have hq := q.toNat_lt
      rcases h2 with rfl | ⟨h2, rfl⟩
      · left; rw [hb, h1]; simp
      · right; exact ⟨h2, by rw [hb, h1]⟩

theorem Chain.get {q q' : UInt16} {l : List (Bytes × Bool)} (h : Chain q l q')
    (hok : ∀ a ∈ l, a.2 = true) (i : Nat) (hi : i < l.length) :
    seqOf l[i].1 = (q.toNat + i) % 2 ^ 16 := by
  induction l generalizing q i with
  | nil => simp at hi
  | cons a t ih =>
    obtain ⟨p, ok⟩ := a
    obtain ⟨h1, q1, h2, h3⟩ := h
    have hq := q.toNat_lt
    cases i with
    | zero => simp [h1]
    | succ i =>
      have hok1 : ok = true := hok (p, ok) (by simp)
      have : q1 = q + 1 := by
        rcases h2 with h2 | h2
        · exact h2
        · simp [hok1] at h2
      subst this
      have := ih h3 (fun a ha => hok a (by simp [ha])) i (by simpa using hi)
      simp only [List.getElem_cons_succ, this]
      simp; omega

/-- What one operation does to the log and the header. -/
structure Effect (s s' : Sess) (new : List (Bytes × Bool)) (adv : Nat) : Prop where
  log : s'.log = s.log ++ new
  chain : Chain s.hdr.seq new s'.hdr.seq
  ts : ∀ a ∈ new, tsOf a.1 = s.hdr.ts.toNat
  ssrc : ∀ a ∈ new, ssrcOf a.1 = s.hdr.ssrc.toNat
  next : s'.hdr.ts.toNat = (s.hdr.ts.toNat + adv) % 2 ^ 32
  same : s'.hdr.ssrc = s.hdr.ssrc
  flags : s'.live = s.live ∧ s'.peer = s.peer

theorem Effect.refl (s : Sess) : Effect s s [] 0 :=
  ⟨by simp, rfl, by simp, by simp, by have := s.hdr.ts.toNat_lt; omega, rfl, rfl, rfl⟩

theorem Effect.cons {s s1 s' : Sess} {a : Bytes × Bool} {l : List (Bytes × Bool)} {n : Nat}
    (h1 : Effect s s1 [a] 0) (h2 : Effect s1 s' l n) : Effect s s' (a :: l) n := by
  have e : s1.hdr.ts.toNat = s.hdr.ts.toNat := by
    have := h1.next; have := s.hdr.ts.toNat_lt; omega
  refine ⟨by rw [h2.log, h1.log]; simp, h1.chain.append h2.chain, ?_, ?_, by rw [h2.next, e],
    h2.same.trans h1.same, ?_⟩
  · intro b hb
    rcases List.mem_cons.1 hb with rfl | hb
    · exact h1.ts _ (by simp)
    · rw [h2.ts b hb, e]
  · intro b hb
    rcases List.mem_cons.1 hb with rfl | hb
    · exact h1.ssrc _ (by simp)
    · rw [h2.ssrc b hb, h1.same]
  · exact ⟨h2.flags.1.trans h1.flags.1, h2.flags.2.trans h1.flags.2⟩

/-- Effect of one DTMF write that succeeds (number advanced) or fails (number kept). -/
theorem effect_dtmf (w : Writes) (s : Sess) (ev : Bytes) (m : Bool) :
    let r := s.writeTo w (s.hdr.write [] ++ ev)
    (r.1 = true → Effect s { r.2 with hdr := { r.2.hdr with seq := r.2.hdr.seq + 1, mark := m } }
      [(s.hdr.write [] ++ ev, true)] 0) ∧
    (r.1 = false → Effect s r.2 [(s.hdr.write [] ++ ev, false)] 0) := by
  obtain ⟨f1, f2, f3, -⟩ := write_fields s.hdr ev
  have ht := s.hdr.ts.toNat_lt
  dsimp only [Sess.writeTo]
  constructor
  · intro h
    exact ⟨by simp [h], ⟨f1, _, .inl rfl, rfl⟩, by simpa using f2, by simpa using f3,
      by simp, rfl, rfl, rfl⟩
  · intro h
    exact ⟨by simp [h], ⟨f1, _, .inr ⟨rfl, rfl⟩, rfl⟩, by simpa using f2, by simpa using f3,
      by simp, rfl, rfl, rfl⟩

theorem dtmfStart_effect (w : Writes) (c v : UInt8) (fuel : Nat) (dur : UInt16) (s : Sess) :
    ∃ new, Effect s (dtmfStart w c v fuel dur s).2 new 0 := by
  induction fuel generalizing dur s with
  | zero => exact ⟨[], Effect.refl s⟩
  | succ n ih =>
    unfold dtmfStart
    obtain ⟨e1, e2⟩ := effect_dtmf w s [c, v, (dur >>> 8).toUInt8, (dur &&& 0xff).toUInt8] false
    dsimp only at e1 e2 ⊢
    split
    · rename_i h; simp at h; exact ⟨_, e2 h⟩
    · rename_i h; simp at h
      split
      · exact ⟨_, e1 h⟩
      · obtain ⟨l, hl⟩ := ih _ _; exact ⟨_, (e1 h).cons hl⟩

theorem dtmfEnd_effect (w : Writes) (ev : Bytes) (n : Nat) (s : Sess) :
    ∃ new, Effect s (dtmfEnd w ev n s).2 new 0 := by
  induction n generalizing s with
  | zero => exact ⟨[], Effect.refl s⟩
  | succ n ih =>
    unfold dtmfEnd
    obtain ⟨e1, e2⟩ := effect_dtmf w s ev s.hdr.mark
    dsimp only at e1 e2 ⊢
    split
    · rename_i h; simp at h; exact ⟨_, e2 h⟩
    · rename_i h; simp at h
      obtain ⟨l, hl⟩ := ih _; exact ⟨_, (e1 h).cons hl⟩

theorem Effect.trans {s s1 s' : Sess} {l l' : List (Bytes × Bool)} {n : Nat}
    (h1 : Effect s s1 l 0) (h2 : Effect s1 s' l' n) : Effect s s' (l ++ l') n := by
  have e : s1.hdr.ts.toNat = s.hdr.ts.toNat := by
    have := h1.next; have := s.hdr.ts.toNat_lt; omega
  refine ⟨by rw [h2.log, h1.log]; simp, h1.chain.append h2.chain, ?_, ?_, by rw [h2.next, e],
    h2.same.trans h1.same, h2.flags.1.trans h1.flags.1, h2.flags.2.trans h1.flags.2⟩
  · intro b hb
    rcases List.mem_append.1 hb with hb | hb
    · exact h1.ts _ hb
    · rw [h2.ts b hb, e]
  · intro b hb
    rcases List.mem_append.1 hb with hb | hb
    · exact h1.ssrc _ hb
    · rw [h2.ssrc b hb, h1.same]

/-- Changing payload type and marker first does not matter for `Effect`. -/
theorem Effect.of_hdr {s s' : Sess} {l : List (Bytes × Bool)} {n : Nat} {pt : UInt8} {m : Bool}
    (h : Effect { s with hdr := { s.hdr with pt := pt, mark := m } } s' l n) : Effect s s' l n :=
  ⟨h.log, h.chain, h.ts, h.ssrc, h.next, h.same, h.flags⟩


theorem op_effect (w : Writes) (o : Op) (s : Sess) :
    ∃ new s1, (o.run w s).log = s.log ++ new ∧ Effect s s1 new (samples (s.live && s.peer) o) ∧
      (o.run w s).hdr = s1.hdr ∧
      ((o.run w s).live, (o.run w s).peer) = canSend [o] (s.live, s.peer) := by
  cases o with
  | setPeer b => exact ⟨[], s, by simp [Op.run], Effect.refl s, rfl, rfl⟩
  | close => exact ⟨[], s, by simp [Op.run], Effect.refl s, rfl, rfl⟩
  | send f =>
    simp only [Op.run, Sess.send]
    split
    · rename_i h
      have : samples (s.live && s.peer) (.send f) = 0 := by
        simp [samples] at *; intro h1; simp [h1] at h; exact h
      rw [this]
      exact ⟨[], s, by simp, Effect.refl s, rfl, rfl⟩
    · rename_i h
      have hc : (s.live && s.peer) = true := by simp at h; simp [h]
      obtain ⟨f1, f2, f3, -⟩ := write_fields { s.hdr with pt := ulawPT } (f.toList.map ulawByte)
      refine ⟨_, (s.send w f).2, rfl, ?_, by simp only [Sess.send, if_neg h], rfl⟩
      simp only [Sess.send, if_neg h, Sess.writeTo]
      exact ⟨rfl, ⟨f1, _, .inl rfl, rfl⟩, by simpa using f2, by simpa using f3,
        by simp [samples, hc], rfl, rfl, rfl⟩
  | sendRaw pt d n =>
    simp only [Op.run, Sess.sendRaw]
    split
    · rename_i h
      have : samples (s.live && s.peer) (.sendRaw pt d n) = 0 := by
        simp [samples] at *; intro h1; simp [h1] at h; simp [h]
      rw [this]
      exact ⟨[], s, by simp, Effect.refl s, rfl, rfl⟩
    · rename_i h
      have hc : (s.live && s.peer) = true := by simp at h; simp [h]
      obtain ⟨f1, f2, f3, -⟩ := write_fields { s.hdr with pt := pt } d
      refine ⟨_, (s.sendRaw w pt d n).2, rfl, ?_, by simp only [Sess.sendRaw, if_neg h], rfl⟩
      simp only [Sess.sendRaw, if_neg h, Sess.writeTo]
      exact ⟨rfl, ⟨f1, _, .inl rfl, rfl⟩, by simpa using f2, by simpa using f3,
        by simp [samples, hc], rfl, rfl, rfl⟩
  | sendDTMF d =>
    have key : ∃ new, Effect s (s.sendDTMF w d).2 new 0 := by
      unfold Sess.sendDTMF
      dsimp only
      split
      · exact ⟨[], Effect.refl s⟩
      · split
        · exact ⟨[], Effect.refl s⟩
        · obtain ⟨l, hl⟩ := dtmfStart_effect w (dtmfCodes d) (dtmfVolume &&& 0x3f) 8 1
            { s with hdr := { s.hdr with pt := dtmfPT, mark := true } }
          have hl := hl.of_hdr
          split
          · rename_i s2 heq
            rw [heq] at hl
            obtain ⟨l', hl'⟩ := dtmfEnd_effect w _ 3 s2
            exact ⟨_, hl.trans hl'⟩
          · rename_i s2 _ heq
            rw [heq] at hl
            exact ⟨_, hl⟩
    obtain ⟨l, hl⟩ := key
    exact ⟨l, _, hl.log, hl, rfl, by simp only [Op.run, hl.flags.1, hl.flags.2]; rfl⟩

theorem canSend_cons (o : Op) (t : List Op) (f : Bool × Bool) :
    canSend (o :: t) f = canSend t (canSend [o] f) := by
  cases o <;> rfl

theorem runOps_effect (w : Writes) (ops : List Op) (s : Sess) :
    ∃ new, (runOps w ops s).log = s.log ++ new ∧ Chain s.hdr.seq new (runOps w ops s).hdr.seq ∧
      (runOps w ops s).hdr.ts.toNat =
        (s.hdr.ts.toNat + totalSamples ops (s.live, s.peer)) % 2 ^ 32 ∧
      (runOps w ops s).hdr.ssrc = s.hdr.ssrc ∧
      ((runOps w ops s).live, (runOps w ops s).peer) = canSend ops (s.live, s.peer) := by
  induction ops generalizing s with
  | nil => exact ⟨[], by simp [runOps], rfl, by
      have := s.hdr.ts.toNat_lt; simp [runOps, totalSamples], rfl, rfl⟩
  | cons o t ih =>
    obtain ⟨n1, s1, a1, a2, a3, a4⟩ := op_effect w o s
    obtain ⟨n2, b1, b2, b3, b4, b5⟩ := ih (o.run w s)
    refine ⟨n1 ++ n2, ?_, ?_, ?_, ?_, ?_⟩
    · simp only [runOps, List.foldl_cons] at b1 ⊢
      rw [b1, a1]; simp
    · rw [a3] at b2
      exact a2.chain.append b2
    · simp only [runOps, List.foldl_cons] at b3 ⊢
      rw [b3, a3, a2.next, a4]; simp [totalSamples, Nat.add_assoc]
    · simp only [runOps, List.foldl_cons] at b4 ⊢
      rw [b4, a3, a2.same]
    · simp only [runOps, List.foldl_cons] at b5 ⊢
      rw [b5, a4, canSend_cons o t]

theorem receive_buf_length (buf pkt : Bytes) (h : buf.length = 2048) :
    (recvInto buf pkt).length = 2048 := by
  simp only [recvInto, List.length_append, List.length_drop, List.length_take]; omega

end Gosip.Rtp

