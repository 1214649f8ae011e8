import Verif.Spec.Phone
import Verif.Dialog.States
import Verif.Props.RtpSession

/-!
# The loop of the phone
-/

namespace Gosip.Fone
open Sip Dialog Spec

theorem run_snoc (w : Rtp.Writes) (l : List Input) (x : Input) : ∀ p : Phone, p.run w (l ++ [x]) =
    if (p.run w l).status = .running then (p.run w l).step w x else p.run w l := by
  induction l with
  | nil => intro p; simp only [List.nil_append, Phone.run]; rfl
  | cons y l ih =>
    intro p
    simp only [List.cons_append, Phone.run]
    split
    · exact ih _
    · rfl

theorem heard_append (a b : List Input) : heard (a ++ b) = heard a ++ heard b := by simp [heard]

theorem published_audible (l : List Out) : published (audible l) = published l := by
  induction l with
  | nil => rfl
  | cons o l ih => cases o <;> simp_all [audible, published]

/-- Something that ends a call was told. -/
theorem verdict_running {l : List Out} : verdict l = .running ↔ ∀ o ∈ l, IsEnd o = false := by
  unfold verdict
  constructor
  · intro h o ho
    split at h
    · cases h
    · rename_i he
      split at h
      · cases h
      · rename_i hh
        cases o with
        | err e => exact absurd (List.ne_nil_of_mem (List.mem_filterMap.2 ⟨_, ho, rfl⟩ : e ∈ errors l)) he
        | state c =>
          cases c with
          | hangup => exact absurd (List.mem_filterMap.2 ⟨_, ho, rfl⟩ : CallState.hangup ∈ published l) hh
          | _ => rfl
        | _ => rfl
  · intro h
    rw [if_neg, if_neg]
    · intro hh
      obtain ⟨o, ho, k⟩ := List.mem_filterMap.1 hh
      have := h o ho
      cases o with
      | state c => simp at k; subst k; cases this
      | _ => cases k
    · intro he
      apply he
      rw [List.eq_nil_iff_forall_not_mem]
      intro e he
      obtain ⟨o, ho, k⟩ := List.mem_filterMap.1 he
      have := h o ho
      cases o with
      | err c => cases this
      | _ => cases k

/-- What the verdict is when one more thing is told. -/
theorem verdict_snoc {l : List Out} (h : ∀ o ∈ l, IsEnd o = false) (o : Out) : verdict (l ++ [o]) =
    match o with
    | .err _ => .exited 1
    | .state .hangup => .exited (if .answered ∈ published l then 0 else 1)
    | _ => .running := by
  have hv := verdict_running.2 h
  have he : errors l = [] := by
    unfold verdict at hv
    split at hv
    · cases hv
    · rename_i k; exact Decidable.by_contra k
  cases o with
  | err e => unfold verdict; rw [if_pos (by simp [errors])]
  | state c =>
    cases c with
    | hangup =>
      unfold verdict
      rw [if_neg (by unfold errors at he ⊢; rw [List.filterMap_append, he]; simp), if_pos (by simp [published])]
      simp [published]
    | _ =>
      refine verdict_running.2 fun o ho => ?_
      rcases List.mem_append.1 ho with k | k
      · exact h o k
      · simp at k; subst k; rfl
  | _ =>
    refine verdict_running.2 fun o ho => ?_
    rcases List.mem_append.1 ho with k | k
    · exact h o k
    · simp at k; subst k; rfl

/-! ## Media -/

/-- The session of a phone that has heard nothing yet. -/
def fresh (ssrc : UInt32) : Rtp.Sess := { hdr := { seq := 666, ts := 0, ssrc := ssrc }, peer := false }

/-- What holds of a phone after the inputs `ins`. -/
structure Sound (w : Rtp.Writes) (ssrc : UInt32) (ins : List Input) (p : Phone) : Prop where
  ops : ∃ ops, p.sess = Rtp.runOps w ops (fresh ssrc)
  known : p.sess.peer = p.peer.isSome
  last : p.status = .running → p.peer = none ∨ p.peer = (peers (heard ins)).getLast?
  same : p.sent.map Prod.fst = p.sess.log.map Prod.fst

theorem runOps_snoc (w : Rtp.Writes) (ops : List Rtp.Op) (o : Rtp.Op) (s : Rtp.Sess) :
    Rtp.runOps w (ops ++ [o]) s = o.run w (Rtp.runOps w ops s) := by simp [Rtp.runOps]

theorem send_silent (w : Rtp.Writes) (s : Rtp.Sess) (h : s.peer = false) (f : Rtp.Frame) : (s.send w f).2 = s := by
  unfold Rtp.Sess.send; rw [if_pos (.inr (by simp [h]))]

theorem sendDTMF_silent (w : Rtp.Writes) (s : Rtp.Sess) (h : s.peer = false) (d : UInt8) : (s.sendDTMF w d).2 = s := by
  unfold Rtp.Sess.sendDTMF
  dsimp only
  split
  · rfl
  · rw [if_pos (.inr (by simp [h]))]

/-- The phone uses its session. -/
theorem sound_using {w : Rtp.Writes} {ssrc : UInt32} {ins : List Input} {p : Phone} (h : Sound w ssrc ins p)
    (hr : p.status = .running) (x : Input) (hx : heard [x] = []) (o : Rtp.Op)
    (hp : ((o.run w p.sess).live, (o.run w p.sess).peer) = (p.sess.live, p.sess.peer))
    (hq : p.sess.peer = false → o.run w p.sess = p.sess) :
    Sound w ssrc (ins ++ [x]) (p.using (o.run w p.sess)) ∧
    ∃ new, (p.using (o.run w p.sess)).sent = p.sent ++ new ∧
      ∀ y ∈ new, y.2 ≠ none ∧ y.2 = (peers (heard ins)).getLast? := by
  obtain ⟨new, s1, e1, _⟩ := Rtp.op_effect w o p.sess
  obtain ⟨ops, ho⟩ := h.ops
  refine ⟨⟨⟨ops ++ [o], ?_⟩, ?_, ?_, ?_⟩, (o.run w p.sess).log.drop p.sess.log.length |>.map fun x => (x.1, p.peer), rfl, ?_⟩
  · rw [runOps_snoc, ← ho]; rfl
  · simp only [Prod.mk.injEq] at hp
    exact hp.2.trans h.known
  · rw [heard_append, hx, List.append_nil]; exact h.last
  · simp only [Phone.using, List.map_append, h.same, e1, List.drop_left, List.map_map]
    rfl
  · intro y hy
    cases hk : p.sess.peer with
    | false =>
      rw [hq hk] at hy
      simp at hy
    | true =>
      obtain ⟨z, _, rfl⟩ := List.mem_map.1 hy
      have hn : p.peer ≠ none := fun e => by rw [h.known, e] at hk; cases hk
      exact ⟨hn, (h.last hr).resolve_left hn⟩

/-- One turn. -/
theorem sound_step {w : Rtp.Writes} {ssrc : UInt32} {ins : List Input} {p : Phone} (h : Sound w ssrc ins p)
    (hr : p.status = .running) (x : Input) : Sound w ssrc (ins ++ [x]) (p.step w x) ∧
    ∃ new, (p.step w x).sent = p.sent ++ new ∧ ∀ y ∈ new, y.2 ≠ none ∧ y.2 = (peers (heard ins)).getLast? := by
  have hsame : ∀ q : Phone, q.sess = p.sess → q.peer = p.peer → q.sent = p.sent → peers (heard [x]) = [] →
      Sound w ssrc (ins ++ [x]) q ∧
      ∃ new, q.sent = p.sent ++ new ∧ ∀ y ∈ new, y.2 ≠ none ∧ y.2 = (peers (heard ins)).getLast? := by
    intro q h1 h2 h3 h4
    refine ⟨⟨h1 ▸ h.ops, by rw [h1, h2]; exact h.known, fun _ => ?_, by rw [h1, h3]; exact h.same⟩, [], by simp [h3],
      by simp⟩
    have : peers (heard ins ++ heard [x]) = peers (heard ins) := by
      unfold peers at h4 ⊢; rw [List.filterMap_append, h4, List.append_nil]
    rw [h2, heard_append, this]
    exact h.last hr
  obtain ⟨ops, ho⟩ := h.ops
  cases x with
  | tick f =>
    cases f with
    | none => exact hsame _ rfl rfl rfl rfl
    | some f =>
      obtain ⟨_, _, _, _, _, k⟩ := Rtp.op_effect w (.send f) p.sess
      exact sound_using h hr _ rfl (.send f) k (fun hp => send_silent w _ hp f)
  | key ch =>
    obtain ⟨_, _, _, _, _, k⟩ := Rtp.op_effect w (.sendDTMF ch) p.sess
    exact sound_using h hr _ rfl (.sendDTMF ch) k (fun hp => sendDTMF_silent w _ hp ch)
  | audio f => cases f <;> exact hsame _ rfl rfl rfl rfl
  | peer a q =>
    refine ⟨⟨⟨ops ++ [.setPeer true], by rw [runOps_snoc, ← ho]; rfl⟩, rfl, fun _ => .inr ?_, h.same⟩, [], by simp [Phone.step],
      by simp⟩
    rw [heard_append]
    unfold peers
    rw [List.filterMap_append]
    show some (a, q) = (_ ++ [(a, q)]).getLast?
    rw [List.getLast?_append]; rfl
  | state c => cases c <;> exact hsame _ rfl rfl rfl rfl
  | err e => exact hsame _ rfl rfl rfl rfl
  | noPeer =>
    exact ⟨⟨⟨ops ++ [.setPeer false], by rw [runOps_snoc, ← ho]; rfl⟩, rfl, fun _ => .inl rfl, h.same⟩, [], by simp [Phone.step],
      by simp⟩
  | noState => exact hsame _ rfl rfl rfl rfl
  | noErr => exact hsame _ rfl rfl rfl rfl
  | rtpErr =>
    refine ⟨⟨⟨ops ++ [.close], by rw [runOps_snoc, ← ho]; rfl⟩, h.known, fun _ => ?_, h.same⟩, [], by simp [Phone.step], by simp⟩
    rw [heard_append, show heard [Input.rtpErr] = [] from rfl, List.append_nil]
    exact h.last hr
  | noRtpErr => exact hsame _ rfl rfl rfl rfl
  | death => exact hsame _ rfl rfl rfl rfl

theorem list_snoc {α : Type} {P : List α → Prop} (h0 : P []) (h1 : ∀ l x, P l → P (l ++ [x])) (l : List α) : P l := by
  have : ∀ l : List α, P l.reverse := by
    intro l
    induction l with
    | nil => exact h0
    | cons x l ih => rw [List.reverse_cons]; exact h1 _ _ ih
  simpa using this l.reverse

theorem sound (w : Rtp.Writes) (ssrc : UInt32) (ins : List Input) : Sound w ssrc ins (phone w ssrc ins) := by
  refine list_snoc (P := fun ins => Sound w ssrc ins (phone w ssrc ins)) ?_ (fun l x ih => ?_) ins
  · exact ⟨⟨[], rfl⟩, rfl, fun _ => .inl rfl, rfl⟩
  · unfold phone at ih ⊢
    rw [run_snoc]
    split
    · rename_i hr; exact (sound_step ih hr x).1
    · rename_i hr; exact ⟨ih.ops, ih.known, fun k => absurd k hr, ih.same⟩

/-- As long as the session works and the channels of the dialog are open, the session is open and its peer is the one heard
of last. -/
theorem steady (w : Rtp.Writes) (ssrc : UInt32) (ins : List Input) (hn : ∀ x ∈ ins, x ≠ .rtpErr ∧ x ≠ .noPeer)
    (hr : (phone w ssrc ins).status = .running) :
    (phone w ssrc ins).sess.live = true ∧ (phone w ssrc ins).peer = (peers (heard ins)).getLast? := by
  revert hn hr
  refine list_snoc (P := fun ins => (∀ x ∈ ins, x ≠ .rtpErr ∧ x ≠ .noPeer) → (phone w ssrc ins).status = .running →
    (phone w ssrc ins).sess.live = true ∧ (phone w ssrc ins).peer = (peers (heard ins)).getLast?) ?_ (fun l x ih => ?_) ins
  · exact fun _ _ => ⟨rfl, rfl⟩
  · intro hn hr
    have ih := ih fun y hy => hn y (by simp [hy])
    have hx := hn x (by simp)
    unfold phone at ih hr ⊢
    rw [run_snoc] at hr ⊢
    by_cases hp : (Phone.run w l { sess := { hdr := { seq := 666, ts := 0, ssrc := ssrc }, peer := false } }).status = .running
    · rw [if_pos hp]
      obtain ⟨h1, h2⟩ := ih hp
      generalize Phone.run w l _ = p at *
      have hsame : ∀ q : Phone, q.sess.live = p.sess.live → q.peer = p.peer → peers (heard [x]) = [] →
          q.sess.live = true ∧ q.peer = (peers (heard (l ++ [x]))).getLast? := by
        intro q k1 k2 k3
        have : peers (heard l ++ heard [x]) = peers (heard l) := by
          unfold peers at k3 ⊢; rw [List.filterMap_append, k3, List.append_nil]
        rw [k1, k2, heard_append, this]
        exact ⟨h1, h2⟩
      cases x with
      | tick f =>
        cases f with
        | none => exact hsame _ rfl rfl rfl
        | some f =>
          obtain ⟨_, _, _, _, _, k⟩ := Rtp.op_effect w (.send f) p.sess
          exact hsame _ (congrArg Prod.fst k) rfl rfl
      | key ch =>
        obtain ⟨_, _, _, _, _, k⟩ := Rtp.op_effect w (.sendDTMF ch) p.sess
        exact hsame _ (congrArg Prod.fst k) rfl rfl
      | audio f => cases f <;> exact hsame _ rfl rfl rfl
      | peer a q =>
        refine ⟨h1, ?_⟩
        rw [heard_append]
        unfold peers
        rw [List.filterMap_append]
        show some (a, q) = (_ ++ [(a, q)]).getLast?
        rw [List.getLast?_append]; rfl
      | state c => cases c <;> exact hsame _ rfl rfl rfl
      | err e => exact hsame _ rfl rfl rfl
      | noPeer => exact absurd rfl hx.2
      | noState => exact hsame _ rfl rfl rfl
      | noErr => exact hsame _ rfl rfl rfl
      | rtpErr => exact absurd rfl hx.1
      | noRtpErr => exact hsame _ rfl rfl rfl
      | death => exact hsame _ rfl rfl rfl
    · rw [if_neg hp] at hr
      exact absurd hr hp

end Gosip.Fone
