import Verif.Fone.Lemmas
import Verif.Props.CallEnd
import Verif.Props.CallMedia
import Verif.Props.Handshake
import Verif.Props.Audio

/-!
# Properties C79 and C80: the phone
-/

namespace Gosip.Props
open Sip Spec Dialog Fone

/-- What ends a call is told last. -/
theorem audible_end (w : World) (invite : Msg) (evs : List Event) {pre post : List Out} {o : Out}
    (h : audible (dialog w invite evs).s.outs = pre ++ o :: post) (ho : IsEnd o = true) : post = [] := by
  by_cases hs : (loop w evs (start w invite)).c = .stop
  · obtain ⟨l, o', h1, h2, h3⟩ := C59_told_why w invite evs hs
    have : audible (dialog w invite evs).s.outs = audible l ++ [o'] := by
      have hk : audible [o'] = [o'] := by
        cases o' with
        | err e => rfl
        | state c => rfl
        | _ => cases h2
      rcases h1 with h1 | h1
      · rw [h1]; unfold audible at hk ⊢; rw [List.filter_append, hk]
      · rw [h1, show l ++ [o', Out.closed] = l ++ [o'] ++ [Out.closed] by simp]
        unfold audible at hk ⊢
        rw [List.filter_append, List.filter_append, hk]
        simp
    rw [this] at h
    refine Decidable.by_contra fun hne => ?_
    have h' := congrArg List.dropLast h
    rw [List.dropLast_concat, List.dropLast_append_of_ne_nil (by simp), List.dropLast_cons_of_ne_nil hne] at h'
    have hm : o ∈ audible l := by rw [h']; simp
    have := (h3 o (List.mem_filter.1 hm).1).1
    rw [ho] at this; cases this
  · have hm : o ∈ audible (dialog w invite evs).s.outs := by rw [h]; simp
    have := (C59_not_before w invite evs hs o (List.mem_filter.1 hm).1).1
    rw [ho] at this; cases this

theorem listens_prefix {a b : List Input} {outs : List Out} (h : Listens (a ++ b) outs) : Listens a outs := by
  refine ⟨List.IsPrefix.trans ?_ h.order, fun pre x post hp => h.after pre x (post ++ b) (by rw [hp]; simp)⟩
  rw [heard_append]
  exact List.prefix_append _ _

/-- **C79.** Whatever happens, in whatever order: as long as its RTP socket works, the phone runs until the dialog has told
how the call ended, and then exits, with status 0 if and only if the call was answered and has been hung up. It never
crashes, in particular not when the dialog closes its channels. -/
theorem C79_exit_status (w : World) (invite : Msg) (evs : List Event) (rw' : Rtp.Writes) (ssrc : UInt32) (ins : List Input)
    (h : Listens ins (dialog w invite evs).s.outs) (hr : RtpWorks ins) :
    (phone rw' ssrc ins).status = verdict (heard ins) := by
  have key : ∀ n, (phone rw' ssrc (ins.take n)).status = verdict (heard (ins.take n)) ∧
      ((phone rw' ssrc (ins.take n)).answered = true ↔ .answered ∈ published (heard (ins.take n))) := by
    intro n
    induction n with
    | zero => exact ⟨rfl, by simp [phone, Phone.run, heard, published]⟩
    | succ n ih =>
      by_cases hn : n < ins.length
      · have hsplit : ins = ins.take n ++ ins[n] :: ins.drop (n + 1) := by
          rw [List.getElem_cons_drop, List.take_append_drop]
        have hrx := hr ins[n] (List.getElem_mem hn)
        rw [List.take_succ_eq_append_getElem hn]
        have hL : Listens (ins.take n ++ [ins[n]]) (dialog w invite evs).s.outs := by
          refine listens_prefix (b := ins.drop (n + 1)) ?_
          rw [List.append_assoc, List.singleton_append, ← hsplit]
          exact h
        generalize ins[n] = x at *
        generalize ins.take n = pre at *
        unfold phone at ih ⊢
        rw [run_snoc, heard_append]
        generalize Phone.run rw' pre _ = p at *
        obtain ⟨ih1, ih2⟩ := ih
        by_cases hrun : p.status = .running
        · rw [if_pos hrun]
          have hv : ∀ o ∈ heard pre, IsEnd o = false := verdict_running.1 (ih1 ▸ hrun)
          have hpast : ¬ PastEnd x := by
            intro hx
            obtain ⟨k1, k2⟩ := hL.after pre x [] rfl hx
            have hs : (loop w evs (start w invite)).c = .stop :=
              Decidable.by_contra fun hs => (C59_not_before w invite evs hs _ k1).2 rfl
            obtain ⟨l, o, e1, e2, _⟩ := C59_told_why w invite evs hs
            have ho : o ∈ heard pre := by
              rw [k2]
              refine List.mem_filter.2 ⟨by rcases e1 with e1 | e1 <;> rw [e1] <;> simp, ?_⟩
              cases o with
              | err e => rfl
              | state c => rfl
              | _ => cases e2
            rw [hv o ho] at e2; cases e2
          have hsame : ∀ q : Phone, q.status = .running → q.answered = p.answered → heard [x] = [] →
              q.status = verdict (heard pre ++ heard [x]) ∧
              (q.answered = true ↔ .answered ∈ published (heard pre ++ heard [x])) := by
            intro q h1 h2 h3
            rw [h1, h2, h3, List.append_nil, ← ih1, hrun]
            exact ⟨rfl, ih2⟩
          cases x with
          | tick f =>
            cases f with
            | none => exact hsame _ hrun rfl rfl
            | some f => exact hsame _ hrun rfl rfl
          | key ch => exact hsame _ hrun rfl rfl
          | audio f =>
            cases f with
            | none => exact absurd rfl hrx.2.2
            | some f => exact hsame _ hrun rfl rfl
          | peer a q =>
            rw [show heard [Input.peer a q] = [.peer a q] from rfl, verdict_snoc hv, published_append]
            exact ⟨hrun, by simpa [published, Phone.step] using ih2⟩
          | state c =>
            rw [show heard [Input.state c] = [.state c] from rfl, verdict_snoc hv, published_append]
            cases c with
            | answered => exact ⟨hrun, by simp [published, Phone.step]⟩
            | hangup =>
              refine ⟨?_, by simpa [published, Phone.step] using ih2⟩
              simp only [Phone.step]
              by_cases ha : p.answered = true
              · rw [if_pos ha, if_pos (ih2.1 ha)]
              · rw [if_neg ha, if_neg (fun k => ha (ih2.2 k))]
            | proceeding => exact ⟨hrun, by simpa [published, Phone.step] using ih2⟩
            | ringing => exact ⟨hrun, by simpa [published, Phone.step] using ih2⟩
          | err e =>
            rw [show heard [Input.err e] = [.err e] from rfl, verdict_snoc hv, published_append]
            exact ⟨rfl, by simpa [published, Phone.step] using ih2⟩
          | noPeer => exact absurd trivial hpast
          | noState => exact absurd trivial hpast
          | noErr => exact absurd trivial hpast
          | rtpErr => exact absurd rfl hrx.1
          | noRtpErr => exact absurd rfl hrx.2.1
          | death => exact hsame _ hrun rfl rfl
        · rw [if_neg hrun]
          have hend : ∃ o ∈ heard pre, IsEnd o = true := by
            refine Decidable.by_contra fun hno => hrun (ih1.trans (verdict_running.2 fun o ho => ?_))
            cases hk : IsEnd o with
            | false => rfl
            | true => exact absurd ⟨o, ho, hk⟩ hno
          obtain ⟨o, ho, hoe⟩ := hend
          obtain ⟨a, b, hab⟩ := List.append_of_mem ho
          obtain ⟨t, ht⟩ := hL.order
          rw [heard_append, hab] at ht
          have := audible_end w invite evs (pre := a) (o := o) (post := b ++ heard [x] ++ t)
            (by rw [← ht]; simp) hoe
          have hx : heard [x] = [] := by
            have := congrArg List.length this
            simp only [List.length_append, List.length_nil] at this
            exact List.eq_nil_of_length_eq_zero (by omega)
          rw [hx, List.append_nil]
          exact ⟨ih1, ih2⟩
      · rw [List.take_of_length_le (by omega)]
        rw [List.take_of_length_le (by omega)] at ih
        exact ih
  have := (key ins.length).1
  rw [List.take_length] at this
  exact this

/-- **C79.** When the dialog is over and the phone has heard everything, it has exited. -/
theorem C79_ends (w : World) (invite : Msg) (evs : List Event) (rw' : Rtp.Writes) (ssrc : UInt32) (ins : List Input)
    (h : Listens ins (dialog w invite evs).s.outs) (hr : RtpWorks ins)
    (hs : (loop w evs (start w invite)).c = .stop) (hall : heard ins = audible (dialog w invite evs).s.outs) :
    ∃ code, (phone rw' ssrc ins).status = .exited code := by
  rw [C79_exit_status w invite evs rw' ssrc ins h hr]
  obtain ⟨l, o, e1, e2, _⟩ := C59_told_why w invite evs hs
  have ho : o ∈ heard ins := by
    rw [hall]
    refine List.mem_filter.2 ⟨by rcases e1 with e1 | e1 <;> rw [e1] <;> simp, ?_⟩
    cases o with
    | err e => rfl
    | state c => rfl
    | _ => cases e2
  have hne : verdict (heard ins) ≠ .running := fun k => by
    rw [verdict_running.1 k o ho] at e2; cases e2
  unfold verdict at hne ⊢
  split
  · exact ⟨_, rfl⟩
  · split
    · exact ⟨_, rfl⟩
    · rename_i h1 h2; rw [if_neg h1, if_neg h2] at hne; exact absurd rfl hne

/-- **C79 is false** when the RTP socket fails: by the time the error is offered to the phone, the channel of frames is
closed, for good, and reading it gives a nil frame, which crashes the phone, whatever it has done before. -/
theorem C79_rtp_error_crashes :
    (∀ s : Rtp.Pair, Reach Rtp.PairStep .start s → s.recv = .failing ∨ s.recv = .leaving ∨ s.recv = .ended →
      s.cClosed = true) ∧
    ∀ (w : Rtp.Writes) (ssrc : UInt32) (ins : List Input), (phone w ssrc ins).status = .running →
      (phone w ssrc (ins ++ [.audio none])).status = .crashed ∧
      (phone w ssrc (ins ++ [.rtpErr, .audio none])).status = .crashed ∧
      (phone w ssrc (ins ++ [.rtpErr, .noRtpErr])).status = .crashed := by
  refine ⟨fun s hr => ?_, fun w ssrc ins h => ?_⟩
  · exact hr.invariant (P := fun s => s.recv = .failing ∨ s.recv = .leaving ∨ s.recv = .ended → s.cClosed = true)
      (by simp [Rtp.Pair.start]) (fun a b ha hab => by cases hab <;> simp_all)
  · have e : ∀ x y : Input, ins ++ [x, y] = (ins ++ [x]) ++ [y] := by simp
    unfold phone at h ⊢
    rw [e, e]
    simp only [run_snoc]
    rw [if_pos h, if_pos h]
    simp [Phone.step, h]

/-- **C79.** Why it matters that the phone has exited before it can read a closed channel of errors: the nil that it would
read there crashes it, whatever it has done before. -/
theorem C79_no_error_crashes (w : Rtp.Writes) (ssrc : UInt32) (ins : List Input)
    (h : (phone w ssrc ins).status = .running) :
    (phone w ssrc (ins ++ [.noErr])).status = .crashed ∧ (phone w ssrc (ins ++ [.noRtpErr])).status = .crashed := by
  unfold phone at h ⊢
  simp only [run_snoc]
  rw [if_pos h, if_pos h]
  exact ⟨rfl, rfl⟩

/-! ## C80 -/

/-- **C80.** Whatever the phone sends in a turn goes to the media address it was told last; it sends nothing before it was
told one. -/
theorem C80_to_peer (rw' : Rtp.Writes) (ssrc : UInt32) (ins : List Input) (x : Input) :
    ∃ new, (phone rw' ssrc (ins ++ [x])).sent = (phone rw' ssrc ins).sent ++ new ∧
      ∀ y ∈ new, y.2 ≠ none ∧ y.2 = (peers (heard ins)).getLast? := by
  have hs := sound rw' ssrc ins
  unfold phone at hs ⊢
  rw [run_snoc]
  split
  · rename_i hr; exact (sound_step hs hr x).2
  · exact ⟨[], by simp, by simp⟩

/-- **C80.** So every packet goes to an address that some message of the call offered, or answered. -/
theorem C80_offered (w : World) (invite : Msg) (evs : List Event) (hi : IsInvite invite)
    (hid : ∀ n, (w.ids n).callID ≠ []) (callID : Bytes)
    (hcall : ∀ x ∈ requests (dialog w invite evs).s.outs, x.2.callID = callID)
    (rw' : Rtp.Writes) (ssrc : UInt32) (ins : List Input) (h : Listens ins (dialog w invite evs).s.outs) :
    ∀ y ∈ (phone rw' ssrc ins).sent, ∃ a ∈ evs.flatMap (offered callID), y.2 = some a := by
  revert h
  refine list_snoc (P := fun ins => Listens ins (dialog w invite evs).s.outs → ∀ y ∈ (phone rw' ssrc ins).sent,
    ∃ a ∈ evs.flatMap (offered callID), y.2 = some a) ?_ (fun l x ih h y hy => ?_) ins
  · intro _ y hy; cases hy
  · obtain ⟨new, e, hn⟩ := C80_to_peer rw' ssrc l x
    rw [e] at hy
    rcases List.mem_append.1 hy with hy | hy
    · exact ih (listens_prefix h) y hy
    · obtain ⟨h1, h2⟩ := hn y hy
      cases hk : (peers (heard l)).getLast? with
      | none => exact absurd (h2.trans hk) h1
      | some a =>
        refine ⟨a, ?_, h2.trans hk⟩
        have hm : a ∈ peers (heard l) := List.mem_of_getLast? hk
        obtain ⟨t, ht⟩ := (listens_prefix h).order
        obtain ⟨o, ho, hoa⟩ := List.mem_filterMap.1 hm
        have : o ∈ (dialog w invite evs).s.outs := (List.mem_filter.1 (ht ▸ List.mem_append_left t ho)).1
        exact (C63_offered w invite evs hi hid callID hcall).subset (List.mem_filterMap.2 ⟨o, this, hoa⟩)

/-- **C80.** And all its packets, to whatever address, make one stream: they carry the identifier of the session, and the
numbers 666, 667 and so on; only after a write that failed may a number be used again. -/
theorem C80_one_stream (rw' : Rtp.Writes) (ssrc : UInt32) (ins : List Input) :
    (∀ y ∈ (phone rw' ssrc ins).sent, ssrcOf y.1 = ssrc.toNat) ∧
    (∃ log : List (Bytes × Bool), (phone rw' ssrc ins).sent.map Prod.fst = log.map Prod.fst ∧ Adjacent SeqStep log ∧
      ∀ a ∈ log.head?, seqOf a.1 = 666) ∧
    ((∀ n, rw' n = true) → ∀ (i : Nat) (y : Bytes × Option (Bytes × UInt16)), (phone rw' ssrc ins).sent[i]? = some y →
      seqOf y.1 = (666 + i) % 2 ^ 16) := by
  have hs := sound rw' ssrc ins
  obtain ⟨ops, ho⟩ := hs.ops
  obtain ⟨h1, h2⟩ := C27_sequence_numbers rw' ops (fresh ssrc) rfl
  rw [← ho] at h1 h2
  refine ⟨fun y hy => ?_, ⟨_, hs.same, h1, h2⟩, fun hw i y hy => ?_⟩
  · have hm : y.1 ∈ (phone rw' ssrc ins).sess.log.map Prod.fst := by
      rw [← hs.same]; exact List.mem_map.2 ⟨y, hy, rfl⟩
    obtain ⟨a, ha, e⟩ := List.mem_map.1 hm
    rw [ho] at ha
    rw [← e]
    refine list_snoc (P := fun ops => ∀ a ∈ (Rtp.runOps rw' ops (fresh ssrc)).log, ssrcOf a.1 = ssrc.toNat) ?_
      (fun l x ih => ?_) ops a ha
    · intro a ha; cases ha
    · intro a ha
      obtain ⟨new, e1, e2⟩ := C27_timestamps rw' l x (fresh ssrc)
      rw [e1] at ha
      rcases List.mem_append.1 ha with k | k
      · exact ih a k
      · exact (e2 a k).2
  · have hg : ((phone rw' ssrc ins).sess.log.map Prod.fst)[i]? = some y.1 := by
      rw [← hs.same, List.getElem?_map, hy]; rfl
    rw [ho, List.getElem?_map] at hg
    obtain ⟨a, ha, e⟩ := Option.map_eq_some_iff.1 hg
    obtain ⟨hlt, ha⟩ := List.getElem?_eq_some_iff.1 ha
    have := C27_sequence_numbers_all_ok rw' hw ops (fresh ssrc) rfl i hlt
    rw [ha, e] at this
    exact this

/-- **C80.** A running phone that was told an address, whose RTP socket works and whose dialog is not over, sends what the
microphone gives to this address, as μ-law, one packet per frame; -/
theorem C80_talks (rw' : Rtp.Writes) (ssrc : UInt32) (ins : List Input) (a : Bytes × UInt16) (f : Rtp.Frame)
    (hr : (phone rw' ssrc ins).status = .running) (hn : ∀ x ∈ ins, x ≠ .rtpErr ∧ x ≠ .noPeer)
    (ha : (peers (heard ins)).getLast? = some a) :
    ∃ pkt, (phone rw' ssrc (ins ++ [.tick (some f)])).sent = (phone rw' ssrc ins).sent ++ [(pkt, some a)] ∧
      ∀ buf : Bytes, buf.length = 2048 → ∃ l, Rtp.receive buf [pkt] = .ok [l] ∧ All2 SoundsLike f.toList l := by
  obtain ⟨h1, h2⟩ := steady rw' ssrc ins hn hr
  have h3 := (sound rw' ssrc ins).known
  rw [h2, ha] at h3
  obtain ⟨pkt, e, -, -, -, -, -, -, h4⟩ := C81_frame rw' (phone rw' ssrc ins).sess f h1 h3
  refine ⟨pkt, ?_, h4⟩
  unfold phone at hr ⊢
  rw [run_snoc, if_pos hr]
  change _ ++ (_ : List (Bytes × Bool)).map _ = _
  unfold phone at e h2
  rw [e, List.drop_left, h2, ha]
  rfl

/-- **C80.** a key as the seven packets of a telephone event; -/
theorem C80_dials (rw' : Rtp.Writes) (hw : ∀ n, rw' n = true) (ssrc : UInt32) (ins : List Input) (a : Bytes × UInt16)
    (key code : UInt8) (hk : Rtp.charToDtmf key = some code)
    (hr : (phone rw' ssrc ins).status = .running) (hn : ∀ x ∈ ins, x ≠ .rtpErr ∧ x ≠ .noPeer)
    (ha : (peers (heard ins)).getLast? = some a) :
    (phone rw' ssrc (ins ++ [.key key])).sent = (phone rw' ssrc ins).sent ++
      (dtmfPackets (phone rw' ssrc ins).sess code).map fun p => (p, some a) := by
  obtain ⟨h1, h2⟩ := steady rw' ssrc ins hn hr
  have h3 := (sound rw' ssrc ins).known
  rw [h2, ha] at h3
  have e := C28_dtmf_event rw' hw (phone rw' ssrc ins).sess key code hk h1 h3
  unfold phone at hr e h2 ⊢
  rw [run_snoc, if_pos hr]
  change _ ++ (_ : List (Bytes × Bool)).map _ = _
  rw [e, h2, ha]
  simp only [List.drop_left, List.map_map]
  rfl

/-- **C80.** plays the frames that arrive, and tells the dialog to hang up when it is told to stop. -/
theorem C80_plays (rw' : Rtp.Writes) (ssrc : UInt32) (ins : List Input) (f : Rtp.Frame)
    (hr : (phone rw' ssrc ins).status = .running) :
    (phone rw' ssrc (ins ++ [.audio (some f)])).played = (phone rw' ssrc ins).played ++ [f] ∧
    (phone rw' ssrc (ins ++ [.death])).hangups = (phone rw' ssrc ins).hangups + 1 ∧
    (phone rw' ssrc (ins ++ [.audio (some f)])).status = .running ∧
    (phone rw' ssrc (ins ++ [.death])).status = .running := by
  unfold phone at hr ⊢
  simp only [run_snoc]
  rw [if_pos hr, if_pos hr]
  exact ⟨rfl, rfl, hr, hr⟩

/-- **C80.** While it runs, the phone has asked the dialog to hang up once for every signal and every RTP error, and has
started to read the keyboard once for every "answered" it was told. -/
theorem C80_commands (rw' : Rtp.Writes) (ssrc : UInt32) (ins : List Input)
    (hr : (phone rw' ssrc ins).status = .running) :
    (phone rw' ssrc ins).hangups = ins.countP asksHangup ∧
    (phone rw' ssrc ins).readers = (published (heard ins)).count .answered := by
  refine list_snoc (P := fun ins => (phone rw' ssrc ins).status = .running →
    (phone rw' ssrc ins).hangups = ins.countP asksHangup ∧
    (phone rw' ssrc ins).readers = (published (heard ins)).count .answered) ?_ (fun l x ih => ?_) ins hr
  · exact fun _ => ⟨rfl, rfl⟩
  · intro h
    unfold phone at ih h ⊢
    rw [run_snoc] at h ⊢
    by_cases hl : (Phone.run rw' l { sess := { hdr := { seq := 666, ts := 0, ssrc := ssrc }, peer := false } }).status = .running
    · rw [if_pos hl] at h ⊢
      obtain ⟨i1, i2⟩ := ih hl
      rw [List.countP_append, heard_append, published_append, List.count_append, ← i1, ← i2]
      cases x with
      | tick f => cases f <;> exact ⟨rfl, rfl⟩
      | audio f => cases f <;> exact ⟨rfl, rfl⟩
      | state c => cases c <;> exact ⟨rfl, rfl⟩
      | _ => exact ⟨rfl, rfl⟩
    · rw [if_neg hl] at h; exact absurd h hl

/-- **C80.** If no response is overtaken by one that says less (see C46), at most one goroutine reads the keyboard. -/
theorem C80_one_reader (w : World) (invite : Msg) (evs : List Event) (ho : Orderly evs) (rw' : Rtp.Writes)
    (ssrc : UInt32) (ins : List Input) (h : Listens ins (dialog w invite evs).s.outs)
    (hr : (phone rw' ssrc ins).status = .running) : (phone rw' ssrc ins).readers ≤ 1 := by
  rw [(C80_commands rw' ssrc ins hr).2]
  obtain ⟨t, ht⟩ := h.order
  have e : published (dialog w invite evs).s.outs = published (heard ins) ++ published t := by
    rw [← published_append, ht]
    exact (published_audible _).symm
  have hk : (published (heard ins)).count .answered ≤ (published (dialog w invite evs).s.outs).count .answered := by
    rw [e, List.count_append]; exact Nat.le_add_right _ _
  refine Nat.le_trans hk ?_
  by_cases hm : CallState.answered ∈ published (dialog w invite evs).s.outs
  · obtain ⟨pre, post, hp⟩ := List.append_of_mem hm
    obtain ⟨k1, k2⟩ := C46_answered_once_partial w invite evs ho pre post hp
    have k3 : CallState.answered ∉ post := fun hc => by cases k2 _ hc
    rw [hp, List.count_append, List.count_cons, List.count_eq_zero_of_not_mem k1, List.count_eq_zero_of_not_mem k3]
    decide
  · rw [List.count_eq_zero_of_not_mem hm]; exact Nat.zero_le _

/-! ## Examples -/

/-- The INVITE of the phone is one that the properties of calls speak about. -/
theorem C79_placeable (request : URI) (publicIP user : Bytes) (rtpPort : UInt16) (origin : Bytes) :
    Placeable (Fone.invite request publicIP user rtpPort origin) := by
  refine ⟨⟨rfl, rfl⟩, by simp [Fone.invite], fun f a ha => ?_⟩
  cases f <;> simp [Fone.invite] at ha <;> simp [ha]

/-- A call from the phone to 10.0.0.2, and what happens on its socket. -/
def demoCall : Msg := Fone.invite { host := b!"10.0.0.2", user := b!"bob" } b!"10.0.0.1" b!"alice" 16400 b!"1"

@[inherit_doc demoCall] def demoCallEvs : List Event :=
  [demoRsp [] 180, .msg { demoRspMsg [] 200 with payload := some (.sdp demoSdp) }, .msg (demoOffer 4002 5),
    .msg (demoReqMsg b!"BYE" 6)]

/-- What the phone does meanwhile: it hears of the call, and there is a tick before each piece of news. -/
def demoIns : List Input :=
  [.tick (some (.replicate 160 0)), .state .ringing, .tick (some (.replicate 160 0)), .peer b!"10.0.0.9" 4000,
    .tick (some (.replicate 160 5)), .state .answered, .key 49, .peer b!"10.0.0.9" 4002, .tick (some (.replicate 160 7)),
    .death, .state .hangup, .tick (some (.replicate 160 0))]

theorem demo_listens : Listens demoIns (dialog demoWorld demoCall demoCallEvs).s.outs := by
  refine ⟨by decide +kernel, fun pre x post h hx => ?_⟩
  have : x ∈ demoIns := by rw [h]; simp
  simp only [demoIns, List.mem_cons, List.not_mem_nil, or_false] at this
  rcases this with h | h | h | h | h | h | h | h | h | h | h | h <;> rw [h] at hx <;> cases hx

-- Nine packets: one of sound and seven of the key to the first address, one to the second; status 0.
example : RtpWorks demoIns ∧ heard demoIns = audible (dialog demoWorld demoCall demoCallEvs).s.outs ∧
    (phone (fun _ => true) 9 demoIns).status = .exited 0 ∧
    (phone (fun _ => true) 9 demoIns).sent.map (fun y => (seqOf y.1, y.2.map (·.2))) =
      [(666, some 4000), (667, some 4000), (668, some 4000), (669, some 4000), (670, some 4000), (671, some 4000),
        (672, some 4000), (673, some 4000), (674, some 4002)] := by
  refine ⟨fun x hx => ?_, by decide +kernel, by decide +kernel, by decide +kernel⟩
  simp only [demoIns, List.mem_cons, List.not_mem_nil, or_false] at hx
  rcases hx with h | h | h | h | h | h | h | h | h | h | h | h <;> subst h <;> simp

example : (∀ n, (demoWorld.ids n).callID ≠ []) ∧
    (∀ x ∈ requests (dialog demoWorld demoCall demoCallEvs).s.outs, x.2.callID = b!"id") ∧
    demoCallEvs.flatMap (offered b!"id") = [(b!"10.0.0.9", 4000), (b!"10.0.0.9", 4002)] ∧
    (loop demoWorld demoCallEvs (start demoWorld demoCall)).c = .stop := by
  refine ⟨fun n => ?_, by decide +kernel, by decide +kernel, by decide +kernel⟩
  simp [demoWorld]

-- Two signals and an RTP error.
example : (phone (fun _ => true) 9 [.state .answered, .death, .rtpErr, .death]).hangups = 3 ∧
    (phone (fun _ => true) 9 [.state .ringing, .state .answered, .death]).readers = 1 := by
  decide +kernel

-- A call that is refused, and one that is hung up before it is answered.
example : (phone (fun _ => true) 9 [.state .ringing, .err (.failed b!"10.0.0.2")]).status = .exited 1 ∧
    (phone (fun _ => true) 9 [.state .ringing, .death, .state .hangup]).status = .exited 1 ∧
    (phone (fun _ => true) 9 [.state .answered, .death]).status = .running := by
  decide +kernel

end Gosip.Props
