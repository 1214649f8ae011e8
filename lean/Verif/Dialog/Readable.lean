import Verif.Spec.Readable
import Verif.Dialog.Local
import Verif.Props.EndToEnd
import Verif.Props.Uri

/-!
# Lemmas: all that a call sends can be read
-/

namespace Gosip.Dialog
open Sip Spec Props

/-! ### Texts -/

theorem text_withScheme (u : URI) : (withScheme u).text = u.text := by
  unfold withScheme
  split
  · rename_i h
    unfold URI.text
    rw [h]
    rfl
  · rfl

theorem text_addrSeen (a : Addr) : (addrSeen a).text = a.text := by
  obtain ⟨u, d, p⟩ := a
  cases u with
  | none => rfl
  | some u =>
    show (if d ≠ [] then quoted d ++ b!" " else []) ++ b!"<" ++ (withScheme u).text ++ b!">" ++ paramText p = _
    rw [text_withScheme]
    rfl

theorem addrsText_seen (l : List Addr) : addrsText (l.map addrSeen) = addrsText l := by
  induction l with
  | nil => rfl
  | cons a l ih =>
    cases l with
    | nil => exact text_addrSeen a
    | cons b l =>
      show (addrSeen a).text ++ b!", " ++ addrsText ((b :: l).map addrSeen) = _
      rw [ih, text_addrSeen]
      rfl

theorem addrLine_seen (name : Bytes) (l : List Addr) : addrLine name (l.map addrSeen) = addrLine name l := by
  unfold addrLine
  rw [addrsText_seen]
  cases l <;> rfl

theorem data_seen {gen : Bytes} (hg : gen ≠ []) (p : Payload) : (bodySeen gen p).data gen = p.data gen := by
  cases p with
  | sdp d => exact Sdp.text_filled hg gen d
  | misc t x => rfl

theorem text_seen {gen : Bytes} (hg : gen ≠ []) (m : Msg) : (seen gen m).text gen = m.text gen := by
  have h1 : startLine (seen gen m) = startLine m := by
    unfold startLine
    have : (seen gen m).isResponse = m.isResponse := rfl
    rw [this]
    split
    · have hr : (seen gen m).request = m.request.map withScheme := rfl
      rw [hr]
      cases m.request with
      | none => rfl
      | some u => simp only [Option.map, text_withScheme]; rfl
    · rfl
  have h2 : headerLines (seen gen m) = headerLines m := by
    unfold headerLines
    simp only [show ∀ f, (seen gen m).addrs f = (m.addrs f).map addrSeen from fun _ => rfl, addrLine_seen, addrsText_seen]
    rfl
  have h3 : payloadText gen (seen gen m).payload = payloadText gen m.payload := by
    show payloadText gen (m.payload.map (bodySeen gen)) = _
    cases hp : m.payload with
    | none => rfl
    | some p =>
      have ht : (bodySeen gen p).contentType = p.contentType := by cases p <;> rfl
      simp only [payloadText, Option.map, data_seen hg, ht]
  unfold Msg.text
  rw [h1, h2, h3]

/-! ### URIs and addresses -/

/-- A URI that can be written and read, the scheme may be left out. -/
abbrev UriOK (u : URI) : Prop := URIText (withScheme u).text (withScheme u)

theorem uriOK_iff (u : URI) : UriOK u ↔ (u.scheme = [] ∨ SchemeOK u.scheme) ∧ HostOK u.host ∧ (u.user = [] → u.pass = []) ∧
    (∀ p ∈ u.param, p.1 ≠ []) ∧ ∀ p ∈ u.header, p.1 ≠ [] ∧ 38 ∉ p.1 ∧ 38 ∉ p.2 := by
  unfold UriOK
  rw [← C02_parseURI_grammar, C03_uri_round_trip_iff]
  unfold withScheme
  split
  · rename_i h
    simp only [h, true_or, true_and, and_iff_right_iff_imp]
    intro _
    exact SchemeText.mk (by decide +kernel) (by decide +kernel)
  · rename_i h
    simp [h]

theorem withScheme_of_text {u : URI} (h : URIText u.text u) : withScheme u = u := by
  rw [← C02_parseURI_grammar, C03_uri_round_trip_iff] at h
  unfold withScheme
  rw [if_neg]
  intro e
  have := h.1
  unfold SchemeOK at this
  rw [e] at this
  nomatch this

theorem addrOK_seen {a : Addr} (h : AddrOK a) : AddrOK (addrSeen a) := by
  obtain ⟨u, hu, ht⟩ := h.uri
  refine ⟨⟨u, ?_, ht⟩, h.display, h.param⟩
  show a.uri.map withScheme = _
  rw [hu]
  exact congrArg some (withScheme_of_text ht)

theorem addrSeen_uri {a : Addr} (h : AddrOK (addrSeen a)) : ∃ u, a.uri = some u ∧ UriOK u := by
  obtain ⟨u, hu, ht⟩ := h.uri
  cases ha : a.uri with
  | none => simp [addrSeen, ha] at hu
  | some v =>
    simp only [addrSeen, ha, Option.map, Option.some.injEq] at hu
    subst hu
    exact ⟨v, rfl, ht⟩

theorem addrOK_mk {a : Addr} {u : URI} (h1 : a.uri = some u) (h2 : UriOK u) (h3 : DisplayOK a.display) (h4 : ParamOK a.param) :
    AddrOK (addrSeen a) :=
  ⟨⟨withScheme u, by simp [addrSeen, h1], h2⟩, h3, h4⟩

theorem display_nil : DisplayOK [] := .inl ⟨by simp, by simp, by simp⟩

theorem param_nil : ParamOK [] := (fun _ h => nomatch h)

/-! ### Messages that can be written -/

/-- The message can be written and read. -/
def Wr (w : World) (m : Msg) : Prop := ∀ n, MsgOK (w.origin n) (seen (w.origin n) m)

theorem reads_of {w : World} (hw : PlainWorld w) {m : Msg} (h : Wr w m) (n : Nat) : ReadsAs w m (m.text (w.origin n)) :=
  ⟨n, by rw [← text_seen (hw.origin n)]; exact C14_read_back _ (h n)⟩

/-- The message can be written and read, but for what is filled in later; `k` more requests can be numbered. -/
structure Sound (w : World) (k : Int) (m : Msg) : Prop where
  ok : Writable w m
  cseq : m.cseq + k < 2 ^ 63

/-- Nothing is left to be filled in. -/
structure Whole (m : Msg) : Prop where
  from_ : m.addrs .from ≠ []
  to : m.addrs .to ≠ []
  callID : CallIDText m.callID
  cseqMethod : IsToken m.cseqMethod

theorem Sound.wr {w : World} {k : Int} {m : Msg} (h : Sound w k m) (hk : 0 ≤ k) (hf : Whole m) : Wr w m := by
  intro n
  obtain ⟨u, hu, ht⟩ := h.ok.request
  have e : (seen (w.origin n) m).request = some (withScheme u) := by simp [seen, hu]
  refine ⟨.inl ⟨h.ok.status, .inr h.ok.method, ?_, h.ok.maxForwards⟩, h.ok.via, ?_, ?_, ?_, hf.callID,
    ⟨h.ok.cseq, by have := h.cseq; show m.cseq < _; omega⟩, hf.cseqMethod, h.ok.expires, h.ok.minExpires, h.ok.hdr, h.ok.xheader, ?_⟩
  · intro u' hu'
    rw [e] at hu'
    cases hu'
    exact ht
  · intro f a ha
    obtain ⟨b, hb, rfl⟩ := List.mem_map.1 ha
    exact h.ok.addrs f b hb
  · show (m.addrs .from).map addrSeen ≠ []
    simp [hf.from_]
  · show (m.addrs .to).map addrSeen ≠ []
    simp [hf.to]
  · intro p hp
    have : m.payload.map (bodySeen (w.origin n)) = some p := hp
    cases hq : m.payload with
    | none => simp [hq] at this
    | some q =>
      simp only [hq, Option.map, Option.some.injEq] at this
      subst this
      have := h.ok.payload q hq
      cases q with
      | sdp d => exact this d (filled_refl w d) n
      | misc t x => exact this

/-- Max-Forwards and the parameters of Via may change. -/
theorem Sound.via {w : World} {k : Int} {m : Msg} (h : Sound w k m) {v : List Via} (hv : ∀ x ∈ v, ViaOK x) {f : Int}
    (hf : 0 ≤ f ∧ f < 2 ^ 63) : Sound w k { m with via := v, maxForwards := f } :=
  ⟨⟨h.ok.status, h.ok.method, h.ok.request, hf, hv, h.ok.addrs, h.ok.callID, h.ok.cseq, h.ok.cseqMethod, h.ok.expires,
    h.ok.minExpires, h.ok.hdr, h.ok.xheader, h.ok.payload⟩, h.cseq⟩

theorem Whole.via {m : Msg} (h : Whole m) (v : List Via) (f : Int) : Whole { m with via := v, maxForwards := f } :=
  ⟨h.from_, h.to, h.callID, h.cseqMethod⟩

theorem Wr.via {w : World} {m : Msg} (h : Wr w m) {v : List Via} (hv : ∀ x ∈ v, ViaOK x) {f : Int}
    (hf : 0 ≤ m.maxForwards ∧ m.maxForwards < 2 ^ 63 → 0 ≤ f ∧ f < 2 ^ 63) : Wr w { m with via := v, maxForwards := f } := by
  intro n
  have := h n
  refine ⟨?_, hv, this.addrs, this.from_, this.to, this.callID, this.cseq, this.cseqMethod, this.expires, this.minExpires,
    this.hdr, this.xheader, this.payload⟩
  rcases this.start with k | k
  · exact .inl ⟨k.status, k.method, k.request, hf k.maxForwards⟩
  · exact .inr ⟨k.status, k.phrase⟩

theorem Wr.viaOK {w : World} {m : Msg} (h : Wr w m) : ∀ x ∈ m.via, ViaOK x := (h 0).via

/-! ### Sending -/

theorem viaOK_stamp {l : List Via} (h : ∀ x ∈ l, ViaOK x) {ts : Option Int} {m m' : Msg} (hv : m.via = l)
    (ht : addTimestamp ts m = .ok m') : ∃ v, m' = { m with via := v } ∧ ∀ x ∈ v, ViaOK x := by
  unfold addTimestamp at ht
  split at ht
  · cases ht; exact ⟨m.via, rfl, hv ▸ h⟩
  · split at ht
    · cases ht
    · rename_i v l' hvl
      cases ht
      refine ⟨_, rfl, ?_⟩
      rw [← hv, hvl] at h
      intro x hx
      rcases List.mem_cons.1 hx with rfl | hx
      · have k := h v List.mem_cons_self
        exact ⟨k.protocol, k.version, k.transport, k.host, k.hostc, usi_ok k.param⟩
      · exact h x (List.mem_cons_of_mem _ hx)

/-- The text is that of a message that can be written and read. -/
def Written (w : World) (m : Msg) (x : Bytes) : Prop := Wr w m ∧ ∃ n, x = m.text (w.origin n)

/-- What `send` does with a message that can be written. -/
structure SentOK (w : World) (s : St) (m : Msg) (x : Run × Msg) : Prop where
  frame : ∃ o t, x.1.s = { s with outs := o, tick := t }
  outs : ∀ d m' t, .sent d m' t ∈ x.1.s.outs → .sent d m' t ∈ s.outs ∨ Written w m' t
  msg : ∃ v f, (∀ y ∈ v, ViaOK y) ∧ (0 ≤ m.maxForwards ∧ m.maxForwards < 2 ^ 63 → 0 ≤ f ∧ f < 2 ^ 63) ∧
    (x.2 = { m with via := v, maxForwards := f } ∨ x.2 = ({ m with via := v, maxForwards := f } : Msg).appended)

theorem send_fits {w : World} (_hw : PlainWorld w) (s : St) {m : Msg} (h : Wr w m) : SentOK w s m (send w s m) := by
  obtain ⟨f, hd, hf⟩ : ∃ f, decForwards m = { m with maxForwards := f } ∧
      (0 ≤ m.maxForwards ∧ m.maxForwards < 2 ^ 63 → 0 ≤ f ∧ f < 2 ^ 63) := by
    unfold decForwards
    split
    · exact ⟨_, rfl, fun _ => by omega⟩
    · exact ⟨m.maxForwards, rfl, id⟩
  unfold send
  split
  · refine ⟨⟨_, _, rfl⟩, ?_, m.via, 0, h.viaOK, fun _ => by decide, .inl rfl⟩
    intro d m' t ht
    simp only [St.fail, St.out, List.mem_append, List.mem_singleton, reduceCtorEq, or_false] at ht
    exact .inl ht
  · unfold writeMsg
    split
    · rename_i m1 c hts hs
      rw [hd] at hts
      obtain ⟨v, hm1, hv⟩ := viaOK_stamp (m := { m with maxForwards := f }) h.viaOK rfl hts
      have hm2 : m1 = { m with via := v, maxForwards := f } := hm1
      have hr : Written w m1 (m1.text (w.origin s.tick)) := by
        rw [hm2]; exact ⟨h.via hv hf, _, rfl⟩
      dsimp only
      split
      · refine ⟨⟨_, _, rfl⟩, ?_, v, f, hv, hf, .inr (by rw [hm2])⟩
        intro d m' t ht
        simp only [St.out, List.mem_append, List.mem_singleton] at ht
        rcases ht with ht | ht
        · exact .inl ht
        · cases ht; exact .inr hr
      · refine ⟨⟨_, _, rfl⟩, ?_, v, f, hv, hf, .inr (by rw [hm2])⟩
        intro d m' t ht
        simp only [St.fail, St.out, List.mem_append, List.mem_singleton, reduceCtorEq, or_false] at ht
        rcases ht with ht | ht
        · exact .inl ht
        · cases ht; exact .inr hr
    · rw [hd]
      exact ⟨⟨_, _, rfl⟩, fun d m' t ht => .inl ht, m.via, f, h.viaOK, hf, .inl rfl⟩

/-! ### New messages -/

/-- A message of the other side that could be written and read. -/
def Heard' (m : Msg) : Prop := ∃ g, MsgOK g m

theorem ua_ok : TextOK gosipUA := plain_of (by decide) (by decide)

theorem allow_ok : TextOK gosipAllow := plain_of (by decide) (by decide)

theorem textOK_nil : TextOK [] := plain_of (by decide) (by decide)

theorem token_of (s : Bytes) (h1 : s ≠ []) (h2 : s.all (fun c => decide (token c)) = true) : IsToken s := isToken_of h1 h2

theorem zero_ok : (0 : Int) ≤ 0 ∧ (0 : Int) < 2 ^ 63 := by decide

theorem tok_ack : IsToken b!"ACK" := token_of _ (by decide) (by decide)

theorem tok_cancel : IsToken b!"CANCEL" := token_of _ (by decide) (by decide)

theorem tok_bye : IsToken b!"BYE" := token_of _ (by decide) (by decide)

theorem wr_response (w : World) {m : Msg} (h : Heard' m) {n : Int} (hn : 100 ≤ n ∧ n ≤ 999) : Wr w (newResponse m n) := by
  obtain ⟨g, h⟩ := h
  intro k
  refine ⟨.inr ⟨hn, (MsgM.phrase_ok n).1⟩, h.via, ?_, ?_, ?_, h.callID, h.cseq, h.cseqMethod, zero_ok, zero_ok, ?_, ?_, ?_⟩
  · intro f a ha
    obtain ⟨b, hb, rfl⟩ := List.mem_map.1 ha
    refine addrOK_seen ?_
    cases f <;> first | exact h.addrs _ b hb | exact nomatch hb
  · show (m.addrs .from).map addrSeen ≠ []
    simp [h.from_]
  · show (m.addrs .to).map addrSeen ≠ []
    simp [h.to]
  · intro f _
    cases f <;> first | exact ua_ok | exact allow_ok | exact textOK_nil
  · intro p hp; exact nomatch hp
  · intro p hp; exact nomatch hp

theorem reversed_mem {l : List Addr} {a : Addr} (h : a ∈ addrReversed l) : a ∈ l := by
  have key : ∀ l r : List Addr, a ∈ addrReversedAux l r → a ∈ l ∨ a ∈ r := by
    intro l
    induction l with
    | nil => exact fun r h => .inr h
    | cons b l ih =>
      intro r h
      rcases ih _ h with h | h
      · exact .inl (List.mem_cons_of_mem _ h)
      · rcases List.mem_cons.1 h with rfl | h
        · exact .inl List.mem_cons_self
        · exact .inr h
  rcases key _ _ h with h | h
  · exact h
  · exact nomatch h

theorem heard_uri {m : Msg} (h : Heard' m) {u : Option URI} (hu : headUri (m.addrs .contact) = .ok u) :
    ∃ v, u = some v ∧ UriOK v := by
  obtain ⟨g, h⟩ := h
  cases hc : m.addrs .contact with
  | nil => simp [hc, headUri] at hu
  | cons a l =>
    rw [hc] at hu
    simp only [headUri, Res.ok.injEq] at hu
    obtain ⟨v, hv, ht⟩ := (h.addrs .contact a (by rw [hc]; exact List.mem_cons_self)).uri
    refine ⟨v, by rw [← hu, hv], ?_⟩
    unfold UriOK
    rw [withScheme_of_text ht]
    exact ht

theorem wr_ack {w : World} {m cur : Msg} (h : Heard' m) (hc : Writable w cur) {a : Msg} (ha : newAck m cur = .ok a) :
    Wr w a := by
  simp only [newAck, Res.bind_eq, Res.bind_ok_iff] at ha
  obtain ⟨u, hu, v, hv, ha⟩ := ha
  obtain ⟨u, rfl, ho⟩ := heard_uri h hu
  obtain ⟨g, h⟩ := h
  cases ha
  refine Sound.wr (k := 0) ⟨⟨Int.le_refl _, tok_ack, ⟨u, rfl, ho⟩, zero_ok, ?_, ?_, .inr h.callID,
    h.cseq.1, .inr (tok_ack), zero_ok, zero_ok, ?_, (fun p hp => nomatch hp),
    (fun p hp => nomatch hp)⟩, ?_⟩ (Int.le_refl _) ⟨h.from_, h.to, h.callID, tok_ack⟩
  · intro x hx
    cases hm : m.via with
    | nil => simp [hm, viaDetach] at hv
    | cons y l =>
      simp only [hm, viaDetach, Res.ok.injEq] at hv
      subst hv
      simp only [List.mem_singleton] at hx
      subst hx
      exact h.via x (by rw [hm]; exact List.mem_cons_self)
  · intro f a ha
    refine addrOK_seen ?_
    cases f <;> first | exact h.addrs _ a ha | exact h.addrs .recordRoute a (reversed_mem ha) | exact nomatch ha
  · intro f _
    cases f <;> first | exact ua_ok | exact textOK_nil | exact hc.hdr _ (by decide)
  · have := h.cseq.2
    show m.cseq + 0 < 2 ^ 63
    omega

theorem wr_cancel {w : World} {k : Int} {m : Msg} (h : Sound w k m) (hk : 0 ≤ k) (hf : Whole m) : Wr w (newCancel m) := by
  refine Sound.wr (k := k) ⟨⟨Int.le_refl _, tok_cancel, h.ok.request, zero_ok, h.ok.via, ?_,
    .inr hf.callID, h.ok.cseq, .inr (tok_cancel), zero_ok, zero_ok, ?_, (fun p hp => nomatch hp),
    (fun p hp => nomatch hp)⟩, h.cseq⟩ hk ⟨hf.from_, hf.to, hf.callID, tok_cancel⟩
  · intro f a ha
    cases f <;> first | exact h.ok.addrs _ a ha | exact nomatch ha
  · intro f _
    exact textOK_nil

theorem sound_bye {w : World} {k : Int} {i r : Msg} {l n : Int} (hi : Sound w (k + 1) i) (hf : Whole i) (h : Heard' r)
    (hk : 0 ≤ k) (hl : 0 ≤ l ∧ l + (k + 1) < 2 ^ 63) {b : Msg} (hb : newBye i r (some l) = .ok (b, n)) :
    Sound w k b ∧ Whole b ∧ 0 ≤ n ∧ n + k < 2 ^ 63 := by
  simp only [newBye, Res.bind_eq, Res.bind_ok_iff] at hb
  obtain ⟨u, hu, hb⟩ := hb
  obtain ⟨u, rfl, ho⟩ := heard_uri h hu
  obtain ⟨g, h⟩ := h
  have hn : wrap64 (l + 1) = l + 1 := MsgM.wrap64_small (by omega) (by omega)
  simp only [Option.getD, hn] at hb
  cases hb
  refine ⟨⟨⟨Int.le_refl _, tok_bye, ⟨u, rfl, ho⟩, zero_ok, (fun v hv => nomatch hv), ?_,
    .inr hf.callID, ?_, .inr (tok_bye), zero_ok, zero_ok, fun f _ => textOK_nil,
    (fun p hp => nomatch hp), (fun p hp => nomatch hp)⟩, ?_⟩, ⟨hf.from_, h.to, hf.callID, tok_bye⟩,
    by omega, by omega⟩
  · intro f a ha
    cases f <;> first | exact hi.ok.addrs _ a ha | exact addrOK_seen (h.addrs _ a ha) |
      exact addrOK_seen (h.addrs .recordRoute a (reversed_mem ha)) | exact nomatch ha
  · show 0 ≤ l + 1
    omega
  · show l + 1 + k < 2 ^ 63
    omega

/-! ### Routing and filling in -/

theorem copy_ok {a : Addr} (h : AddrOK (addrSeen a)) : AddrOK (addrSeen (addrCopy1 a)) := ⟨h.uri, display_nil, h.param⟩

theorem route_sound {w : World} {k : Int} {m : Msg} (h : Sound w k m) : Sound w k (routeMessage none none m).1 := by
  have hr : ¬ m.isResponse = true := by simp [Msg.isResponse, h.ok.status]
  have hpop : popRoute none (m.addrs .route) = m.addrs .route := by simp [popRoute, addrCompareHostPort]
  have keep : ∀ (req : Option URI) (rt : List Addr), (∃ u, req = some u ∧ UriOK u) → (∀ a ∈ rt, AddrOK (addrSeen a)) →
      Sound w k { m with request := req, addrs := setAt m.addrs .route rt } := by
    intro req rt h1 h2
    refine ⟨⟨h.ok.status, h.ok.method, h1, h.ok.maxForwards, h.ok.via, ?_, h.ok.callID, h.ok.cseq, h.ok.cseqMethod,
      h.ok.expires, h.ok.minExpires, h.ok.hdr, h.ok.xheader, h.ok.payload⟩, h.cseq⟩
    intro f a ha
    dsimp only at ha
    by_cases hf : f = .route
    · subst hf
      rw [show setAt m.addrs .route rt .route = rt from setAt_same ..] at ha
      exact h2 a ha
    · rw [setAt_ne _ _ hf] at ha
      exact h.ok.addrs f a ha
  have hrt := h.ok.addrs .route
  unfold routeMessage
  rw [if_neg hr, hpop]
  dsimp only
  cases hm : m.addrs .route with
  | nil => exact keep _ _ h.ok.request (by simp)
  | cons r rest =>
    rw [hm] at hrt
    have same := keep _ _ h.ok.request hrt
    dsimp only
    split
    · exact same
    · split
      · exact same
      · rename_i u hu
        split
        · exact same
        · obtain ⟨v, hv, hvo⟩ := addrSeen_uri (hrt r List.mem_cons_self)
          rw [hu] at hv
          cases hv
          have := keep (some u) (addrCopy rest ++ [{ uri := m.request }]) ⟨u, rfl, hvo⟩ (by
            intro a ha
            rcases List.mem_append.1 ha with ha | ha
            · obtain ⟨b, hb, rfl⟩ := List.mem_map.1 ha
              exact copy_ok (hrt b (List.mem_cons_of_mem _ hb))
            · simp only [List.mem_singleton] at ha
              subst ha
              obtain ⟨q, hq, hqo⟩ := h.ok.request
              exact addrOK_mk (by exact hq) hqo display_nil param_nil)
          have e : setAt (setAt m.addrs .route (r :: rest)) .route (addrCopy rest ++ [{ uri := m.request }]) =
              setAt m.addrs .route (addrCopy rest ++ [{ uri := m.request }]) := by
            funext f
            unfold setAt
            split <;> rfl
          rw [e]
          exact this

theorem route_whole {m : Msg} (h : Whole m) : Whole (routeMessage none none m).1 := by
  obtain ⟨v, q, rt, e⟩ : ∃ v q rt, (routeMessage none none m).1 =
      { m with via := v, request := q, addrs := setAt m.addrs .route rt } := by
    have e0 : setAt m.addrs .route (m.addrs .route) = m.addrs := by
      funext f; unfold setAt; split
      · rename_i hf; rw [hf]
      · rfl
    have e1 : ∀ a b, setAt (setAt m.addrs .route a) .route b = setAt m.addrs .route b := by
      intro a b; funext f; unfold setAt; split <;> rfl
    unfold routeMessage
    split
    · exact ⟨_, m.request, m.addrs .route, by rw [e0]⟩
    · dsimp only
      split
      · exact ⟨m.via, m.request, _, rfl⟩
      · split
        · exact ⟨m.via, m.request, _, rfl⟩
        · split
          · exact ⟨m.via, m.request, _, rfl⟩
          · split
            · exact ⟨m.via, m.request, _, rfl⟩
            · exact ⟨m.via, _, _, by rw [e1]⟩
  rw [e]
  refine ⟨?_, ?_, h.callID, h.cseqMethod⟩
  · show setAt m.addrs .route rt .from ≠ []
    rw [setAt_ne _ _ (by decide)]; exact h.from_
  · show setAt m.addrs .route rt .to ≠ []
    rw [setAt_ne _ _ (by decide)]; exact h.to

theorem contactUri_ok {p : UInt16} {u : URI} (h : UriOK u) : UriOK (populateContactUri p u) := by
  rw [uriOK_iff] at h ⊢
  unfold populateContactUri
  split
  · refine ⟨h.1, h.2.1, h.2.2.1, ?_, h.2.2.2.2⟩
    intro q hq
    rcases List.mem_cons.1 hq with rfl | hq
    · show b!"transport" ≠ []; decide
    · exact h.2.2.2.1 q hq
  · exact h

theorem contact_ok {c : Conn} (hc : HostOK c.lhost) {cs : Option UInt16} {l l' : List Addr}
    (h : ∀ a ∈ l, AddrOK (addrSeen a)) (he : populateContact c cs l = .ok l') : ∀ a ∈ l', AddrOK (addrSeen a) := by
  unfold populateContact at he
  split at he
  · cases he
    intro a ha
    simp only [List.mem_singleton] at ha
    subst ha
    refine addrOK_mk rfl (contactUri_ok ?_) display_nil param_nil
    rw [uriOK_iff]
    exact ⟨.inr (SchemeText.mk (by decide +kernel) (by decide +kernel)), hc, fun _ => rfl, by simp, by simp⟩
  · rename_i a more
    split at he
    · cases he
    · rename_i u hu
      cases he
      intro x hx
      rcases List.mem_cons.1 hx with rfl | hx
      · have ha := h a List.mem_cons_self
        obtain ⟨v, hv, hvo⟩ := addrSeen_uri ha
        rw [hu] at hv
        cases hv
        exact addrOK_mk rfl (contactUri_ok hvo) ha.display ha.param
      · exact h x (List.mem_cons_of_mem _ hx)

theorem setParam_ok {n v : Bytes} {l : Pairs} (hv : ValueOK v) (h : ParamOK l) : ParamOK (setParam n v l) := by
  induction l with
  | nil => exact h
  | cons p l ih =>
    have h0 := h p List.mem_cons_self
    have ht : ParamOK l := fun q hq => h q (List.mem_cons_of_mem _ hq)
    unfold setParam
    split
    · exact paramOK_cons h0.1 hv ht
    · intro q hq
      rcases List.mem_cons.1 hq with rfl | hq
      · exact h0
      · exact ih ht q hq

theorem via_ok {b : Bytes} (hb : ∀ c ∈ b, token c) {c : Conn} (hc : HostOK c.lhost ∧ ∀ b ∈ c.lhost, viaHostc b)
    {l : List Via} (h : ∀ v ∈ l, ViaOK v) : ∀ v ∈ populateVia b c l, ViaOK v := by
  have hp : IsToken b!"branch" := token_of _ (by decide) (by decide)
  unfold populateVia
  split
  · intro v hv
    simp only [List.mem_singleton] at hv
    subst hv
    exact ⟨by simp, by simp, by simp, hc.1.1, hc.2, paramOK_cons hp (.inl hb) param_nil⟩
  · rename_i v more
    have h0 := h v List.mem_cons_self
    intro x hx
    rcases List.mem_cons.1 hx with rfl | hx
    · split
      · exact ⟨h0.protocol, h0.version, h0.transport, h0.host, h0.hostc, setParam_ok (.inl hb) h0.param⟩
      · exact ⟨h0.protocol, h0.version, h0.transport, h0.host, h0.hostc, paramOK_cons hp (.inl hb) h0.param⟩
    · exact h x (List.mem_cons_of_mem _ hx)

theorem filled_trans {w : World} {a b c : Sdp.SDP} (h1 : FilledIn w a b) (h2 : FilledIn w b c) : FilledIn w a c := by
  have key : ∀ {P : Bytes → Prop} {x y z : Bytes}, Given P x y → Given P y z → Given P x z := by
    rintro P x y z (rfl | ⟨rfl, hp⟩) h
    · exact h
    · rcases h with rfl | ⟨_, h⟩
      · exact .inr ⟨rfl, hp⟩
      · exact .inr ⟨rfl, h⟩
  refine ⟨?_, key h1.addr h2.addr, key h1.oaddr h2.oaddr, key h1.id h2.id⟩
  have e1 := h1.only
  have e2 := h2.only
  rw [e1] at e2
  exact e2

theorem populate_sound {w : World} (hw : PlainWorld w) {k : Int} (hk : ∀ n, (w.ids n).cseq + k < 2 ^ 63) {n : Nat} {c : Conn}
    (hc : Socket w c) {cs : Option UInt16} {m m' : Msg} (h : Sound w k m)
    (he : populate (w.ids n) (w.origin n) c cs m = .ok m') : Sound w k m' ∧ Whole m' := by
  have hr : ¬ m.isResponse = true := by simp [Msg.isResponse, h.ok.status]
  have hh := hw.host c hc
  have hvia := via_ok (hw.branch n) hh h.ok.via
  simp only [populate, Res.bind_eq, Res.bind_ok_iff] at he
  obtain ⟨contact, hct, he⟩ := he
  have hcon := contact_ok hh.1 (h.ok.addrs .contact) hct
  unfold populateMessage at he
  rw [if_neg (by exact hr)] at he
  simp only [Res.bind_eq, Res.bind_ok_iff] at he
  obtain ⟨fr, h1, via, h2, fr2, h3, he⟩ := he
  have hne : contact ≠ [] := by
    unfold populateContact at hct
    split at hct
    · cases hct; simp
    · split at hct
      · cases hct
      · cases hct; simp
  have hset : setAt m.addrs .contact contact .contact = contact := setAt_same ..
  have hfrom : setAt m.addrs .contact contact .from = m.addrs .from := setAt_ne _ _ (by decide)
  have hto : setAt m.addrs .contact contact .to = m.addrs .to := setAt_ne _ _ (by decide)
  simp only [hset, hfrom, hto, hne, if_false] at h1 he
  have hv2 : ∀ v ∈ via, ViaOK v := by
    cases hp : populateVia (w.ids n).branch c m.via with
    | nil => simp [hp, ensureBranch] at h2
    | cons v l =>
      rw [hp] at h2 hvia
      simp only [reduceCtorEq, if_false, ensureBranch] at h2
      split at h2
      · cases h2
        intro x hx
        rcases List.mem_cons.1 hx with rfl | hx
        · have h0 := hvia v List.mem_cons_self
          exact ⟨h0.protocol, h0.version, h0.transport, h0.host, h0.hostc,
            paramOK_cons (token_of _ (by decide) (by decide)) (.inl (hw.branch n)) h0.param⟩
        · exact hvia x (List.mem_cons_of_mem _ hx)
      · cases h2
        exact hvia
  have hf1 : ∀ a ∈ fr, AddrOK (addrSeen a) := by
    unfold ensureFrom at h1
    split at h1
    · unfold fromContact at h1
      split at h1
      · cases h1
      · rename_i a l
        split at h1
        · rename_i u hu
          cases h1
          have ha := hcon a List.mem_cons_self
          obtain ⟨v, hv, hvo⟩ := addrSeen_uri ha
          rw [hu] at hv
          cases hv
          intro x hx
          rcases List.mem_cons.1 hx with rfl | hx
          · refine addrOK_mk rfl ?_ display_nil ha.param
            rw [uriOK_iff] at hvo ⊢
            exact ⟨hvo.1, hvo.2.1, hvo.2.2.1, by simp, hvo.2.2.2.2⟩
          · obtain ⟨b, hb, rfl⟩ := List.mem_map.1 hx
            exact copy_ok (hcon b (List.mem_cons_of_mem _ hb))
        · cases h1
    · cases h1
      exact h.ok.addrs .from
  have hf2 : (∀ a ∈ fr2, AddrOK (addrSeen a)) ∧ fr2 ≠ [] := by
    unfold ensureTag at h3
    split at h3
    · cases h3
    · rename_i a l
      have ha := hf1 a List.mem_cons_self
      split at h3
      · cases h3
        refine ⟨?_, by simp⟩
        intro x hx
        rcases List.mem_cons.1 hx with rfl | hx
        · exact ⟨ha.uri, ha.display, paramOK_cons (token_of _ (by decide) (by decide)) (.inl (hw.tag n)) ha.param⟩
        · exact hf1 x (List.mem_cons_of_mem _ hx)
      · cases h3
        exact ⟨hf1, by simp⟩
  have hto2 : (∀ a ∈ (if m.addrs .to = [] then [{ uri := m.request }] else m.addrs .to), AddrOK (addrSeen a)) ∧
      (if m.addrs .to = [] then [{ uri := m.request }] else m.addrs .to) ≠ [] := by
    split
    · refine ⟨?_, by simp⟩
      intro a ha
      simp only [List.mem_singleton] at ha
      subst ha
      obtain ⟨q, hq, hqo⟩ := h.ok.request
      exact addrOK_mk (by exact hq) hqo display_nil param_nil
    · rename_i hne
      exact ⟨h.ok.addrs .to, hne⟩
  cases he
  refine ⟨⟨⟨h.ok.status, h.ok.method, h.ok.request, ?_, hv2, ?_, ?_, ?_, ?_, h.ok.expires, h.ok.minExpires, ?_, h.ok.xheader,
    ?_⟩, ?_⟩, ?_, ?_, ?_, ?_⟩
  · show 0 ≤ (if m.maxForwards = 0 then 70 else m.maxForwards) ∧ (if m.maxForwards = 0 then 70 else m.maxForwards) < 2 ^ 63
    have := h.ok.maxForwards
    split <;> omega
  · intro f a ha
    dsimp only at ha
    by_cases f1 : f = .from
    · subst f1; rw [show setAt _ AField.from fr2 .from = fr2 from setAt_same ..] at ha; exact hf2.1 a ha
    rw [setAt_ne _ _ f1] at ha
    by_cases f2 : f = .to
    · subst f2
      rw [setAt_same] at ha
      exact hto2.1 a ha
    rw [setAt_ne _ _ f2] at ha
    by_cases f3 : f = .contact
    · subst f3
      rw [setAt_same] at ha
      exact hcon a ha
    rw [setAt_ne _ _ f3, setAt_ne _ _ f3] at ha
    exact h.ok.addrs f a ha
  · show (if m.callID = [] then _ else m.callID) = [] ∨ CallIDText (if m.callID = [] then _ else m.callID)
    split
    · exact .inr (hw.callID n)
    · exact h.ok.callID
  · show 0 ≤ (if m.cseq = 0 then (w.ids n).cseq else m.cseq)
    split
    · exact hw.cseq n
    · exact h.ok.cseq
  · show (if m.cseqMethod = [] then _ else m.cseqMethod) = [] ∨ IsToken (if m.cseqMethod = [] then _ else m.cseqMethod)
    split
    · exact .inr h.ok.method
    · exact h.ok.cseqMethod
  · intro f hf
    show TextOK ((if m.hdr .userAgent = [] then setAt m.hdr .userAgent gosipUA else m.hdr) f)
    split
    · unfold setAt
      split
      · exact ua_ok
      · exact h.ok.hdr f hf
    · exact h.ok.hdr f hf
  · intro p hp
    have hp' : populatePayload (w.origin n) c m = some p := hp
    unfold populatePayload at hp'
    split at hp'
    · rename_i d hd
      have hfit := h.ok.payload _ hd
      split at hp'
      · cases hp'
        intro d' hd' j
        exact hfit d' (filled_trans (filled_populate n hc (filled_refl w d)) hd') j
      · cases hp'
        exact hfit
    · exact h.ok.payload p hp'
  · show (if m.cseq = 0 then (w.ids n).cseq else m.cseq) + k < 2 ^ 63
    split
    · exact hk n
    · exact h.cseq
  · dsimp only
    rw [setAt_same]; exact hf2.2
  · dsimp only
    rw [setAt_ne _ _ (show AField.to ≠ .from by decide), setAt_same]; exact hto2.2
  · show CallIDText (if m.callID = [] then _ else m.callID)
    split
    · exact hw.callID n
    · rename_i hne
      exact h.ok.callID.resolve_left hne
  · show IsToken (if m.cseqMethod = [] then _ else m.cseqMethod)
    split
    · exact h.ok.method
    · rename_i hne
      exact h.ok.cseqMethod.resolve_left hne

end Gosip.Dialog
