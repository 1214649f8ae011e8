import Verif.Sip.GrMsg
import Verif.Spec.Relay
import Verif.Sip.UriTextLemmas
import Verif.Sdp.Reparse

/-!
# Messages that were read can be written and read again
-/

namespace Gosip.Sip.Relay
open Spec MsgM

/-! ### URIs -/

theorem uri_again {t : Bytes} {u : URI} (h : URIText t u) (hk : KeptURI u) : URIText u.text u := by
  obtain ⟨a1, a2, b1, b2, b3, b4⟩ := h
  have hl : ∀ c, lower (lower c) = lower c := by decide +kernel
  have pn : ∀ {P : UInt8 → Prop} {t : Bytes} {p : Bytes × Bytes}, PairText P t p → p.1 ≠ [] := by
    intro P t p h; cases h <;> assumption
  refine uriText_spec _ ?_ ?_ ?_ ?_ ?_
  · cases a1 with
    | @mk c t h1 h2 =>
      show SchemeText _ _
      have hll : lower ∘ lower = lower := funext hl
      have al : ∀ c, isAlpha c → isAlpha (lower c) := by decide +kernel
      have := SchemeText.mk (c := lower c) (t := t.map lower) (al c h1) ?_
      · simpa [hl, hll] using this
      · intro d hd
        obtain ⟨x, hx, rfl⟩ := List.mem_map.1 hd
        have : ∀ c, schemec c → schemec (lower c) := by decide +kernel
        exact this x (h2 x hx)
  · cases b1 with
    | @name t h1 h2 =>
      refine ⟨by simpa using h1, by simp [hl], .inl ?_⟩
      intro d hd
      obtain ⟨x, hx, rfl⟩ := List.mem_map.1 hd
      have : ∀ c, hostc c → hostc (lower c) := by decide +kernel
      exact this x (h2 x hx)
    | @ip6 t h1 h2 =>
      refine ⟨by simpa using h1, by simp [hl], ?_⟩
      have i6 : ∀ d ∈ t.map lower, ip6c d := by
        intro d hd
        obtain ⟨x, hx, rfl⟩ := List.mem_map.1 hd
        have : ∀ c, ip6c c → ip6c (lower c) := by decide +kernel
        exact this x (h2 x hx)
      by_cases h58 : 58 ∈ t.map lower
      · exact .inr ⟨h58, i6⟩
      · refine .inl fun d hd => ?_
        have : ∀ c, ip6c c → c ≠ 58 → hostc c := by decide +kernel
        exact this d (i6 d hd) (by rintro rfl; exact h58 hd)
  · cases a2 with
    | none => intro _; rfl
    | user _ _ => intro _; rfl
    | userPass _ h _ _ => intro e; exact absurd e h
  · intro p hp
    simp at hp
    induction b3 with
    | nil => simp at hp
    | cons a _ ih =>
      rcases List.mem_cons.1 hp with rfl | hp
      · exact pn a
      · exact ih hk hp
  · intro p hp
    refine ⟨?_, hk p hp⟩
    simp at hp
    clear hk
    cases b4 with
    | none => simp at hp
    | some a =>
      induction a with
      | one a => simp at hp; subst hp; exact pn a
      | cons a _ ih =>
        rcases List.mem_cons.1 hp with rfl | hp
        · exact pn a
        · exact ih hp

/-! ### Quoted texts -/

theorem quotable_append {a b : Bytes} (ha : Quotable a) (hb : Quotable b) : Quotable (a ++ b) := by
  induction ha with
  | nil => exact hb
  | char h1 h2 h3 _ ih => exact .char h1 h2 h3 ih
  | fold h _ ih => exact .fold h ih

theorem quotable_chars {a : Bytes} (h : ∀ c ∈ a, c.toNat < 128 ∧ c ≠ 13 ∧ c ≠ 10) : Quotable a := by
  induction a with
  | nil => exact .nil
  | cons c a ih =>
    obtain ⟨h1, h2, h3⟩ := h c List.mem_cons_self
    exact .char h1 h2 h3 (ih fun d hd => h d (List.mem_cons_of_mem _ hd))

theorem blank_wsp {w : UInt8} (h : blank w = true) : wsp w := by
  simp only [blank, Bool.or_eq_true, beq_iff_eq] at h
  rcases h with rfl | rfl
  · exact .inl rfl
  · exact .inr rfl

theorem token_plain : ∀ c : UInt8, token c → c.toNat < 128 ∧ c ≠ 13 ∧ c ≠ 10 := by decide +kernel

theorem quotable_qtext {t v : Bytes} (h : QText t v) (ha : ∀ c ∈ v, c.toNat < 128) : Quotable v := by
  induction h with
  | nil => exact .nil
  | @char c t v h _ ih =>
    have : ∀ c : UInt8, qchar c → c.toNat < 128 ∧ c ≠ 13 ∧ c ≠ 10 := by decide +kernel
    obtain ⟨h1, h2, h3⟩ := this c h
    exact .char h1 h2 h3 (ih fun d hd => ha d (List.mem_cons_of_mem _ hd))
  | @pair c t v h _ ih =>
    have : ∀ c : UInt8, quotable c → c.toNat < 128 ∧ c ≠ 13 ∧ c ≠ 10 := by decide +kernel
    obtain ⟨h1, h2, h3⟩ := this c h
    exact .char h1 h2 h3 (ih fun d hd => ha d (List.mem_cons_of_mem _ hd))
  | @utf8 c s t v h _ _ _ =>
    have : ∀ c : UInt8, utf8Len c ≠ none → ¬ c.toNat < 128 := by decide +kernel
    exact absurd (ha c (by simp)) (this c (by rw [h]; simp))
  | @fold w t v h _ ih =>
    exact .fold (blank_wsp h) (ih fun d hd => ha d (by simp [hd]))

theorem value_ok {v : Bytes} (hk : KeptValue v) (hq : Quotable v) : ValueOK v := by
  by_cases h : ∀ c ∈ v, token c
  · exact .inl h
  · obtain ⟨c, hc, hn⟩ : ∃ c ∈ v, ¬ token c := by
      apply Classical.byContradiction
      intro g
      exact h fun c hc => Classical.byContradiction fun hn => g ⟨c, hc, hn⟩
    refine .inr ⟨hq, ?_⟩
    by_cases h32 : c = 32
    · exact hk.2 (h32 ▸ hc)
    · exact ⟨c, hc, hn, h32⟩

theorem param_ok {t : Bytes} {x : Bytes × Bytes} (h : ParamText t x) (hk : KeptValue x.2) : IsToken x.1 ∧ ValueOK x.2 := by
  cases h with
  | flag h => exact ⟨h, .inl (by intro c hc; cases hc)⟩
  | plain h1 _ _ h2 =>
    refine ⟨h1, value_ok hk (quotable_chars fun c hc => ?_)⟩
    have : ∀ c : UInt8, valuec c → c.toNat < 128 ∧ c ≠ 13 ∧ c ≠ 10 := by decide +kernel
    exact this c (h2 c hc)
  | quoted h1 _ h2 => exact ⟨h1, value_ok hk (quotable_qtext h2 hk.1)⟩

theorem params_ok {t : Bytes} {xs : List (Bytes × Bytes)} (h : ParamList t xs) (hk : ∀ p ∈ xs, KeptValue p.2) : ParamOK xs := by
  induction h with
  | nil => intro p hp; cases hp
  | cons _ h _ ih =>
    intro p hp
    rcases List.mem_cons.1 hp with rfl | hp
    · exact param_ok h (hk _ List.mem_cons_self)
    · exact ih (fun q hq => hk q (List.mem_cons_of_mem _ hq)) p hp

theorem blanks_quotable {w : Bytes} (h : Blanks w) : Quotable w :=
  quotable_chars fun c hc => by
    rcases h c hc with rfl | rfl <;> decide

theorem sws_quotable {w : Bytes} (h : Sws w) : Quotable w := by
  cases h with
  | blanks h => exact blanks_quotable h
  | @fold w w' h h' hne =>
    cases w' with
    | nil => exact absurd rfl hne
    | cons c w' =>
      rw [List.append_assoc]
      refine quotable_append (blanks_quotable h) (.fold ?_ (blanks_quotable fun d hd => h' d (List.mem_cons_of_mem _ hd)))
      rcases h' c List.mem_cons_self with rfl | rfl
      · exact .inl rfl
      · exact .inr rfl

theorem words_quotable {t d : Bytes} (h : Words t d) : Quotable d := by
  induction h with
  | one h _ => exact quotable_chars fun c hc => token_plain c (h.2 c hc)
  | cons h hw _ ih =>
    exact quotable_append (quotable_append (quotable_chars fun c hc => token_plain c (h.2 c hc)) (sws_quotable hw.1)) ih

theorem display_ok {t d : Bytes} (h : DisplayText t d) (hk : KeptDisplay d) : DisplayOK d := by
  have hq : Quotable d := by
    cases h with
    | none => exact .nil
    | words h => exact words_quotable h
    | quoted h _ => exact quotable_qtext h hk.1
  by_cases hn : NeedsQuotes d
  · exact .inr ⟨hq, hn⟩
  · refine .inl ⟨fun c hc => ?_, fun e => hn (hk.2 (.inl e)), fun e => hn (hk.2 (.inr e))⟩
    apply Classical.byContradiction
    intro h
    rw [not_or] at h
    exact hn ⟨c, hc, h⟩

/-! ### Vias and addresses -/

theorem via_ok {t : Bytes} {v : Via} (h : ViaText t v) (h58 : 58 ∉ v.host) (hk : ∀ p ∈ v.param, KeptValue p.2) : ViaOK v := by
  cases h with
  | mk h1 _ h2 _ h3 _ hh _ hp =>
    refine ⟨h1.2, h2.2, h3.2, ?_, ?_, ?_⟩
    · cases hh <;> assumption
    · cases hh with
      | name _ h => exact h
      | ip6 _ h =>
        intro c hc
        have : ∀ c, ip6c c → c ≠ 58 → viaHostc c := by decide +kernel
        exact this c (h c hc) (by rintro rfl; exact h58 hc)
    · intro p hp'
      exact params_ok hp (fun q hq => hk q (by simpa using hq)) p (by simpa using hp')

theorem addr_ok {t : Bytes} {a : Addr} {e : Bool} (h : AddrText t a e) (hu : ∀ u, a.uri = some u → KeptURI u)
    (hd : KeptDisplay a.display) (hp : ∀ p ∈ a.param, KeptValue p.2) : AddrOK a := by
  induction h with
  | bare h _ =>
    exact ⟨⟨_, rfl, uri_again h (hu _ rfl)⟩, .inl ⟨fun c hc => (by cases hc), by simp, by simp⟩, fun p hp => (by cases hp)⟩
  | angle h1 h2 _ => exact ⟨⟨_, rfl, uri_again h2 (hu _ rfl)⟩, display_ok h1 hd, fun p hp => (by cases hp)⟩
  | param _ _ h ih =>
    obtain ⟨i1, i2, i3⟩ := ih hu hd fun p h => hp p (List.mem_cons_of_mem _ h)
    refine ⟨i1, i2, ?_⟩
    intro p hp'
    rcases List.mem_cons.1 hp' with rfl | hp'
    · exact param_ok h (hp _ List.mem_cons_self)
    · exact i3 p hp'

theorem viaList_mem {t : Bytes} {vs : List Via} (h : ViaList t vs) : ∀ v ∈ vs, ∃ t, ViaText t v := by
  induction h with
  | one h => intro v hv; rw [List.mem_singleton.1 hv]; exact ⟨_, h⟩
  | cons h _ _ ih =>
    intro v hv
    rcases List.mem_cons.1 hv with rfl | hv
    · exact ⟨_, h⟩
    · exact ih v hv

theorem addrList_mem {t : Bytes} {as : List Addr} (h : AddrList t as) : ∀ a ∈ as, ∃ t e, AddrText t a e := by
  induction h with
  | one h => intro v hv; rw [List.mem_singleton.1 hv]; exact ⟨_, _, h⟩
  | cons h _ _ ih =>
    intro v hv
    rcases List.mem_cons.1 hv with rfl | hv
    · exact ⟨_, _, h⟩
    · exact ih v hv

/-! ### What holds of everything read -/

/-- A number that was not read as a negative one is below `2^63`. -/
def Small (z : Int) : Prop := z < 2 ^ 63

theorem small_wrap (z : Int) : Small (wrap64 z) := by
  unfold Small wrap64; rw [Int.bmod_def]; omega

theorem small_of {k z : Int} (e : k = wrap64 z) : Small k := by rw [e]; exact small_wrap z

theorem small_zero : Small 0 := by unfold Small; omega

/-- What holds after any header lines. -/
structure Kept (x : Draft) : Prop where
  via : ∀ v ∈ x.msg.via, ∃ t, ViaText t v
  addrs : ∀ f, ∀ a ∈ x.msg.addrs f, ∃ t e, AddrText t a e
  callID : x.msg.callID = [] ∨ CallIDText x.msg.callID
  cseqMethod : x.msg.cseqMethod = [] ∨ IsToken x.msg.cseqMethod
  cseq : Small x.msg.cseq
  maxForwards : Small x.msg.maxForwards
  expires : Small x.msg.expires
  minExpires : Small x.msg.minExpires
  hdr : ∀ f, ∃ v, ValueText (skipWs v) ∧ x.msg.hdr f = skipWs v
  xheader : ∀ p ∈ x.msg.xheader, IsName p.1 ∧ headerOf p.1 = none ∧ ¬ StubName p.1 ∧ ∃ v, ValueText (skipWs v) ∧ p.2 = skipWs v
  length : Small x.length
  type : x.type = [] ∨ TypeText x.type

theorem kept_field {n v : Bytes} {x y : Draft} (hn : IsName n) (h : FieldText n v x y) (k : Kept x) : Kept y := by
  cases h with
  | @text f hh h1 =>
    refine { k with hdr := fun g => ?_ }
    by_cases e : g = f
    · exact ⟨v, h1, by simp [setAt, e]⟩
    · obtain ⟨w, h2, h3⟩ := k.hdr g
      exact ⟨w, h2, by simpa [setAt, e] using h3⟩
  | extension hh hs h1 =>
    refine { k with xheader := fun p hp => ?_ }
    rcases List.mem_cons.1 hp with rfl | hp
    · exact ⟨hn, hh, hs, v, h1, rfl⟩
    · exact k.xheader p hp
  | via _ _ _ h1 =>
    refine { k with via := fun v hv => ?_ }
    rcases List.mem_append.1 hv with hv | hv
    · exact k.via v hv
    · exact viaList_mem h1 v hv
  | @address f _ _ as _ _ _ h1 =>
    refine { k with addrs := fun g a ha => ?_ }
    by_cases e : g = f
    · subst e
      simp only [setAt, if_true] at ha
      rcases List.mem_append.1 ha with ha | ha
      · exact k.addrs _ a ha
      · exact addrList_mem h1 a ha
    · exact k.addrs g a (by simpa [setAt, e] using ha)
  | callID _ _ _ h1 => exact { k with callID := .inr h1 }
  | cseq _ _ _ _ _ h1 => exact { k with cseq := (by dsimp only; exact small_wrap _), cseqMethod := .inr h1 }
  | contentType _ _ _ h1 _ => exact { k with type := .inr h1 }
  | contentLength _ _ _ _ _ e => exact { k with length := small_of e }
  | compactLength _ _ _ _ e =>
    have hs := small_of e
    exact { k with length := hs, expires := hs, maxForwards := hs, minExpires := hs }
  | expires _ _ _ _ e => exact { k with expires := small_of e }
  | maxForwards _ _ _ _ e => exact { k with maxForwards := small_of e }
  | minExpires _ _ _ _ e => exact { k with minExpires := small_of e }

theorem kept_lines {ls : List Bytes} {x z : Draft} (h : FieldLines ls x z) (k : Kept x) : Kept z := by
  induction h with
  | nil => exact k
  | cons hn _ _ h _ ih => exact ih (kept_field hn h k)

/-- The start line is not changed by header lines. -/
theorem start_field {n v : Bytes} {x y : Draft} (h : FieldText n v x y) :
    y.msg.method = x.msg.method ∧ y.msg.request = x.msg.request ∧ y.msg.status = x.msg.status ∧ y.msg.phrase = x.msg.phrase ∧
      y.msg.versionMajor = x.msg.versionMajor ∧ y.msg.versionMinor = x.msg.versionMinor := by
  cases h <;> exact ⟨rfl, rfl, rfl, rfl, rfl, rfl⟩

theorem start_lines {ls : List Bytes} {x z : Draft} (h : FieldLines ls x z) :
    z.msg.method = x.msg.method ∧ z.msg.request = x.msg.request ∧ z.msg.status = x.msg.status ∧ z.msg.phrase = x.msg.phrase ∧
      z.msg.versionMajor = x.msg.versionMajor ∧ z.msg.versionMinor = x.msg.versionMinor := by
  induction h with
  | nil => exact ⟨rfl, rfl, rfl, rfl, rfl, rfl⟩
  | cons _ _ _ h _ ih =>
    obtain ⟨a1, a2, a3, a4, a5, a6⟩ := start_field h
    obtain ⟨b1, b2, b3, b4, b5, b6⟩ := ih
    exact ⟨b1.trans a1, b2.trans a2, b3.trans a3, b4.trans a4, b5.trans a5, b6.trans a6⟩

theorem no_payload {ls : List Bytes} {x z : Draft} (h : FieldLines ls x z) : z.msg.payload = x.msg.payload := by
  induction h with
  | nil => rfl
  | cons _ _ _ h _ ih => rw [ih]; cases h <;> rfl

theorem no_source {ls : List Bytes} {x z : Draft} (h : FieldLines ls x z) : z.msg.sourceAddr = x.msg.sourceAddr := by
  induction h with
  | nil => rfl
  | cons _ _ _ h _ ih => rw [ih]; cases h <;> rfl

theorem kept_start {s : Bytes} {m : Msg} (h : StartText s m) : Kept { msg := m } := by
  cases h <;>
    exact
      { via := fun v hv => (by cases hv)
        addrs := fun f a ha => (by cases ha)
        callID := .inl rfl
        cseqMethod := .inl rfl
        cseq := small_zero
        maxForwards := small_zero
        expires := small_zero
        minExpires := small_zero
        hdr := fun f => ⟨[], .nil, rfl⟩
        xheader := fun p hp => (by cases hp)
        length := small_zero
        type := .inl rfl }

/-! ### The message -/

theorem skipWs_again {v : Bytes} (h : (skipWs v).head? ≠ some 13) : skipWs (skipWs v) = skipWs v := by
  have hb : skipWs v = [] ∨ ∃ c t, skipWs v = c :: t ∧ blank c = false := by
    unfold skipWs
    split
    case h_1 w r e =>
      split
      · exact skipBlanks_head r
      · exact .inr ⟨13, _, rfl, rfl⟩
    case h_2 => exact skipBlanks_head v
  rcases hb with e | ⟨c, t, e, hc⟩
  · rw [e]; rfl
  · rw [e] at h ⊢
    exact skipWs_stop hc (by rintro rfl; exact h rfl)

theorem relay_ok {gen d : Bytes} {m : Msg} (h : MessageText d m) (r : Relayable gen m) : MsgOK gen m := by
  obtain ⟨s, ls, body, m0, x, _, hbl, _, hs, hl, hb⟩ := h
  have k := kept_lines hl (kept_start hs)
  have st := start_lines hl
  -- all fields but the payload
  have same : ∃ p, m = { x.msg with payload := p } := by
    rcases hb with ⟨_, e⟩ | ⟨_, _, p, _, e⟩
    · exact ⟨x.msg.payload, e⟩
    · exact ⟨p, e⟩
  have text : ∀ {v}, (∃ w, ValueText (skipWs w) ∧ v = skipWs w) → v.head? ≠ some 13 → TextOK v := by
    rintro v ⟨w, h1, rfl⟩ h2
    exact ⟨h1, skipWs_again h2⟩
  have pay : ∀ p, m.payload = some p → PayloadOK gen p := by
    intro p hp
    have hr := r.payload p hp
    rcases hb with ⟨_, rfl⟩ | ⟨hlen, _, q, ⟨q1, q2⟩, rfl⟩
    · rw [no_payload hl] at hp
      cases hs <;> cases hp
    · have e : q = some p := hp
      by_cases ht : x.type = b!"application/sdp"
      · obtain ⟨ms, h1, h2⟩ := q2 ht
        rw [h2] at e
        cases e
        exact ⟨hr.2, Sdp.reparse_wf h1 hr.1⟩
      · have h2 := q1 ht
        rw [h2] at e
        cases e
        have := k.length
        rw [hlen] at this
        exact ⟨by have h3 : (body.length : Int) < 2 ^ 63 := this
                  show body.length < 2 ^ 63
                  omega, k.type.resolve_left hr, ht, hbl⟩
  obtain ⟨p, rfl⟩ := same
  obtain ⟨e1, e2, e3, e4, _, _⟩ := st
  constructor
  · cases hs with
    | request hm hu hv =>
      refine .inl ⟨?_, .inr ?_, ?_, r.numbers.2.1, k.maxForwards⟩
      · show x.msg.status ≤ 0
        rw [e3]; exact Int.le_refl 0
      · show IsToken x.msg.method
        rw [e1]; exact hm
      · intro u he
        have he' : x.msg.request = some u := he
        have hk := r.request u he
        rw [e2] at he'
        cases he'
        exact uri_again hu hk
    | response _ hd h3 _ _ =>
      refine .inr ⟨⟨r.status e1, ?_⟩, r.phrase⟩
      show x.msg.status ≤ 999
      rw [e3]
      have := Gr.decVal_lt _ (Gr.digits_iff.1 hd).2
      rw [h3] at this
      show ((_ : Nat) : Int) ≤ 999
      omega
  · intro v hv
    obtain ⟨t, ht⟩ := k.via v hv
    exact via_ok ht (r.viaHost v hv) (r.viaParam v hv)
  · intro f a ha
    obtain ⟨t, e, ht⟩ := k.addrs f a ha
    exact addr_ok ht (r.uris f a ha) (r.displays f a ha) (r.params f a ha)
  · exact r.from_
  · exact r.to
  · exact k.callID.resolve_left r.callID
  · exact ⟨r.numbers.1, k.cseq⟩
  · exact k.cseqMethod.resolve_left r.cseqMethod
  · exact ⟨r.numbers.2.2.1, k.expires⟩
  · exact ⟨r.numbers.2.2.2, k.minExpires⟩
  · intro f _
    exact text (k.hdr f) (r.hdr f)
  · intro p hp
    obtain ⟨h1, h2, h3, h4⟩ := k.xheader p hp
    exact ⟨h1, h2, h3, text h4 (r.xheader p hp)⟩
  · exact pay

end Gosip.Sip.Relay
