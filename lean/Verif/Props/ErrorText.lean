import Verif.Sip.ResponseError
import Verif.Spec.ErrorText
import Verif.Props.Grammar
import Verif.Props.CallReport

/-!
# Property C89: what is told about a refusal

The error an application gets for a refused call names the status code and the reason phrase on one line. The first
part is true. The second is not: the phrase is what the percent escapes stand for, and these stand for any byte.
-/

namespace Gosip.Props
open Sip Spec MsgM Dialog

/-! ### Helpers -/

/-- A draft with another phrase. -/
private def rephrase (p : Bytes) (x : Draft) : Draft := { x with msg.phrase := p }

private theorem fieldText_rephrase (p : Bytes) {n v : Bytes} {x y : Draft} (h : FieldText n v x y) :
    FieldText n v (rephrase p x) (rephrase p y) ∧ y.msg.phrase = x.msg.phrase ∧ y.msg.status = x.msg.status := by
  refine ⟨?_, by cases h <;> rfl, by cases h <;> rfl⟩
  cases h with
  | text a b => exact .text (x := rephrase p x) a b
  | extension a b c => exact .extension (x := rephrase p x) a b c
  | via a b c d => exact .via (x := rephrase p x) a b c d
  | address a b c d => exact .address (x := rephrase p x) a b c d
  | callID a b c d => exact .callID (x := rephrase p x) a b c d
  | cseq a b c d e f => exact .cseq (x := rephrase p x) a b c d e f
  | contentType a b c d e => exact .contentType (x := rephrase p x) a b c d e
  | contentLength a b c d e f => exact .contentLength (x := rephrase p x) a b c d e f
  | compactLength a b c d e => exact .compactLength (x := rephrase p x) a b c d e
  | expires a b c d e => exact .expires (x := rephrase p x) a b c d e
  | maxForwards a b c d e => exact .maxForwards (x := rephrase p x) a b c d e
  | minExpires a b c d e => exact .minExpires (x := rephrase p x) a b c d e

private theorem fieldLines_rephrase (p : Bytes) {ls : List Bytes} {x y : Draft} (h : FieldLines ls x y) :
    FieldLines ls (rephrase p x) (rephrase p y) ∧ y.msg.phrase = x.msg.phrase ∧ y.msg.status = x.msg.status := by
  induction h with
  | nil => exact ⟨.nil, rfl, rfl⟩
  | cons a b c d _ ih =>
    have k := fieldText_rephrase p d
    exact ⟨.cons a b c k.1 ih.1, ih.2.1.trans k.2.1, ih.2.2.trans k.2.2⟩

private theorem bodyText_rephrase (p : Bytes) {x : Draft} {body : Bytes} {m : Msg} (h : BodyText x body m) :
    BodyText (rephrase p x) body { m with phrase := p } ∧ m.phrase = x.msg.phrase ∧ m.status = x.msg.status := by
  rcases h with ⟨a, rfl⟩ | ⟨a, b, q, c, rfl⟩
  · exact ⟨.inl ⟨a, rfl⟩, rfl, rfl⟩
  · exact ⟨.inr ⟨a, b, q, c, rfl⟩, rfl, rfl⟩

/-- The percent encoding of every byte. -/
private def hidden (p : Bytes) : Bytes :=
  p.flatMap fun c => [37, b!"0123456789ABCDEF"[c.toNat / 16]?.getD 0, b!"0123456789ABCDEF"[c.toNat % 16]?.getD 0]

private theorem hex_of : ∀ c : UInt8,
    hexVal (b!"0123456789ABCDEF"[c.toNat / 16]?.getD 0) = some (c.toNat / 16) ∧
    hexVal (b!"0123456789ABCDEF"[c.toNat % 16]?.getD 0) = some (c.toNat % 16) ∧
    UInt8.ofNat (c.toNat / 16 * 16 + c.toNat % 16) = c ∧
    b!"0123456789ABCDEF"[c.toNat / 16]?.getD 0 ≠ 13 ∧ b!"0123456789ABCDEF"[c.toNat % 16]?.getD 0 ≠ 13 := by
  decide +kernel

private theorem hidden_phrase (p : Bytes) : PhraseText (hidden p) p ∧ ∀ c ∈ hidden p, c ≠ 13 := by
  induction p with
  | nil => exact ⟨.nil, fun c hc => by cases hc⟩
  | cons c p ih =>
    obtain ⟨h1, h2, h3, h4, h5⟩ := hex_of c
    constructor
    · have := PhraseText.esc h1 h2 ih.1
      rw [h3] at this
      exact this
    · intro x hx
      simp only [hidden, List.flatMap_cons, List.mem_append, List.mem_cons, List.not_mem_nil, or_false] at hx
      rcases hx with (rfl | rfl | rfl) | hx
      · decide
      · exact h4
      · exact h5
      · exact ih.2 x hx

private theorem digits_no_cr {ds : Bytes} (h : Digits ds) : ∀ c ∈ ds, c ≠ 13 := by
  intro c hc e
  have := h.2 c hc
  subst e
  revert this
  decide

private theorem version_no_cr {v : Bytes} {a b : UInt8} (h : VersionText v a b) : ∀ c ∈ v, c ≠ 13 := by
  cases h with
  | mk ha hb =>
    intro c hc
    simp only [List.mem_append] at hc
    rcases hc with ((hc | hc) | hc) | hc
    · exact (by decide +kernel : ∀ c ∈ b!"SIP/", c ≠ 13) c hc
    · exact digits_no_cr ha c hc
    · exact (by decide +kernel : ∀ c ∈ b!".", c ≠ 13) c hc
    · exact digits_no_cr hb c hc

private theorem break_cons {c : UInt8} (h : c ≠ 37) (t : Bytes) : EscapedBreak (c :: t) ↔ EscapedBreak t := by
  constructor
  · rintro ⟨a, b, x, e, hx⟩
    cases a with
    | nil => exact absurd (List.cons.inj e).1 h
    | cons y a => exact ⟨a, b, x, (List.cons.inj e).2, hx⟩
  · rintro ⟨a, b, x, e, hx⟩
    exact ⟨c :: a, b, x, by rw [e]; rfl, hx⟩

private theorem break_append {s : Bytes} (h : ∀ c ∈ s, c ≠ 37) (t : Bytes) : EscapedBreak (s ++ t) ↔ EscapedBreak t := by
  induction s with
  | nil => exact Iff.rfl
  | cons c s ih =>
    rw [List.cons_append, break_cons (h c (by simp)), ih fun x hx => h x (by simp [hx])]

private theorem break_esc {h l : UInt8} (hh : h ≠ 37) (hl : l ≠ 37) (t : Bytes) :
    EscapedBreak (37 :: h :: l :: t) ↔ (h = 48 ∧ l ∈ b!"dDaA") ∨ EscapedBreak t := by
  constructor
  · rintro ⟨a, b, x, e, hx⟩
    cases a with
    | nil =>
      obtain ⟨rfl, e2⟩ := List.cons.inj (List.cons.inj e).2
      obtain ⟨rfl, _⟩ := List.cons.inj e2
      exact .inl ⟨rfl, hx⟩
    | cons y a =>
      refine .inr ?_
      rw [← break_cons hl, ← break_cons hh]
      exact ⟨a, b, x, (List.cons.inj e).2, hx⟩
  · rintro (⟨rfl, hx⟩ | k)
    · exact ⟨[], t, l, rfl, hx⟩
    · rw [← break_cons hl, ← break_cons hh] at k
      obtain ⟨a, b, x, e, hx⟩ := k
      exact ⟨37 :: a, b, x, by rw [e]; rfl, hx⟩

private theorem hex_facts : ∀ c : UInt8, (hexVal c = some 0 ↔ c = 48) ∧ (hexVal c = some 13 ↔ c ∈ b!"dD") ∧
    (hexVal c = some 10 ↔ c ∈ b!"aA") ∧ (∀ n, hexVal c = some n → n < 16) ∧ hexVal 37 = none := by
  intro c
  refine ⟨?_, ?_, ?_, ?_, rfl⟩
  · revert c; decide +kernel
  · revert c; decide +kernel
  · revert c; decide +kernel
  · intro n hn
    have : ∀ c : UInt8, (match hexVal c with | some n => decide (n < 16) | none => true) = true := by decide +kernel
    have := this c
    rw [hn] at this
    simpa using this

private theorem reason_plain : ∀ c : UInt8, reasonc c → c ≠ 13 ∧ c ≠ 10 ∧ c ≠ 37 := by decide +kernel

private theorem lead_plain : ∀ c : UInt8, utf8Len c ≠ none → c ≠ 13 ∧ c ≠ 10 ∧ c ≠ 37 := by decide +kernel

private theorem cont_plain : ∀ c : UInt8, utf8Cont c → c ≠ 13 ∧ c ≠ 10 ∧ c ≠ 37 := by
  intro c h
  refine ⟨?_, ?_, ?_⟩ <;> (rintro rfl; exact absurd h.1 (by decide))

private theorem oneLine_cons (c : UInt8) (t : Bytes) : OneLine (c :: t) ↔ (c ≠ 13 ∧ c ≠ 10) ∧ OneLine t := by
  simp [OneLine]

private theorem oneLine_append (s t : Bytes) : OneLine (s ++ t) ↔ OneLine s ∧ OneLine t := by
  simp only [OneLine, List.mem_append]
  exact ⟨fun h => ⟨fun c hc => h c (.inl hc), fun c hc => h c (.inr hc)⟩, fun h c hc => hc.elim (h.1 c) (h.2 c)⟩

private theorem phrase_facts {t v : Bytes} (h : PhraseText t v) :
    (OneLine v ↔ ¬ EscapedBreak t) ∧ (∀ c ∈ t, c ≠ 13) ∧ ((∀ c ∈ t, c ≠ 37) → v = t) := by
  induction h with
  | nil =>
    refine ⟨⟨fun _ => ?_, fun _ c hc => by cases hc⟩, fun c hc => (by cases hc), fun _ => rfl⟩
    rintro ⟨a, b, x, e, _⟩
    cases a <;> cases e
  | @char c t v hc _ ih =>
    obtain ⟨h1, h2, h3⟩ := reason_plain c hc
    refine ⟨by rw [oneLine_cons, break_cons h3, ih.1]; exact ⟨fun k => k.2, fun k => ⟨⟨h1, h2⟩, k⟩⟩, ?_, ?_⟩
    · intro x hx
      rcases List.mem_cons.1 hx with rfl | hx
      · exact h1
      · exact ih.2.1 x hx
    · intro k
      rw [ih.2.2 fun x hx => k x (by simp [hx])]
  | @esc h l x y t v hh hl _ ih =>
    have fh := hex_facts h
    have fl := hex_facts l
    have bx := fh.2.2.2.1 x hh
    have by' := fl.2.2.2.1 y hl
    have hh37 : h ≠ 37 := by rintro rfl; rw [fh.2.2.2.2] at hh; cases hh
    have hl37 : l ≠ 37 := by rintro rfl; rw [fh.2.2.2.2] at hl; cases hl
    have h13 : h ≠ 13 := by rintro rfl; exact absurd hh (by simp [hexVal])
    have l13 : l ≠ 13 := by rintro rfl; exact absurd hl (by simp [hexVal])
    have key : ∀ n, n < 256 → (UInt8.ofNat (x * 16 + y) = UInt8.ofNat n ↔ x * 16 + y = n) := by
      intro n hn
      constructor
      · intro e
        have := congrArg UInt8.toNat e
        simp only [UInt8.toNat_ofNat'] at this
        omega
      · rintro rfl; rfl
    have k13 : UInt8.ofNat (x * 16 + y) = 13 ↔ h = 48 ∧ l ∈ b!"dD" := by
      rw [← fh.1, ← fl.2.1, hh, hl]
      refine (key 13 (by decide)).trans ?_
      simp only [Option.some.injEq]
      omega
    have k10 : UInt8.ofNat (x * 16 + y) = 10 ↔ h = 48 ∧ l ∈ b!"aA" := by
      rw [← fh.1, ← fl.2.2.1, hh, hl]
      refine (key 10 (by decide)).trans ?_
      simp only [Option.some.injEq]
      omega
    refine ⟨?_, ?_, ?_⟩
    · rw [oneLine_cons, break_esc hh37 hl37, ih.1, Ne, k13, Ne, k10]
      have : l ∈ b!"dDaA" ↔ l ∈ b!"dD" ∨ l ∈ b!"aA" := by simp [or_assoc]
      rw [this]
      constructor
      · rintro ⟨⟨a, b⟩, c⟩ (⟨d, e | e⟩ | e)
        · exact a ⟨d, e⟩
        · exact b ⟨d, e⟩
        · exact c e
      · intro k
        exact ⟨⟨fun e => k (.inl ⟨e.1, .inl e.2⟩), fun e => k (.inl ⟨e.1, .inr e.2⟩)⟩, fun e => k (.inr e)⟩
    · intro c hc
      simp only [List.mem_cons] at hc
      rcases hc with rfl | rfl | rfl | hc
      · decide
      · exact h13
      · exact l13
      · exact ih.2.1 c hc
    · intro k
      exact absurd rfl (k 37 (by simp))
  | @utf8 c s t v hc hs _ ih =>
    have h1 := lead_plain c (by rw [hc]; simp)
    have h2 : ∀ x ∈ c :: s, x ≠ 13 ∧ x ≠ 10 ∧ x ≠ 37 := by
      intro x hx
      rcases List.mem_cons.1 hx with rfl | hx
      · exact h1
      · exact cont_plain x (hs x hx)
    refine ⟨?_, ?_, ?_⟩
    · rw [oneLine_append, break_append (fun x hx => (h2 x hx).2.2), ih.1]
      exact ⟨fun k => k.2, fun k => ⟨fun x hx => ⟨(h2 x hx).1, (h2 x hx).2.1⟩, k⟩⟩
    · intro x hx
      rcases List.mem_append.1 hx with hx | hx
      · exact (h2 x hx).1
      · exact ih.2.1 x hx
    · intro k
      rw [ih.2.2 fun x hx => k x (by simp [hx])]

private theorem itoa_oneLine (n : Nat) : OneLine (itoa n) := by
  intro c hc
  rw [itoa_nat] at hc
  have := natDec_isDigit n c hc
  rw [isDigit_iff] at this
  constructor <;> (rintro rfl; exact absurd this.1 (by decide))

private theorem colon_oneLine : OneLine b!": " := by simp [OneLine]

/-! ### The property -/

/-- **C89** (what is told). The error made of a response that has been received is its status code without leading
zeros, a colon, and what its reason phrase stands for; it is one line unless the phrase contains a percent escape for
CR or LF. A phrase without percent signs is repeated as it is. -/
theorem C89_told (d : Bytes) (m : Msg) (h : parseMsg d = .ok m) (hr : m.isResponse) :
    ∃ v ds t p rest a b, d = v ++ b!" " ++ ds ++ b!" " ++ t ++ CRLF ++ rest ∧ VersionText v a b ∧
      Digits ds ∧ ds.length = 3 ∧ PhraseText t p ∧ (∀ c ∈ t, c ≠ 13) ∧
      responseErrorText m = natDec (decVal ds) ++ b!": " ++ p ∧
      (OneLine (responseErrorText m) ↔ ¬ EscapedBreak t) ∧
      (37 ∉ t → responseErrorText m = natDec (decVal ds) ++ b!": " ++ t) := by
  obtain ⟨s, ls, body, m0, x, rfl, hb, hl, hs, hf, hx⟩ := (C76_message_grammar d m).1 h
  have k1 := (fieldLines_rephrase [] hf).2
  have k2 := (bodyText_rephrase [] hx).2
  cases hs with
  | request _ _ _ =>
    have : m.status = 0 := k2.2.trans k1.2
    simp [Msg.isResponse, this] at hr
  | @response v ds t p a b hv hd h3 hne hp =>
    have e1 : m.status = (decVal ds : Int) := k2.2.trans k1.2
    have e2 : m.phrase = p := k2.1.trans k1.1
    have e3 : responseErrorText m = natDec (decVal ds) ++ b!": " ++ p := by
      rw [responseErrorText, e1, e2, itoa_nat]
    have pf := phrase_facts hp
    refine ⟨v, ds, t, p, ls.flatMap (· ++ CRLF) ++ CRLF ++ body, a, b, by simp [headText], hv, hd, h3, hp, pf.2.1, e3, ?_, ?_⟩
    · rw [e3, oneLine_append, oneLine_append, pf.1, ← itoa_nat]
      exact ⟨fun k => k.2, fun k => ⟨⟨itoa_oneLine _, colon_oneLine⟩, k⟩⟩
    · intro k
      rw [e3, pf.2.2 fun c hc e => k (e ▸ hc)]

/-- **C89 does not hold as stated.** Whatever response can be sent, it can be sent with a reason phrase that makes any
text one likes appear behind the colon: line breaks, what looks like another entry of the log, or commands to the
terminal. -/
theorem C89_any_text (d : Bytes) (m : Msg) (h : parseMsg d = .ok m) (hr : m.isResponse) (p : Bytes) (hp : p ≠ []) :
    ∃ d', parseMsg d' = .ok { m with phrase := p } ∧
      responseErrorText { m with phrase := p } = itoa m.status ++ b!": " ++ p := by
  obtain ⟨s, ls, body, m0, x, rfl, hb, hl, hs, hf, hx⟩ := (C76_message_grammar d m).1 h
  have k1 := fieldLines_rephrase p hf
  have k2 := bodyText_rephrase p hx
  cases hs with
  | request _ _ _ =>
    have : m.status = 0 := k2.2.2.trans k1.2.2
    simp [Msg.isResponse, this] at hr
  | @response v ds t q a b hv hd h3 hne hq =>
    have hh := hidden_phrase p
    refine ⟨headText (v ++ 32 :: ds ++ 32 :: hidden p) ls ++ body, (C76_message_grammar _ _).2 ?_, rfl⟩
    refine ⟨_, ls, body, _, _, rfl, hb, logical_plain ?_, .response hv hd h3 ?_ hh.1, k1.1, k2.1⟩
    · intro c hc
      simp only [List.mem_append, List.mem_cons] at hc
      rcases hc with (hc | rfl | hc) | rfl | hc
      · exact version_no_cr hv c hc
      · decide
      · exact digits_no_cr hd c hc
      · decide
      · exact hh.2 c hc
    · intro e
      cases p with
      | nil => exact hp rfl
      | cons c p => simp [hidden] at e

/-- **C89 does not hold as stated**, in a call. Where the other side can refuse the last request of a call by some
datagram, it can do so by one that ends the call with an error of any text behind the status. -/
theorem C89_any_text_told (w : World) (invite : Msg) (evs : List Event) (m : Msg) (d : Bytes) (x : Msg) (g : Bytes)
    (hi : IsInvite invite) (hid : ∀ n, (w.ids n).callID ≠ []) (hw : ∀ n, w.write n = .ok ())
    (hg : (loop w evs (start w invite)).c = .go)
    (hx : (requests (loop w evs (start w invite)).s.outs).getLast? = some (d, x))
    (hm : Answers x m) (hver : m.versionMajor = 2 ∧ m.versionMinor = 0) (hcall : m.callID = x.callID)
    (hst : Refuses m.status) (hcon : x.method = b!"INVITE" → m.addrs .contact ≠ [])
    (hd : parseMsg g = .ok m) (p : Bytes) (hp : p ≠ []) :
    ∃ g' m', parseMsg g' = .ok m' ∧ (loop w (evs ++ [.msg m']) (start w invite)).c = .stop ∧
      (loop w (evs ++ [.msg m']) (start w invite)).s.outs.getLast? = some (.err (.response m')) ∧
      responseErrorText m' = itoa m.status ++ b!": " ++ p := by
  obtain ⟨g', h1, h2⟩ := C89_any_text g m hd (by have := hst.1; simp [Msg.isResponse]; omega) p hp
  obtain ⟨h3, new, h4, _⟩ := C62_refused_partial w invite evs { m with phrase := p } d x hi hid hw hg hx
    hm hver hcall hst hcon
  exact ⟨g', _, h1, h3, by rw [h4]; simp, h2⟩

/-- A refusal of the demonstration call, as it is read from its text. -/
private def demoBusy : Msg :=
  { demoRspMsg [] 486 with
    phrase := b!"Busy Here"
    via := [{ host := b!"10.0.0.1", port := 5070, param := [(b!"branch", b!"z9hG4bKAA")],
              protocol := b!"SIP", version := b!"2.0", transport := b!"UDP" }] }

/-- The hypotheses of `C89_any_text_told` can be met. -/
example : (demo []).c = .go ∧ (∃ d, (requests (demo []).s.outs).getLast? = some (d, demoLast [])) ∧
    Answers (demoLast []) demoBusy ∧ (demoBusy.versionMajor = 2 ∧ demoBusy.versionMinor = 0) ∧
    demoBusy.callID = (demoLast []).callID ∧ Refuses demoBusy.status ∧ demoBusy.addrs .contact ≠ [] ∧
    parseMsg ((demoRspMsg [] 486).text []) = .ok demoBusy := by
  refine ⟨by decide +kernel, ⟨b!"10.0.0.2:5060", by decide +kernel⟩, ?_, ⟨rfl, rfl⟩, by decide +kernel, by unfold Refuses; decide +kernel,
    by decide +kernel, by decide +kernel⟩
  exact ⟨by decide +kernel, by decide +kernel, by decide +kernel, [], _, (demoLast []).via.headD {}, [], rfl, by decide +kernel,
    by decide +kernel, by decide +kernel, b!"z9hG4bKAA", ⟨[], (b!"branch", b!"z9hG4bKAA"), [], rfl, rfl, rfl, fun _ h => (by cases h)⟩,
    ⟨[], (b!"branch", b!"z9hG4bKAA"), [], by decide +kernel, rfl, rfl, fun _ h => (by cases h)⟩⟩

/-- The hypotheses of the other theorems on C89 can be met: a plain refusal, and one whose error looks like two lines
of a log. -/
example : ∃ d m, parseMsg d = .ok m ∧ m.isResponse ∧ responseErrorText m = b!"486: Busy Here" :=
  ⟨b!"SIP/2.0 486 Busy Here\r\n\r\n", { versionMajor := 2, status := 486, phrase := b!"Busy Here" },
    by decide +kernel, by decide, by decide +kernel⟩

example : ∃ d m, parseMsg d = .ok m ∧ m.isResponse ∧
    responseErrorText m = b!"486: Busy\r\n2020/01/01 SIP: answered" ∧ ¬ OneLine (responseErrorText m) :=
  ⟨b!"SIP/2.0 486 Busy%0d%0A2020/01/01 SIP: answered\r\n\r\n",
    { versionMajor := 2, status := 486, phrase := b!"Busy\r\n2020/01/01 SIP: answered" },
    by decide +kernel, by decide, by decide +kernel, fun h => (h 13 (by decide +kernel)).1 rfl⟩

end Gosip.Props
