import Verif.Sip.HeadFields
import Verif.Props.Msg

/-!
# Properties C11 and C61: the body of a message
-/

namespace Gosip.Props
open Sip Spec MsgM

/-! ## C11 -/

/-- Everything the parser accepts is a start line, header lines, an empty line and a body that does not begin
with a blank. -/
theorem C11_accepted_text {d : Bytes} {m : Msg} (h : parseMsg d = .ok m) :
    ∃ s ls body, d = headText s ls ++ body ∧ LogicalLine s ∧ (∀ L ∈ ls, HeaderLine L) ∧ BodyOf d body := by
  obtain ⟨s, ls, body, _, _, rfl, h1, h2, _⟩ := parse_text h
  exact ⟨s, ls, body, rfl, h1, h2, bodyOf_head body h1 h2⟩

/-- What the epilogue sees. -/
theorem final_core {s : Bytes} {ls : List Bytes} {body : Bytes} {m : Msg} (hs : LogicalLine s)
    (hl : ∀ L ∈ ls, HeaderLine L) (h : parseMsg (headText s ls ++ body) = .ok m) :
    ∃ x : Core, sfinish x body = .ok m ∧ x.msg.payload = none ∧
      (NoHeader .contentLength ls → x.clen = 0) ∧
      (∀ v, LastHeader .contentLength ls v → (∃ ds, NumberText v ds) ∧
        ∀ ds, NumberText v ds → x.clen = wrap64 (decVal ds)) ∧
      DeclaredType ls x.ctype := by
  obtain ⟨_, u0, us, h1, h2, h3⟩ := (parse_head hs hl).1 h
  refine ⟨_, h3, apps_payload _ _, ?_⟩
  rw [apps_append]
  have h0 := start_fields (x := {}) hs h1
  obtain ⟨c1, c2⟩ := reads_clen (apps {} u0) hl h2
  obtain ⟨d1, d2⟩ := reads_ctype (apps {} u0) hl h2
  refine ⟨fun hno => (c1 hno).trans h0.1, c2, ?_⟩
  rcases last_header .contentType ls with hno | ⟨v, hv⟩
  · exact .inl ⟨hno, (d1 hno).trans h0.2⟩
  · obtain ⟨t, g1, g2⟩ := d2 v hv
    exact .inr ⟨v, hv, g2 ▸ g1⟩

theorem wrap64_small {n : Nat} (h : n < 2 ^ 63) : wrap64 n = n := by
  unfold wrap64
  rw [Int.bmod_eq_of_le] <;> omega

/-- **C11**, for declared lengths below `2^63` (larger ones wrap around, see `C11_length_wraps`). If the last
Content-Length of an accepted message declares a positive length, the body has that length and the payload
is the body with the declared type; a session description is parsed. With no Content-Length, or with
Content-Length zero, there is no payload. -/
theorem C11_body_partial {s : Bytes} {ls : List Bytes} {body : Bytes} {m : Msg} (hs : LogicalLine s)
    (hl : ∀ L ∈ ls, HeaderLine L) (h : parseMsg (headText s ls ++ body) = .ok m) :
    BodyOf (headText s ls ++ body) body ∧
    (NoHeader .contentLength ls ∧ m.payload = none ∨ ∃ ds, DeclaredLength ls ds) ∧
    ∀ ds, DeclaredLength ls ds →
      (decVal ds = 0 → m.payload = none) ∧
      (0 < decVal ds → decVal ds < 2 ^ 63 →
        decVal ds = body.length ∧ ∃ t, DeclaredType ls t ∧ PayloadIs t body m.payload) := by
  obtain ⟨x, hx, hp, h0, hlen, htype⟩ := final_core hs hl h
  refine ⟨bodyOf_head body hs hl, ?_, ?_⟩
  · rcases last_header .contentLength ls with hno | ⟨v, hv⟩
    · refine .inl ⟨hno, ?_⟩
      unfold sfinish at hx
      rw [if_neg (by rw [h0 hno]; decide)] at hx
      cases hx; exact hp
    · obtain ⟨⟨ds, hd⟩, _⟩ := hlen v hv
      exact .inr ⟨ds, v, hv, hd⟩
  · rintro ds ⟨v, hv, hd⟩
    have hc := (hlen v hv).2 ds hd
    constructor
    · intro hz
      unfold sfinish at hx
      rw [if_neg (by rw [hc, hz]; decide)] at hx
      cases hx; exact hp
    · intro hpos hlt
      rw [wrap64_small hlt] at hc
      unfold sfinish at hx
      rw [if_pos (by rw [hc]; omega)] at hx
      by_cases hne : x.clen ≠ (body.length : Int)
      · rw [if_pos hne] at hx; cases hx
      rw [if_neg hne] at hx
      refine ⟨by omega, x.ctype, htype, ?_⟩
      by_cases ht : x.ctype = b!"application/sdp"
      · rw [if_pos ht] at hx
        refine ⟨fun hn => absurd ht hn, fun _ => ?_⟩
        cases hsdp : Sdp.parse body with
        | ok ms => rw [hsdp] at hx; cases hx; exact ⟨ms, rfl, rfl⟩
        | err e => rw [hsdp] at hx; cases hx
        | panic => rw [hsdp] at hx; cases hx
      · rw [if_neg ht] at hx
        cases hx
        exact ⟨fun _ => rfl, fun hn => absurd hn ht⟩

/-- **C11**, the other direction: a body of another length than the declared one is an error. -/
theorem C11_wrong_length_partial {s : Bytes} {ls : List Bytes} {body ds : Bytes} (hs : LogicalLine s)
    (hl : ∀ L ∈ ls, HeaderLine L) (hd : DeclaredLength ls ds) (hpos : 0 < decVal ds) (hlt : decVal ds < 2 ^ 63)
    (hne : decVal ds ≠ body.length) : ∃ e, parseMsg (headText s ls ++ body) = .err e := by
  rcases C07_parseMsg_never_panics (headText s ls ++ body) with ⟨m, hm⟩ | h
  · exact absurd (((C11_body_partial hs hl hm).2.2 ds hd).2 hpos hlt).1 hne
  · exact h

theorem logical_plain {L : Bytes} (h : ∀ c ∈ L, c ≠ 13) : LogicalLine L := by
  have := (logical_append (p := L) (v := []) h).2 (by
    intro x y e
    left
    have := congrArg List.length e
    simp only [List.length_append, CRLF, List.length_nil, List.length_cons] at this
    exact List.eq_nil_of_length_eq_zero (by omega))
  simpa using this

theorem digits_logical {ds : Bytes} (h : ∀ c ∈ ds, isDigit c = true) : LogicalLine ds :=
  logical_plain fun c hc e => by
    have := h c hc
    rw [e] at this
    exact absurd this (by decide)

theorem digits_number {ds : Bytes} (hne : ds ≠ []) (h : ∀ c ∈ ds, isDigit c = true) : NumberText ds ds :=
  ⟨⟨[], [], .inl rfl, (fun c hc => by cases hc), (fun c hc => by cases hc)⟩, hne, h⟩

theorem wrap64_mod {a b : Nat} (h : a % 2 ^ 64 = b % 2 ^ 64) : wrap64 a = wrap64 b := by
  unfold wrap64
  have ha : (a : Int) % (2 ^ 64 : Nat) = b % (2 ^ 64 : Nat) := by omega
  rw [← Int.emod_bmod (x := (a : Int)), ← Int.emod_bmod (x := (b : Int)), ha]

/-- **C11 fails** for larger numbers: the length is computed in 64-bit arithmetic without a check, so two
Content-Length values that are equal modulo `2^64` cannot be told apart. The parser accepts, with the same
result, every message in which the length is replaced by such a number. -/
theorem C11_length_wraps {s : Bytes} {pre post : List Bytes} {n w ds ds' body : Bytes} {m : Msg} (hs : LogicalLine s)
    (hpre : ∀ L ∈ pre, HeaderLine L) (hpost : ∀ L ∈ post, HeaderLine L) (hn : IsName n) (hw : Blanks w)
    (hh : headerOf n = some .contentLength) (hd : ds ≠ [] ∧ ∀ c ∈ ds, isDigit c = true)
    (hd' : ds' ≠ [] ∧ ∀ c ∈ ds', isDigit c = true) (he : decVal ds % 2 ^ 64 = decVal ds' % 2 ^ 64) :
    parseMsg (headText s (pre ++ headerLine n w ds :: post) ++ body) = .ok m ↔
      parseMsg (headText s (pre ++ headerLine n w ds' :: post) ++ body) = .ok m := by
  have key : ∀ {ds ds' : Bytes}, (ds ≠ [] ∧ ∀ c ∈ ds, isDigit c = true) → (ds' ≠ [] ∧ ∀ c ∈ ds', isDigit c = true) →
      decVal ds % 2 ^ 64 = decVal ds' % 2 ^ 64 →
      parseMsg (headText s (pre ++ headerLine n w ds :: post) ++ body) = .ok m →
      parseMsg (headText s (pre ++ headerLine n w ds' :: post) ++ body) = .ok m := by
    intro ds ds' hd hd' he h
    have hl : ∀ {ds : Bytes}, (∀ c ∈ ds, isDigit c = true) → ∀ L ∈ pre ++ headerLine n w ds :: post, HeaderLine L := by
      intro ds hd L hL
      rcases List.mem_append.1 hL with hL | hL
      · exact hpre L hL
      · rcases List.mem_cons.1 hL with rfl | hL
        · exact (headerLine_line hn hw).2 (digits_logical hd)
        · exact hpost L hL
    rw [parse_head hs (hl hd'.2)]
    obtain ⟨hb, u0, us, h1, h2, h3⟩ := (parse_head hs (hl hd.2)).1 h
    obtain ⟨u1, u', rfl, g1, g2⟩ := reads_append.1 h2
    obtain ⟨u2, u3, rfl, g3, g4⟩ := reads_cons.1 g2
    obtain ⟨v, k1, k2⟩ := (line_length hn hw (digits_logical hd.2) hh).2 ds (digits_number hd.1 hd.2)
    obtain ⟨v', k1', k2'⟩ := (line_length hn hw (digits_logical hd'.2) hh).2 ds' (digits_number hd'.1 hd'.2)
    refine ⟨hb, u0, u1 ++ (v' ++ u3), h1, g1.append (.cons k1' g4), ?_⟩
    rw [Line.det g3 k1] at h3
    simp only [apps_append] at h3 ⊢
    rw [k2', ← wrap64_mod he, ← k2]
    exact h3
  exact ⟨key hd hd' he, key hd' hd he.symm⟩

/-- Two bytes, declared as `2^64 + 2`. -/
example : ∃ m, parseMsg b!"SIP/2.0 200 OK\r\nContent-Length: 18446744073709551618\r\n\r\nhi" = .ok m ∧
    m.payload = some (.misc [] b!"hi") := by
  refine ⟨{ versionMajor := 2, status := 200, phrase := b!"OK", payload := some (.misc [] b!"hi") }, ?_, rfl⟩
  decide +kernel

/-- The hypotheses of `C11_body_partial` hold for a message with two bytes of text. -/
example : LogicalLine b!"SIP/2.0 200 OK" ∧
    (∀ L ∈ [b!"Content-Type: text/plain", b!"L: 3", b!"Content-length : 2"], HeaderLine L) ∧
    DeclaredLength [b!"Content-Type: text/plain", b!"L: 3", b!"Content-length : 2"] b!"2" ∧
    DeclaredType [b!"Content-Type: text/plain", b!"L: 3", b!"Content-length : 2"] b!"text/plain" ∧
    ∃ m, parseMsg (headText b!"SIP/2.0 200 OK" [b!"Content-Type: text/plain", b!"L: 3", b!"Content-length : 2"] ++ b!"hi") =
      .ok m ∧ m.payload = some (.misc b!"text/plain" b!"hi") := by
  have name : ∀ n : Bytes, n ≠ [] → n.all tokenc = true → IsName n := by
    intro n h1 h2
    exact ⟨h1, fun c hc => (tokenc_iff c).1 (List.all_eq_true.1 h2 c hc)⟩
  have blanks : ∀ w : Bytes, (w.all fun c => c == 32 || c == 9) = true → Blanks w := by
    intro w h c hc
    simpa using List.all_eq_true.1 h c hc
  have hl : ∀ n w v : Bytes, n ≠ [] → n.all tokenc = true → (w.all fun c => c == 32 || c == 9) = true →
      (v.all fun c => c != 13) = true → HeaderLine (headerLine n w v) := by
    intro n w v h1 h2 h3 h4
    exact (headerLine_line (name n h1 h2) (blanks w h3)).2 (logical_plain fun c hc => by
      simpa using List.all_eq_true.1 h4 c hc)
  refine ⟨logical_plain (by decide +kernel), ?_, ?_, ?_, ?_⟩
  · intro L hL
    simp only [List.mem_cons, List.not_mem_nil, or_false] at hL
    rcases hL with rfl | rfl | rfl
    · exact hl b!"Content-Type" [] b!" text/plain" (by decide) (by decide +kernel) (by decide) (by decide +kernel)
    · exact hl b!"L" [] b!" 3" (by decide) (by decide) (by decide) (by decide)
    · exact hl b!"Content-length" b!" " b!" 2" (by decide) (by decide +kernel) (by decide) (by decide)
  · refine ⟨b!" 2", ⟨[b!"Content-Type: text/plain", b!"L: 3"], [], b!"Content-length", b!" ", rfl,
      name _ (by decide) (by decide +kernel), blanks _ (by decide), by decide +kernel, fun L hL => by cases hL⟩,
      ⟨⟨b!" ", [], .inl rfl, blanks _ (by decide), fun c hc => by cases hc⟩, by decide +kernel, by decide +kernel⟩⟩
  · refine .inr ⟨b!" text/plain", ⟨[], [b!"L: 3", b!"Content-length : 2"], b!"Content-Type", [], rfl,
      name _ (by decide) (by decide +kernel), blanks _ (by decide), by decide +kernel, ?_⟩,
      ⟨b!"text", b!"plain", [], by decide +kernel, by decide, by decide, ?_, (fun c t h => by cases h), rfl⟩⟩
    · have other : ∀ n w v : Bytes, IsName n → Blanks w → headerOf n ≠ some .contentType →
          ¬ IsHeader .contentType (headerLine n w v) := by
        intro n w v hn hw hh ⟨n', w', v', e, hn', hw', hh'⟩
        exact hh (by rw [(headerLine_inj hn hw hn' hw' e).1]; exact hh')
      intro L hL
      simp only [List.mem_cons, List.not_mem_nil, or_false] at hL
      rcases hL with rfl | rfl
      · exact other b!"L" [] b!" 3" (name _ (by decide) (by decide +kernel)) (blanks _ (by decide)) (by decide +kernel)
      · exact other b!"Content-length" b!" " b!" 2" (name _ (by decide) (by decide +kernel)) (blanks _ (by decide)) (by decide +kernel)
    · intro c hc
      exact (tokenc_iff c).1 (List.all_eq_true.1 (show ([116, 101, 120, 116] ++ [112, 108, 97, 105, 110] : Bytes).all tokenc = true by decide) c hc)
  · refine ⟨{ versionMajor := 2, status := 200, phrase := b!"OK", maxForwards := 3, expires := 3, minExpires := 3,
              payload := some (.misc b!"text/plain" b!"hi") }, ?_, rfl⟩
    decide +kernel

/-! ## C61 -/

/-- **C61**, without bodies that begin with a blank. If a message is accepted and its payload is the body, it
is accepted with every other body of the same length, and the payload is that body. If the body is not used
because no length is declared, the message is accepted with the same result whatever follows. -/
theorem C61_body_opaque_partial {s : Bytes} {ls : List Bytes} {b b' : Bytes} {m : Msg} (hs : LogicalLine s)
    (hl : ∀ L ∈ ls, HeaderLine L) (h : parseMsg (headText s ls ++ b) = .ok m) (hb : ¬ Blank b') :
    (∀ t, m.payload = some (.misc t b) → b'.length = b.length →
      parseMsg (headText s ls ++ b') = .ok { m with payload := some (.misc t b') }) ∧
    (m.payload = none → parseMsg (headText s ls ++ b') = .ok m) := by
  obtain ⟨_, u0, us, h1, h2, h3⟩ := (parse_head hs hl).1 h
  have hp := apps_payload {} (u0 ++ us)
  simp only [parse_head hs hl]
  revert h3 hp
  generalize hx : apps {} (u0 ++ us) = x
  intro h3 hp
  have hx' : ∀ b, sfinish (apps {} (u0 ++ us)) b = sfinish x b := by intro b; rw [hx]
  unfold sfinish at h3
  constructor
  · intro t ht hlen
    refine ⟨hb, u0, us, h1, h2, ?_⟩
    rw [hx']
    unfold sfinish
    by_cases h0 : x.clen > 0
    · rw [if_pos h0] at h3 ⊢
      rw [hlen]
      by_cases hne : x.clen ≠ (b.length : Int)
      · rw [if_pos hne] at h3; cases h3
      rw [if_neg hne] at h3 ⊢
      by_cases hsdp : x.ctype = b!"application/sdp"
      · rw [if_pos hsdp] at h3
        cases hp : Sdp.parse b <;> rw [hp] at h3 <;> cases h3
        cases ht
      · rw [if_neg hsdp] at h3 ⊢
        cases h3
        cases ht
        rfl
    · rw [if_neg h0] at h3
      cases h3
      rw [hp] at ht; cases ht
  · intro ht
    refine ⟨hb, u0, us, h1, h2, ?_⟩
    rw [hx']
    unfold sfinish
    by_cases h0 : x.clen > 0
    · exfalso
      rw [if_pos h0] at h3
      by_cases hne : x.clen ≠ (b.length : Int)
      · rw [if_pos hne] at h3; cases h3
      rw [if_neg hne] at h3
      by_cases hsdp : x.ctype = b!"application/sdp"
      · rw [if_pos hsdp] at h3
        cases hp : Sdp.parse b <;> rw [hp] at h3 <;> cases h3
        cases ht
      · rw [if_neg hsdp] at h3
        cases h3
        cases ht
    · rw [if_neg h0] at h3 ⊢
      exact h3

/-- **C61 fails** for a body that begins with a space or a tab: no message with such a body is accepted,
although RFC 3261 allows every byte in a body. The parser takes the first byte of the body for the
continuation of the head. -/
theorem C61_blank_body_rejected {d body : Bytes} (hd : BodyOf d body) (hb : Blank body) : ∃ e, parseMsg d = .err e := by
  rcases C07_parseMsg_never_panics d with ⟨m, hm⟩ | h
  · exfalso
    obtain ⟨s, ls, b, _, _, rfl, h1, h2, h3, _⟩ := parse_text hm
    rw [bodyOf_unique hd (bodyOf_head b h1 h2)] at hb
    exact h3 hb
  · exact h

/-- The same message with a body that begins with a letter is accepted, and rejected with a space. -/
example : (∃ m, parseMsg b!"SIP/2.0 200 OK\r\nContent-Length: 2\r\n\r\nhi" = .ok m ∧ m.payload = some (.misc [] b!"hi")) ∧
    ∃ e, parseMsg b!"SIP/2.0 200 OK\r\nContent-Length: 2\r\n\r\n i" = .err e := by
  refine ⟨⟨{ versionMajor := 2, status := 200, phrase := b!"OK", payload := some (.misc [] b!"hi") }, ?_, rfl⟩,
    ⟨.parse b!"SIP/2.0 200 OK\r\nContent-Length: 2\r\n\r\n i" 35, ?_⟩⟩ <;> decide +kernel

end Gosip.Props
