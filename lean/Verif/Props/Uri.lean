import Verif.Sip.UriExact

/-!
# Properties C01–C04, C17, C18: SIP URIs and name/value lists
-/

namespace Gosip.Props
open Sip Spec

/-! ## C01 -/

/-- **C01.** For every byte slice, `ParseURI` returns a URI, or an error saying that the text is
incomplete, or an error pointing at a byte of the text; it never panics (the model panics on any
access outside the scratch buffer or the input). It reads each byte once: the model is a recursion
over the input. A nil slice gives a nil URI. -/
theorem C01_parseURI_total (d : Option Bytes) :
    (d = none ∧ parseURINil d = .ok none) ∨
    ∃ s, d = some s ∧ ((∃ u, parseURINil d = .ok (some u)) ∨
      parseURINil d = .err (.incomplete s) ∨
      ∃ p, p < s.length ∧ parseURINil d = .err (.errorAt p s)) := by
  cases d with
  | none => exact .inl ⟨rfl, rfl⟩
  | some s =>
    refine .inr ⟨s, rfl, ?_⟩
    simp only [parseURINil, Res.bind_eq]
    cases h : parseURI s with
    | ok u => exact .inl ⟨u, rfl⟩
    | panic => rw [Uri.parseURI_abs] at h; exact absurd h (Uri.arun_safe _ _ _ _ _)
    | err e =>
      rw [Uri.parseURI_abs] at h
      rcases Uri.arun_err _ _ _ _ _ _ h with rfl | ⟨q, _, h2, rfl⟩
      · exact .inr (.inl rfl)
      · exact .inr (.inr ⟨q, by simpa using h2, rfl⟩)

/-- All outcomes occur. -/
example : (∃ u, parseURI b!"sip:a@b" = .ok u) ∧
    parseURI b!"sip:%4" = .err (.errorAt 4 b!"sip:%4") ∧
    parseURI b!"sip:%4@" = .err (.errorAt 6 b!"sip:%4@") ∧
    parseURI b!"sip" = .err (.incomplete b!"sip") := by
  refine ⟨⟨_, rfl⟩, ?_, ?_, ?_⟩ <;> decide +kernel

/-! ## C02 -/

/-- **C02.** `ParseURI` succeeds with `u` on exactly the texts that the grammar of
`Verif/Spec/Uri.lean` relates to `u`. -/
theorem C02_parseURI_grammar (d : Bytes) (u : URI) : parseURI d = .ok u ↔ URIText d u :=
  Uri.parseURI_grammar d u

/-- A text has at most one reading: the grammar is unambiguous. -/
theorem C02_grammar_unambiguous (d : Bytes) (u v : URI) (h1 : URIText d u) (h2 : URIText d v) :
    u = v := by
  rw [← C02_parseURI_grammar] at h1 h2
  rw [h1] at h2; simpa using h2

example : parseURI b!"SIP:J%41rt:x@[::A]:70000;Lr;b=%3b?q=1&r" =
    .ok { scheme := b!"sip", user := b!"JArt", pass := b!"x", host := b!"::a", port := 4464,
          param := [(b!"b", b!";"), (b!"Lr", [])], header := [(b!"r", []), (b!"q", b!"1")] } := by
  decide +kernel

/-! ## C03 -/

/-- **C03 (partial).** Parsing the text of a URI gives the URI back, for any bytes in user,
password, parameters and headers. What is missing from the full claim: header names and values
must not contain `&` (see `C03_header_ampersand_lost`), a password needs a user
(`C03_pass_without_user_lost`) and names must not be empty (`C03_empty_name_unparseable`). -/
theorem C03_uri_round_trip_partial (u : URI) (hs : SchemeOK u.scheme) (hh : HostOK u.host)
    (hp : u.user = [] → u.pass = []) (hn : ∀ p ∈ u.param, p.1 ≠ [])
    (hd : ∀ p ∈ u.header, p.1 ≠ [] ∧ 38 ∉ p.1 ∧ 38 ∉ p.2) :
    parseURI u.text = .ok u :=
  (C02_parseURI_grammar _ _).2 (uriText_spec u hs hh hp hn hd)

/-- Every URI returned by the parser, from any text, has the form required above except for `&`
in headers. -/
theorem C03_parsed_uri_is_legal (d : Bytes) (u : URI) (h : parseURI d = .ok u) :
    SchemeOK u.scheme ∧ HostOK u.host ∧ (u.user = [] → u.pass = []) ∧ (∀ p ∈ u.param, p.1 ≠ []) ∧
      ∀ p ∈ u.header, p.1 ≠ [] := by
  rw [C02_parseURI_grammar] at h
  obtain ⟨a1, a2, b1, b2, b3, b4⟩ := h
  have hl : ∀ c, lower (lower c) = lower c := by decide +kernel
  have pn : ∀ {P : UInt8 → Prop} {t : Bytes} {p : Bytes × Bytes}, PairText P t p → p.1 ≠ [] := by
    intro P t p h; cases h <;> assumption
  refine ⟨?_, ?_, ?_, ?_, ?_⟩
  · cases a1 with
    | @mk c t x y =>
      have ha : ∀ c, isAlpha c → isAlpha (lower c) := by decide +kernel
      have hs : ∀ c, schemec c → schemec (lower c) := by decide +kernel
      have := SchemeText.mk (c := lower c) (t := t.map lower) (ha c x) (by
        intro d hd; simp at hd; obtain ⟨e, he, rfl⟩ := hd; exact hs e (y e he))
      have hll : lower ∘ lower = lower := funext hl
      simpa [SchemeOK, hl, hll] using this
  · exact Uri.hostText_ok b1
  · cases a2 <;> simp_all
  · intro p hp
    simp at hp
    induction b3 with
    | nil => simp at hp
    | cons a _ ih =>
      rcases List.mem_cons.1 hp with rfl | hp
      · exact pn a
      · exact ih hp
  · intro p hp
    simp at hp
    cases b4 with
    | none => simp at hp
    | some a =>
      induction a with
      | one a => simp at hp; subst hp; exact pn a
      | cons a _ ih =>
        rcases List.mem_cons.1 hp with rfl | hp
        · exact pn a
        · exact ih hp

/-- **C03**, exactly: a URI is read back as written if and only if its scheme and host are legal, it has no password
without a user, its parameters and headers have names, and no header contains `&`. -/
theorem C03_uri_round_trip_iff (u : URI) : parseURI u.text = .ok u ↔
    SchemeOK u.scheme ∧ HostOK u.host ∧ (u.user = [] → u.pass = []) ∧ (∀ p ∈ u.param, p.1 ≠ []) ∧
      ∀ p ∈ u.header, p.1 ≠ [] ∧ 38 ∉ p.1 ∧ 38 ∉ p.2 := by
  constructor
  · intro h
    obtain ⟨h1, h2, h3, h4, h5⟩ := C03_parsed_uri_is_legal _ _ h
    have h6 := Uri.text_headers ((C02_parseURI_grammar _ _).1 h)
      (uriText_spec { u with header := [] } h1 h2 h3 h4 (by simp))
    exact ⟨h1, h2, h3, h4, fun p hp => ⟨h5 p hp, h6 p hp⟩⟩
  · rintro ⟨h1, h2, h3, h4, h5⟩
    exact C03_uri_round_trip_partial u h1 h2 h3 h4 h5

/-- The hypotheses are met by a URI with delimiters in every component. -/
example : ∃ u : URI, u.user = b!"a@b:c" ∧ SchemeOK u.scheme ∧ HostOK u.host ∧
    (u.user = [] → u.pass = []) ∧ (∀ p ∈ u.param, p.1 ≠ []) ∧
    (∀ p ∈ u.header, p.1 ≠ [] ∧ 38 ∉ p.1 ∧ 38 ∉ p.2) ∧
    u.text = b!"sip:a%40b%3ac:%3b=@[::1]:5060;p%3b=%3d?h=%20" := by
  refine ⟨⟨b!"sip", b!"a@b:c", b!";=", b!"::1", 5060, [(b!"p;", b!"=")], [(b!"h", b!" ")]⟩, rfl,
    ?_, ?_, ?_, ?_, ?_, ?_⟩
  · exact SchemeText.mk (by decide +kernel) (by decide +kernel)
  · exact ⟨by decide, by decide +kernel, .inr ⟨by decide, by decide +kernel⟩⟩
  all_goals decide +kernel

/-- **C03 is false as stated** for headers: `&` is not escaped, so one header becomes two. -/
theorem C03_header_ampersand_lost :
    ∃ u : URI, SchemeOK u.scheme ∧ HostOK u.host ∧ u.header = [(b!"a", b!"b&c")] ∧
      ∃ v, parseURI u.text = .ok v ∧ v.header = [(b!"c", []), (b!"a", b!"b")] := by
  refine ⟨{ scheme := b!"sip", host := b!"h", header := [(b!"a", b!"b&c")] }, ?_, ?_, rfl, ?_⟩
  · exact SchemeText.mk (by decide +kernel) (by decide +kernel)
  · exact ⟨by decide, by decide +kernel, .inl (by decide +kernel)⟩
  · exact ⟨{ scheme := b!"sip", host := b!"h", header := [(b!"c", []), (b!"a", b!"b")] },
      by decide +kernel, rfl⟩

/-- A password without a user is dropped. -/
theorem C03_pass_without_user_lost (u : URI) (h : u.user = []) :
    u.text = ({ u with pass := [] } : URI).text := by
  simp [URI.text, userText, h]

/-- A parameter with an empty name cannot be read back. -/
theorem C03_empty_name_unparseable (u : URI) (p : Bytes × Bytes) (hp : p ∈ u.param)
    (h : p.1 = []) : parseURI u.text ≠ .ok u := fun e =>
  (C03_parsed_uri_is_legal _ _ e).2.2.2.1 p hp h

/-! ## C04 -/

/-- **C04.** If scheme and host are free of them, the text of a URI contains no CR, LF, blank,
angle bracket or double quote, and exactly one `@` if there is a user and none otherwise, whatever
the other components contain. -/
theorem C04_uri_text_confined (u : URI) (hs : ∀ c ∈ u.scheme, ¬ breaksOut c ∧ c ≠ 64)
    (hh : ∀ c ∈ u.host, ¬ breaksOut c ∧ c ≠ 64) :
    (∀ c ∈ u.text, ¬ breaksOut c) ∧ u.text.count 64 = if u.user = [] then 0 else 1 := by
  have base : ∀ (p : UInt8 → Bool), (∀ c, p c = true → ¬ breaksOut c ∧ c ≠ 64) → ∀ s,
      ∀ c ∈ escaped p s, ¬ breaksOut c ∧ c ≠ 64 := by
    intro p hp s c hc
    have hx : ∀ c : UInt8, (c = 37 ∨ c ∈ b!"0123456789abcdef") → ¬ breaksOut c ∧ c ≠ 64 := by
      decide +kernel
    rcases escaped_mem p s c hc with h | h
    · exact hp c h
    · exact hx c h
  have hu := base userc (by decide +kernel)
  have hpw := base passc (by decide +kernel)
  have hpa := base paramc (by decide +kernel)
  -- everything except the `@` after the user is free of these bytes
  have params : ∀ l, ∀ c ∈ uriParamText l, ¬ breaksOut c ∧ c ≠ 64 := by
    intro l
    induction l with
    | nil => simp [uriParamText]
    | cons p l ih =>
      intro c hc
      simp only [uriParamText, List.mem_append] at hc
      rcases hc with ((hc | hc) | hc) | hc
      · exact ih c hc
      · simp at hc; subst hc; decide
      · exact hpa _ c hc
      · split at hc
        · rcases List.mem_append.1 hc with hc | hc
          · simp at hc; subst hc; decide
          · exact hpa _ c hc
        · simp at hc
  have headers : ∀ l, ∀ c ∈ uriHeaderText l, ¬ breaksOut c ∧ c ≠ 64 := by
    intro l
    induction l with
    | nil => simp [uriHeaderText]
    | cons p l ih =>
      intro c hc
      simp only [uriHeaderText, List.mem_append] at hc
      rcases hc with (hc | hc) | hc
      · split at hc
        · rcases List.mem_append.1 hc with hc | hc
          · exact ih c hc
          · simp at hc; subst hc; decide
        · simp at hc; subst hc; decide
      · exact hpa _ c hc
      · split at hc
        · rcases List.mem_append.1 hc with hc | hc
          · simp at hc; subst hc; decide
          · exact hpa _ c hc
        · simp at hc
  have scheme : ∀ c ∈ (if u.scheme = [] then b!"sip:" else u.scheme ++ b!":"),
      ¬ breaksOut c ∧ c ≠ 64 := by
    intro c hc
    split at hc
    · have : ∀ c ∈ b!"sip:", ¬ breaksOut c ∧ c ≠ 64 := by decide +kernel
      exact this c hc
    · rcases List.mem_append.1 hc with hc | hc
      · exact hs c hc
      · simp at hc; subst hc; decide
  have host : ∀ c ∈ hostText u.host, ¬ breaksOut c ∧ c ≠ 64 := by
    intro c hc
    unfold hostText at hc
    split at hc
    · simp only [List.mem_append] at hc
      rcases hc with (hc | hc) | hc
      · simp at hc; subst hc; decide
      · exact hh c hc
      · simp at hc; subst hc; decide
    · exact hh c hc
  have port : ∀ c ∈ (if u.port > 0 then b!":" ++ portstr u.port else []),
      ¬ breaksOut c ∧ c ≠ 64 := by
    intro c hc
    split at hc
    · rcases List.mem_append.1 hc with hc | hc
      · simp at hc; subst hc; decide
      · have hx : ∀ c : UInt8, isDigit c = true → ¬ breaksOut c ∧ c ≠ 64 := by decide +kernel
        exact hx c (natDec_isDigit _ c hc)
    · simp at hc
  have c0 : ∀ l : Bytes, (∀ c ∈ l, ¬ breaksOut c ∧ c ≠ 64) → l.count 64 = 0 := by
    intro l h; rw [List.count_eq_zero]; intro hm; exact (h 64 hm).2 rfl
  have user : (∀ c ∈ userText u, ¬ breaksOut c) ∧
      (userText u).count 64 = if u.user = [] then 0 else 1 := by
    unfold userText
    by_cases h : u.user = []
    · simp [h]
    · rw [if_pos h, if_neg h]
      by_cases h2 : u.pass = []
      · rw [if_neg (by simp [h2])]
        refine ⟨?_, by rw [List.count_append, c0 _ (hu _)]; decide⟩
        intro c hc
        rcases List.mem_append.1 hc with hc | hc
        · exact (hu _ c hc).1
        · simp at hc; subst hc; decide
      · rw [if_pos h2]
        refine ⟨?_, by
          rw [List.count_append, List.count_append, List.count_append, c0 _ (hu _), c0 _ (hpw _)]
          decide⟩
        intro c hc
        simp only [List.mem_append] at hc
        rcases hc with ((hc | hc) | hc) | hc
        · exact (hu _ c hc).1
        · simp at hc; subst hc; decide
        · exact (hpw _ c hc).1
        · simp at hc; subst hc; decide
  constructor
  · intro c hc
    simp only [URI.text, List.mem_append] at hc
    rcases hc with ((((hc | hc) | hc) | hc) | hc) | hc
    · exact (scheme c hc).1
    · exact user.1 c hc
    · exact (host c hc).1
    · exact (port c hc).1
    · exact (params _ c hc).1
    · exact (headers _ c hc).1
  · simp only [URI.text, List.count_append]
    rw [c0 _ scheme, c0 _ host, c0 _ port, c0 _ (params _), c0 _ (headers _), user.2]
    simp

example : (∀ c ∈ b!"sip", ¬ breaksOut c ∧ c ≠ 64) ∧
    ({ scheme := b!"sip", user := b!"<\r\n@>", host := b!"h" } : URI).text =
      b!"sip:%3c%0d%0a%40%3e@h" := by decide +kernel

/-- **C04, per position.** Escaped text never contains the delimiters of the place where it is
written: `:` and `@` in a user, also `;`, `?`, `/` in a password, and `;`, `=`, `?`, `,`, `@` in
parameters and headers. -/
theorem C04_no_own_delimiter (s : Bytes) :
    (∀ c ∈ escaped userc s, c ∉ b!":@<> \r\n") ∧
    (∀ c ∈ escaped passc s, c ∉ b!":@;?/<> \r\n") ∧
    (∀ c ∈ escaped paramc s, c ∉ b!";=?,@<> \r\n") := by
  have base : ∀ (p : UInt8 → Bool) (bad : Bytes), (∀ c, p c = true → c ∉ bad) →
      (∀ c : UInt8, (c = 37 ∨ c ∈ b!"0123456789abcdef") → c ∉ bad) →
      ∀ c ∈ escaped p s, c ∉ bad := by
    intro p bad hp hx c hc
    rcases escaped_mem p s c hc with h | h
    · exact hp c h
    · exact hx c h
  exact ⟨base _ _ (by decide +kernel) (by decide +kernel),
    base _ _ (by decide +kernel) (by decide +kernel),
    base _ _ (by decide +kernel) (by decide +kernel)⟩

/-- **C04 is false for the delimiter `&` of headers**: it is written unescaped. -/
theorem C04_header_ampersand_unescaped :
    uriHeaderText [(b!"a", b!"b&c=d")] = b!"?a=b&c%3dd" := by decide +kernel

/-! ## C17 -/

theorem equalFold_iff (a b : Bytes) : equalFold a b = true ↔ SameName a b := by
  have : lowerByte = lower := funext Uri.lowerByte_eq
  simp [equalFold, SameName, this]

/-- **C17.** `Get` returns the newest entry with that name (ignoring case) and everything older
than it, and nothing exactly when no entry has the name. -/
theorem C17_get_latest (l : Pairs) (name : Bytes) :
    (∀ p older, l.get name = some (p :: older) ↔
      ∃ newer, l = newer ++ p :: older ∧ SameName p.1 name ∧ ∀ q ∈ newer, ¬ SameName q.1 name) ∧
    (l.get name = none ↔ ∀ q ∈ l, ¬ SameName q.1 name) ∧ l.get name ≠ some [] := by
  induction l with
  | nil => simp [Pairs.get]
  | cons a l ih =>
    obtain ⟨i1, i2, i3⟩ := ih
    unfold Pairs.get
    by_cases h : equalFold a.1 name = true
    · rw [if_pos h]
      rw [equalFold_iff] at h
      refine ⟨?_, ?_, by simp⟩
      · intro p older
        constructor
        · intro e; simp at e; obtain ⟨rfl, rfl⟩ := e
          exact ⟨[], rfl, h, by simp⟩
        · rintro ⟨newer, e, g1, g2⟩
          cases newer with
          | nil => simp at e; rw [e.1, e.2]
          | cons b newer => simp at e; rw [e.1] at h; exact absurd h (g2 b (by simp))
      · simp [h]
    · rw [if_neg h]
      rw [equalFold_iff] at h
      refine ⟨?_, ?_, i3⟩
      · intro p older
        rw [i1]
        constructor
        · rintro ⟨newer, e, g1, g2⟩
          exact ⟨a :: newer, by simp [e], g1, by simpa [h] using g2⟩
        · rintro ⟨newer, e, g1, g2⟩
          cases newer with
          | nil => simp at e; rw [e.1] at h; exact absurd g1 h
          | cons b newer =>
            simp at e; obtain ⟨rfl, rfl⟩ := e
            exact ⟨newer, rfl, g1, fun q hq => g2 q (by simp [hq])⟩
      · rw [i2]; simp [h]

example : Pairs.get b!"BRANCH" [(b!"x", b!"0"), (b!"Branch", b!"2"), (b!"branch", b!"1")] =
    some [(b!"Branch", b!"2"), (b!"branch", b!"1")] := by decide +kernel

/-! ## C18 -/

/-- **C18.** Parameters, URI headers and extension headers are written oldest first: the text is
the concatenation, over the reversed list, of the texts of the entries, with `?` before the first
and `&` before each further URI header. -/
theorem C18_insertion_order (l : Pairs) :
    uriParamText l = l.reverse.flatMap (fun p => b!";" ++ escaped paramc p.1 ++
      if p.2 ≠ [] then b!"=" ++ escaped paramc p.2 else []) ∧
    (∀ p rest, l.reverse = p :: rest → uriHeaderText l =
      b!"?" ++ (escaped paramc p.1 ++ if p.2 ≠ [] then b!"=" ++ escaped paramc p.2 else []) ++
      rest.flatMap (fun p => b!"&" ++ (escaped paramc p.1 ++
        if p.2 ≠ [] then b!"=" ++ escaped paramc p.2 else []))) ∧
    paramText l = l.reverse.flatMap (fun p => b!";" ++ sanitized tokenc p.1 ++
      if p.2 ≠ [] then b!"=" ++ quoted p.2 else []) ∧
    xheaderText l = l.reverse.flatMap (fun p => sanitized tokenc p.1 ++ b!": " ++ p.2 ++ b!"\r\n") := by
  induction l with
  | nil => simp [uriParamText, paramText, xheaderText]
  | cons p l ih =>
    obtain ⟨i1, i2, i3, i4⟩ := ih
    obtain ⟨n, v⟩ := p
    refine ⟨by simp [uriParamText, i1], ?_, by simp [paramText, i3], by simp [xheaderText, i4]⟩
    intro p rest e
    rw [List.reverse_cons] at e
    by_cases h : l = []
    · subst h
      simp at e; obtain ⟨rfl, rfl⟩ := e
      simp [uriHeaderText]
    · obtain ⟨q, r, hq⟩ : ∃ q r, l.reverse = q :: r := by
        cases hl : l.reverse with
        | nil => simp at hl; exact absurd hl h
        | cons q r => exact ⟨q, r, rfl⟩
      rw [hq] at e
      simp at e; obtain ⟨rfl, rfl⟩ := e
      rw [uriHeaderText, if_pos h, i2 q r hq]
      simp

example : uriHeaderText [(b!"c", b!"3"), (b!"b", []), (b!"a", b!"1")] = b!"?a=1&b&c=3" := by
  decide +kernel

example : parseURI b!"sips:a%20b:p@EXAMPLE.com:5061;lr;x=1?h=v" =
    .ok { scheme := b!"sips", user := b!"a b", pass := b!"p", host := b!"example.com", port := 5061,
          param := [(b!"x", b!"1"), (b!"lr", [])], header := [(b!"h", b!"v")] } := by decide +kernel

end Gosip.Props
