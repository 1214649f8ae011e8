import Verif.Sip.HeadEdit
import Verif.Props.Body

/-!
# Properties C12, C57 and C60: header names
-/

namespace Gosip.Props
open Sip Spec MsgM

/-! ## Concrete lines, for the examples -/

theorem name_ok {n : Bytes} (h1 : n ≠ []) (h2 : n.all tokenc = true) : IsName n :=
  ⟨h1, fun c hc => (tokenc_iff c).1 (List.all_eq_true.1 h2 c hc)⟩

theorem blanks_ok {w : Bytes} (h : (w.all fun c => c == 32 || c == 9) = true) : Blanks w := by
  intro c hc
  simpa using List.all_eq_true.1 h c hc

theorem plain_ok {v : Bytes} (h : (v.all fun c => c != 13) = true) : LogicalLine v :=
  logical_plain fun c hc => by simpa using List.all_eq_true.1 h c hc

theorem header_ok {n w v : Bytes} (h1 : n ≠ []) (h2 : n.all tokenc = true)
    (h3 : (w.all fun c => c == 32 || c == 9) = true) (h4 : (v.all fun c => c != 13) = true) :
    HeaderLine (headerLine n w v) :=
  (headerLine_line (name_ok h1 h2) (blanks_ok h3)).2 (plain_ok h4)

/-! ## C12 -/

/-- **C12.** Header names are read without regard to the case of their letters: if the lines of two messages
correspond, each pair of lines being equal or differing in the case of letters of a known header name, both
are accepted with the same result or none is. -/
theorem C12_case_insensitive {s : Bytes} {ls ls' : List Bytes} {body : Bytes} {m : Msg} (hs : LogicalLine s)
    (hl : ∀ L ∈ ls, HeaderLine L) (hr : LinesRel SameUpToCase ls ls') :
    parseMsg (headText s ls ++ body) = .ok m ↔ parseMsg (headText s ls' ++ body) = .ok m := by
  have hl' : ∀ L ∈ ls', HeaderLine L := by
    refine lines_rel ?_ hr hl
    rintro L M (rfl | ⟨n, n', w, v, rfl, rfl, hn, hn', hw, _⟩) hL
    · exact hL
    · exact (headerLine_line hn' hw).2 ((headerLine_line hn hw).1 hL)
  rw [parse_head hs hl, parse_head hs hl']
  have hreads : ∀ us, Reads ls us ↔ Reads ls' us := by
    intro us
    refine reads_rel ?_ hr
    rintro L M us (rfl | ⟨n, n', w, v, rfl, rfl, hn, hn', hw, hc, hk⟩)
    · rfl
    · exact line_rename hn hn' hw hk (by unfold headerOf; rw [hc]) (.inl hc)
  simp only [hreads]

/-- Two spellings of the same message. -/
example : LogicalLine b!"SIP/2.0 200 OK" ∧ (∀ L ∈ [b!"Subject: x", b!"Max-Forwards: 7"], HeaderLine L) ∧
    LinesRel SameUpToCase [b!"Subject: x", b!"Max-Forwards: 7"] [b!"suBJect: x", b!"MAX-forwards: 7"] ∧
    parseMsg (headText b!"SIP/2.0 200 OK" [b!"suBJect: x", b!"MAX-forwards: 7"]) =
      .ok { versionMajor := 2, status := 200, phrase := b!"OK", maxForwards := 7,
            hdr := setAt (fun _ => []) .subject b!"x" } := by
  refine ⟨plain_ok (by decide +kernel), ?_, .cons (.inr ?_) (.cons (.inr ?_) .nil), by decide +kernel⟩
  · intro L hL
    simp only [List.mem_cons, List.not_mem_nil, or_false] at hL
    rcases hL with rfl | rfl
    · exact header_ok (n := b!"Subject") (w := []) (v := b!" x") (by decide) (by decide +kernel) rfl (by decide +kernel)
    · exact header_ok (n := b!"Max-Forwards") (w := []) (v := b!" 7") (by decide) (by decide +kernel) rfl (by decide +kernel)
  · exact ⟨b!"Subject", b!"suBJect", [], b!" x", rfl, rfl, name_ok (by decide) (by decide +kernel),
      name_ok (by decide) (by decide +kernel), blanks_ok rfl, by decide +kernel, by decide +kernel⟩
  · exact ⟨b!"Max-Forwards", b!"MAX-forwards", [], b!" 7", rfl, rfl, name_ok (by decide) (by decide +kernel),
      name_ok (by decide) (by decide +kernel), blanks_ok rfl, by decide +kernel, by decide +kernel⟩

/-! ## C57 -/

theorem mem_insert {P : Bytes → Prop} {pre post : List Bytes} {L : Bytes} (h : ∀ M ∈ pre ++ post, P M) (hL : P L) :
    ∀ M ∈ pre ++ L :: post, P M := by
  intro M hM
  rcases List.mem_append.1 hM with hM | hM
  · exact h M (List.mem_append_left _ hM)
  · rcases List.mem_cons.1 hM with rfl | hM
    · exact hL
    · exact h M (List.mem_append_right _ hM)

theorem exts_none {ls : List Bytes} {us : List Upd} (hl : ∀ L ∈ ls, HeaderLine L) (h : Reads ls us)
    (hno : ∀ L ∈ ls, ¬ IsExtension L) : exts us = [] := by
  have := reads_keep (f := fun y => y.msg.xheader) (Q := fun n => headerOf n ≠ none) (x := {})
    (fun n u x hn hu => by
      by_cases hl : n.map lower = b!"l"
      · rw [name_l hl] at hu
        simp only [HeaderUpd, hreg, if_pos hl] at hu
        cases u <;> simp [RegUpd] at hu <;> rfl
      · exact (app_own x hl hu).msg.xheader hn) hl
    (fun n w v hm hn hw e => hno _ hm ⟨n, w, v, rfl, hn, hw, e⟩) h
  rw [apps_exts] at this
  simpa using this

/-- **C57**, except for names with which a known name begins. If a message is accepted, it is accepted with a
line of an extension header inserted anywhere among its header lines, the name being any token that is not
the name of a known header and the value any text; the result differs in the list of extension headers
only, where the name and the value, without the white space before it, have been inserted after the earlier
and before the later extension headers (the list holds the last one first). -/
theorem C57_extension_accepted_partial {s : Bytes} {pre post : List Bytes} {n w v body : Bytes} {m : Msg}
    (hs : LogicalLine s) (hl : ∀ L ∈ pre ++ post, HeaderLine L) (hn : IsName n) (hw : Blanks w)
    (hx : headerOf n = none) (hstub : ¬ StubName n) (hv : ValueText v)
    (h : parseMsg (headText s (pre ++ post) ++ body) = .ok m) :
    ∃ a b, m.xheader = a ++ b ∧
      parseMsg (headText s (pre ++ headerLine n w v :: post) ++ body) =
        .ok { m with xheader := a ++ (n, skipWs v) :: b } ∧
      ((∀ L ∈ post, ¬ IsExtension L) → a = []) ∧ ((∀ L ∈ pre, ¬ IsExtension L) → b = []) := by
  have hl' := mem_insert (P := HeaderLine) hl ((headerLine_line (v := v) hn hw).2 (vt_logical hv))
  obtain ⟨hb, u0, us, h1, h2, h3⟩ := (parse_head hs hl).1 h
  obtain ⟨u1, u2, rfl, g1, g2⟩ := reads_append.1 h2
  have hline := (line_ext (us := [.xheader n (skipWs v)]) hn hw (vt_logical hv) hx hstub).2 ⟨vt_skipWs hv, rfl⟩
  have h0 : exts u0 = [] := by
    have := start_keep (f := fun y => y.msg.xheader) (x := {})
      (fun u x hu => by cases u <;> simp [RegUpd] at hu <;> rfl) hs h1
    rw [apps_exts] at this
    simpa using this
  have hX : (apps {} (u0 ++ (u1 ++ u2))).msg.xheader = exts u2 ++ exts u1 := by
    rw [apps_append, apps_append, apps_exts, apps_exts, apps_exts, h0]
    simp
  have hY : apps {} (u0 ++ (u1 ++ ([.xheader n (skipWs v)] ++ u2))) =
      setX (apps {} (u0 ++ (u1 ++ u2))) (exts u2 ++ (n, skipWs v) :: exts u1) := by
    have e1 : (apps {} (u0 ++ u1)).msg.xheader = exts u1 := by
      rw [apps_append, apps_exts, apps_exts, h0]; simp
    have e2 : u0 ++ (u1 ++ ([.xheader n (skipWs v)] ++ u2)) = (u0 ++ u1) ++ [.xheader n (skipWs v)] ++ u2 := by simp
    have e3 : u0 ++ (u1 ++ u2) = (u0 ++ u1) ++ u2 := by simp
    rw [e2, e3, apps_append _ _ u2, apps_append _ _ u2, apps_append _ (u0 ++ u1)]
    generalize apps {} (u0 ++ u1) = x at e1
    rw [apps_cons, apps_nil, ← apps_setX]
    have : Upd.app x (.xheader n (skipWs v)) = setX x ((n, skipWs v) :: exts u1) := by
      rw [← e1]; rfl
    rw [this]
  generalize apps {} (u0 ++ (u1 ++ u2)) = x at h3 hX hY
  have hf := sfinish_same (x := x) (y := setX x (exts u2 ++ (n, skipWs v) :: exts u1)) rfl rfl rfl h3
  obtain ⟨f1, f2⟩ := hf
  refine ⟨exts u2, exts u1, ?_, ?_, ?_, ?_⟩
  · rw [f1]; exact hX
  · rw [parse_head hs hl']
    refine ⟨hb, u0, u1 ++ ([.xheader n (skipWs v)] ++ u2), h1, g1.append (.cons hline g2), ?_⟩
    rw [hY, f2, f1]
    rfl
  · exact exts_none (fun L hL => hl L (by simp [hL])) g2
  · exact exts_none (fun L hL => hl L (by simp [hL])) g1

/-- A new extension header between two others. -/
example : (∀ L ∈ [b!"X-A: 1"] ++ [b!"X-B: 2"], HeaderLine L) ∧ IsName b!"Session-Id" ∧ headerOf b!"Session-Id" = none ∧
    ¬ StubName b!"Session-Id" ∧ ValueText b!" q\r\n ä" ∧
    parseMsg (headText b!"SIP/2.0 200 OK" ([b!"X-A: 1"] ++ [b!"X-B: 2"])) =
      .ok { versionMajor := 2, status := 200, phrase := b!"OK", xheader := [(b!"X-B", b!"2"), (b!"X-A", b!"1")] } ∧
    parseMsg (headText b!"SIP/2.0 200 OK" ([b!"X-A: 1"] ++ headerLine b!"Session-Id" [] b!" q\r\n ä" :: [b!"X-B: 2"])) =
      .ok { versionMajor := 2, status := 200, phrase := b!"OK",
            xheader := [(b!"X-B", b!"2"), (b!"Session-Id", b!"q\r\n ä"), (b!"X-A", b!"1")] } := by
  refine ⟨?_, name_ok (by decide) (by decide +kernel), by decide +kernel, ?_, ?_, by decide +kernel, by decide +kernel⟩
  · intro L hL
    simp only [List.cons_append, List.nil_append, List.mem_cons, List.not_mem_nil, or_false] at hL
    rcases hL with rfl | rfl
    · exact header_ok (n := b!"X-A") (w := []) (v := b!" 1") (by decide) (by decide +kernel) rfl (by decide +kernel)
    · exact header_ok (n := b!"X-B") (w := []) (v := b!" 2") (by decide) (by decide +kernel) rfl (by decide +kernel)
  · rintro ⟨_, p, hp, h⟩
    revert p
    have : ∀ p ∈ headerNames, ((b!"Session-Id").map lower).isPrefixOf p.1 = false := by decide +kernel
    intro p hp h
    have h2 := this p hp
    rw [List.isPrefixOf_iff_prefix.2 h] at h2
    cases h2
  · refine .char (.inr (by decide)) (.char (.inr (by decide)) (.fold (w := 32) (by decide) ?_))
    exact .utf8 (c := 0xc3) (s := [0xa4]) (t := []) (by decide) (by intro x hx; simp at hx; subst hx; exact ⟨by decide, by decide⟩) .nil

/-- **C57 fails** for the names with which a known header name begins, such as `Conte` or `Au`: no message
with such a header is accepted, although the name is a token like any other. -/
theorem C57_prefix_names_rejected {s : Bytes} {ls : List Bytes} {n w v body : Bytes} (hs : LogicalLine s)
    (hl : ∀ L ∈ ls, HeaderLine L) (hn : IsName n) (hw : Blanks w) (hstub : StubName n)
    (hm : headerLine n w v ∈ ls) : ∃ e, parseMsg (headText s ls ++ body) = .err e := by
  rcases C07_parseMsg_never_panics (headText s ls ++ body) with ⟨m, h⟩ | h
  · exfalso
    obtain ⟨_, _, _, _, h2, _⟩ := (parse_head hs hl).1 h
    obtain ⟨pre, post, rfl⟩ := List.append_of_mem hm
    obtain ⟨_, _, _, _, g⟩ := reads_append.1 h2
    obtain ⟨_, _, _, g, _⟩ := reads_cons.1 g
    exact line_stub hn hw hstub g
  · exact h

/-- `Au` begins `Authorization`. -/
example : StubName b!"Au" ∧ IsName b!"Au" ∧
    (∃ e, parseMsg b!"SIP/2.0 200 OK\r\nAu: 1\r\n\r\n" = .err e) ∧ ∃ m, parseMsg b!"SIP/2.0 200 OK\r\nAx: 1\r\n\r\n" = .ok m := by
  refine ⟨⟨by decide +kernel, (b!"authorization", .text .authorization), by decide +kernel, ?_⟩,
    name_ok (by decide) (by decide +kernel), ?_, ?_⟩
  · exact List.isPrefixOf_iff_prefix.1 (by decide +kernel)
  · exact ⟨.parse b!"SIP/2.0 200 OK\r\nAu: 1\r\n\r\n" 18, by decide +kernel⟩
  · exact ⟨{ versionMajor := 2, status := 200, phrase := b!"OK", xheader := [(b!"Ax", b!"1")] }, by decide +kernel⟩

/-! ## C60 -/

/-- **C60**, compact names, except `l`. If the lines of two messages correspond, each pair of lines being equal
or having two names of the same header, both are accepted with the same result or none is. -/
theorem C60_compact_same_partial {s : Bytes} {ls ls' : List Bytes} {body : Bytes} {m : Msg} (hs : LogicalLine s)
    (hl : ∀ L ∈ ls, HeaderLine L) (hr : LinesRel SameHeader ls ls') :
    parseMsg (headText s ls ++ body) = .ok m ↔ parseMsg (headText s ls' ++ body) = .ok m := by
  have hl' : ∀ L ∈ ls', HeaderLine L := by
    refine lines_rel ?_ hr hl
    rintro L M (rfl | ⟨n, n', w, v, rfl, rfl, hn, hn', hw, _⟩) hL
    · exact hL
    · exact (headerLine_line hn' hw).2 ((headerLine_line hn hw).1 hL)
  rw [parse_head hs hl, parse_head hs hl']
  have hreads : ∀ us, Reads ls us ↔ Reads ls' us := by
    intro us
    refine reads_rel ?_ hr
    rintro L M us (rfl | ⟨n, n', w, v, rfl, rfl, hn, hn', hw, hk, hc, h1, h2⟩)
    · rfl
    · exact line_rename hn hn' hw hk hc (.inr ⟨h1, h2⟩)
  simp only [hreads]

/-- `s` for Subject and `v` for Via. -/
example : LinesRel SameHeader [b!"Subject: x", b!"Via: SIP/2.0/UDP a"] [b!"s: x", b!"V: SIP/2.0/UDP a"] ∧
    parseMsg (headText b!"SIP/2.0 200 OK" [b!"s: x", b!"V: SIP/2.0/UDP a"]) =
      .ok { versionMajor := 2, status := 200, phrase := b!"OK", hdr := setAt (fun _ => []) .subject b!"x",
            via := [{ protocol := b!"SIP", version := b!"2.0", transport := b!"UDP", host := b!"a" }] } := by
  refine ⟨.cons (.inr ?_) (.cons (.inr ?_) .nil), by decide +kernel⟩
  · exact ⟨b!"Subject", b!"s", [], b!" x", rfl, rfl, name_ok (by decide) (by decide +kernel),
      name_ok (by decide) (by decide +kernel), blanks_ok rfl, by decide +kernel, by decide +kernel, by decide +kernel, by decide +kernel⟩
  · exact ⟨b!"Via", b!"V", [], b!" SIP/2.0/UDP a", rfl, rfl, name_ok (by decide) (by decide +kernel),
      name_ok (by decide) (by decide +kernel), blanks_ok rfl, by decide +kernel, by decide +kernel, by decide +kernel, by decide +kernel⟩

/-- **C60**, own field, except for `l`. A header line changes the field it names and no other: the messages
with and without the line agree in everything else. If the line is neither Content-Length nor Content-Type
and the message with the line is accepted, so is the message without it. -/
theorem C60_own_field_partial {s : Bytes} {pre post : List Bytes} {n w v body : Bytes} {m : Msg}
    (hs : LogicalLine s) (hl : ∀ L ∈ pre ++ headerLine n w v :: post, HeaderLine L) (hn : IsName n) (hw : Blanks w)
    (hnl : n.map lower ≠ b!"l")
    (h : parseMsg (headText s (pre ++ headerLine n w v :: post) ++ body) = .ok m) :
    (∀ m', parseMsg (headText s (pre ++ post) ++ body) = .ok m' → SameExcept (headerOf n) m m') ∧
    (headerOf n ≠ some .contentLength → headerOf n ≠ some .contentType →
      ∃ m', parseMsg (headText s (pre ++ post) ++ body) = .ok m') := by
  have hl' : ∀ L ∈ pre ++ post, HeaderLine L := fun L hL => hl L (by
    rcases List.mem_append.1 hL with hL | hL <;> simp [hL])
  obtain ⟨hb, u0, us, h1, h2, h3⟩ := (parse_head hs hl).1 h
  obtain ⟨u1, u', rfl, g1, g2⟩ := reads_append.1 h2
  obtain ⟨u2, u3, rfl, g3, g4⟩ := reads_cons.1 g2
  have hown : CoreSame (headerOf n) (apps {} (u0 ++ (u1 ++ (u2 ++ u3)))) (apps {} (u0 ++ (u1 ++ u3))) := by
    have e1 : u0 ++ (u1 ++ (u2 ++ u3)) = (u0 ++ u1) ++ u2 ++ u3 := by simp
    have e2 : u0 ++ (u1 ++ u3) = (u0 ++ u1) ++ u3 := by simp
    rw [e1, e2, apps_append, apps_append, apps_append (b := u3)]
    exact (apps_own _ hnl (line_reg hn hw (hl _ (by simp)).one g3)).apps u3
  have hR : Reads (pre ++ post) (u1 ++ u3) := g1.append g4
  generalize hx : apps {} (u0 ++ (u1 ++ (u2 ++ u3))) = x at hown h3
  generalize hy : apps {} (u0 ++ (u1 ++ u3)) = y at hown
  constructor
  · intro m' hm'
    obtain ⟨_, v0, vs, k1, k2, k3⟩ := (parse_head hs hl').1 hm'
    rw [Start.det k1 h1, Reads.det k2 hR, hy] at k3
    rw [sfinish_msg h3, sfinish_msg k3]
    refine sameExcept_payloads hown.msg ?_
    intro c1 c2
    have := (sfinish_same (hown.clen c1) (hown.ctype c2) hown.payload h3).2
    rw [k3] at this
    cases this
    rfl
  · intro c1 c2
    have := (sfinish_same (hown.clen c1) (hown.ctype c2) hown.payload h3).2
    exact ⟨_, (parse_head hs hl').2 ⟨hb, u0, u1 ++ u3, h1, hR, hy ▸ this⟩⟩

/-- A Route between a Contact and a Subject. -/
example : (∀ L ∈ [b!"Contact: sip:a"] ++ headerLine b!"Route" [] b!"<sip:b>" :: [b!"s: c"], HeaderLine L) ∧
    headerOf b!"Route" = some (.address .route) ∧
    (∃ m, parseMsg (headText b!"SIP/2.0 200 OK" ([b!"Contact: sip:a"] ++ headerLine b!"Route" [] b!"<sip:b>" :: [b!"s: c"])) = .ok m ∧
      (m.addrs .route).length = 1) ∧
    ∃ m, parseMsg (headText b!"SIP/2.0 200 OK" ([b!"Contact: sip:a"] ++ [b!"s: c"])) = .ok m ∧ m.addrs .route = [] := by
  refine ⟨?_, by decide +kernel,
    ⟨{ versionMajor := 2, status := 200, phrase := b!"OK", hdr := setAt (fun _ => []) .subject b!"c",
       addrs := setAt (setAt (fun _ => []) .contact [{ uri := some { scheme := b!"sip", host := b!"a" } }]) .route
         [{ uri := some { scheme := b!"sip", host := b!"b" } }] }, ?_, ?_⟩,
    ⟨{ versionMajor := 2, status := 200, phrase := b!"OK", hdr := setAt (fun _ => []) .subject b!"c",
       addrs := setAt (fun _ => []) .contact [{ uri := some { scheme := b!"sip", host := b!"a" } }] }, ?_, ?_⟩⟩
  · intro L hL
    simp only [List.cons_append, List.nil_append, List.mem_cons, List.not_mem_nil, or_false] at hL
    rcases hL with rfl | rfl | rfl
    · exact header_ok (n := b!"Contact") (w := []) (v := b!" sip:a") (by decide) (by decide +kernel) rfl (by decide +kernel)
    · exact header_ok (n := b!"Route") (w := []) (v := b!"<sip:b>") (by decide) (by decide +kernel) rfl (by decide +kernel)
    · exact header_ok (n := b!"s") (w := []) (v := b!" c") (by decide) (by decide +kernel) rfl (by decide +kernel)
  all_goals decide +kernel

theorem keep_num {n : Bytes} {u : Upd} {x : Core} (hu : HeaderUpd n (headerOf n) u)
    (h0 : headerOf n ≠ some .contentLength) (h1 : headerOf n ≠ some .maxForwards) (h2 : headerOf n ≠ some .expires)
    (h3 : headerOf n ≠ some .minExpires) :
    ((u.app x).msg.maxForwards, (u.app x).msg.expires, (u.app x).msg.minExpires) =
      (x.msg.maxForwards, x.msg.expires, x.msg.minExpires) := by
  have := (app_own x (ne_l h0) hu).msg
  rw [this.maxForwards h1, this.expires h2, this.minExpires h3]

/-- **C60 fails** for `l`, the compact form of Content-Length: it also assigns Max-Forwards, Expires and
Min-Expires. In every accepted message in which no such header follows, all three are the declared length. -/
theorem C60_compact_length_clobbers {s : Bytes} {pre post : List Bytes} {n w v ds body : Bytes} {m : Msg}
    (hs : LogicalLine s) (hl : ∀ L ∈ pre ++ headerLine n w v :: post, HeaderLine L) (hn : IsName n) (hw : Blanks w)
    (hnl : n.map lower = b!"l") (hd : NumberText v ds)
    (h : parseMsg (headText s (pre ++ headerLine n w v :: post) ++ body) = .ok m)
    (h0 : NoHeader .contentLength post) (h1 : NoHeader .maxForwards post) (h2 : NoHeader .expires post)
    (h3 : NoHeader .minExpires post) :
    m.maxForwards = wrap64 (decVal ds) ∧ m.expires = wrap64 (decVal ds) ∧ m.minExpires = wrap64 (decVal ds) := by
  obtain ⟨hb, u0, us, k1, k2, k3⟩ := (parse_head hs hl).1 h
  obtain ⟨u1, u', rfl, g1, g2⟩ := reads_append.1 k2
  obtain ⟨u2, u3, rfl, g3, g4⟩ := reads_cons.1 g2
  have hv := (headerLine_line hn hw).1 (hl (headerLine n w v) (by simp))
  obtain ⟨q, q1, q2⟩ := (line_length hn hw hv (name_l hnl)).2 ds hd
  have e1 : u0 ++ (u1 ++ (u2 ++ u3)) = (u0 ++ u1) ++ u2 ++ u3 := by simp
  have keep := reads_keep (f := fun y => (y.msg.maxForwards, y.msg.expires, y.msg.minExpires))
    (Q := fun n => headerOf n ≠ some .contentLength ∧ headerOf n ≠ some .maxForwards ∧ headerOf n ≠ some .expires ∧
      headerOf n ≠ some .minExpires) (x := apps (apps {} (u0 ++ u1)) u2)
    (fun n u x hq hu => keep_num hu hq.1 hq.2.1 hq.2.2.1 hq.2.2.2) (fun L hL => hl L (by simp [hL]))
    (fun n w v hm hn hw => ⟨fun e => h0 _ hm ⟨n, w, v, rfl, hn, hw, e⟩, fun e => h1 _ hm ⟨n, w, v, rfl, hn, hw, e⟩,
      fun e => h2 _ hm ⟨n, w, v, rfl, hn, hw, e⟩, fun e => h3 _ hm ⟨n, w, v, rfl, hn, hw, e⟩⟩) g4
  rw [e1, apps_append, apps_append] at k3
  rw [Line.det g3 q1, q2, hnl] at keep k3
  have e := sfinish_msg k3
  simp only [putLength, if_true, Prod.mk.injEq] at keep e
  rw [e]
  exact keep

/-- A message whose Max-Forwards becomes the length of its body. -/
example : ∃ m, parseMsg b!"SIP/2.0 200 OK\r\nMax-Forwards: 70\r\nl: 2\r\n\r\nhi" = .ok m ∧ m.maxForwards = 2 ∧ m.expires = 2 ∧
    m.minExpires = 2 := by
  refine ⟨{ versionMajor := 2, status := 200, phrase := b!"OK", maxForwards := 2, expires := 2, minExpires := 2,
            payload := some (.misc [] b!"hi") }, ?_, rfl, rfl, rfl⟩
  decide +kernel

end Gosip.Props
