import Verif.Sip.Comma
import Verif.Spec.Lists
import Verif.Props.Headers

/-!
# Property C13: the order of lists of Via and address headers
-/

namespace Gosip.Props
open Sip Spec MsgM

/-! ## Several lines -/

/-- The `Via` elements read. -/
def vias (us : List Upd) : List Via := us.filterMap fun | .via v => some v | _ => none

/-- The addresses read for a field. -/
def adds (f : AField) (us : List Upd) : List Addr := us.filterMap fun | .addr g a => if g = f then some a else none | _ => none

theorem apps_via (x : Core) (us : List Upd) : (apps x us).msg.via = x.msg.via ++ vias us := by
  induction us generalizing x with
  | nil => simp [vias, apps]
  | cons u us ih => rw [apps_cons, ih]; cases u <;> simp [vias, Upd.app]

theorem apps_addrs (f : AField) (x : Core) (us : List Upd) : (apps x us).msg.addrs f = x.msg.addrs f ++ adds f us := by
  induction us generalizing x with
  | nil => simp [adds, apps]
  | cons u us ih =>
    rw [apps_cons, ih]
    cases u
    case addr g a =>
      by_cases hg : g = f
      · subst hg; simp [adds, Upd.app, setAt]
      · simp [adds, Upd.app, setAt, hg, Ne.symm hg]
    all_goals simp [adds, Upd.app]

theorem ok_start : ∃ u0, Start b!"SIP/2.0 200 OK" u0 ∧ vias u0 = [] ∧ (∀ f, adds f u0 = []) ∧
    (apps {} u0).clen = 0 ∧ sfinish (apps {} u0) [] = .ok { versionMajor := 2, status := 200, phrase := b!"OK" } := by
  have hs : LogicalLine b!"SIP/2.0 200 OK" := plain_ok (by decide +kernel)
  have h : parseMsg (headText b!"SIP/2.0 200 OK" [] ++ []) = .ok { versionMajor := 2, status := 200, phrase := b!"OK" } := by
    decide +kernel
  obtain ⟨_, u0, us, h1, h2, h3⟩ := (parse_head hs (by simp)).1 h
  rw [reads_nil.1 h2, List.append_nil] at h3
  refine ⟨u0, h1, ?_, ?_, (start_fields hs h1).1, h3⟩
  · have := apps_via {} u0
    have e := start_keep (f := fun y => y.msg.via) (x := {}) (fun u x hu => by cases u <;> simp [RegUpd] at hu <;> rfl) hs h1
    rw [this] at e
    simpa using e
  · intro f
    have := apps_addrs f {} u0
    have e := start_keep (f := fun y => y.msg.addrs f) (x := {}) (fun u x hu => by cases u <;> simp [RegUpd] at hu <;> rfl) hs h1
    rw [this] at e
    simpa using e

/-- A header line of a list, alone. -/
theorem alone_line {L : Bytes} {h : Header} {us : List Upd} (hL : HeaderLine L) (hh : IsHeader h L)
    (hl : h = .via ∨ ∃ f, h = .address f) (hu : Line L us) :
    ∃ m, Alone L m ∧ m.via = vias us ∧ ∀ f, m.addrs f = adds f us := by
  obtain ⟨u0, h1, h2, h3, h4, h5⟩ := ok_start
  have hs : LogicalLine b!"SIP/2.0 200 OK" := plain_ok (by decide +kernel)
  obtain ⟨n, w, v, rfl, hn, hw, e⟩ := hh
  have hc : headerOf n ≠ some .contentLength := by rw [e]; rcases hl with rfl | ⟨f, rfl⟩ <;> simp
  have hc2 : headerOf n ≠ some .contentType := by rw [e]; rcases hl with rfl | ⟨f, rfl⟩ <;> simp
  have hown := apps_own (apps {} u0) (ne_l hc) (line_reg hn hw hL.one hu)
  have hf := sfinish_same (hown.clen hc).symm (hown.ctype hc2).symm hown.payload.symm h5
  have hp := (parse_head (body := []) hs (ls := [headerLine n w v]) (by simpa using hL)).2
      ⟨(by rintro ⟨_, _, e, _⟩; cases e), u0, us ++ [], h1, .cons hu .nil, by
        rw [List.append_nil, apps_append]; exact hf.2⟩
  rw [List.append_nil] at hp
  refine ⟨_, hp, ?_, ?_⟩
  · show (apps (apps {} u0) us).msg.via = _
    rw [apps_via, apps_via, h2]; simp
  · intro f
    show (apps (apps {} u0) us).msg.addrs f = _
    rw [apps_addrs, apps_addrs, h3]; simp

theorem vias_other {n w v : Bytes} {us : List Upd} (hn : IsName n) (hw : Blanks w) (hL : LogicalLine (headerLine n w v))
    (h : Line (headerLine n w v) us) (hh : headerOf n ≠ some .via) : vias us = [] := by
  have := line_reg hn hw hL h
  unfold vias
  rw [List.filterMap_eq_nil_iff]
  intro u hu
  have := this u hu
  cases u <;> simp only [] 
  case via x =>
    exfalso
    cases hx : headerOf n with
    | none => rw [hx] at this; obtain ⟨v, e⟩ := this; cases e
    | some h =>
      rw [hx] at this hh
      simp only [HeaderUpd, RegUpd] at this
      cases h <;> simp [hreg] at this hh
      split at this <;> cases this

theorem adds_other {n w v : Bytes} {us : List Upd} {f : AField} (hn : IsName n) (hw : Blanks w)
    (hL : LogicalLine (headerLine n w v)) (h : Line (headerLine n w v) us) (hh : headerOf n ≠ some (.address f)) :
    adds f us = [] := by
  have := line_reg hn hw hL h
  unfold adds
  rw [List.filterMap_eq_nil_iff]
  intro u hu
  have := this u hu
  cases u <;> simp only [] 
  case addr g x =>
    split
    · next e =>
      exfalso
      subst e
      cases hx : headerOf n with
      | none => rw [hx] at this; obtain ⟨v, e⟩ := this; cases e
      | some h =>
        rw [hx] at this hh
        simp only [HeaderUpd, RegUpd] at this
        cases h <;> simp [hreg, nameLoc] at this hh
        · exact hh this
    · rfl

theorem isHeader_iff {n w v : Bytes} {h : Header} (hn : IsName n) (hw : Blanks w) :
    IsHeader h (headerLine n w v) ↔ headerOf n = some h := by
  constructor
  · rintro ⟨n', w', v', e, hn', hw', e'⟩
    rw [(headerLine_inj hn hw hn' hw' e).1]
    exact e'
  · exact fun e => ⟨n, w, v, rfl, hn, hw, e⟩

theorem reads_inOrder {ls : List Bytes} {us : List Upd} (hl : ∀ L ∈ ls, HeaderLine L) (h : Reads ls us) :
    InOrder .via (fun m => m.via) ls (vias us) ∧ ∀ f, InOrder (.address f) (fun m => m.addrs f) ls (adds f us) := by
  induction h with
  | nil => exact ⟨.nil, fun f => .nil⟩
  | @cons L ls u us h1 _ ih =>
    obtain ⟨ih1, ih2⟩ := ih fun L hL => hl L (List.mem_cons_of_mem _ hL)
    have hL := hl L List.mem_cons_self
    obtain ⟨n, w, v, hn, hw, rfl⟩ := line_shape hL h1
    constructor
    · rw [show vias (u ++ us) = vias u ++ vias us by simp [vias]]
      by_cases hh : headerOf n = some .via
      · obtain ⟨m, g1, g2, _⟩ := alone_line hL ((isHeader_iff hn hw).2 hh) (.inl rfl) h1
        rw [← g2]
        exact .own ((isHeader_iff hn hw).2 hh) g1 ih1
      · rw [vias_other hn hw hL.one h1 hh]
        exact .other (fun e => hh ((isHeader_iff hn hw).1 e)) ih1
    · intro f
      rw [show adds f (u ++ us) = adds f u ++ adds f us by simp [adds]]
      by_cases hh : headerOf n = some (.address f)
      · obtain ⟨m, g1, _, g3⟩ := alone_line hL ((isHeader_iff hn hw).2 hh) (.inr ⟨f, rfl⟩) h1
        rw [← g3]
        exact .own ((isHeader_iff hn hw).2 hh) g1 (ih2 f)
      · rw [adds_other hn hw hL.one h1 hh]
        exact .other (fun e => hh ((isHeader_iff hn hw).1 e)) (ih2 f)

/-- **C13**, several headers. The Via list and every list of addresses of an accepted message holds what its
lines contribute, in the order of the lines, whatever other headers stand between them; what a line
contributes is what it contributes to a message of its own. -/
theorem C13_lines_in_order {s : Bytes} {ls : List Bytes} {body : Bytes} {m : Msg} (hs : LogicalLine s)
    (hl : ∀ L ∈ ls, HeaderLine L) (h : parseMsg (headText s ls ++ body) = .ok m) :
    InOrder .via (fun m => m.via) ls m.via ∧ ∀ f, InOrder (.address f) (fun m => m.addrs f) ls (m.addrs f) := by
  obtain ⟨_, u0, us, h1, h2, h3⟩ := (parse_head hs hl).1 h
  obtain ⟨g1, g2⟩ := reads_inOrder hl h2
  have e := sfinish_msg h3
  constructor
  · have : m.via = vias us := by
      have e1 := start_keep (f := fun y => y.msg.via) (x := {}) (fun u x hu => by cases u <;> simp [RegUpd] at hu <;> rfl) hs h1
      rw [e]
      show (apps {} (u0 ++ us)).msg.via = _
      rw [apps_append, apps_via, e1]
      rfl
    rw [this]; exact g1
  · intro f
    have : m.addrs f = adds f us := by
      have e1 := start_keep (f := fun y => y.msg.addrs f) (x := {}) (fun u x hu => by cases u <;> simp [RegUpd] at hu <;> rfl) hs h1
      rw [e]
      show (apps {} (u0 ++ us)).msg.addrs f = _
      rw [apps_append, apps_addrs, e1]
      rfl
    rw [this]; exact g2 f

/-- Three Via and two Route lines with other headers between them. -/
example : ∃ m, parseMsg (headText b!"SIP/2.0 200 OK" [b!"Via: SIP/2.0/UDP a", b!"Route: <sip:x>", b!"v: SIP/2.0/TCP b, SIP/2.0/UDP c",
      b!"Subject: s", b!"ROUTE: <sip:y>"]) = .ok m ∧
    m.via.map (·.host) = [b!"a", b!"b", b!"c"] ∧ (m.addrs .route).map (·.uri.map (·.host)) = [some b!"x", some b!"y"] := by
  refine ⟨{ versionMajor := 2, status := 200, phrase := b!"OK", hdr := setAt (fun _ => []) .subject b!"s",
            via := [{ protocol := b!"SIP", version := b!"2.0", transport := b!"UDP", host := b!"a" },
              { protocol := b!"SIP", version := b!"2.0", transport := b!"TCP", host := b!"b" },
              { protocol := b!"SIP", version := b!"2.0", transport := b!"UDP", host := b!"c" }],
            addrs := setAt (fun _ => []) .route [{ uri := some { scheme := b!"sip", host := b!"x" } },
              { uri := some { scheme := b!"sip", host := b!"y" } }] }, ?_, ?_, ?_⟩
  all_goals decide +kernel

/-! ## Commas -/

/-- The same reading of the lines gives the same message. -/
theorem parse_reads {s : Bytes} {ls ls' : List Bytes} {body : Bytes} {m : Msg} (hs : LogicalLine s)
    (hl : ∀ L ∈ ls, HeaderLine L) (hl' : ∀ L ∈ ls', HeaderLine L) (hr : ∀ us, Reads ls us → Reads ls' us)
    (h : parseMsg (headText s ls ++ body) = .ok m) : parseMsg (headText s ls' ++ body) = .ok m := by
  obtain ⟨hb, u0, us, h1, h2, h3⟩ := (parse_head hs hl).1 h
  exact (parse_head hs hl').2 ⟨hb, u0, us, h1, hr us h2, h3⟩

theorem reads_join {pre post : List Bytes} {L M J : Bytes} (h : ∀ u v, Line L u → Line M v → Line J (u ++ v)) :
    ∀ us, Reads (pre ++ L :: M :: post) us → Reads (pre ++ J :: post) us := by
  intro us hr
  obtain ⟨u1, u', rfl, g1, g2⟩ := reads_append.1 hr
  obtain ⟨u2, u', rfl, g3, g4⟩ := reads_cons.1 g2
  obtain ⟨u3, u4, rfl, g5, g6⟩ := reads_cons.1 g4
  refine g1.append ?_
  rw [← List.append_assoc]
  exact .cons (h _ _ g3 g5) g6

theorem mem_join {pre post : List Bytes} {L M J : Bytes} (hl : ∀ K ∈ pre ++ L :: M :: post, HeaderLine K) (hJ : HeaderLine J) :
    ∀ K ∈ pre ++ J :: post, HeaderLine K := by
  refine mem_insert (P := HeaderLine) ?_ hJ
  intro K hK
  rcases List.mem_append.1 hK with hK | hK <;> exact hl K (by simp [hK])

theorem line_same {n n' w w' v : Bytes} {h : Header} {us : List Upd} (hn : IsName n) (hw : Blanks w) (hn' : IsName n')
    (hw' : Blanks w') (hh : headerOf n = some h) (hh' : headerOf n' = some h) (hc : h ≠ .contentLength)
    (g : Line (headerLine n' w' v) us) : Line (headerLine n w v) us := by
  rw [line_known hn hw hh]
  rw [line_known hn' hw' hh'] at g
  cases h <;> first | exact absurd rfl hc | exact g

/-- **C13**, commas in Via headers. Two consecutive Via headers may be joined into one, with a comma between
their values and any blanks around it, without changing the message. -/
theorem C13_comma_via {s : Bytes} {pre post : List Bytes} {n w n' w' a b x body : Bytes} {m : Msg}
    (hs : LogicalLine s) (hl : ∀ L ∈ pre ++ headerLine n w a :: headerLine n' w' b :: post, HeaderLine L)
    (hn : IsName n) (hw : Blanks w) (hn' : IsName n') (hw' : Blanks w') (hh : headerOf n = some .via)
    (hh' : headerOf n' = some .via) (hx : Blanks x)
    (h : parseMsg (headText s (pre ++ headerLine n w a :: headerLine n' w' b :: post) ++ body) = .ok m) :
    parseMsg (headText s (pre ++ headerLine n w (a ++ x ++ b!"," ++ b) :: post) ++ body) = .ok m := by
  have ha := (headerLine_line hn hw).1 (hl (headerLine n w a) (by simp))
  have hb := (headerLine_line hn' hw').1 (hl (headerLine n' w' b) (by simp))
  refine parse_reads hs hl (mem_join hl ((headerLine_line hn hw).2 (logical_comma ha hx hb))) ?_ h
  exact reads_join fun u v hu hv => line_comma_via hn hw hh ha hx hu (line_same hn hw hn' hw' hh hh' (by simp) hv)

/-- Two lines, and one line with the two values. -/
example : ∃ m, parseMsg (headText b!"SIP/2.0 200 OK" ([] ++ headerLine b!"Via" [] b!" SIP/2.0/UDP a:5;x=y" ::
        headerLine b!"v" b!" " b!" SIP/2.0/TCP b" :: []) ++ []) = .ok m ∧
    parseMsg (headText b!"SIP/2.0 200 OK" [b!"Via: SIP/2.0/UDP a:5;x=y \t, SIP/2.0/TCP b"]) = .ok m := by
  have h : parseMsg (headText b!"SIP/2.0 200 OK" ([] ++ headerLine b!"Via" [] b!" SIP/2.0/UDP a:5;x=y" ::
        headerLine b!"v" b!" " b!" SIP/2.0/TCP b" :: []) ++ []) = .ok
      { versionMajor := 2, status := 200, phrase := b!"OK",
        via := [{ protocol := b!"SIP", version := b!"2.0", transport := b!"UDP", host := b!"a", port := 5,
                  param := [(b!"x", b!"y")] },
          { protocol := b!"SIP", version := b!"2.0", transport := b!"TCP", host := b!"b" }] } := by decide +kernel
  refine ⟨_, h, ?_⟩
  have := C13_comma_via (x := b!" \t") (plain_ok (by decide +kernel)) (by
      intro L hL
      simp only [List.nil_append, List.mem_cons, List.not_mem_nil, or_false] at hL
      rcases hL with rfl | rfl <;> exact header_ok (by decide) (by decide +kernel) (by decide +kernel) (by decide +kernel))
    (name_ok (by decide) (by decide +kernel)) (blanks_ok (by decide +kernel)) (name_ok (by decide) (by decide +kernel))
    (blanks_ok (by decide +kernel)) (by decide +kernel) (by decide +kernel) (blanks_ok (by decide +kernel)) h
  exact this

/-- **C13**, commas in headers with addresses. The same, if the address before the comma ends with an angle
bracket, or a blank precedes the comma, or none follows it. (Blanks after the comma are those at the
beginning of `b`.) -/
theorem C13_comma_addr_partial {s : Bytes} {pre post : List Bytes} {n w n' w' a b x body : Bytes} {f : AField} {m : Msg}
    (hs : LogicalLine s) (hl : ∀ L ∈ pre ++ headerLine n w a :: headerLine n' w' b :: post, HeaderLine L)
    (hn : IsName n) (hw : Blanks w) (hn' : IsName n') (hw' : Blanks w') (hh : headerOf n = some (.address f))
    (hh' : headerOf n' = some (.address f)) (hx : Blanks x)
    (hc : a.getLast? = some 62 ∨ x ≠ [] ∨ (¬ Blank b ∧ b.head? ≠ some 13))
    (h : parseMsg (headText s (pre ++ headerLine n w a :: headerLine n' w' b :: post) ++ body) = .ok m) :
    parseMsg (headText s (pre ++ headerLine n w (a ++ x ++ b!"," ++ b) :: post) ++ body) = .ok m := by
  have ha := (headerLine_line hn hw).1 (hl (headerLine n w a) (by simp))
  have hb := (headerLine_line hn' hw').1 (hl (headerLine n' w' b) (by simp))
  refine parse_reads hs hl (mem_join hl ((headerLine_line hn hw).2 (logical_comma ha hx hb))) ?_ h
  exact reads_join fun u v hu hv =>
    line_comma_addr hn hw hh ha hx hu (line_same hn hw hn' hw' hh hh' (by simp) hv) hc

/-- Two contacts. -/
example : ∃ m, parseMsg (headText b!"SIP/2.0 200 OK" ([] ++ headerLine b!"Contact" [] b!" Bob <sip:b>" ::
        headerLine b!"m" [] b!" sip:c" :: []) ++ []) = .ok m ∧
    parseMsg (headText b!"SIP/2.0 200 OK" [b!"Contact: Bob <sip:b>, sip:c"]) = .ok m := by
  have h : parseMsg (headText b!"SIP/2.0 200 OK" ([] ++ headerLine b!"Contact" [] b!" Bob <sip:b>" ::
        headerLine b!"m" [] b!" sip:c" :: []) ++ []) = .ok
      { versionMajor := 2, status := 200, phrase := b!"OK",
        addrs := setAt (fun _ => []) .contact [{ display := b!"Bob", uri := some { scheme := b!"sip", host := b!"b" } },
          { uri := some { scheme := b!"sip", host := b!"c" } }] } := by decide +kernel
  refine ⟨_, h, ?_⟩
  have := C13_comma_addr_partial (x := []) (plain_ok (by decide +kernel)) (by
      intro L hL
      simp only [List.nil_append, List.mem_cons, List.not_mem_nil, or_false] at hL
      rcases hL with rfl | rfl <;> exact header_ok (by decide) (by decide +kernel) (by decide +kernel) (by decide +kernel))
    (name_ok (by decide) (by decide +kernel)) (blanks_ok (by decide +kernel)) (name_ok (by decide) (by decide +kernel))
    (blanks_ok (by decide +kernel)) (f := .contact) (by decide +kernel) (by decide +kernel) (blanks_ok (by decide +kernel))
    (.inl (by decide +kernel)) h
  exact this

/-- **C13 fails** where a URI without angle brackets is followed by a comma and a blank: no message with such a
header is accepted, although the address alone is. The same happens with a semicolon and a blank, before a
parameter. -/
theorem C13_space_after_separator_rejected {s : Bytes} {ls : List Bytes} {n w u rest body : Bytes} {sep c : UInt8}
    {f : AField} {m1 : Msg} (hs : LogicalLine s) (hl : ∀ L ∈ ls, HeaderLine L) (hn : IsName n) (hw : Blanks w)
    (hh : headerOf n = some (.address f)) (hu : LogicalLine u) (h1 : Alone (headerLine n w u) m1)
    (hp : 59 ∉ u ∧ 60 ∉ u) (hsep : sep = 44 ∨ sep = 59) (hc : c = 32 ∨ c = 9)
    (hm : headerLine n w (u ++ sep :: c :: rest) ∈ ls) : ∃ e, parseMsg (headText s ls ++ body) = .err e := by
  rcases C07_parseMsg_never_panics (headText s ls ++ body) with ⟨m, h⟩ | h
  · exfalso
    obtain ⟨_, _, us, _, h2, _⟩ := (parse_head hs hl).1 h
    obtain ⟨pre, post, rfl⟩ := List.append_of_mem hm
    obtain ⟨_, _, _, _, g⟩ := reads_append.1 h2
    obtain ⟨_, _, _, g, _⟩ := reads_cons.1 g
    have h1 : parseMsg (headText b!"SIP/2.0 200 OK" [headerLine n w u] ++ []) = .ok m1 := by
      rw [List.append_nil]; exact h1
    obtain ⟨_, _, _, _, h3, _⟩ := (parse_head (plain_ok (by decide +kernel))
      (by simpa using (headerLine_line hn hw).2 hu)).1 h1
    obtain ⟨_, _, _, h3, _⟩ := reads_cons.1 h3
    exact addr_space hn hw hh hu h3 (fun d hd => ⟨fun e => hp.1 (e ▸ hd), fun e => hp.2 (e ▸ hd)⟩) hsep hc g
  · exact h

/-- `Contact: sip:a` is accepted, and `Contact: sip:a, <sip:b>` is not. -/
example (body : Bytes) : ∃ e, parseMsg (headText b!"SIP/2.0 200 OK" [headerLine b!"Contact" [] b!" sip:a, <sip:b>"] ++ body) = .err e :=
  C13_space_after_separator_rejected (n := b!"Contact") (w := []) (u := b!" sip:a") (sep := 44) (c := 32)
    (rest := b!"<sip:b>") (f := .contact)
    (m1 := { versionMajor := 2, status := 200, phrase := b!"OK",
             addrs := setAt (fun _ => []) .contact [{ uri := some { scheme := b!"sip", host := b!"a" } }] })
    (plain_ok (by decide +kernel))
    (by
      intro L hL
      simp only [List.mem_cons, List.not_mem_nil, or_false] at hL
      subst hL
      exact header_ok (by decide) (by decide +kernel) (by decide +kernel) (by decide +kernel))
    (name_ok (by decide) (by decide +kernel)) (blanks_ok (by decide +kernel)) (by decide +kernel)
    (plain_ok (by decide +kernel)) (by unfold Alone; decide +kernel) (by decide +kernel) (.inl rfl) (.inl rfl)
    (by exact List.mem_cons_self)

end Gosip.Props
