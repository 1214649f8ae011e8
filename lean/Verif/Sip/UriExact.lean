import Verif.Sip.UriTextLemmas

/-!
# Lemmas for the exact condition under which a URI is read back as written (C03)
-/

namespace Gosip.Sip.Uri
open Spec

/-- The parts of the text of a URI. -/
theorem uriText_parts {d : Bytes} {u : URI} (h : URIText d u) : ∃ s ut h pt ps hs,
    d = (s ++ b!":") ++ ut ++ (h ++ pt ++ ps) ++ hs ∧ SchemeText s u.scheme ∧ UserText ut u.user u.pass ∧
    HostText h u.host ∧ PortText pt u.port ∧ ParamsText ps u.param.reverse ∧ HeadersText hs u.header.reverse := by
  cases h with
  | @mk s sch ut usr pw h host pt port ps params hs hdrs a1 a2 b1 b2 b3 b4 =>
    exact ⟨s, ut, h, pt, ps, hs, by simp, a1, a2, b1, b2, by simpa using b3, by simpa using b4⟩

/-- The same without the headers. -/
theorem uriText_plain {s ut h pt ps : Bytes} {u : URI} (a1 : SchemeText s u.scheme) (a2 : UserText ut u.user u.pass)
    (b1 : HostText h u.host) (b2 : PortText pt u.port) (b3 : ParamsText ps u.param.reverse) :
    URIText ((s ++ b!":") ++ ut ++ (h ++ pt ++ ps)) { u with header := [] } := by
  have := URIText.mk a1 a2 b1 b2 b3 .none
  simpa using this

theorem unescapes_notMem {P : UInt8 → Prop} {c : UInt8} (hP : ¬ P c) (hc : c ≠ 37) (hx : hexVal c = none) {t s : Bytes}
    (h : Unescapes P t s) : c ∉ t := by
  induction h with
  | nil => simp
  | @lit d t s hp _ ih => simp only [List.mem_cons, not_or]; exact ⟨fun h => hP (h ▸ hp), ih⟩
  | @esc h l x y t s h1 h2 _ ih =>
    simp only [List.mem_cons, not_or]
    refine ⟨hc, ?_, ?_, ih⟩
    · rintro rfl; rw [hx] at h1; simp at h1
    · rintro rfl; rw [hx] at h2; simp at h2

theorem pair_notMem {P : UInt8 → Prop} {c : UInt8} (hP : ¬ P c) (hc : c ≠ 37) (he : c ≠ 61) (hx : hexVal c = none)
    {t : Bytes} {p : Bytes × Bytes} (h : PairText P t p) : c ∉ t := by
  cases h with
  | name a b => exact unescapes_notMem hP hc hx a
  | value a b c' d =>
    simp only [List.mem_append, not_or]
    exact ⟨⟨unescapes_notMem hP hc hx a, by simpa using he⟩, unescapes_notMem hP hc hx c'⟩

theorem scheme_query {t s : Bytes} (h : SchemeText t s) : 63 ∉ t := by
  cases h with
  | mk a b =>
    simp only [List.mem_cons, not_or]
    refine ⟨?_, fun h => absurd (b _ h) (by decide)⟩
    rintro rfl; exact absurd a (by decide)

theorem host_query {t s : Bytes} (h : HostText t s) : 63 ∉ t := by
  cases h with
  | name a b => intro h; exact absurd (b _ h) (by decide)
  | ip6 a b =>
    simp only [List.mem_append, not_or]
    refine ⟨⟨by decide, fun h => absurd (b _ h) (by decide)⟩, by decide⟩

theorem port_query {t : Bytes} {p : UInt16} (h : PortText t p) : 63 ∉ t := by
  cases h with
  | none => simp
  | some a b =>
    simp only [List.mem_append, not_or]
    exact ⟨by decide, fun h => absurd (b _ h) (by decide)⟩

theorem params_query {t : Bytes} {l : List (Bytes × Bytes)} (h : ParamsText t l) : 63 ∉ t := by
  induction h with
  | nil => simp
  | cons a _ ih =>
    simp only [List.mem_append, not_or]
    exact ⟨⟨by decide, pair_notMem (by decide) (by decide) (by decide) (by decide) a⟩, ih⟩

theorem user_at {t u p : Bytes} (h : UserText t u p) : (u = [] ∧ t = []) ∨ (u ≠ [] ∧ ∃ y, t = y ++ [64] ∧ 64 ∉ y) := by
  cases h with
  | none => exact .inl ⟨rfl, rfl⟩
  | user a b => exact .inr ⟨b, _, rfl, unescapes_at (by decide) a⟩
  | userPass a b c d =>
    refine .inr ⟨b, _, rfl, ?_⟩
    simp only [List.mem_append, not_or]
    exact ⟨⟨unescapes_at (by decide) a, by decide⟩, unescapes_at (by decide) c⟩

theorem split_first {c : UInt8} : ∀ {a b r s : Bytes}, c ∉ a → c ∉ b → a ++ c :: r = b ++ c :: s → r = s
  | [], [], _, _, _, _, h => by simpa using h
  | [], y :: b, _, _, _, hb, h => by simp at h; simp [h.1] at hb
  | x :: a, [], _, _, ha, _, h => by simp at h; simp [h.1] at ha
  | x :: a, y :: b, r, s, ha, hb, h => by
    simp only [List.mem_cons, not_or] at ha hb
    simp only [List.cons_append, List.cons.injEq] at h
    exact split_first ha.2 hb.2 h.2

theorem headers_nil {hs : Bytes} (h : HeadersText hs []) : hs = [] := by
  cases h with
  | none => rfl
  | some a => cases a

theorem headers_head {hs : Bytes} {l : List (Bytes × Bytes)} (h : HeadersText hs l) : hs = [] ∨ ∃ r, hs = 63 :: r := by
  cases h with
  | none => exact .inl rfl
  | some a => exact .inr ⟨_, rfl⟩

/-- A text with a question mark after the text of a URI is not another text of that URI. -/
theorem no_query {A X : Bytes} {v : URI} (hv : v.header = []) (h1 : URIText A v) (h2 : URIText (A ++ 63 :: X) v) : False := by
  obtain ⟨s, ut, h, pt, ps, hs, e1, a1, a2, a3, a4, a5, a6⟩ := uriText_parts h1
  obtain ⟨s', ut', h', pt', ps', hs', e2, b1, b2, b3, b4, b5, b6⟩ := uriText_parts h2
  rw [hv] at a6 b6
  have z1 := headers_nil a6
  have z2 := headers_nil b6
  subst z1 z2
  have q1 : 63 ∉ s' ++ b!":" := by
    simp only [List.mem_append, not_or]; exact ⟨scheme_query b1, by decide⟩
  have q2 : 63 ∉ h' ++ pt' ++ ps' := by
    simp only [List.mem_append, not_or]; exact ⟨⟨host_query b3, port_query b4⟩, params_query b5⟩
  have r1 : 64 ∉ s ++ b!":" := by
    simp only [List.mem_append, not_or]; exact ⟨scheme_at a1, by decide⟩
  have r2 : 64 ∉ s' ++ b!":" := by
    simp only [List.mem_append, not_or]; exact ⟨scheme_at b1, by decide⟩
  have hin : 63 ∈ A ++ 63 :: X := by simp
  rcases user_at b2 with ⟨_, k2⟩ | ⟨k0, y, k2, k3⟩
  · rw [e2, k2] at hin
    simp only [List.append_nil, List.mem_append, not_or] at hin q1 q2
    rcases hin with hin | hin
    · exact hin.elim q1.1 q1.2
    · rcases hin with (hin | hin) | hin
      · exact q2.1.1 hin
      · exact q2.1.2 hin
      · exact q2.2 hin
  · rcases user_at a2 with ⟨k4, _⟩ | ⟨_, z, k4, k5⟩
    · exact k0 k4
    · rw [e1, k4, k2] at e2
      have e3 : ((s ++ b!":") ++ z) ++ 64 :: ((h ++ pt ++ ps) ++ 63 :: X) =
          ((s' ++ b!":") ++ y) ++ 64 :: (h' ++ pt' ++ ps') := by simpa using e2
      have := split_first (by
          rw [List.mem_append]; exact fun h => h.elim r1 k5) (by
          rw [List.mem_append]; exact fun h => h.elim r2 k3) e3
      rw [← this] at q2
      simp at q2

theorem uriHeaderText_head : ∀ l : Pairs, l ≠ [] → ∃ r, uriHeaderText l = 63 :: r
  | [], h => absurd rfl h
  | (n, v) :: l, _ => by
    by_cases hl : l = []
    · subst hl; exact ⟨_, by simp only [uriHeaderText]; rfl⟩
    · obtain ⟨r, hr⟩ := uriHeaderText_head l hl
      exact ⟨_, by simp only [uriHeaderText, if_pos hl, hr, List.cons_append]; rfl⟩

theorem headerList_count {t : Bytes} {l : List (Bytes × Bytes)} (h : HeaderListText t l) : t.count 38 + 1 = l.length := by
  have hp : ∀ {t : Bytes} {p : Bytes × Bytes}, PairText header t p → t.count 38 = 0 := fun h =>
    List.count_eq_zero.2 (pair_notMem (by decide) (by decide) (by decide) (by decide) h)
  induction h with
  | one a => simp [hp a]
  | cons a _ ih =>
    simp only [List.count_append, hp a, List.length_cons]
    have : List.count 38 b!"&" = 1 := by decide
    omega

theorem headers_count {t : Bytes} {l : List (Bytes × Bytes)} (h : HeadersText t l) (hl : l ≠ []) :
    t.count 38 + 1 = l.length := by
  cases h with
  | none => exact absurd rfl hl
  | some a =>
    rw [← headerList_count a, List.count_append]
    have : List.count 38 b!"?" = 0 := by decide
    omega

theorem count_escaped (s : Bytes) : s.count 38 ≤ (escaped paramc s).count 38 := by
  induction s with
  | nil => simp
  | cons c s ih =>
    unfold escaped
    split
    · simp only [List.count_cons]; omega
    · rename_i hc
      have : c ≠ 38 := by rintro rfl; exact hc (by decide)
      simp only [List.count_cons, beq_iff_eq, if_neg this]
      omega

/-- How many ampersands the names and values of a list have. -/
def ampersands : Pairs → Nat
  | [] => 0
  | p :: l => p.1.count 38 + p.2.count 38 + ampersands l

theorem ampersands_zero : ∀ {l : Pairs}, ampersands l = 0 → ∀ p ∈ l, 38 ∉ p.1 ∧ 38 ∉ p.2
  | [], _, p, hp => by simp at hp
  | q :: l, h, p, hp => by
    unfold ampersands at h
    rcases List.mem_cons.1 hp with rfl | hp
    · exact ⟨List.count_eq_zero.1 (by omega), List.count_eq_zero.1 (by omega)⟩
    · exact ampersands_zero (by omega) p hp

theorem uriHeaderText_count : ∀ l : Pairs, l ≠ [] → l.length + ampersands l ≤ (uriHeaderText l).count 38 + 1
  | [], h => absurd rfl h
  | (n, v) :: l, _ => by
    have h1 := count_escaped n
    have h2 : v.count 38 ≤ (if v ≠ [] then b!"=" ++ escaped paramc v else []).count 38 := by
      by_cases hv : v = []
      · subst hv; simp
      · rw [if_pos hv, List.count_append]
        exact Nat.le_trans (count_escaped v) (Nat.le_add_left _ _)
    by_cases hl : l = []
    · subst hl
      simp only [uriHeaderText, ampersands, List.count_append, List.length_cons, List.length_nil]
      omega
    · have ih := uriHeaderText_count l hl
      have h3 : List.count 38 b!"&" = 1 := by decide
      simp only [uriHeaderText, ampersands, if_pos hl, List.count_append, List.length_cons, h3]
      omega

/-- What the headers of a URI must be for the URI to be read back. -/
theorem text_headers {u : URI} (hu : URIText u.text u) (hp : URIText ({ u with header := [] } : URI).text { u with header := [] }) :
    ∀ p ∈ u.header, 38 ∉ p.1 ∧ 38 ∉ p.2 := by
  by_cases hl : u.header = []
  · rw [hl]; simp
  obtain ⟨s, ut, h, pt, ps, hs, e1, a1, a2, a3, a4, a5, a6⟩ := uriText_parts hu
  have hA := uriText_plain a1 a2 a3 a4 a5
  have e2 : u.text = ({ u with header := [] } : URI).text ++ uriHeaderText u.header := by
    simp [URI.text, userText, uriHeaderText]
  have hne : u.header.reverse ≠ [] := by simpa using hl
  have hq : hs = uriHeaderText u.header := by
    rw [e2] at e1
    obtain ⟨r, hr⟩ := uriHeaderText_head u.header hl
    rcases List.append_eq_append_iff.1 e1 with ⟨X, k1, k2⟩ | ⟨X, k1, k2⟩
    · cases X with
      | nil => simpa using k2.symm
      | cons c X =>
        rw [hr] at k2
        simp only [List.cons_append, List.cons.injEq] at k2
        rw [k1, ← k2.1] at hA
        exact (no_query rfl hp hA).elim
    · cases X with
      | nil => simpa using k2
      | cons c X =>
        rcases headers_head a6 with hh | ⟨r', hh⟩
        · rw [hh] at k2; simp at k2
        · rw [hh] at k2
          simp only [List.cons_append, List.cons.injEq] at k2
          rw [k1, ← k2.1] at hp
          exact (no_query rfl hA hp).elim
  rw [hq] at a6
  have c1 := headers_count a6 hne
  have c2 := uriHeaderText_count u.header hl
  rw [List.length_reverse] at c1
  exact ampersands_zero (by omega)

/-- Every host the parser returns is legal. -/
theorem hostText_ok {t h : Bytes} (a : HostText t h) : HostOK h := by
  have hl : ∀ c, lower (lower c) = lower c := by decide +kernel
  have hh : ∀ c, hostc c → hostc (lower c) := by decide +kernel
  have h6 : ∀ c, ip6c c → ip6c (lower c) := by decide +kernel
  have h7 : ∀ c, ip6c c → c ≠ 58 → hostc c := by decide +kernel
  have hll : lower ∘ lower = lower := funext hl
  cases a with
  | name b c =>
    refine ⟨by simpa using b, by simp [hll], .inl ?_⟩
    intro d hd
    simp only [List.mem_map] at hd
    obtain ⟨e, he, rfl⟩ := hd
    exact hh e (c e he)
  | @ip6 t b c =>
    refine ⟨by simpa using b, by simp [hll], ?_⟩
    have h8 : ∀ d ∈ t.map lower, ip6c d := by
      intro d hd
      simp only [List.mem_map] at hd
      obtain ⟨e, he, rfl⟩ := hd
      exact h6 e (c e he)
    by_cases h58 : 58 ∈ t.map lower
    · exact .inr ⟨h58, h8⟩
    · exact .inl fun d hd => h7 d (h8 d hd) (fun e => h58 (e ▸ hd))

end Gosip.Sip.Uri
