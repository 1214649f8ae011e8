import Verif.Sip.UriGrammar2

/-! # Lemmas on the text of a URI -/

namespace Gosip.Sip
open Spec

theorem unescapes_escaped' (p : UInt8 → Bool) (Q : UInt8 → Prop) (s : Bytes)
    (h : ∀ c ∈ s, p c = true → Q c) : Unescapes Q (escaped p s) s := by
  induction s with
  | nil => exact .nil
  | cons c s ih =>
    have ih := ih fun c hc => h c (by simp [hc])
    unfold escaped
    split
    · exact .lit (h c (by simp) ‹_›) ih
    · have := Unescapes.esc (p := Q) (hex_hi c) (hex_lo c) ih
      rwa [hex_join] at this

theorem hostText_spec (h : Bytes) (ok : HostOK h) : HostText (hostText h) h := by
  obtain ⟨h1, h2, h3⟩ := ok
  unfold hostText isIPv6
  rcases h3 with h3 | ⟨h3, h4⟩
  · have : ¬ h.contains 58 = true := by
      intro hc; simp at hc; exact absurd (h3 _ hc) (by decide)
    rw [if_neg this]
    have := HostText.name h1 h3
    rwa [h2] at this
  · rw [if_pos (by simpa using h3)]
    have := HostText.ip6 h1 h4
    rwa [h2] at this

theorem portText_spec (p : UInt16) :
    PortText (if p > 0 then b!":" ++ portstr p else []) p := by
  split
  · have := PortText.some (natDec_ne_nil p.toNat) (fun c hc => by
      have := (isDigit_iff c).1 (natDec_isDigit p.toNat c hc); exact this)
    rw [decVal_natDec] at this
    simpa [portstr] using this
  · rename_i h
    have : p = 0 := by
      rw [← UInt16.toNat_inj]; simp [UInt16.lt_iff_toNat_lt] at h ⊢; omega
    subst this; exact .none

theorem pairText_spec (Q : UInt8 → Prop) (n v : Bytes) (hn : n ≠ [])
    (h1 : ∀ c ∈ n, paramc c = true → Q c) (h2 : ∀ c ∈ v, paramc c = true → Q c) :
    PairText Q (escaped paramc n ++ (if v ≠ [] then b!"=" ++ escaped paramc v else [])) (n, v) := by
  by_cases hv : v = []
  · subst hv
    have := PairText.name (unescapes_escaped' paramc Q n h1) hn
    simpa using this
  · rw [if_pos hv]
    have := PairText.value (unescapes_escaped' paramc Q n h1) hn (unescapes_escaped' paramc Q v h2) hv
    simpa using this

theorem paramsText_append {a b : Bytes} {l m : List (Bytes × Bytes)} (h1 : ParamsText a l)
    (h2 : ParamsText b m) : ParamsText (a ++ b) (l ++ m) := by
  induction h1 with
  | nil => exact h2
  | cons hp _ ih => have := ParamsText.cons hp ih; simpa using this

theorem paramsText_spec (l : Pairs) (h : ∀ p ∈ l, p.1 ≠ []) :
    ParamsText (uriParamText l) l.reverse := by
  induction l with
  | nil => exact .nil
  | cons p l ih =>
    obtain ⟨n, v⟩ := p
    have hp := pairText_spec param n v (h (n, v) (by simp)) (fun c _ hc => (paramc_iff c).1 hc)
      (fun c _ hc => (paramc_iff c).1 hc)
    have := paramsText_append (ih fun p hp => h p (by simp [hp])) (ParamsText.cons hp .nil)
    rw [uriParamText, List.reverse_cons]
    simpa using this

theorem headerList_append {a b : Bytes} {l m : List (Bytes × Bytes)} (h1 : HeaderListText a l)
    (h2 : HeaderListText b m) : HeaderListText (a ++ b!"&" ++ b) (l ++ m) := by
  induction h1 with
  | one hp => exact .cons hp h2
  | cons hp _ ih => have := HeaderListText.cons hp ih; simpa using this

theorem param_header : ∀ c, paramc c = true → c ≠ 38 → header c := by decide +kernel

theorem headersText_spec (l : Pairs) (h : ∀ p ∈ l, p.1 ≠ [] ∧ 38 ∉ p.1 ∧ 38 ∉ p.2) :
    HeadersText (uriHeaderText l) l.reverse := by
  cases hl : l with
  | nil => exact .none
  | cons p l' =>
    have key : ∀ l : Pairs, l ≠ [] → (∀ p ∈ l, p.1 ≠ [] ∧ 38 ∉ p.1 ∧ 38 ∉ p.2) →
        ∃ t, uriHeaderText l = 63 :: t ∧ HeaderListText t l.reverse := by
      intro l
      induction l with
      | nil => intro h; exact absurd rfl h
      | cons p l ih =>
        obtain ⟨n, v⟩ := p
        intro _ h
        obtain ⟨h1, h2, h3⟩ := h (n, v) (by simp)
        have hp := pairText_spec header n v h1
          (fun c hc hp => param_header c hp fun e => h2 (e ▸ hc))
          (fun c hc hp => param_header c hp fun e => h3 (e ▸ hc))
        rw [uriHeaderText]
        by_cases hl : l = []
        · subst hl
          exact ⟨_, rfl, HeaderListText.one hp⟩
        · obtain ⟨t, g1, g2⟩ := ih hl fun p hp => h p (by simp [hp])
          refine ⟨t ++ b!"&" ++ (escaped paramc n ++
            (if v ≠ [] then b!"=" ++ escaped paramc v else [])), ?_, ?_⟩
          · rw [if_pos hl, g1]; simp
          · rw [List.reverse_cons]; exact headerList_append g2 (.one hp)
    obtain ⟨t, g1, g2⟩ := key l (by simp [hl]) h
    rw [← hl, g1]
    exact .some g2

theorem userText_spec (u : URI) (h : u.user = [] → u.pass = []) :
    UserText (userText u) u.user u.pass := by
  unfold userText
  by_cases hu : u.user = []
  · rw [if_neg (by simp [hu]), hu, h hu]; exact .none
  · rw [if_pos hu]
    have h1 := unescapes_escaped' userc user u.user (fun c _ hc => (userc_iff c).1 hc)
    by_cases hp : u.pass = []
    · rw [if_neg (by simp [hp]), hp]; exact .user h1 hu
    · rw [if_pos hp]
      exact .userPass h1 hu (unescapes_escaped' passc pass u.pass (fun c _ hc => (passc_iff c).1 hc)) hp

theorem uriText_spec (u : URI) (hs : SchemeOK u.scheme) (hh : HostOK u.host)
    (hp : u.user = [] → u.pass = []) (hn : ∀ p ∈ u.param, p.1 ≠ [])
    (hd : ∀ p ∈ u.header, p.1 ≠ [] ∧ 38 ∉ p.1 ∧ 38 ∉ p.2) : URIText u.text u := by
  have := URIText.mk hs (userText_spec u hp) (hostText_spec u.host hh) (portText_spec u.port)
    (paramsText_spec u.param hn) (headersText_spec u.header hd)
  have hne : u.scheme ≠ [] := by
    intro h; unfold SchemeOK at hs; rw [h] at hs; nomatch hs
  simp only [List.reverse_reverse] at this
  unfold URI.text
  rw [if_neg hne]
  exact this

end Gosip.Sip
