import Verif.Sip.ForwardParam
import Verif.Sip.UriGrammar2

/-!
# The characters of a URI written by the library
-/

namespace Gosip.Sip.MsgM
open Spec

/-- Characters of a URI. -/
def uric (c : UInt8) : Prop := alnum c ∨ c ∈ b!"!$%&'()*+,-./:;=?@[]_~"

instance (c : UInt8) : Decidable (uric c) := inferInstanceAs (Decidable (_ ∨ _))

theorem uric_append {a b : Bytes} (h1 : ∀ c ∈ a, uric c) (h2 : ∀ c ∈ b, uric c) : ∀ c ∈ a ++ b, uric c := by
  intro c hc
  rcases List.mem_append.1 hc with h | h
  · exact h1 c h
  · exact h2 c h

theorem uric_unescapes {P : UInt8 → Prop} (hP : ∀ c, P c → uric c) {t s : Bytes} (h : Unescapes P t s) :
    ∀ c ∈ t, uric c := by
  have hx : ∀ c : UInt8, hexVal c ≠ none → uric c := by decide +kernel
  induction h with
  | nil => intro c hc; cases hc
  | lit h1 _ ih =>
    intro c hc
    rcases List.mem_cons.1 hc with rfl | hc
    · exact hP _ h1
    · exact ih c hc
  | esc h1 h2 _ ih =>
    intro c hc
    rcases List.mem_cons.1 hc with rfl | hc
    · decide
    rcases List.mem_cons.1 hc with rfl | hc
    · exact hx _ (by rw [h1]; simp)
    rcases List.mem_cons.1 hc with rfl | hc
    · exact hx _ (by rw [h2]; simp)
    · exact ih c hc

theorem uric_lit {s : Bytes} (h : s.all (fun c => decide (uric c)) = true) : ∀ c ∈ s, uric c := by
  intro c hc
  simpa using List.all_eq_true.1 h c hc

theorem uric_pair {P : UInt8 → Prop} (hP : ∀ c, P c → uric c) {t : Bytes} {p : Bytes × Bytes} (h : PairText P t p) :
    ∀ c ∈ t, uric c := by
  cases h with
  | name h1 _ => exact uric_unescapes hP h1
  | value h1 _ h2 _ => exact uric_append (uric_append (uric_unescapes hP h1) (uric_lit (by decide))) (uric_unescapes hP h2)

theorem uric_params {t : Bytes} {l : List (Bytes × Bytes)} (h : ParamsText t l) : ∀ c ∈ t, uric c := by
  have hP : ∀ c : UInt8, param c → uric c := by decide +kernel
  induction h with
  | nil => intro c hc; cases hc
  | cons h1 _ ih => exact uric_append (uric_append (uric_lit (by decide)) (uric_pair hP h1)) ih

theorem uric_headers {t : Bytes} {l : List (Bytes × Bytes)} (h : HeadersText t l) : ∀ c ∈ t, uric c := by
  have hP : ∀ c : UInt8, header c → uric c := by decide +kernel
  cases h with
  | none => intro c hc; cases hc
  | some h =>
    refine uric_append (uric_lit (by decide)) ?_
    induction h with
    | one h1 => exact uric_pair hP h1
    | cons h1 _ ih => exact uric_append (uric_append (uric_pair hP h1) (uric_lit (by decide))) ih

/-- A URI is a scheme, a colon and more characters. -/
theorem uri_shape {t : Bytes} {u : URI} (h : URIText t u) :
    ∃ c s r, t = c :: s ++ 58 :: r ∧ isAlpha c ∧ (∀ d ∈ s, schemec d) ∧ r ≠ [] ∧ ∀ d ∈ r, uric d := by
  obtain ⟨hs, hu, hh, hp, hps, hhs⟩ := h
  cases hs with
  | @mk c s h1 h2 =>
    rename_i ut usr pw hst host pt port ps params hs hdrs
    refine ⟨c, s, ut ++ hst ++ pt ++ ps ++ hs, by simp, h1, h2, ?_, ?_⟩
    · have : hst ≠ [] := by cases hh <;> simp_all
      simp [this]
    · have hH : ∀ c : UInt8, hostc c → uric c := by decide +kernel
      have h6 : ∀ c : UInt8, ip6c c → uric c := by decide +kernel
      have hD : ∀ c : UInt8, isDig c → uric c := by decide +kernel
      have hU : ∀ c : UInt8, Spec.user c → uric c := by decide +kernel
      have hW : ∀ c : UInt8, Spec.pass c → uric c := by decide +kernel
      refine uric_append (uric_append (uric_append (uric_append ?_ ?_) ?_) (uric_params hps)) (uric_headers hhs)
      · cases hu with
        | none => intro c hc; cases hc
        | user h1 _ => exact uric_append (uric_unescapes hU h1) (uric_lit (by decide))
        | userPass h1 _ h2 _ => exact uric_append (uric_append (uric_append (uric_unescapes hU h1) (uric_lit (by decide)))
            (uric_unescapes hW h2)) (uric_lit (by decide))
      · cases hh with
        | name _ h => exact fun c hc => hH c (h c hc)
        | ip6 _ h => exact uric_append (uric_append (uric_lit (by decide)) fun c hc => h6 c (h c hc)) (uric_lit (by decide))
      · cases hp with
        | none => intro c hc; cases hc
        | some _ h => exact uric_append (uric_lit (by decide)) fun c hc => hD c (h c hc)

theorem uriOf_text {t : Bytes} {u : URI} (h : URIText t u) : uriOf t = some u := by
  have := (Uri.parseURI_grammar t u).2 h
  unfold uriOf
  rw [this]

end Gosip.Sip.MsgM
