import Verif.Sip.QuoteLemmas

/-!
# Properties C05, C06, C16: character sets, percent escaping, quoting
-/

namespace Gosip.Props
open Sip Spec

/-- **C06.** The masks computed at start-up are exactly the RFC 3261 classes. -/
theorem C06_charsets_are_rfc_sets (c : UInt8) :
    (tokenc c = true ↔ token c) ∧ (qdtextc c = true ↔ qdtext c) ∧ (userc c = true ↔ user c) ∧
    (passc c = true ↔ pass c) ∧ (paramc c = true ↔ param c) ∧ (headerc c = true ↔ header c) ∧
    (qdtextesc c = true ↔ quotable c) :=
  ⟨tokenc_iff c, qdtextc_iff c, userc_iff c, passc_iff c, paramc_iff c, headerc_iff c,
    qdtextesc_iff c⟩

/-- The two sides are neither always true nor always false. -/
example : tokenc 97 = true ∧ tokenc 32 = false ∧ tokenc 200 = false ∧ token 97 ∧ ¬ token 32 := by
  decide +kernel

theorem unescape_of_unescapes {p : UInt8 → Prop} (hp : ¬ p 37) {t s : Bytes}
    (h : Unescapes p t s) : unescape t = s := by
  induction h with
  | nil => simp [unescape]
  | @lit c t s hc _ ih =>
    have hne : c ≠ 37 := fun e => hp (e ▸ hc)
    rw [unescape]
    · rw [ih]
    · intro a b t' e
      exact absurd e hne
  | esc hx hy _ ih => rw [unescape, hx, hy]; simp [ih]

/-- **C05.** Decoding the escaped form of any byte string gives it back, for every character
predicate that does not accept `%`; the escaped form consists of accepted bytes, `%` and
lower-case hexadecimal digits. -/
theorem C05_unescape_escape (p : UInt8 → Bool) (hp : p 37 = false) (s : Bytes) :
    unescape (escaped p s) = s ∧
    ∀ c ∈ escaped p s, p c = true ∨ c = 37 ∨ c ∈ b!"0123456789abcdef" :=
  ⟨unescape_of_unescapes (p := fun c => p c = true) (by simp [hp]) (unescapes_escaped p s),
    escaped_mem p s⟩

/-- All predicates with which the library escapes satisfy the hypothesis. -/
example : userc 37 = false ∧ passc 37 = false ∧ paramc 37 = false := by decide +kernel

example : escaped userc b!"a b@%" = b!"a%20b%40%25" := by decide +kernel

/-- **C16 (first part).** Whatever the bytes, the text written for a parameter value or display
name is either the value itself, made of token characters and spaces, or one well delimited
quoted string: no unescaped quote inside, no CR except in a fold, closing quote present.
A bare LF in the value is passed through, hence `_partial`: see `C16_bare_lf_passes`. -/
theorem C16_quoted_text_partial (s : Bytes) :
    (quoted s = s ∧ ∀ c ∈ s, token c ∨ c = 32) ∨
    ∃ body, quoted s = 34 :: (body ++ [34]) ∧ QBodyLF body := by
  unfold quoted
  split
  · exact .inr ⟨quoteLoop s, rfl, quoteLoop_lf s⟩
  · rename_i h
    exact .inl ⟨rfl, fun c hc => (quoted_plain_mem s h c hc).imp_left (tokenc_iff c).1⟩

/-- **C16 (second part).** For a value without a bare LF the full claim holds: no line break at
all except folds. -/
theorem C16_quoted_text_no_bare_lf_partial (s : Bytes) (h : noBareLF 0 s) :
    (quoted s = s ∧ ∀ c ∈ s, token c ∨ c = 32) ∨
    ∃ body, quoted s = 34 :: (body ++ [34]) ∧ QBody body := by
  unfold quoted
  split
  · exact .inr ⟨quoteLoop s, rfl, quoteLoop_strict s 0 (by decide) h⟩
  · rename_i h
    exact .inl ⟨rfl, fun c hc => (quoted_plain_mem s h c hc).imp_left (tokenc_iff c).1⟩

example : noBareLF 0 b!"say \"hi\"\r\n there" := by simp [noBareLF]
example : quoted b!"say \"hi\"" = b!"\"say \\\"hi\\\"\"" := by decide +kernel

/-- **C16 is false as stated**: the value `LF` is written as a quoted string containing a raw LF. -/
theorem C16_bare_lf_passes :
    quoted [10] = [34, 10, 34] ∧ ¬ ∃ body, quoted [10] = 34 :: (body ++ [34]) ∧ QBody body := by
  have h : quoted [10] = [34, 10, 34] := by decide +kernel
  refine ⟨h, ?_⟩
  rintro ⟨body, hb, hq⟩
  rw [h] at hb
  have : body = [10] := by
    have h1 : [10, 34] = body ++ [34] := (List.cons.inj hb).2
    have : ([10] : Bytes) ++ [34] = body ++ [34] := h1
    exact (List.append_cancel_right this).symm
  subst this
  cases hq with
  | plain _ _ _ h _ => exact h rfl

end Gosip.Props
