import Verif.Sip.CharsetLemmas
import Verif.Spec.Quote

/-! Helper lemmas on quoting. -/

namespace Gosip.Sip
open Spec

theorem qd_not_quote : ∀ c, qdtextc c = true → c ≠ 34 ∧ c ≠ 92 := by decide +kernel
theorem qd_wsp : qdtextc 32 = true ∧ qdtextc 9 = true ∧ qdtextc 10 = true := by decide +kernel

theorem foldAhead_iff (s : Bytes) :
    foldAhead s = true ↔ ∃ w r, s = 10 :: w :: r ∧ (w = 32 ∨ w = 9) := by
  match s with
  | [] => simp [foldAhead]
  | [c] => simp [foldAhead]
  | c :: w :: r =>
    simp only [foldAhead, Bool.and_eq_true, beq_iff_eq, Bool.or_eq_true, List.cons.injEq]
    constructor
    · rintro ⟨h1, h2⟩; exact ⟨w, r, ⟨h1, rfl, rfl⟩, h2⟩
    · rintro ⟨w', r', ⟨h1, h2, _⟩, h3⟩; exact ⟨h1, h2 ▸ h3⟩

theorem quoteLoop_fold (w : UInt8) (r : Bytes) (hw : w = 32 ∨ w = 9) :
    quoteLoop (10 :: w :: r) = 10 :: w :: quoteLoop r ∧ quoteLoop (w :: r) = w :: quoteLoop r := by
  have hww : quoteLoop (w :: r) = w :: quoteLoop r := by
    rw [quoteLoop]
    rcases hw with rfl | rfl <;> simp [qd_wsp.1, qd_wsp.2.1]
  refine ⟨?_, hww⟩
  rw [quoteLoop, hww]; simp [qd_wsp.2.2]

theorem quoteLoop_lf (s : Bytes) : QBodyLF (quoteLoop s) := by
  induction s with
  | nil => exact .nil
  | cons c s ih =>
    unfold quoteLoop
    split
    · rename_i hq
      have hne := qd_not_quote c hq
      split
      · exact .nil
      · rename_i hc
        by_cases h13 : c = 13
        · have hf : foldAhead s = true := by
            cases h : foldAhead s
            · exact absurd ⟨h13, h⟩ hc
            · rfl
          obtain ⟨w, r, rfl, hw⟩ := (foldAhead_iff s).1 hf
          rw [(quoteLoop_fold w r hw).1] at ih ⊢
          subst h13
          exact .fold hw ih
        · exact .plain hne.1 hne.2 h13 ih
    · split
      · exact .nil
      · rename_i h
        exact .pair ((qdtextesc_iff c).1 (by simpa using h)) ih

theorem quoteLoop_strict (s : Bytes) (prev : UInt8) (hp : prev ≠ 13) (h : noBareLF prev s) :
    QBody (quoteLoop s) := by
  induction hn : s.length using Nat.strongRecOn generalizing s prev with
  | ind n ih =>
  cases s with
  | nil => exact .nil
  | cons c s =>
    simp only [noBareLF] at h
    unfold quoteLoop
    split
    · rename_i hq
      have hne := qd_not_quote c hq
      split
      · exact .nil
      · rename_i hc
        by_cases h13 : c = 13
        · have hf : foldAhead s = true := by
            cases h : foldAhead s
            · exact absurd ⟨h13, h⟩ hc
            · rfl
          obtain ⟨w, r, rfl, hw⟩ := (foldAhead_iff s).1 hf
          have := ih (w :: r).length (by simp at hn ⊢; omega) (w :: r) 10 (by decide) h.2.2 rfl
          rw [(quoteLoop_fold w r hw).1]
          rw [(quoteLoop_fold w r hw).2] at this
          subst h13
          exact .fold hw this
        · refine .plain hne.1 hne.2 h13 (fun h10 => hp (h.1 h10)) ?_
          exact ih s.length (by simp at hn; omega) s c ‹_› h.2 rfl
    · split
      · exact .nil
      · rename_i hq h'
        have hc : c ≠ 13 := by rintro rfl; exact absurd hq (by decide +kernel)
        exact .pair ((qdtextesc_iff c).1 (by simpa using h'))
          (ih s.length (by simp at hn; omega) s c hc h.2 rfl)

theorem quoted_plain_mem (s : Bytes) (h : ¬ s.any (fun c => !tokenc c && c != 32) = true) :
    ∀ c ∈ s, tokenc c = true ∨ c = 32 := by
  intro c hc
  simp only [Bool.not_eq_true, List.any_eq_false] at h
  have := h c hc
  revert this
  cases tokenc c <;> simp

theorem token_not_special : ∀ c, tokenc c = true →
    c ≠ 34 ∧ c ≠ 92 ∧ c ≠ 13 ∧ c ≠ 10 := by decide +kernel

end Gosip.Sip
