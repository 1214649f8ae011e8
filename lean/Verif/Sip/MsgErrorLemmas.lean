import Verif.Sip.MsgError
import Verif.Spec.MsgError

/-! # Lemmas on the text of parse errors -/

namespace Gosip.Sip
open Spec

/-- Number of bytes of lines with their line ends. -/
def extent (ls : List Bytes) : Nat := (ls.map fun l => l.length + 2).sum

theorem joinLF_cons {l : Bytes} {ls : List Bytes} (h : ls ≠ []) : joinLF (l :: ls) = l ++ b!"\n" ++ joinLF ls := by
  unfold joinLF; rw [joinByte_cons h]; simp

theorem joinLF_single (l : Bytes) : joinLF [l] = l := rfl

theorem errLoop_after {off : Int} {ls : List Bytes} {i line : Nat} {o lo : Int} (h : off < o) :
    errLoop off ls i o line lo = (joinLF ls, line, lo) := by
  induction ls generalizing i o with
  | nil => rfl
  | cons l rest ih =>
    unfold errLoop
    have hn : ¬ (o ≤ off ∧ off < o + l.length) := by omega
    simp only [if_neg hn]
    rw [ih (by omega)]
    by_cases hr : rest = []
    · subst hr; simp [joinLF_single]; rfl
    · rw [joinLF_cons hr, if_neg hr]; simp

theorem errLoop_cases {off : Int} {ls : List Bytes} {i line : Nat} {o lo : Int} (h : o ≤ off) :
    (∃ before l after, ∃ col : Nat, ls = before ++ l :: after ∧ col < l.length ∧
      off = o + (extent before + col : Nat) ∧
      errLoop off ls i o line lo = (withCaret before l after col, i + before.length + 1, (col : Int))) ∨
    (((∃ before after, before ≠ [] ∧ after ≠ [] ∧ ls = before ++ after ∧
        (off = o + (extent before - 2 : Nat) ∨ off = o + (extent before - 1 : Nat))) ∨
      off ≥ o + ((joinCRLF ls).length : Nat)) ∧
      errLoop off ls i o line lo = (joinLF ls, line, lo)) := by
  induction ls generalizing i o with
  | nil => exact .inr ⟨.inr (by simpa [joinCRLF] using h), rfl⟩
  | cons l rest ih =>
    by_cases hit : o ≤ off ∧ off < o + l.length
    · left
      refine ⟨[], l, rest, (off - o).toNat, rfl, by omega, by simp [extent]; omega, ?_⟩
      unfold errLoop
      simp only [if_pos hit]
      rw [errLoop_after (by omega)]
      refine Prod.ext ?_ (Prod.ext (by simp) (by simp; omega))
      simp only [withCaret, List.nil_append]
      by_cases hr : rest = []
      · subst hr
        rw [joinLF_cons (by simp), joinLF_single]; simp [joinLF, joinByte]
      · rw [joinLF_cons (by simp), joinLF_cons hr, if_neg hr]; simp
    · by_cases hs : off < o + l.length + 2
      · right
        constructor
        · by_cases hr : rest = []
          · right; subst hr; simp [joinCRLF]; omega
          · left
            refine ⟨[l], rest, by simp, hr, rfl, ?_⟩
            simp [extent]; omega
        · unfold errLoop
          simp only [if_neg hit]
          rw [errLoop_after (by omega)]
          by_cases hr : rest = []
          · subst hr; simp [joinLF_single]; rfl
          · rw [joinLF_cons hr, if_neg hr]; simp
      · rcases ih (i := i + 1) (o := o + l.length + 2) (by omega) with
          ⟨before, l', after, col, e1, e2, e3, e4⟩ | ⟨h1, e4⟩
        · left
          refine ⟨l :: before, l', after, col, by rw [e1]; rfl, e2, ?_, ?_⟩
          · simp only [extent, List.map_cons, List.sum_cons] at e3 ⊢; omega
          · unfold errLoop
            simp only [if_neg hit, e4]
            refine Prod.ext ?_ (Prod.ext (by simp; omega) rfl)
            have hr : rest ≠ [] := by rw [e1]; simp
            simp only [withCaret, List.cons_append]
            rw [joinLF_cons (by simp), if_neg hr]; simp
        · right
          constructor
          · rcases h1 with ⟨before, after, b1, b2, b3, b4⟩ | h1
            · left
              refine ⟨l :: before, after, by simp, b2, by rw [b3]; rfl, ?_⟩
              have : 2 ≤ extent before := by
                cases before with
                | nil => exact absurd rfl b1
                | cons x y => simp [extent]; omega
              simp only [extent, List.map_cons, List.sum_cons] at b4 this ⊢
              omega
            · right
              by_cases hr : rest = []
              · subst hr; simp [joinCRLF] at h1 ⊢; omega
              · rw [joinCRLF_cons hr]; simp at h1 ⊢; omega
          · unfold errLoop
            simp only [if_neg hit, e4]
            by_cases hr : rest = []
            · subst hr; simp [joinLF, joinByte]
            · rw [joinLF_cons hr, if_neg hr]; simp

end Gosip.Sip
