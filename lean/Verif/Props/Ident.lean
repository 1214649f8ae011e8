import Verif.Util.Ident
import Verif.Spec.Ident
import Verif.Sip.CharsetLemmas

/-!
# Property C54: generated identifiers
-/

namespace Gosip.Props
open Spec Util

theorem hexChar_pair (c : UInt8) : LowHex (Sip.hexChar (c >>> 4)) ∧ LowHex (Sip.hexChar (c % 16)) := by
  have : ∀ c : UInt8, LowHex (Sip.hexChar (c >>> 4)) ∧ LowHex (Sip.hexChar (c % 16)) := by decide +kernel
  exact this c

/-- Value of a lower case hexadecimal digit. -/
def lowVal (c : UInt8) : UInt8 := if c < 58 then c - 48 else c - 87

theorem hexChar_val (c : UInt8) :
    lowVal (Sip.hexChar (c >>> 4)) * 16 + lowVal (Sip.hexChar (c % 16)) = c := by
  have : ∀ c : UInt8, lowVal (Sip.hexChar (c >>> 4)) * 16 + lowVal (Sip.hexChar (c % 16)) = c := by decide +kernel
  exact this c

theorem hexEncode_hex (r : Bytes) : ∀ c ∈ hexEncode r, LowHex c := by
  induction r with
  | nil => simp [hexEncode]
  | cons a r ih =>
    intro c hc
    simp only [hexEncode, List.flatMap_cons, List.mem_append, List.mem_cons, List.not_mem_nil, or_false] at hc
    rcases hc with (rfl | rfl) | hc
    · exact (hexChar_pair a).1
    · exact (hexChar_pair a).2
    · exact ih c hc

@[simp] theorem hexEncode_length (r : Bytes) : (hexEncode r).length = 2 * r.length := by
  induction r with
  | nil => rfl
  | cons a r ih => simp only [hexEncode, List.flatMap_cons, List.length_append] at ih ⊢; simp [ih]; omega

theorem hexEncode_inj {a b : Bytes} (h : hexEncode a = hexEncode b) : a = b := by
  induction a generalizing b with
  | nil =>
    have := congrArg List.length h
    simp at this
    exact (List.eq_nil_of_length_eq_zero (by omega)).symm
  | cons x a ih =>
    cases b with
    | nil => have := congrArg List.length h; simp at this
    | cons y b =>
      simp only [hexEncode, List.flatMap_cons, List.cons_append, List.nil_append, List.cons.injEq] at h
      have hx := hexChar_val x
      rw [h.1, h.2.1, hexChar_val y] at hx
      rw [hx, ih h.2.2]

theorem lowHex_token {c : UInt8} (h : LowHex c) : token c := by
  have : ∀ c : UInt8, LowHex c → token c := by decide +kernel
  exact this c h

/-- **C54.** CSeq values are below 50000. Tags are 12 lower case hexadecimal digits. Branches are the
magic cookie of RFC 3261 section 8.1.1.7, a dash and such a tag. Call-IDs are UUIDs of version 4. Origin
identifiers are decimal numbers below 2^32 - 1. All consist of token characters. -/
theorem C54_shapes (n : Fin 50000) (r6 r15 : Bytes) (k : Fin (2 ^ 32 - 1)) (h6 : r6.length = 6) (h15 : r15.length = 15) :
    (0 ≤ generateCSeq n ∧ generateCSeq n ≤ 49999) ∧
    ((generateTag r6).length = 12 ∧ ∀ c ∈ generateTag r6, LowHex c ∧ token c) ∧
    (∃ tag, generateBranch r6 = b!"z9hG4bK" ++ b!"-" ++ tag ∧ tag.length = 12 ∧
      ∀ c ∈ generateBranch r6, token c) ∧
    (UUID4 (generateCallID r15) ∧ ∀ c ∈ generateCallID r15, token c) ∧
    (generateOriginID k ≠ [] ∧ (∀ c ∈ generateOriginID k, isDigit c = true) ∧
      decVal (generateOriginID k) < 2 ^ 32 - 1) := by
  refine ⟨?_, ?_, ?_, ?_, ⟨natDec_ne_nil _, natDec_isDigit _, ?_⟩⟩
  rotate_right
  · simp [generateOriginID, k.isLt]
  · unfold generateCSeq; have := n.isLt; omega
  · refine ⟨by simp [generateTag, h6], fun c hc => ?_⟩
    have := hexEncode_hex r6 c hc
    exact ⟨this, lowHex_token this⟩
  · refine ⟨generateTag r6, by simp [generateBranch], by simp [generateTag, h6], ?_⟩
    intro c hc
    simp only [generateBranch, List.mem_append] at hc
    rcases hc with hc | hc
    · have : ∀ c ∈ b!"z9hG4bK-", token c := by decide +kernel
      exact this c hc
    · exact lowHex_token (hexEncode_hex r6 c hc)
  · have hh := hexEncode_hex r15
    have hl := hexEncode_length r15
    rw [h15] at hl
    unfold generateCallID
    generalize hexEncode r15 = d at hh hl
    match d, hl with
    | [d0, d1, d2, d3, d4, d5, d6, d7, d8, d9, d10, d11, d12, d13, d14, d15, d16, d17, d18, d19, d20, d21,
       d22, d23, d24, d25, d26, d27, d28, d29], _ =>
      simp only [List.mem_cons, List.not_mem_nil, or_false, forall_eq_or_imp, forall_eq] at hh
      constructor
      · refine ⟨rfl, ?_⟩
        simp only [List.take_succ_cons, List.take_zero, List.drop_succ_cons, List.drop_zero, List.cons_append,
          List.nil_append, List.length_cons, List.length_nil]
        intro i hi
        have : i = 0 ∨ i = 1 ∨ i = 2 ∨ i = 3 ∨ i = 4 ∨ i = 5 ∨ i = 6 ∨ i = 7 ∨ i = 8 ∨ i = 9 ∨ i = 10 ∨ i = 11 ∨
          i = 12 ∨ i = 13 ∨ i = 14 ∨ i = 15 ∨ i = 16 ∨ i = 17 ∨ i = 18 ∨ i = 19 ∨ i = 20 ∨ i = 21 ∨ i = 22 ∨
          i = 23 ∨ i = 24 ∨ i = 25 ∨ i = 26 ∨ i = 27 ∨ i = 28 ∨ i = 29 ∨ i = 30 ∨ i = 31 ∨ i = 32 ∨ i = 33 ∨
          i = 34 ∨ i = 35 := by omega
        rcases this with h | h | h | h | h | h | h | h | h | h | h | h | h | h | h | h | h | h | h | h | h | h | h | h |
          h | h | h | h | h | h | h | h | h | h | h | h <;> subst h <;> simp [UUID4Char, hh]
      · have h45 : token 45 := by decide +kernel
        have h52 : token 52 := by decide +kernel
        have h97 : token 97 := by decide +kernel
        simp only [List.take_succ_cons, List.take_zero, List.drop_succ_cons, List.drop_zero, List.cons_append,
          List.nil_append, List.mem_cons, List.not_mem_nil, or_false, forall_eq_or_imp, forall_eq]
        simp [h45, h52, h97, hh, lowHex_token]

/-- **C54.** Different random bytes give different tags, branches and Call-IDs, different numbers
different origin identifiers. -/
theorem C54_distinct (r r' : Bytes) (k k' : Fin (2 ^ 32 - 1)) (hl : r.length = r'.length) :
    (generateTag r = generateTag r' → r = r') ∧ (generateBranch r = generateBranch r' → r = r') ∧
    (generateCallID r = generateCallID r' → r = r') ∧
    (generateOriginID k = generateOriginID k' → k = k') := by
  refine ⟨hexEncode_inj, fun h => ?_, fun h => ?_, fun h => ?_⟩
  · simp only [generateBranch, List.append_cancel_left_eq] at h
    exact hexEncode_inj h
  · apply hexEncode_inj
    have hll : (hexEncode r).length = (hexEncode r').length := by simp [hl]
    simp only [generateCallID, List.append_assoc] at h
    generalize hexEncode r = d at h hll
    generalize hexEncode r' = e at h hll
    have step : ∀ {a b : Bytes} (n : Nat) (k : Bytes) {x y : Bytes}, a.length = b.length →
        a.take n ++ (k ++ x) = b.take n ++ (k ++ y) → a.take n = b.take n ∧ x = y := by
      intro a b n k x y hab hh
      have := List.append_inj hh (by simp [hab])
      exact ⟨this.1, List.append_cancel_left this.2⟩
    obtain ⟨t1, h⟩ := step 8 _ hll h
    obtain ⟨t2, h⟩ := step 4 _ (by simp [hll]) h
    obtain ⟨t3, h⟩ := step 3 _ (by simp [hll]) h
    obtain ⟨t4, h⟩ := step 3 _ (by simp [hll]) h
    rw [← List.take_append_drop 8 d, ← List.take_append_drop 8 e, t1]
    rw [← List.take_append_drop 4 (d.drop 8), ← List.take_append_drop 4 (e.drop 8), t2]
    rw [List.drop_drop, List.drop_drop]
    rw [← List.take_append_drop 3 (d.drop (8 + 4)), ← List.take_append_drop 3 (e.drop (8 + 4)), t3]
    rw [List.drop_drop, List.drop_drop]
    rw [← List.take_append_drop 3 (d.drop (8 + 4 + 3)), ← List.take_append_drop 3 (e.drop (8 + 4 + 3)), t4]
    rw [List.drop_drop, List.drop_drop, h]
  · have := congrArg decVal h
    simp only [generateOriginID, decVal_natDec] at this
    exact Fin.ext this

example : generateCallID [0xf4, 0x7a, 0xc1, 0x0b, 0x58, 0xcc, 0x37, 0x25, 0x67, 0x0e, 0x02, 0xb2, 0xc3, 0xd4, 0x79] =
    b!"f47ac10b-58cc-4372-a567-0e02b2c3d479" := by decide +kernel

example : generateBranch [0x27, 0xc9, 0x72, 0x71, 0xd3, 0x63] = b!"z9hG4bK-27c97271d363" := by decide +kernel

end Gosip.Props
