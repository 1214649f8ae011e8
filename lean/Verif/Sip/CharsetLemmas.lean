import Verif.Sip.Charsets
import Verif.Spec.Charsets

/-! Helper lemmas on character sets and escaping. -/

namespace Gosip

/-- Decide a property of all bytes by checking 256 values. -/
theorem forall_byte {p : UInt8 → Prop} (h : ∀ n : Fin 256, p (UInt8.ofNat n.val)) : ∀ c, p c := by
  intro c
  have := h ⟨c.toNat, c.toNat_lt⟩
  simpa using this

instance decForallByte (p : UInt8 → Prop) [DecidablePred p] : Decidable (∀ c, p c) :=
  if h : ∀ n : Fin 256, p (UInt8.ofNat n.val) then isTrue (forall_byte h)
  else isFalse fun hc => h fun _ => hc _

namespace Sip
open Spec

theorem tokenc_iff : ∀ c, tokenc c = true ↔ token c := by decide +kernel
theorem qdtextc_iff : ∀ c, qdtextc c = true ↔ qdtext c := by decide +kernel
theorem userc_iff : ∀ c, userc c = true ↔ user c := by decide +kernel
theorem passc_iff : ∀ c, passc c = true ↔ pass c := by decide +kernel
theorem paramc_iff : ∀ c, paramc c = true ↔ param c := by decide +kernel
theorem headerc_iff : ∀ c, headerc c = true ↔ header c := by decide +kernel
theorem qdtextesc_iff : ∀ c, qdtextesc c = true ↔ quotable c := by decide +kernel

theorem hex_hi : ∀ c : UInt8, hexVal (hexChar (c >>> 4)) = some (c.toNat / 16) := by decide +kernel
theorem hex_lo : ∀ c : UInt8, hexVal (hexChar (c % 16)) = some (c.toNat % 16) := by decide +kernel

theorem hex_join (c : UInt8) : UInt8.ofNat (c.toNat / 16 * 16 + c.toNat % 16) = c := by
  have : c.toNat / 16 * 16 + c.toNat % 16 = c.toNat := by omega
  rw [this]; simp

theorem unescapes_escaped (p : UInt8 → Bool) (s : Bytes) :
    Unescapes (fun c => p c = true) (escaped p s) s := by
  induction s with
  | nil => exact .nil
  | cons c s ih =>
    unfold escaped
    split
    · exact .lit ‹_› ih
    · have := Unescapes.esc (p := fun c => p c = true) (hex_hi c) (hex_lo c) ih
      rwa [hex_join] at this

theorem escaped_mem (p : UInt8 → Bool) (s : Bytes) :
    ∀ c ∈ escaped p s, p c = true ∨ c = 37 ∨ c ∈ b!"0123456789abcdef" := by
  induction s with
  | nil => simp [escaped]
  | cons c s ih =>
    have h1 : ∀ c : UInt8, hexChar (c >>> 4) ∈ b!"0123456789abcdef" := by decide +kernel
    have h2 : ∀ c : UInt8, hexChar (c % 16) ∈ b!"0123456789abcdef" := by decide +kernel
    unfold escaped
    split
    · intro d hd
      rcases List.mem_cons.1 hd with rfl | hd
      · exact .inl ‹_›
      · exact ih d hd
    · intro d hd
      rcases List.mem_cons.1 hd with rfl | hd
      · exact .inr (.inl rfl)
      rcases List.mem_cons.1 hd with rfl | hd
      · exact .inr (.inr (h1 c))
      rcases List.mem_cons.1 hd with rfl | hd
      · exact .inr (.inr (h2 c))
      · exact ih d hd

theorem escaped_eq_nil (p : UInt8 → Bool) (s : Bytes) : escaped p s = [] ↔ s = [] := by
  cases s with
  | nil => simp [escaped]
  | cons c s => unfold escaped; split <;> simp

end Sip
end Gosip
