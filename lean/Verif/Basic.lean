/-!
# Basic vocabulary of the model

Bytes, Go outcomes (value, error, panic), decimal printing and parsing.
Standard library functions are modelled from their documentation.
-/

namespace Gosip

/-- A Go `[]byte` or `string` as a value. -/
abbrev Bytes := List UInt8

open Lean in
/-- `b!"text"` is the UTF-8 byte list of a literal, as explicit numerals. -/
macro:max "b!" s:str : term => do
  let elems := s.getString.toUTF8.toList.map fun b => Syntax.mkNumLit (toString b.toNat)
  `(([ $(elems.toArray),* ] : List UInt8))

/-- Outcome of a Go call returning `(value, error)`: a value, an error, or a run-time panic. -/
inductive Res (ε α : Type) where
  | ok (a : α)
  | err (e : ε)
  | panic
  deriving Repr

namespace Res
variable {ε α β : Type}

/-- Equality of outcomes is decidable. Written by hand: the derived instance casts along the proof
of equality of the values, which gets in the way of evaluation by the kernel. -/
instance [DecidableEq ε] [DecidableEq α] : DecidableEq (Res ε α)
  | ok a, ok b => decidable_of_iff (a = b) ⟨fun h => h ▸ rfl, fun h => Res.ok.inj h⟩
  | err a, err b => decidable_of_iff (a = b) ⟨fun h => h ▸ rfl, fun h => Res.err.inj h⟩
  | panic, panic => .isTrue rfl
  | ok _, err _ => .isFalse nofun
  | ok _, panic => .isFalse nofun
  | err _, ok _ => .isFalse nofun
  | err _, panic => .isFalse nofun
  | panic, ok _ => .isFalse nofun
  | panic, err _ => .isFalse nofun

/-- Sequencing of Go calls: errors are returned to the caller at once, panics unwind. -/
@[simp] def bind : Res ε α → (α → Res ε β) → Res ε β
  | ok a, f => f a
  | err e, _ => err e
  | panic, _ => panic

instance : Monad (Res ε) where
  pure := Res.ok
  bind := Res.bind

@[simp] theorem pure_eq (a : α) : (pure a : Res ε α) = ok a := rfl
@[simp] theorem bind_eq (x : Res ε α) (f : α → Res ε β) : (x >>= f) = x.bind f := rfl

/-- The call did not panic. -/
def Safe : Res ε α → Prop
  | panic => False
  | _ => True

@[simp] theorem safe_ok (a : α) : (ok a : Res ε α).Safe := trivial
@[simp] theorem safe_err (e : ε) : (err e : Res ε α).Safe := trivial
@[simp] theorem not_safe_panic : ¬ (panic : Res ε α).Safe := id

theorem safe_iff (r : Res ε α) : r.Safe ↔ r ≠ panic := by
  cases r <;> simp [Safe]

end Res

/-- Two's complement wrap-around of Go's 64-bit `int`. -/
def wrap64 (x : Int) : Int := Int.bmod x (2 ^ 64)

/-- ASCII digit of a number below ten. -/
def digitByte (d : Nat) : UInt8 := UInt8.ofNat (48 + d)

/-- Worker of `natDec`; the fuel is larger than the number of digits. -/
def natDecAux : Nat → Nat → Bytes → Bytes
  | 0, _, acc => acc
  | f + 1, n, acc =>
    if n < 10 then digitByte n :: acc
    else natDecAux f (n / 10) (digitByte (n % 10) :: acc)

/-- Decimal text of a natural number: `strconv.FormatUint(n, 10)`. -/
def natDec (n : Nat) : Bytes := natDecAux (n + 1) n []

/-- `strconv.Itoa` / `strconv.FormatInt(n, 10)`. -/
def itoa (n : Int) : Bytes :=
  if n < 0 then 45 :: natDec n.natAbs else natDec n.natAbs

/-- Is the byte an ASCII digit. -/
def isDigit (c : UInt8) : Bool := 48 ≤ c && c ≤ 57

/-- Value of a string of digits, most significant first (no overflow). -/
def decVal (s : Bytes) : Nat := s.foldl (fun a c => a * 10 + (c.toNat - 48)) 0

/-! ### Lemmas on decimal printing -/

theorem digitByte_toNat {d : Nat} (h : d < 10) : (digitByte d).toNat = 48 + d := by
  simp [digitByte]; omega

theorem isDigit_iff (c : UInt8) : isDigit c = true ↔ 48 ≤ c.toNat ∧ c.toNat ≤ 57 := by
  simp [isDigit, UInt8.le_iff_toNat_le]

theorem isDigit_digitByte {d : Nat} (h : d < 10) : isDigit (digitByte d) = true := by
  rw [isDigit_iff, digitByte_toNat h]; omega

theorem decVal_append (a b : Bytes) :
    decVal (a ++ b) = b.foldl (fun a c => a * 10 + (c.toNat - 48)) (decVal a) := by
  simp [decVal, List.foldl_append]

theorem decVal_foldl (b : Bytes) (x : Nat) :
    b.foldl (fun a c => a * 10 + (c.toNat - 48)) x = x * 10 ^ b.length + decVal b := by
  induction b generalizing x with
  | nil => simp [decVal]
  | cons c b ih =>
    simp only [List.foldl_cons, decVal, List.length_cons]
    rw [ih, ih (0 * 10 + _)]
    rw [Nat.pow_succ, Nat.add_mul]
    simp [decVal, Nat.mul_assoc, Nat.mul_comm, Nat.add_assoc]

theorem natDecAux_spec (f n : Nat) (acc : Bytes) (h : n < f) :
    ∃ ds, natDecAux f n acc = ds ++ acc ∧ ds ≠ [] ∧ (∀ c ∈ ds, isDigit c = true) ∧
      decVal ds = n := by
  induction f generalizing n acc with
  | zero => omega
  | succ f ih =>
    unfold natDecAux
    split
    · rename_i hn
      refine ⟨[digitByte n], by simp, by simp, ?_, ?_⟩
      · simpa using isDigit_digitByte hn
      · simp [decVal, digitByte_toNat hn]
    · rename_i hn
      obtain ⟨ds, h1, h2, h3, h4⟩ := ih (n / 10) (digitByte (n % 10) :: acc) (by omega)
      refine ⟨ds ++ [digitByte (n % 10)], by simp [h1], by simp, ?_, ?_⟩
      · intro c hc
        rcases List.mem_append.1 hc with hc | hc
        · exact h3 c hc
        · simp at hc; subst hc; exact isDigit_digitByte (by omega)
      · rw [decVal_append, h4]
        have := digitByte_toNat (d := n % 10) (by omega)
        simp [this]; omega

theorem natDec_ne_nil (n : Nat) : natDec n ≠ [] := by
  obtain ⟨ds, h1, h2, _, _⟩ := natDecAux_spec (n + 1) n [] (by omega)
  simp [natDec, h1, h2]

theorem natDec_isDigit (n : Nat) : ∀ c ∈ natDec n, isDigit c = true := by
  obtain ⟨ds, h1, _, h3, _⟩ := natDecAux_spec (n + 1) n [] (by omega)
  simpa [natDec, h1] using h3

@[simp] theorem decVal_natDec (n : Nat) : decVal (natDec n) = n := by
  obtain ⟨ds, h1, _, _, h4⟩ := natDecAux_spec (n + 1) n [] (by omega)
  simp [natDec, h1, h4]

example : natDec 5060 = b!"5060" := by decide
example : itoa (-17) = b!"-17" := by decide

end Gosip
