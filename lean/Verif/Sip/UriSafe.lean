import Verif.Sip.UriParse

/-! # The concrete URI machine refines a machine with an unbounded accumulator -/

namespace Gosip.Sip.Uri

/-- Locals of `ParseURI` with `buf[0:amt]` as one list. -/
structure ACtx where
  uri : URI
  acc : Bytes
  b1 : Bytes
  b2 : Bytes
  hex : UInt8

def UCtx.abs (x : UCtx) : ACtx := ⟨x.uri, x.buf.take x.amt, x.b1, x.b2, x.hex⟩

/-- Effect of an action on the abstract locals. -/
def aexec (a : UAct) (c : UInt8) (x : ACtx) : ACtx :=
  match a with
  | .start => { x with acc := [] }
  | .append => { x with acc := x.acc ++ [c] }
  | .hexHi => { x with hex := unhex c * 16 }
  | .hexLo => { x with hex := x.hex + unhex c, acc := x.acc ++ [x.hex + unhex c] }
  | .scheme => { x with uri.scheme := x.acc }
  | .user => { x with uri.user := x.acc }
  | .pass => { x with uri.pass := x.acc }
  | .host => { x with uri.host := x.acc }
  | .port => { x with uri.port := x.uri.port * 10 + (c - 48).toUInt16 }
  | .b1 => { x with b1 := x.acc, acc := [] }
  | .b2 => { x with b2 := x.acc, acc := [] }
  | .lower => { x with acc := x.acc ++ [lowerByte c] }
  | .param => { x with uri.param := (x.b1, x.b2) :: x.uri.param }
  | .header => { x with uri.header := (x.b1, x.b2) :: x.uri.header }

def aexecs : List UAct → UInt8 → ACtx → ACtx
  | [], _, x => x
  | a :: l, c, x => aexecs l c (aexec a c x)

/-- How many bytes an action may add to the buffer. -/
def cost : UAct → Nat
  | .append | .hexLo | .lower => 1
  | _ => 0

def needsByte : UAct → Bool
  | .append | .hexHi | .hexLo | .lower | .port => true
  | _ => false

def costs (l : List UAct) : Nat := (l.map cost).sum

theorem take_set (buf : Bytes) (n : Nat) (c : UInt8) (h : n < buf.length) :
    (buf.set n c).take (n + 1) = buf.take n ++ [c] := by
  rw [List.take_add_one, List.getElem?_set_self h]
  simp [List.take_set_of_le]

theorem push_abs (x : UCtx) (c : UInt8) (h : x.amt < x.buf.length) :
    ∃ y, x.push c = some y ∧ y.abs = { x.abs with acc := x.abs.acc ++ [c] } ∧
      y.buf.length = x.buf.length ∧ y.amt = x.amt + 1 := by
  refine ⟨_, if_pos h, ?_, by simp, rfl⟩
  simp [UCtx.abs, take_set _ _ _ h]

theorem exec_abs (a : UAct) (c : UInt8) (co : Option UInt8) (x : UCtx)
    (hc : co = some c ∨ needsByte a = false)
    (h : x.amt + cost a ≤ x.buf.length) :
    ∃ y, exec a co x = some y ∧ y.abs = aexec a c x.abs ∧ y.buf.length = x.buf.length ∧
      y.amt ≤ x.amt + cost a := by
  have hs : cost a = 0 → x.slice = some (x.buf.take x.amt) := fun h0 => if_pos (by omega)
  cases a <;> simp [cost, needsByte] at h hc hs
  case append =>
    obtain ⟨y, h1, h2, h3, h4⟩ := push_abs x c (by omega)
    subst hc; exact ⟨y, h1, h2, h3, by simp [h4, cost]⟩
  case hexLo =>
    subst hc
    obtain ⟨y, h1, h2, h3, h4⟩ := push_abs { x with hex := x.hex + unhex c } (x.hex + unhex c)
      (by simpa using by omega)
    exact ⟨y, h1, h2, h3, by simp [h4, cost]⟩
  case lower =>
    subst hc
    obtain ⟨y, h1, h2, h3, h4⟩ := push_abs x (lowerByte c) (by omega)
    refine ⟨y, ?_, h2, h3, by simp [h4, cost]⟩
    rw [← h1]; simp only [exec, lowerByte, Option.bind_eq_bind, Option.bind_some]
    split <;> rfl
  all_goals first
    | (subst hc; exact ⟨_, rfl, rfl, rfl, by simp [cost]⟩)
    | exact ⟨_, rfl, by simp [UCtx.abs, aexec], rfl, by simp [cost]⟩
    | (simp only [exec, hs, Option.bind_eq_bind, Option.bind_some]
       exact ⟨_, rfl, by simp [UCtx.abs, aexec], rfl, by simp [cost]⟩)

theorem execs_abs (l : List UAct) (c : UInt8) (co : Option UInt8) (x : UCtx)
    (hc : co = some c ∨ l.any needsByte = false)
    (h : x.amt + costs l ≤ x.buf.length) :
    ∃ y, execs l co x = some y ∧ y.abs = aexecs l c x.abs ∧ y.buf.length = x.buf.length ∧
      y.amt ≤ x.amt + costs l := by
  induction l generalizing x with
  | nil => exact ⟨x, rfl, rfl, rfl, by simp [costs]⟩
  | cons a l ih =>
    simp [costs] at h ih
    obtain ⟨y, h1, h2, h3, h4⟩ := exec_abs a c co x (by
      rcases hc with hc | hc
      · exact .inl hc
      · simp at hc; exact .inr (by simp [hc.1])) (by omega)
    obtain ⟨z, g1, g2, g3, g4⟩ := ih y (by
      rcases hc with hc | hc
      · exact .inl hc
      · simp at hc; exact .inr hc.2) (by omega)
    exact ⟨z, by simp [execs, h1, g1], by simp [aexecs, g2, h2], by omega, by simp [costs]; omega⟩

/-- Result of the abstract machine. -/
def arun (data : Bytes) : Nat → ACtx → Nat → Bytes → Res UErr URI
  | k, x, _, [] =>
    if k < 45 then .err (.incomplete data) else .ok (aexecs (eofActs k) 0 x).uri
  | k, x, p, c :: rest =>
    match lookup (rows k) c.toNat with
    | none => .err (.errorAt p data)
    | some r => arun data r.tgt (aexecs r.acts c x) (p + 1) rest

theorem lookup_mem {l : List Row} {c : Nat} {r : Row} (h : lookup l c = some r) :
    r ∈ l ∧ r.lo ≤ c ∧ c ≤ r.hi := by
  induction l with
  | nil => simp [lookup] at h
  | cons a l ih =>
    rw [lookup] at h
    cases hb : Nat.ble a.lo c && Nat.ble c a.hi <;> rw [hb] at h <;> simp at h hb
    · simp [ih h]
    · subst h; simp [hb]

/-- Per-row facts of the whole table: at most one byte is added per symbol, targets are states. -/
theorem rows_ok : ∀ k, k < 59 → ∀ r ∈ rows k, costs r.acts ≤ 1 ∧ r.tgt < 59 := by decide +kernel

theorem eof_ok : ∀ k, k < 59 → costs (eofActs k) = 0 ∧ (eofActs k).any needsByte = false := by
  decide +kernel

theorem run_abs (data : Bytes) (k : Nat) (x : UCtx) (p : Nat) (rest : Bytes) (hk : k < 59)
    (h : x.amt + rest.length ≤ x.buf.length) :
    run data k x p rest = arun data k x.abs p rest := by
  induction rest generalizing k x p with
  | nil =>
    simp at h
    obtain ⟨h0, h1⟩ := eof_ok k hk
    obtain ⟨y, g1, g2, _, _⟩ := execs_abs (eofActs k) 0 none x (.inr h1) (by omega)
    have : y.uri = (aexecs (eofActs k) 0 x.abs).uri := by rw [← g2]; rfl
    simp [run, arun, g1, this]
  | cons c rest ih =>
    rw [run, arun]
    cases hl : lookup (rows k) c.toNat with
    | none => rfl
    | some r =>
      obtain ⟨h0, h1⟩ := rows_ok k hk r (lookup_mem hl).1
      simp at h
      obtain ⟨y, g1, g2, g3, g4⟩ := execs_abs r.acts c (some c) x (.inl rfl) (by omega)
      simp only [g1]
      rw [ih r.tgt y (p + 1) h1 (by omega), g2]

def initA : ACtx := ⟨{}, [], [], [], 0⟩

theorem parseURI_abs (data : Bytes) : parseURI data = arun data (entry data) initA 0 data := by
  unfold parseURI
  rw [run_abs]
  · rfl
  · unfold entry; split <;> decide
  · simp [initCtx]

theorem arun_err (data : Bytes) (k : Nat) (x : ACtx) (p : Nat) (rest : Bytes) (e : UErr)
    (h : arun data k x p rest = .err e) :
    e = .incomplete data ∨ ∃ q, p ≤ q ∧ q < p + rest.length ∧ e = .errorAt q data := by
  induction rest generalizing k x p with
  | nil => simp [arun] at h; split at h <;> simp at h; exact .inl h.symm
  | cons c rest ih =>
    rw [arun] at h
    cases hl : lookup (rows k) c.toNat with
    | none => simp [hl] at h; exact .inr ⟨p, by simp [← h]⟩
    | some r =>
      simp [hl] at h
      rcases ih _ _ _ h with h | ⟨q, h1, h2, h3⟩
      · exact .inl h
      · exact .inr ⟨q, by omega, by simp; omega, h3⟩

theorem arun_safe (data : Bytes) (k : Nat) (x : ACtx) (p : Nat) (rest : Bytes) :
    arun data k x p rest ≠ .panic := by
  induction rest generalizing k x p with
  | nil => simp [arun]; split <;> simp
  | cons c rest ih =>
    rw [arun]
    cases lookup (rows k) c.toNat with
    | none => simp
    | some r => exact ih _ _ _

end Gosip.Sip.Uri
