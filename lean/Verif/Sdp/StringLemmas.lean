import Verif.Sdp.Strings

/-! # Lemmas on the string functions -/

namespace Gosip

namespace Res
variable {ε α β : Type}

theorem ok_bind (a : α) (f : α → Res ε β) : (ok a).bind f = f a := rfl

theorem bind_ok_iff {x : Res ε α} {f : α → Res ε β} {b : β} :
    x.bind f = ok b ↔ ∃ a, x = ok a ∧ f a = ok b := by
  cases x <;> simp

theorem bind_ne_panic {x : Res ε α} {f : α → Res ε β} (h1 : x ≠ panic)
    (h2 : ∀ a, x = ok a → f a ≠ panic) : x.bind f ≠ panic := by
  cases x with
  | ok a => exact h2 a rfl
  | err e => simp
  | panic => exact absurd rfl h1

end Res

theorem hasPrefix_iff (p s : Bytes) : hasPrefix p s = true ↔ ∃ r, s = p ++ r := by
  unfold hasPrefix
  rw [List.isPrefixOf_iff_prefix]
  constructor
  · rintro ⟨r, rfl⟩; exact ⟨r, rfl⟩
  · rintro ⟨r, rfl⟩; exact ⟨r, rfl⟩

theorem sliceFrom_ok {ε : Type} {s : Bytes} {i : Nat} (h : i ≤ s.length) :
    (sliceFrom s i : Res ε Bytes) = .ok (s.drop i) := if_pos h

theorem sliceTo_ok {ε : Type} {s : Bytes} {i : Nat} (h : i ≤ s.length) :
    (sliceTo s i : Res ε Bytes) = .ok (s.take i) := if_pos h

theorem idx_ne_panic {ε α : Type} {l : List α} {i : Nat} (h : i < l.length) :
    (idx l i : Res ε α) ≠ .panic := by
  simp [idx, List.getElem?_eq_getElem h]

theorem idx_ok_iff {ε α : Type} {l : List α} {i : Nat} {a : α} :
    (idx l i : Res ε α) = .ok a ↔ l[i]? = some a := by
  unfold idx
  cases l[i]? <;> simp

theorem indexByte_none {c : UInt8} {s : Bytes} : indexByte c s = none ↔ c ∉ s := by
  unfold indexByte; split <;> simp_all

theorem takeWhile_split (c : UInt8) (s : Bytes) (h : c ∈ s) :
    ∃ b, s = s.takeWhile (· != c) ++ c :: b := by
  induction s with
  | nil => simp at h
  | cons d s ih =>
    by_cases hd : d = c
    · subst hd; exact ⟨s, by simp⟩
    · have : c ∈ s := by simp at h; rcases h with h | h; exact absurd h.symm hd; exact h
      obtain ⟨b, hb⟩ := ih this
      refine ⟨b, ?_⟩
      rw [List.takeWhile_cons_of_pos (by simpa using hd)]
      rw [List.cons_append, ← hb]

theorem indexByte_some {c : UInt8} {s : Bytes} {n : Nat} (h : indexByte c s = some n) :
    ∃ a b, s = a ++ c :: b ∧ a.length = n ∧ c ∉ a := by
  unfold indexByte at h
  split at h
  · rename_i hc
    simp at h hc
    obtain ⟨b, hb⟩ := takeWhile_split c s hc
    refine ⟨_, b, hb, h, ?_⟩
    intro hm
    have hp : ∀ l : Bytes, c ∉ l.takeWhile (· != c) := by
      intro l
      induction l with
      | nil => simp
      | cons d l ih =>
        rw [List.takeWhile_cons]
        split
        · rename_i hd
          simp at hd
          simp only [List.mem_cons, not_or]
          exact ⟨fun e => hd e.symm, ih⟩
        · simp
    exact hp s hm
  · simp at h

theorem indexByte_append {c : UInt8} {a b : Bytes} (h : c ∉ a) :
    indexByte c (a ++ c :: b) = some a.length := by
  unfold indexByte
  have : (a ++ c :: b).contains c = true := by simp
  rw [if_pos this]
  congr 1
  rw [List.takeWhile_append_of_pos]
  · simp
  · intro d hd; simp; rintro rfl; exact h hd

/-! ### Splitting at a byte -/

theorem splitByte_ne_nil (c : UInt8) (s : Bytes) : splitByte c s ≠ [] := by
  induction s with
  | nil => simp [splitByte]
  | cons d s ih =>
    unfold splitByte
    split
    · simp
    · split <;> simp

theorem splitByte_noSep {c : UInt8} {s : Bytes} (h : c ∉ s) : splitByte c s = [s] := by
  induction s with
  | nil => rfl
  | cons d s ih =>
    simp at h
    rw [splitByte, if_neg (fun e => h.1 e.symm), ih h.2]

theorem splitByte_append {c : UInt8} {a b : Bytes} (h : c ∉ a) :
    splitByte c (a ++ c :: b) = a :: splitByte c b := by
  induction a with
  | nil => rw [List.nil_append, splitByte, if_pos rfl]
  | cons d a ih =>
    simp at h
    rw [List.cons_append, splitByte, if_neg (fun e => h.1 e.symm), ih h.2]

/-- Join with one separator byte between consecutive elements. -/
def joinByte (c : UInt8) : List Bytes → Bytes
  | [] => []
  | [t] => t
  | t :: u :: ts => t ++ c :: joinByte c (u :: ts)

theorem joinByte_cons {c : UInt8} {t : Bytes} {ts : List Bytes} (h : ts ≠ []) :
    joinByte c (t :: ts) = t ++ c :: joinByte c ts := by
  cases ts with
  | nil => exact absurd rfl h
  | cons u ts => rfl

theorem splitByte_spec (c : UInt8) (s : Bytes) :
    joinByte c (splitByte c s) = s ∧ ∀ t ∈ splitByte c s, c ∉ t := by
  induction s with
  | nil => simp [splitByte, joinByte]
  | cons d s ih =>
    unfold splitByte
    split
    · rename_i h; subst h
      rw [joinByte_cons (splitByte_ne_nil _ _), ih.1]
      refine ⟨rfl, ?_⟩
      intro t ht
      rcases List.mem_cons.1 ht with rfl | ht
      · simp
      · exact ih.2 t ht
    · rename_i h
      cases hs : splitByte c s with
      | nil => exact absurd hs (splitByte_ne_nil _ _)
      | cons t ts =>
        rw [hs] at ih
        refine ⟨?_, ?_⟩
        · cases ts with
          | nil => simp [joinByte] at ih ⊢; exact ih.1
          | cons u ts => simp [joinByte] at ih ⊢; exact ih.1
        · intro u hu
          rcases List.mem_cons.1 hu with rfl | hu
          · simp; exact ⟨fun e => h e.symm, ih.2 t (by simp)⟩
          · exact ih.2 u (by simp [hu])

theorem splitByte_join {c : UInt8} {ts : List Bytes} (hne : ts ≠ []) (h : ∀ t ∈ ts, c ∉ t) :
    splitByte c (joinByte c ts) = ts := by
  induction ts with
  | nil => exact absurd rfl hne
  | cons t ts ih =>
    by_cases hts : ts = []
    · subst hts; simp [joinByte]; exact splitByte_noSep (h t (by simp))
    · rw [joinByte_cons hts, splitByte_append (h t (by simp)), ih hts fun u hu => h u (by simp [hu])]

/-! ### Splitting at CRLF -/

/-- No CRLF inside. -/
def NoCRLF (s : Bytes) : Prop := ∀ a b, s ≠ a ++ b!"\r\n" ++ b

theorem startsLF_iff (s : Bytes) : startsLF s = true ↔ ∃ r, s = 10 :: r := by
  cases s with
  | nil => simp [startsLF]
  | cons c r =>
    by_cases h : c = 10
    · subst h; simp [startsLF]
    · simp [h]
      cases hs : startsLF (c :: r) with
      | false => rfl
      | true => unfold startsLF at hs; split at hs <;> simp_all

/-- Join with CRLF between consecutive elements. -/
def joinCRLF : List Bytes → Bytes
  | [] => []
  | [t] => t
  | t :: u :: ts => t ++ b!"\r\n" ++ joinCRLF (u :: ts)

theorem splitCRLF_nil : splitCRLF [] = [[]] := rfl

theorem splitCRLF_sep (s : Bytes) : splitCRLF (13 :: 10 :: s) = [] :: splitCRLF s := by
  simp [splitCRLF, splitCRLFAux, startsLF]

theorem splitCRLF_char {c : UInt8} {s : Bytes} (h : ¬ (c = 13 ∧ startsLF s = true)) :
    splitCRLF (c :: s) = match splitCRLF s with
      | [] => [[c]]
      | t :: ts => (c :: t) :: ts := by
  simp only [splitCRLF]
  rw [splitCRLFAux, if_neg h]
  cases splitCRLFAux false s <;> rfl

theorem noCRLF_cons {c : UInt8} {s : Bytes} :
    NoCRLF (c :: s) ↔ ¬ (c = 13 ∧ startsLF s = true) ∧ NoCRLF s := by
  constructor
  · intro h
    constructor
    · rintro ⟨rfl, hs⟩
      obtain ⟨r, rfl⟩ := (startsLF_iff s).1 hs
      exact h [] r rfl
    · intro a b e
      exact h (c :: a) b (by simp [e])
  · rintro ⟨h1, h2⟩ a b e
    cases a with
    | nil =>
      simp at e
      exact h1 ⟨e.1, by rw [e.2]; rfl⟩
    | cons d a =>
      simp at e
      exact h2 a b (by simp [e.2])

theorem noCRLF_nil : NoCRLF [] := by intro a b e; simp at e

theorem splitCRLF_noSep {s : Bytes} (h : NoCRLF s) : splitCRLF s = [s] := by
  induction s with
  | nil => rfl
  | cons c s ih =>
    obtain ⟨h1, h2⟩ := noCRLF_cons.1 h
    rw [splitCRLF_char h1, ih h2]

theorem splitCRLF_append {a b : Bytes} (h : NoCRLF a) :
    splitCRLF (a ++ b!"\r\n" ++ b) = a :: splitCRLF b := by
  induction a with
  | nil => simp [splitCRLF_sep]
  | cons c a ih =>
    obtain ⟨h1, h2⟩ := noCRLF_cons.1 h
    have : ¬ (c = 13 ∧ startsLF (a ++ b!"\r\n" ++ b) = true) := by
      rintro ⟨hc, hs⟩
      obtain ⟨r, hr⟩ := (startsLF_iff _).1 hs
      cases a with
      | nil => simp at hr
      | cons d a => simp at hr; exact h1 ⟨hc, by rw [hr.1]; rfl⟩
    rw [List.cons_append, List.cons_append, splitCRLF_char this, ih h2]

theorem splitCRLF_ne_nil (s : Bytes) : splitCRLF s ≠ [] := by
  cases s with
  | nil => simp [splitCRLF_nil]
  | cons c s =>
    by_cases h : c = 13 ∧ startsLF s = true
    · obtain ⟨rfl, hs⟩ := h
      obtain ⟨r, rfl⟩ := (startsLF_iff _).1 hs
      rw [splitCRLF_sep]; simp
    · rw [splitCRLF_char h]; split <;> simp

theorem joinCRLF_cons {t : Bytes} {ts : List Bytes} (h : ts ≠ []) :
    joinCRLF (t :: ts) = t ++ b!"\r\n" ++ joinCRLF ts := by
  cases ts with
  | nil => exact absurd rfl h
  | cons u ts => rfl

theorem splitCRLF_spec (s : Bytes) :
    joinCRLF (splitCRLF s) = s ∧ ∀ t ∈ splitCRLF s, NoCRLF t := by
  suffices H : ∀ n (s : Bytes), s.length ≤ n →
      joinCRLF (splitCRLF s) = s ∧ (∀ t ∈ splitCRLF s, NoCRLF t) ∧
      (∀ r t ts, s = 10 :: r → splitCRLF s = t :: ts → ∃ t', t = 10 :: t') ∧
      (∀ t t' ts, splitCRLF s = t :: ts → t = 10 :: t' → startsLF s = true) by
    exact ⟨(H s.length s (Nat.le_refl _)).1, (H s.length s (Nat.le_refl _)).2.1⟩
  intro n
  induction n with
  | zero =>
    intro s hs
    have : s = [] := by cases s <;> simp_all
    subst this
    refine ⟨rfl, by simp [splitCRLF_nil, noCRLF_nil], by simp, ?_⟩
    intro t t' ts h1 h2
    simp [splitCRLF_nil] at h1
    rw [h1.1] at h2; simp at h2
  | succ n ih =>
    intro s hs
    cases s with
    | nil =>
      refine ⟨rfl, by simp [splitCRLF_nil, noCRLF_nil], by simp, ?_⟩
      intro t t' ts h1 h2
      simp [splitCRLF_nil] at h1
      rw [h1.1] at h2; simp at h2
    | cons c s =>
      by_cases h : c = 13 ∧ startsLF s = true
      · obtain ⟨rfl, hs'⟩ := h
        obtain ⟨r, rfl⟩ := (startsLF_iff _).1 hs'
        obtain ⟨i1, i2, _, _⟩ := ih r (by simp at hs; omega)
        rw [splitCRLF_sep, joinCRLF_cons (splitCRLF_ne_nil _), i1]
        refine ⟨rfl, ?_, by simp, ?_⟩
        · intro t ht
          rcases List.mem_cons.1 ht with rfl | ht
          · exact noCRLF_nil
          · exact i2 t ht
        · intro t t' ts h1 h2
          simp at h1; rw [h1.1] at h2; simp at h2
      · obtain ⟨i1, i2, i3, i4⟩ := ih s (by simp at hs; omega)
        rw [splitCRLF_char h]
        cases hsp : splitCRLF s with
        | nil => exact absurd hsp (splitCRLF_ne_nil _)
        | cons t ts =>
          rw [hsp] at i1 i2
          simp only
          refine ⟨?_, ?_, ?_, ?_⟩
          · cases ts with
            | nil => simp [joinCRLF] at i1 ⊢; exact i1
            | cons u ts => simp [joinCRLF] at i1 ⊢; exact i1
          · intro u hu
            rcases List.mem_cons.1 hu with rfl | hu
            · rw [noCRLF_cons]
              refine ⟨?_, i2 t (by simp)⟩
              rintro ⟨hc, ht⟩
              obtain ⟨t', rfl⟩ := (startsLF_iff _).1 ht
              exact h ⟨hc, i4 _ t' ts hsp rfl⟩
            · exact i2 u (by simp [hu])
          · intro r t2 ts2 e1 e2
            simp at e1 e2
            exact ⟨t, by rw [← e2.1, e1.1]⟩
          · intro t2 t' ts2 e1 e2
            simp at e1
            rw [← e1.1] at e2
            simp at e2
            rw [startsLF_iff]; exact ⟨s, by rw [e2.1]⟩

/-! ### Numbers -/

theorem parseUint_natDec {bits n : Nat} (h : n < 2 ^ bits) : parseUint bits (natDec n) = some n := by
  unfold parseUint
  rw [if_pos]
  · simp
  · refine ⟨natDec_ne_nil n, ?_, by simpa using h⟩
    rw [List.all_eq_true]; exact natDec_isDigit n

theorem parseUint_some {bits n : Nat} {s : Bytes} (h : parseUint bits s = some n) :
    n < 2 ^ bits ∧ s ≠ [] ∧ (∀ c ∈ s, isDigit c = true) ∧ decVal s = n := by
  unfold parseUint at h
  split at h
  · rename_i hc
    simp at h
    refine ⟨h ▸ hc.2.2, hc.1, ?_, h⟩
    simpa using hc.2.1
  · simp at h

theorem natDec_head_not_sign (n : Nat) : ∀ c r, natDec n = c :: r → c ≠ 45 ∧ c ≠ 43 := by
  intro c r h
  have : isDigit c = true := natDec_isDigit n c (by simp [h])
  have hx : ∀ c : UInt8, isDigit c = true → c ≠ 45 ∧ c ≠ 43 := by
    intro c hc
    rw [isDigit_iff] at hc
    constructor <;> rintro rfl <;> simp at hc
  exact hx c this

theorem atoi_itoa (x : Int) (h1 : -2 ^ 63 ≤ x) (h2 : x < 2 ^ 63) : atoi (itoa x) = some x := by
  have hall : ∀ n, (natDec n).all isDigit = true := fun n => by
    rw [List.all_eq_true]; exact natDec_isDigit n
  unfold itoa
  split
  · rename_i hx
    rw [atoi, if_pos rfl, if_pos ⟨natDec_ne_nil _, hall _, by simp; omega⟩]
    simp; omega
  · rename_i hx
    cases hd : natDec x.natAbs with
    | nil => exact absurd hd (natDec_ne_nil _)
    | cons c r =>
      obtain ⟨g1, g2⟩ := natDec_head_not_sign _ c r hd
      rw [atoi, if_neg g1]
      simp only [if_neg g2]
      rw [← hd, if_pos ⟨natDec_ne_nil _, hall _, by simp; omega⟩]
      simp; omega

theorem itoa_ne_nil (x : Int) : itoa x ≠ [] := by
  unfold itoa; split
  · simp
  · exact natDec_ne_nil _

theorem itoa_mem (x : Int) : ∀ c ∈ itoa x, isDigit c = true ∨ c = 45 := by
  unfold itoa; split
  · intro c hc
    rcases List.mem_cons.1 hc with rfl | hc
    · exact .inr rfl
    · exact .inl (natDec_isDigit _ c hc)
  · intro c hc; exact .inl (natDec_isDigit _ c hc)

theorem itoa_nat (n : Nat) : itoa (n : Int) = natDec n := by
  unfold itoa
  rw [if_neg (by omega)]; simp

theorem natDec_injective {m n : Nat} (h : natDec m = natDec n) : m = n := by
  have := congrArg decVal h
  simpa using this

end Gosip
