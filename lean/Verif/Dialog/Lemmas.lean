import Verif.Dialog.Receive
import Verif.Spec.Dialog
import Verif.Props.Uri

/-!
# Lemmas on parameter lookup and list surgery used by the routing properties
-/

namespace Gosip.Dialog
open Sip Spec Props

theorem paramVal_eq_some {l : Pairs} {name v : Bytes} :
    paramVal l name = some v ↔ ParamIs l name v := by
  obtain ⟨h1, h2, h3⟩ := C17_get_latest l name
  unfold paramVal ParamIs
  cases hg : l.get name with
  | none =>
    rw [hg] at h2
    have h2 := h2.1 rfl
    simp only [reduceCtorEq, false_iff]
    rintro ⟨newer, p, older, rfl, hp, _, _⟩
    exact h2 p (by simp) hp
  | some t =>
    cases t with
    | nil => exact absurd hg h3
    | cons p older =>
      obtain ⟨newer, hl, hp, hn⟩ := (h1 p older).1 hg
      simp only [Option.some.injEq]
      constructor
      · rintro rfl; exact ⟨newer, p, older, hl, hp, rfl, hn⟩
      · rintro ⟨newer', p', older', hl', hp', rfl, hn'⟩
        have := (h1 p' older').2 ⟨newer', hl', hp', hn'⟩
        rw [hg] at this
        cases this; rfl

theorem get_isNone {l : Pairs} {name : Bytes} : (l.get name).isNone = true ↔ NoParam l name := by
  obtain ⟨_, h2, _⟩ := C17_get_latest l name
  rw [Option.isNone_iff_eq_none, h2]; rfl

theorem paramVal_eq_none {l : Pairs} {name : Bytes} : paramVal l name = none ↔ NoParam l name := by
  obtain ⟨_, h2, h3⟩ := C17_get_latest l name
  rw [show NoParam l name ↔ l.get name = none from h2.symm]
  unfold paramVal
  cases hg : l.get name with
  | none => simp
  | some t =>
    cases t with
    | nil => exact absurd hg h3
    | cons p older => simp

theorem get_isSome {l : Pairs} {name : Bytes} : (l.get name).isSome = true ↔ ∃ v, ParamIs l name v := by
  have h1 := @get_isNone l name
  rw [← paramVal_eq_none] at h1
  simp only [← paramVal_eq_some]
  cases hp : paramVal l name with
  | none => rw [hp] at h1; simpa using h1
  | some v => rw [hp] at h1; cases hg : l.get name <;> simp_all

theorem paramIs_unique {l : Pairs} {name a b : Bytes} (h1 : ParamIs l name a) (h2 : ParamIs l name b) :
    a = b := by
  rw [← paramVal_eq_some] at h1 h2; simp_all

theorem paramIs_not_noParam {l : Pairs} {name a : Bytes} (h1 : ParamIs l name a) : ¬ NoParam l name := by
  rw [← paramVal_eq_some] at h1; rw [← paramVal_eq_none]; simp [h1]

theorem noParam_or (l : Pairs) (name : Bytes) : NoParam l name ∨ ∃ v, ParamIs l name v := by
  simp only [← paramVal_eq_some, ← paramVal_eq_none]
  cases paramVal l name <;> simp

theorem paramIs_cons {n name v : Bytes} {l : Pairs} (h : SameName n name) : ParamIs ((n, v) :: l) name v :=
  ⟨[], (n, v), l, rfl, h, rfl, by simp⟩

theorem paramIs_cons_ne {n w name v : Bytes} {l : Pairs} (h : ¬ SameName n name) :
    ParamIs ((n, w) :: l) name v ↔ ParamIs l name v := by
  simp only [← paramVal_eq_some]
  have : equalFold n name = false := by
    rw [← Bool.not_eq_true, equalFold_iff]; exact h
  simp [paramVal, Pairs.get, this]

theorem noParam_cons_ne {n w name : Bytes} {l : Pairs} (h : ¬ SameName n name) :
    NoParam ((n, w) :: l) name ↔ NoParam l name := by
  simp [NoParam, h]

theorem noParam_setParam {l : Pairs} {name n v : Bytes} : NoParam (setParam n v l) name ↔ NoParam l name := by
  induction l with
  | nil => rfl
  | cons p l ih =>
    unfold setParam
    by_cases h : equalFold p.1 n = true
    · rw [if_pos h]; simp [NoParam]
    · rw [if_neg h]; simp only [NoParam, List.mem_cons, forall_eq_or_imp] at ih ⊢; rw [ih]

theorem paramIs_setParam {l : Pairs} {name v w : Bytes} (h : ParamIs l name w) :
    ParamIs (setParam name v l) name v := by
  rw [← paramVal_eq_some] at h ⊢
  induction l with
  | nil => simp [paramVal, Pairs.get] at h
  | cons p l ih =>
    unfold setParam
    by_cases he : equalFold p.1 name = true
    · simp [he, paramVal, Pairs.get]
    · simp only [he, paramVal, Pairs.get, Bool.false_eq_true, if_false] at h ⊢
      exact ih h

theorem paramIs_setParam_ne {l : Pairs} {name n v w : Bytes} (hne : ¬ SameName n name)
    (h : ParamIs l name w) : ParamIs (setParam n v l) name w := by
  rw [← paramVal_eq_some] at h ⊢
  induction l with
  | nil => simp [paramVal, Pairs.get] at h
  | cons p l ih =>
    unfold setParam
    by_cases he : equalFold p.1 n = true
    · have h2 : equalFold p.1 name = false := by
        rw [← Bool.not_eq_true, equalFold_iff]
        rw [equalFold_iff] at he
        exact fun hh => hne (he.symm.trans hh)
      simp only [he, if_true, paramVal, Pairs.get, h2, Bool.false_eq_true, if_false] at h ⊢
      exact h
    · simp only [he, Bool.false_eq_true, if_false]
      by_cases h2 : equalFold p.1 name = true
      · simp only [paramVal, Pairs.get, h2, if_true] at h ⊢; exact h
      · simp only [paramVal, Pairs.get, h2, if_false, Bool.false_eq_true] at h ⊢; exact ih h

theorem popVia_spec' (via : Option Via) (l : List Via) :
    (∃ v, OwnVia via v ∧ l = v :: popVia via l) ∨ popVia via l = l := by
  unfold popVia OwnVia
  cases via with
  | none => right; simp [viaCompareHostPort]
  | some w =>
    cases l with
    | nil => right; simp [viaCompareHostPort]
    | cons v l =>
      by_cases h : w.host = v.host ∧ w.port = v.port
      · left
        exact ⟨v, ⟨w, rfl, h.1, h.2⟩, by simp [viaCompareHostPort, h.1, h.2]⟩
      · right
        have : (w.host == v.host && w.port == v.port) = false := by
          rw [← Bool.not_eq_true]; simp; exact fun a b => h ⟨a, b⟩
        simp [viaCompareHostPort, this]

theorem addrReversed_eq (l : List Addr) : addrReversed l = l.reverse := by
  have : ∀ l r, addrReversedAux l r = l.reverse ++ r := by
    intro l
    induction l with
    | nil => simp [addrReversedAux]
    | cons a l ih => intro r; simp [addrReversedAux, ih]
  simp [addrReversed, this]

theorem addrCopy_eq (l : List Addr) : addrCopy l = l.map bare := by
  unfold addrCopy; rfl

theorem headUri_ok {l : List Addr} {u : Option URI} (h : headUri l = .ok u) :
    ∃ c more, l = c :: more ∧ u = c.uri := by
  cases l with
  | nil => cases h
  | cons c more => exact ⟨c, more, rfl, by cases h; rfl⟩

theorem getPort_toNat (u : URI) : u.getPort.toNat = portOf u := by
  unfold URI.getPort portOf
  by_cases h : u.port = 0 <;> by_cases h2 : u.scheme = b!"sips" <;> simp [h, h2]

theorem compareHostPort_iff (a b : Addr) :
    compareHostPort a.uri b.uri = true ↔ SameHost a b := by
  unfold compareHostPort SameHost
  cases ha : a.uri <;> cases hb : b.uri <;> simp [← getPort_toNat, ← UInt16.toNat_inj]

theorem snoc_of_getLast? {α : Type} {l : List α} {a : α} (h : l.getLast? = some a) :
    l = l.dropLast ++ [a] := by
  have hne : l ≠ [] := by rintro rfl; simp at h
  have := List.dropLast_concat_getLast hne
  rw [List.getLast?_eq_some_getLast hne] at h
  cases h; exact this.symm

/-- The texts `atoi` accepts are the signed decimal numbers of 64 bits. -/
theorem atoi_iff (s : Bytes) (i : Int) :
    atoi s = some i ↔ IntText s i ∧ -2 ^ 63 ≤ i ∧ i < 2 ^ 63 := by
  have hd : ∀ t : Bytes, t.all isDigit = true ↔ ∀ c ∈ t, isDig c := by
    intro t; simp only [List.all_eq_true]
    constructor <;> intro h c hc
    · exact (isDigit_iff c).1 (h c hc)
    · exact (isDigit_iff c).2 (h c hc)
  cases s with
  | nil =>
    simp only [atoi, reduceCtorEq, false_iff]
    rintro ⟨h, _⟩
    generalize hs : ([] : Bytes) = s at h
    cases h with
    | plain h => exact h hs.symm
    | plus => simp at hs
    | minus => simp at hs
  | cons c s =>
    unfold atoi
    by_cases hm : c = 45
    · subst hm
      simp only [if_true]
      constructor
      · intro h
        split at h
        · rename_i hh
          cases h
          exact ⟨IntText.minus hh.1 ((hd s).1 hh.2.1), by omega, by omega⟩
        · cases h
      · rintro ⟨h, h1, h2⟩
        generalize hs : (45 :: s : Bytes) = t at h
        cases h with
        | plain h3 h4 =>
          subst hs
          have := h4 45 (by simp)
          exact absurd this (by simp [isDig])
        | plus h3 h4 => simp at hs
        | minus h3 h4 =>
          simp at hs; subst hs
          rw [if_pos ⟨h3, (hd _).2 h4, by omega⟩]
    · simp only [hm, if_false]
      by_cases hp : c = 43
      · subst hp
        simp only [if_true]
        constructor
        · intro h
          split at h
          · rename_i hh
            cases h
            exact ⟨IntText.plus hh.1 ((hd s).1 hh.2.1), by omega, by omega⟩
          · cases h
        · rintro ⟨h, h1, h2⟩
          generalize hs : (43 :: s : Bytes) = t at h
          cases h with
          | plain h3 h4 =>
            subst hs
            have := h4 43 (by simp)
            exact absurd this (by simp [isDig])
          | plus h3 h4 =>
            simp at hs; subst hs
            rw [if_pos ⟨h3, (hd _).2 h4, by omega⟩]
          | minus h3 h4 => simp at hs
      · simp only [hp, if_false]
        constructor
        · intro h
          split at h
          · rename_i hh
            cases h
            exact ⟨IntText.plain hh.1 ((hd _).1 hh.2.1), by omega, by omega⟩
          · cases h
        · rintro ⟨h, h1, h2⟩
          generalize hs : (c :: s : Bytes) = t at h
          cases h with
          | plain h3 h4 =>
            subst hs
            rw [if_pos ⟨h3, (hd _).2 h4, by omega⟩]
          | plus h3 h4 => simp at hs; exact absurd hs.1 hp
          | minus h3 h4 => simp at hs; exact absurd hs.1 hm

end Gosip.Dialog
