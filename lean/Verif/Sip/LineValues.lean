import Verif.Sip.Split

/-!
# What the lines of the headers assign
-/

namespace Gosip.Sip.MsgM
open Spec

/-! ### Text values -/

theorem skipBlanks_append (v t : Bytes) : skipBlanks (v ++ 13 :: t) = skipBlanks v ++ 13 :: t := by
  induction v with
  | nil => rfl
  | cons c v ih =>
    cases h : blank c
    · rw [List.cons_append, skipBlanks_stop h, skipBlanks_stop h]; rfl
    · rw [List.cons_append, skipBlanks_cons h, skipBlanks_cons h, ih]

/-- The end of the line stays. -/
theorem skipWs_crlf (v : Bytes) : skipWs (v ++ CRLF) = skipWs v ++ CRLF := by
  unfold skipWs
  rw [show v ++ CRLF = v ++ 13 :: [10] from rfl, skipBlanks_append]
  generalize skipBlanks v = u
  match u with
  | [] => rfl
  | [c] =>
    simp only [List.cons_append, List.nil_append]
    split
    · next w r h => cases h
    · rfl
  | [c, d] =>
    simp only [List.cons_append, List.nil_append]
    split
    · next w r h => cases h; rfl
    · rfl
  | c :: d :: w :: r =>
    simp only [List.cons_append]
    by_cases h : c = 13 ∧ d = 10
    · obtain ⟨rfl, rfl⟩ := h
      simp only []
      split
      · rw [skipBlanks_append]; rfl
      · rfl
    · split
      · next h' => cases h'; exact absurd ⟨rfl, rfl⟩ h
      · split
        · next h' => cases h'; exact absurd ⟨rfl, rfl⟩ h
        · rfl

theorem skipBlanks_suffix (v : Bytes) : ∃ x, v = x ++ skipBlanks v := by
  obtain ⟨w, _, e⟩ := blanks_append (v := v)
  exact ⟨w, e⟩

theorem skipWs_suffix (v : Bytes) : ∃ x, v = x ++ skipWs v := by
  obtain ⟨x, e⟩ := skipBlanks_suffix v
  unfold skipWs
  split
  · next w r h =>
    split
    · obtain ⟨y, e'⟩ := skipBlanks_suffix r
      refine ⟨x ++ (13 :: 10 :: w :: y), ?_⟩
      rw [List.append_assoc, List.cons_append, List.cons_append, List.cons_append, ← e', ← h, ← e]
    · exact ⟨x, by rw [← h]; exact e⟩
  · exact ⟨x, e⟩

theorem vt_skipBlanks {v : Bytes} (h : ValueText v) : ValueText (skipBlanks v) := by
  induction h with
  | nil => exact .nil
  | @char c t hc ht ih =>
    cases hb : blank c
    · rw [skipBlanks_stop hb]; exact .char hc ht
    · rw [skipBlanks_cons hb]; exact ih
  | @utf8 c s t hc hs ht ih =>
    have hb : blank c = false := by
      rw [← Bool.not_eq_true, blank_iff']
      rintro (rfl | rfl) <;> cases hc
    rw [List.cons_append, skipBlanks_stop hb]
    exact .utf8 hc hs ht
  | @fold w t hw ht ih =>
    rw [show CRLF ++ w :: t = 13 :: 10 :: w :: t from rfl, skipBlanks_stop (by decide)]
    exact .fold hw ht

theorem vt_tail {w : UInt8} {t : Bytes} (h : ValueText (13 :: 10 :: w :: t)) : ValueText t := by
  generalize e : 13 :: 10 :: w :: t = v at h
  cases h with
  | nil => cases e
  | char hc _ =>
    simp only [List.cons.injEq] at e
    rw [← e.1] at hc
    exact absurd hc (by decide)
  | utf8 hc _ _ =>
    simp only [List.cons_append, List.cons.injEq] at e
    rw [← e.1] at hc; cases hc
  | fold _ ht =>
    simp only [CRLF, List.cons_append, List.nil_append, List.cons.injEq] at e
    rw [e.2.2.2]; exact ht

theorem vt_skipWs {v : Bytes} (h : ValueText v) : ValueText (skipWs v) := by
  have h := vt_skipBlanks h
  unfold skipWs
  split
  · next w r e =>
    rw [e] at h
    split
    · exact vt_skipBlanks (vt_tail h)
    · exact h
  · exact h

/-- The text of a value is one logical line. -/
theorem vt_logical {v : Bytes} (h : ValueText v) : LogicalLine v := by
  induction h with
  | nil =>
    intro x y e
    have hl := congrArg List.length e
    simp [CRLF] at hl
    exact .inl (List.length_eq_zero_iff.1 (by omega))
  | @char c t hc ht ih =>
    have : LogicalLine ([c] ++ t) := (logical_append (by
      intro d hd
      rw [List.mem_singleton] at hd
      subst hd
      rintro rfl
      exact absurd hc (by decide))).2 ih
    exact this
  | @utf8 c s t hc hs ht ih =>
    refine (logical_append ?_).2 ih
    intro d hd
    rcases List.mem_cons.1 hd with rfl | hd
    · rintro rfl; cases hc
    · rintro rfl
      exact absurd (hs 13 hd) (by unfold utf8Cont; decide)
  | @fold w t hw ht ih =>
    have hw := blank_iff'.1 hw
    have h' : LogicalLine ([w] ++ t) := (logical_append (by
      intro d hd
      rw [List.mem_singleton] at hd
      subst hd
      rcases hw with rfl | rfl <;> decide)).2 ih
    intro x y e
    match x with
    | [] =>
      have e := List.append_cancel_left (as := CRLF) (by simpa using e)
      exact .inr ⟨w, t ++ CRLF, e.symm, hw⟩
    | [a] => simp [CRLF] at e
    | a :: b :: x =>
      simp only [CRLF, List.cons_append, List.nil_append, List.cons.injEq] at e
      exact h' x y (by simpa [CRLF] using e.2.2)

theorem line_known {n w v : Bytes} {h : Header} {us : List Upd} (hn : IsName n) (hw : Blanks w)
    (hh : headerOf n = some h) :
    Line (headerLine n w v) us ↔ Acc (entry h (n.map lower)) (nameLoc h) (v ++ CRLF) us := by
  have e : headerLine n w v ++ CRLF = headerLine n w (v ++ CRLF) := by simp [headerLine]
  rw [line_acc, e, acc_known hn hw hh]

theorem text_end {v : Bytes} {e : Bytes → Upd} {us : List Upd} (hv : LogicalLine v) :
    (∃ t tl b, skipWs (v ++ CRLF) = t ++ CRLF ++ tl ∧ ValueText t ∧ us = e t :: b ∧ Acc 280 Loc.init tl b) ↔
      ValueText (skipWs v) ∧ us = [e (skipWs v)] := by
  rw [skipWs_crlf]
  constructor
  · rintro ⟨t, tl, b, e1, h1, h2, h3⟩
    obtain ⟨x, ex⟩ := skipWs_suffix v
    have e2 : v ++ CRLF = (x ++ t) ++ CRLF ++ tl := by
      rw [List.append_assoc, List.append_assoc, ← List.append_assoc t, ← e1, ← List.append_assoc, ← ex]
    obtain ⟨rfl, rfl, _⟩ := logical_rest hv e2 h3
    have : skipWs v = t := by simpa using e1
    rw [this]
    exact ⟨h1, h2⟩
  · rintro ⟨h1, h2⟩
    exact ⟨skipWs v, [], [], by simp, h1, h2, acc_280_nil.2 rfl⟩

/-- A line of a text header. -/
theorem line_text {n w v : Bytes} {f : SField} {us : List Upd} (hn : IsName n) (hw : Blanks w) (hv : LogicalLine v)
    (hh : headerOf n = some (.text f)) :
    Line (headerLine n w v) us ↔ ValueText (skipWs v) ∧ us = [.hdr f (skipWs v)] := by
  rw [line_known hn hw hh]
  show Acc 284 { value := some f } _ _ ↔ _
  rw [acc_284]
  exact text_end (e := .hdr f) hv

/-- A line of an extension header. -/
theorem line_ext {n w v : Bytes} {us : List Upd} (hn : IsName n) (hw : Blanks w) (hv : LogicalLine v)
    (hh : headerOf n = none) (hs : ¬ StubName n) :
    Line (headerLine n w v) us ↔ ValueText (skipWs v) ∧ us = [.xheader n (skipWs v)] := by
  have e : headerLine n w v ++ CRLF = headerLine n w (v ++ CRLF) := by simp [headerLine]
  rw [line_acc, e, acc_ext hn hw hh hs, acc_276]
  exact text_end (e := .xheader n) hv

theorem line_stub {n w v : Bytes} {us : List Upd} (hn : IsName n) (hw : Blanks w) (hs : StubName n) :
    ¬ Line (headerLine n w v) us := by
  have e : headerLine n w v ++ CRLF = headerLine n w (v ++ CRLF) := by simp [headerLine]
  rw [line_acc, e]
  exact acc_stub hn hw hs

/-! ### Numbers -/

theorem part_436 : DigitPart 436 437 438 439 440 [.clen0, .contentLength] [.contentLength] := by
  constructor <;> decide +kernel
theorem part_507 : DigitPart 507 508 509 510 511
    [.clen0, .contentLength, .expires0, .expires, .maxForwards0, .maxForwards, .minExpires0, .minExpires]
    [.contentLength, .expires, .maxForwards, .minExpires] := by
  constructor <;> decide +kernel
theorem part_484 : DigitPart 484 485 486 487 488 [.expires0, .expires] [.expires] := by
  constructor <;> decide +kernel
theorem part_525 : DigitPart 525 526 527 528 529 [.maxForwards0, .maxForwards] [.maxForwards] := by
  constructor <;> decide +kernel
theorem part_551 : DigitPart 551 552 553 554 555 [.minExpires0, .minExpires] [.minExpires] := by
  constructor <;> decide +kernel

/-- The assignments at the digits of a number: the first one and the others. -/
def numUpd : Header → Bytes → (UInt8 → List Upd) × (UInt8 → List Upd)
  | .contentLength, w =>
    if w = b!"l" then
      (fun c => [.clen0, .clen c, .expires0, .expires c, .maxForwards0, .maxForwards c, .minExpires0, .minExpires c],
        fun c => [.clen c, .expires c, .maxForwards c, .minExpires c])
    else (fun c => [.clen0, .clen c], fun c => [.clen c])
  | .expires, _ => (fun c => [.expires0, .expires c], fun c => [.expires c])
  | .maxForwards, _ => (fun c => [.maxForwards0, .maxForwards c], fun c => [.maxForwards c])
  | .minExpires, _ => (fun c => [.minExpires0, .minExpires c], fun c => [.minExpires c])
  | _, _ => (fun _ => [], fun _ => [])

/-- Headers with a number as value. -/
def numeric : Header → Bool
  | .contentLength | .expires | .maxForwards | .minExpires => true
  | _ => false

/-- The value of a numeric header: white space and digits. -/
def NumText (v : Bytes) (ds : Bytes) : Prop :=
  ∃ s, v = s ++ ds ∧ Sws s ∧ ds ≠ [] ∧ ∀ c ∈ ds, isDigit c = true

theorem num_end {v : Bytes} {e0 e1 : UInt8 → List Upd} {us : List Upd} (hv : LogicalLine v) :
    (∃ s v', v ++ CRLF = s ++ v' ∧ Sws s ∧ DigitText e0 e1 v' us) ↔
      ∃ d ds, NumText v (d :: ds) ∧ us = e0 d ++ ds.flatMap e1 := by
  constructor
  · rintro ⟨s, v', e, hs, c, ds, tl, b, rfl, h1, h2, h3⟩
    obtain ⟨rfl, rfl, e2⟩ := logical_rest (x := s ++ c :: ds) hv (by rw [e]; simp) h3
    exact ⟨c, ds, ⟨s, e2, hs, by simp, h1⟩, by rw [h2]; simp⟩
  · rintro ⟨d, ds, ⟨s, rfl, h1, h2, h3⟩, rfl⟩
    exact ⟨s, d :: ds ++ CRLF, by simp, h1, d, ds, [], [], by simp, h3, by simp, acc_280_nil.2 rfl⟩

/-- A line of a numeric header. -/
theorem line_num {n w v : Bytes} {h : Header} {us : List Upd} (hn : IsName n) (hw : Blanks w) (hv : LogicalLine v)
    (hh : headerOf n = some h) (hnum : numeric h = true) :
    Line (headerLine n w v) us ↔ ∃ d ds, NumText v (d :: ds) ∧
      us = (numUpd h (n.map lower)).1 d ++ ds.flatMap (numUpd h (n.map lower)).2 := by
  rw [line_known hn hw hh, ← num_end hv]
  cases h <;> simp only [numeric, Bool.false_eq_true] at hnum
  case contentLength =>
    simp only [entry, numUpd]
    split
    · exact part_507.value ⟨rfl, fun _ _ => rfl⟩ ⟨rfl, fun _ _ => rfl⟩
    · exact part_436.value ⟨rfl, fun _ _ => rfl⟩ ⟨rfl, fun _ _ => rfl⟩
  case expires => exact part_484.value ⟨rfl, fun _ _ => rfl⟩ ⟨rfl, fun _ _ => rfl⟩
  case maxForwards => exact part_525.value ⟨rfl, fun _ _ => rfl⟩ ⟨rfl, fun _ _ => rfl⟩
  case minExpires => exact part_551.value ⟨rfl, fun _ _ => rfl⟩ ⟨rfl, fun _ _ => rfl⟩

theorem bmod_step (x z : Int) (m : Nat) : Int.bmod (Int.bmod (Int.bmod x m * 10) m + z) m = Int.bmod (x * 10 + z) m := by
  rw [Int.bmod_add_bmod, ← Int.bmod_add_bmod (x := x.bmod m * 10), Int.bmod_mul_bmod, Int.bmod_add_bmod]

theorem dec64_wrap (x : Nat) {c : UInt8} (hc : 48 ≤ c.toNat) :
    dec64 (wrap64 x) c = wrap64 ((x * 10 + (c.toNat - 48) : Nat) : Int) := by
  have h : ((x * 10 + (c.toNat - 48) : Nat) : Int) = (x : Int) * 10 + ((c.toNat : Int) - 48) := by omega
  rw [h]
  unfold dec64 wrap64
  generalize 2 ^ 64 = m
  exact bmod_step _ _ _

/-- Accumulating digits with wrap-around. -/
theorem dec64_foldl (ds : Bytes) (hd : ∀ c ∈ ds, isDigit c = true) (x : Nat) (y : Int) (hy : y = wrap64 x) :
    ds.foldl dec64 y = wrap64 ((ds.foldl (fun a c => a * 10 + (c.toNat - 48)) x : Nat) : Int) := by
  induction ds generalizing x y with
  | nil => simpa only [List.foldl_nil] using hy
  | cons c ds ih =>
    have hc := (isDigit_iff c).1 (hd c List.mem_cons_self)
    have := ih (fun d hd' => hd d (List.mem_cons_of_mem _ hd')) (x * 10 + (c.toNat - 48)) (dec64 y c) (by
      rw [hy]; exact dec64_wrap x hc.1)
    simpa only [List.foldl_cons] using this

theorem dec64_digits (d : UInt8) (ds : Bytes) (hd : ∀ c ∈ d :: ds, isDigit c = true) :
    ds.foldl dec64 (dec64 0 d) = wrap64 (decVal (d :: ds)) := by
  have := dec64_foldl (d :: ds) hd 0 0 (by decide)
  rw [List.foldl_cons] at this
  exact this

/-! ### Content-Type -/

theorem rows_ct : (∀ c : UInt8, rowAt 34 c.toNat = if tokenc c then some ([.mark], 35) else none) ∧
    (∀ c : UInt8, rowAt 35 c.toNat = if tokenc c then some ([], 35) else if c = 47 then some ([], 36) else none) ∧
    (∀ c : UInt8, rowAt 36 c.toNat = if tokenc c then some ([], 37) else none) ∧
    (∀ c : UInt8, tokenc c → rowAt 37 c.toNat = some ([], 37)) ∧
    (wide 34 = false ∧ wide 35 = false ∧ wide 36 = false ∧ wide 37 = true) := by decide +kernel

theorem rows_37 : ∀ r ∈ rows 37, (r.acts = [] ∧ r.tgt = 37 ∧ r.hi < 256 ∧
    (List.range 256).all fun n => !(Nat.ble r.lo n && Nat.ble n r.hi) || tokenN n) ∨ (r.acts = [.contentType] ∧ reg r.tgt = 13) := by
  decide +kernel

theorem skip_366 : SkipPart 366 367 368 369 34 [.hold] where
  r := by decide +kernel
  r1 := by decide +kernel
  r2 := by decide +kernel
  r3 := by decide +kernel
  w := by decide +kernel
  ne := by decide
  lt := by decide
  stay := by decide
  cr := fun _ => stuck_at (by rw [ssymbol_narrow rows_ct.2.2.2.2.1, rows_ct.1]; rfl)

theorem live_34 : live 34 = ⟨false, false, false, false, false, false, false, false, false⟩ := by decide +kernel

theorem split_crlf {u P r : Bytes} (e : u ++ CRLF = P ++ r) (hP : ∀ c ∈ P, c ≠ 13) :
    ∃ r', r = r' ++ CRLF ∧ u = P ++ r' := by
  induction P generalizing u with
  | nil => exact ⟨u, e.symm, rfl⟩
  | cons c P ih =>
    cases u with
    | nil =>
      simp only [CRLF, List.nil_append, List.cons_append, List.cons.injEq] at e
      exact absurd e.1.symm (hP c List.mem_cons_self)
    | cons d u =>
      simp only [List.cons_append, List.cons.injEq] at e
      obtain ⟨rfl, e⟩ := e
      obtain ⟨r', h1, h2⟩ := ih e fun x hx => hP x (List.mem_cons_of_mem _ hx)
      exact ⟨r', h1, by rw [h2]; rfl⟩

/-- A line of a Content-Type header assigns the media type. -/
theorem line_ctype {n w v : Bytes} {us : List Upd} (hn : IsName n) (hw : Blanks w) (hv : LogicalLine v)
    (hh : headerOf n = some .contentType) (h : Line (headerLine n w v) us) :
    ∃ a b r, skipWs v = a ++ b!"/" ++ b ++ r ∧ a ≠ [] ∧ b ≠ [] ∧ (∀ c ∈ a ++ b, token c) ∧
      (∀ c t, r = c :: t → ¬ token c) ∧ us = [.ctype (a ++ b!"/" ++ b)] := by
  have hreg := line_reg hn hw ((headerLine_line hn hw).2 hv).one h
  rw [hh] at hreg
  rw [line_known hn hw hh] at h
  change Acc 366 {} _ _ at h
  rw [skip_366.skip (l := {}) (m := {}) (E := []) (by
    intro s c
    refine ⟨_, rfl, ?_⟩
    rw [live_34]
    constructor <;> simp), skipWs_crlf] at h
  simp only [List.nil_append, exists_eq_left'] at h
  obtain ⟨x, ex⟩ := skipWs_suffix v
  generalize skipWs v = u at h ex ⊢
  obtain ⟨a, r, ea, ha, hr⟩ := span_all tokenc (u ++ CRLF)
  rw [ea] at h
  cases a with
  | nil =>
    cases r with
    | nil => exact absurd h (acc_nil (by decide))
    | cons c r =>
      refine absurd h (stuck_at ?_)
      rw [ssymbol_narrow rows_ct.2.2.2.2.1, rows_ct.1, hr c r rfl]; rfl
  | cons c a =>
    have r1 : SRun ⟨34, {}, c :: a ++ r⟩ [] ⟨35, { seg := [c] }, a ++ r⟩ := by
      refine .one (step_at (as := [.mark]) (t := 35) (l' := {}) ?_ rfl)
      rw [ssymbol_narrow rows_ct.2.2.2.2.1, rows_ct.1, ha c List.mem_cons_self]; rfl
    have r2 : SRun ⟨35, { seg := [c] }, a ++ r⟩ [] ⟨35, { seg := c :: a }, r⟩ :=
      loop_run (l := { seg := [c] }) fun d hd => by
        have hd := ha d (List.mem_cons_of_mem _ hd)
        refine ⟨(token_ne13 ((tokenc_iff d).1 hd)).1, ?_⟩
        rw [rows_ct.2.1, hd]; rfl
    rw [acc_run_nil (r1.trans r2)] at h
    cases r with
    | nil => exact absurd h (acc_nil (by decide))
    | cons s r =>
      by_cases hs : s = 47
      case neg =>
        refine absurd h (stuck_at ?_)
        rw [ssymbol_narrow rows_ct.2.2.2.2.2.1, rows_ct.2.1, hr s r rfl, if_neg (by simp), if_neg hs]
      subst hs
      have r3 : SRun ⟨35, { seg := c :: a }, 47 :: r⟩ [] ⟨36, { seg := c :: a ++ [47] }, r⟩ :=
        plain_step (l := { seg := c :: a }) (by decide) (by rw [rows_ct.2.1]; rfl)
      rw [acc_run_nil r3] at h
      obtain ⟨b, r', eb, hb, hr'⟩ := span_all tokenc r
      rw [eb] at h
      cases b with
      | nil =>
        cases r' with
        | nil => exact absurd h (acc_nil (by decide))
        | cons d r' =>
          refine absurd h (stuck_at ?_)
          rw [ssymbol_narrow rows_ct.2.2.2.2.2.2.1, rows_ct.2.2.1, hr' d r' rfl]; rfl
      | cons d b =>
        have r4 : SRun ⟨36, { seg := c :: a ++ [47] }, d :: b ++ r'⟩ [] ⟨37, { seg := c :: a ++ [47] ++ [d] }, b ++ r'⟩ := by
          refine plain_step (l := { seg := c :: a ++ [47] }) (token_ne13 ((tokenc_iff d).1 (hb d List.mem_cons_self))).1 ?_
          rw [rows_ct.2.2.1, hb d List.mem_cons_self]; rfl
        have r5 : SRun ⟨37, { seg := c :: a ++ [47] ++ [d] }, b ++ r'⟩ [] ⟨37, { seg := c :: a ++ [47] ++ [d] ++ b }, r'⟩ :=
          loop_run (l := { seg := c :: a ++ [47] ++ [d] }) fun e he => by
            have he := hb e (List.mem_cons_of_mem _ he)
            exact ⟨(token_ne13 ((tokenc_iff e).1 he)).1, rows_ct.2.2.2.1 e he⟩
        rw [acc_run_nil (r4.trans r5)] at h
        have eu : u ++ CRLF = (c :: a ++ [47] ++ (d :: b)) ++ r' := by rw [ea, eb]; simp
        have hT : c :: a ++ [47] ++ [d] ++ b = c :: a ++ [47] ++ (d :: b) := by simp
        rw [hT] at h
        have hnt : ∀ e ∈ c :: a ++ [47] ++ (d :: b), e ≠ 13 := by
          intro e he
          simp only [List.mem_append, List.mem_singleton] at he
          rcases he with (he | rfl) | he
          · exact (token_ne13 ((tokenc_iff e).1 (ha e he))).1
          · decide
          · exact (token_ne13 ((tokenc_iff e).1 (hb e he))).1
        obtain ⟨r0, rfl, eu'⟩ := split_crlf eu hnt
        refine ⟨c :: a, d :: b, r0, eu', by simp, by simp, ?_, ?_, ?_⟩
        · intro e he
          rcases List.mem_append.1 he with he | he
          · exact (tokenc_iff e).1 (ha e he)
          · exact (tokenc_iff e).1 (hb e he)
        · rintro e t rfl ht
          have := (tokenc_iff e).2 ht
          rw [hr' e (t ++ CRLF) rfl] at this; cases this
        · obtain ⟨l', h⟩ := h
          have hh : Hist false (headerLine n w v ++ CRLF) ⟨37, { seg := c :: a ++ [47] ++ (d :: b) }, r0 ++ CRLF⟩ :=
            ⟨n ++ w ++ b!":" ++ x ++ (c :: a ++ [47] ++ (d :: b)), n ++ w ++ b!":" ++ x, by
              rw [headerLine, ex, eu']; simp, rfl, no (k := 37) (by decide), no' (k := 37) (by decide), no (k := 37) (by decide), no (k := 37) (by decide)⟩
          generalize c :: a ++ [47] ++ (d :: b) = T at *
          generalize r0 ++ CRLF = q at *
          cases h with
          | @step _ t _ p1 p2 h1 h2 =>
            have hh' := hh.step (show (37 : Nat) < 765 by decide) h1
            obtain ⟨e, tl, rw', l2, e1, e2, e3, e4⟩ := sstep_cases h1
            simp only [] at e1 e2 e3 e4
            obtain ⟨m1, m2, m3⟩ := lookup_mem e2
            have htk : t.k = rw'.tgt := by rw [e4, proceed_k]
            rcases rows_37 rw' m1 with ⟨q1, q2, q3, q4⟩ | ⟨q1, q2⟩
            · exfalso
              have hs : ssymbol 37 q e = e.toNat := by
                rw [e1] at m2 m3 ⊢
                rcases wide_sym (k := 37) e tl rows_ct.2.2.2.2.2.2.2 with ⟨_, h⟩ | ⟨_, _, h⟩ | ⟨_, _, h⟩
                · exact h
                · omega
                · omega
              rw [hs] at m2 m3
              have := List.all_eq_true.1 q4 e.toNat (List.mem_range.2 (by have := e.toNat_lt; omega))
              rw [Nat.ble_eq_true_of_le m2, Nat.ble_eq_true_of_le m3] at this
              have ht : tokenc e = true := by simpa [tokenN] using this
              rw [hr' e tl e1] at ht; cases ht
            · rw [q1] at e3
              cases e3
              have := reg_run (g := 13) h2 ⟨rfl, rfl⟩ ((headerLine_line hn hw).2 hv).one hh'
                (by rw [htk]; exact (tgt_lt (show (37 : Nat) < 765 by decide) m1).resolve_left fun h781 => by rw [h781] at q2; revert q2; decide +kernel) (.inl ⟨by rw [htk]; exact q2, by decide⟩)
              have hp2 : p2 = [] := by
                cases p2 with
                | nil => rfl
                | cons y p2 =>
                  have := this y List.mem_cons_self
                  cases y <;> simp [RegUpd] at this
              rw [hp2]
              rfl

end Gosip.Sip.MsgM
