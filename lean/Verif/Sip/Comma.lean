import Verif.Sip.ListRun
import Verif.Sip.LineValues

/-!
# The comma between two elements of a list
-/

namespace Gosip.Sip.MsgM
open Spec

/-- What happens after the last byte of an element: the state after CR, the actions at LF, the states after a
comma, after a blank, and after blanks and a comma. -/
structure After where
  cr : Nat
  fin : List MAct
  comma : Nat
  blank : Nat
  blankComma : Nat
  deriving DecidableEq

/-- The states at the end of an element. -/
def elemEnd : Nat → Option After
  | 112 => some ⟨128, [.via], 114, 113, 114⟩
  | 119 => some ⟨128, [.via], 114, 120, 114⟩
  | 137 => some ⟨128, [.via], 114, 113, 114⟩
  | 69 => some ⟨85, [.viaParam, .via], 71, 70, 71⟩
  | 80 => some ⟨85, [.viaParam, .via], 71, 81, 71⟩
  | 88 => some ⟨85, [.viaParam, .via], 71, 81, 71⟩
  | 154 => some ⟨170, [.addrParam, .addr], 156, 155, 156⟩
  | 165 => some ⟨170, [.addrParam, .addr], 156, 166, 156⟩
  | 173 => some ⟨170, [.addrParam, .addr], 156, 166, 156⟩
  | 194 => some ⟨203, [.addr], 195, 194, 195⟩
  | 206 => some ⟨203, [.addr], 195, 206, 195⟩
  | 232 => some ⟨255, [.addr], 245, 233, 234⟩
  | _ => none

/-- The rows of a state at the end of an element. -/
def afterOk (k : Nat) (r : Row) (p : After) : Bool :=
  Nat.beq r.tgt p.cr && ([[], [.viaHost], [.name], [.addrUri]] : List (List MAct)).contains r.acts &&
  decide (rows p.cr = [⟨10, 10, p.fin, 280⟩]) && !wide p.cr &&
  decide (rowAt k 44 = some (r.acts, p.comma)) &&
  decide (rowAt k 32 = some (r.acts, p.blank)) && decide (rowAt k 9 = some (r.acts, p.blank)) &&
  decide (rowAt p.blank 32 = some ([], p.blank)) && decide (rowAt p.blank 9 = some ([], p.blank)) &&
  decide (rowAt p.blank 44 = some ([], p.blankComma)) && decide (rowAt k 269 = some (r.acts, p.cr))

/-- Rows that end an element. -/
def afterRow (k : Nat) (r : Row) : Bool :=
  !(listState k && wide k && endRow r) || (match elemEnd k with | some p => afterOk k r p | none => false)

theorem after_check : ∀ k, k < 765 → ∀ r ∈ rows k, afterRow k r = true := by decide +kernel

theorem endActs_c {as : List MAct} (h : as ∈ ([[], [.viaHost], [.name], [.addrUri]] : List (List MAct))) (c d : UInt8)
    (l : Loc) : sacts as c l = sacts as d l := by
  simp only [List.mem_cons, List.not_mem_nil, or_false] at h
  rcases h with rfl | rfl | rfl | rfl <;> rfl

theorem endActs_move {as : List MAct} (h : as ∈ ([[], [.viaHost], [.name], [.addrUri]] : List (List MAct))) :
    moveOf as = .adv := by
  simp only [List.mem_cons, List.not_mem_nil, or_false] at h
  rcases h with rfl | rfl | rfl | rfl <;> rfl

/-- The end of the line, and blanks and a comma instead of it. -/
theorem end_run {k : Nat} {l : Loc} {us : List Upd} (hk : k < 765) (hl : listState k = true) (hw : wide k = true)
    (hr : ∃ r ∈ rows k, endRow r = true) (h : Acc k l CRLF us) :
    ∃ (p : After) (l1 : Loc) (ua : List Upd) (l2 : Loc) (uc : List Upd) (s1 : Bytes), elemEnd k = some p ∧ us = ua ++ uc ∧ sacts p.fin 10 { l1 with seg := s1 } = some (l2, uc) ∧
      ∀ w y, Blanks w → ∃ s, SRun ⟨k, l, w ++ 44 :: y⟩ ua
        ⟨if w = [] then p.comma else p.blankComma, { l1 with seg := s }, y⟩ := by
  obtain ⟨r, m1, hr⟩ := hr
  have hc := after_check k hk r m1
  simp only [afterRow, hl, hw, hr, Bool.and_true, Bool.not_true, Bool.false_or] at hc
  cases hp : elemEnd k with
  | none => rw [hp] at hc; cases hc
  | some p =>
    rw [hp] at hc
    simp only [afterOk, Bool.and_eq_true, Bool.not_eq_true', decide_eq_true_eq, List.contains_iff_mem] at hc
    obtain ⟨⟨⟨⟨⟨⟨⟨⟨⟨⟨a1, a2⟩, a3⟩, a4⟩, a5⟩, a6⟩, a7⟩, a8⟩, a9⟩, a10⟩, a11⟩ := hc
    have hm := endActs_move a2
    have h269 : ssymbol k (13 :: [10]) 13 = 269 := by rw [ssymbol_cr hw]; rfl
    cases hs : sacts r.acts 13 l with
    | none =>
      exfalso
      obtain ⟨t, a, b, g1, -, -⟩ := acc_cons.1 (show Acc k l (13 :: [10]) us from h)
      obtain ⟨c', tl', r', l', e1, e2, e3, -⟩ := sstep_cases g1
      cases e1
      simp only [] at e2 e3
      rw [h269] at e2
      unfold rowAt at a11
      rw [e2] at a11
      simp only [Option.map_some, Option.some.injEq, Prod.mk.injEq] at a11
      rw [a11.1, hs] at e3
      cases e3
    | some z =>
      obtain ⟨l1, ua⟩ := z
      have s1 := SRun.one (step_at (l := l) (tl := [10]) (by rw [h269]; exact a11) hs)
      rw [hm] at s1
      obtain ⟨b, e, hb⟩ := (acc_run (us := us) s1).1 h
      rw [acc_rows (by
        revert hp
        unfold elemEnd
        split <;> (intro hp; cases hp) <;> decide)] at hb
      rw [a3, ssymbol_narrow a4] at hb
      obtain ⟨r', n1, n2, n3, l2, uc, ud, f1, f2, f3⟩ := hb
      rw [List.mem_singleton] at n1
      subst n1
      simp only [] at f1 f2 f3
      have hfin : moveOf p.fin = .adv := by
        revert hp
        unfold elemEnd
        split <;> (intro hp; cases hp) <;> rfl
      rw [hfin] at f3
      have := acc_280_nil.1 f3
      subst this
      refine ⟨p, l1, ua, l2, uc, l1.seg ++ [13], rfl, by rw [e, f2]; simp, f1, ?_⟩
      intro w y hbl
      cases w with
      | nil =>
        refine ⟨l1.seg ++ [44], ?_⟩
        have := SRun.one (step_at (l := l) (c := 44) (tl := y) (by rw [ssymbol_ne (by decide)]; exact a5)
          ((endActs_c a2 44 13 l).trans hs))
        rw [hm] at this
        exact this
      | cons c w =>
        have hcb := hbl c List.mem_cons_self
        have hwb : ∀ d ∈ w, d = 32 ∨ d = 9 := fun d hd => hbl d (List.mem_cons_of_mem _ hd)
        have hc13 : c ≠ 13 := by rcases hcb with rfl | rfl <;> decide
        have q1 := SRun.one (step_at (l := l) (c := c) (tl := w ++ 44 :: y) (as := r.acts) (t := p.blank)
          (by rw [ssymbol_ne hc13]; rcases hcb with rfl | rfl
              · exact a6
              · exact a7)
          ((endActs_c a2 c 13 l).trans hs))
        rw [hm] at q1
        have hloop : ∀ d ∈ w, d ≠ 13 ∧ rowAt p.blank d.toNat = some ([], p.blank) := by
          intro d hd
          rcases hwb d hd with rfl | rfl
          · exact ⟨by decide, a8⟩
          · exact ⟨by decide, a9⟩
        have q2 := loop_run (k := p.blank) (l := { l1 with seg := l1.seg ++ [c] }) (s := w) (tl := 44 :: y) hloop
        have q3 := plain_step (k := p.blank) (t := p.blankComma) (l := { l1 with seg := l1.seg ++ [c] ++ w }) (c := 44) (tl := y) (by decide) a10
        refine ⟨l1.seg ++ [c] ++ w ++ [44], ?_⟩
        have := (q1.trans q2).trans q3
        simpa using this

theorem skip_736 : SkipPart 736 737 738 739 103 [.viaNew, .hold] where
  r := by decide +kernel
  r1 := by decide +kernel
  r2 := by decide +kernel
  r3 := by decide +kernel
  w := by decide +kernel
  ne := by decide
  lt := by decide
  stay := by decide
  cr := fun _ => noCr_stuck (by decide +kernel)

theorem skip_114 : SkipPart 114 115 116 117 103 [.via, .viaNew, .hold] where
  r := by decide +kernel
  r1 := by decide +kernel
  r2 := by decide +kernel
  r3 := by decide +kernel
  w := by decide +kernel
  ne := by decide
  lt := by decide
  stay := by decide
  cr := fun _ => noCr_stuck (by decide +kernel)

theorem skip_71 : SkipPart 71 72 73 74 103 [.viaParam, .via, .viaNew, .hold] where
  r := by decide +kernel
  r1 := by decide +kernel
  r2 := by decide +kernel
  r3 := by decide +kernel
  w := by decide +kernel
  ne := by decide
  lt := by decide
  stay := by decide
  cr := fun _ => noCr_stuck (by decide +kernel)

theorem skip_395 : SkipPart 395 396 397 398 256 [.valueNil, .hold] where
  r := by decide +kernel
  r1 := by decide +kernel
  r2 := by decide +kernel
  r3 := by decide +kernel
  w := by decide +kernel
  ne := by decide
  lt := by decide
  stay := by decide
  cr := fun _ => noCr_stuck (by decide +kernel)

theorem skip_195 : SkipPart 195 196 197 198 256 [.addr, .hold] where
  r := by decide +kernel
  r1 := by decide +kernel
  r2 := by decide +kernel
  r3 := by decide +kernel
  w := by decide +kernel
  ne := by decide
  lt := by decide
  stay := by decide
  cr := fun _ => noCr_stuck (by decide +kernel)

theorem skip_156 : SkipPart 156 157 158 159 256 [.addrParam, .addr, .hold] where
  r := by decide +kernel
  r1 := by decide +kernel
  r2 := by decide +kernel
  r3 := by decide +kernel
  w := by decide +kernel
  ne := by decide
  lt := by decide
  stay := by decide
  cr := fun _ => noCr_stuck (by decide +kernel)

theorem skip_234 : SkipPart 234 235 236 237 256 [.addr, .hold] where
  r := by decide +kernel
  r1 := by decide +kernel
  r2 := by decide +kernel
  r3 := by decide +kernel
  w := by decide +kernel
  ne := by decide
  lt := by decide
  stay := by decide
  cr := fun _ => noCr_stuck (by decide +kernel)

theorem elem_cases {k : Nat} {p : After} (h : elemEnd k = some p) :
    (reg k = 4 ∧ ((p.fin = [.via] ∧ p.comma = 114 ∧ p.blankComma = 114) ∨
      (p.fin = [.viaParam, .via] ∧ p.comma = 71 ∧ p.blankComma = 71))) ∨
    (reg k = 3 ∧ ((p.fin = [.addrParam, .addr] ∧ p.comma = 156 ∧ p.blankComma = 156) ∨
      (p.fin = [.addr] ∧ p.comma = 195 ∧ p.blankComma = 195) ∨
      (k = 232 ∧ p.fin = [.addr] ∧ p.comma = 245 ∧ p.blankComma = 234))) := by
  unfold elemEnd at h
  split at h <;> cases h <;> decide

theorem live_103 : live 103 = ⟨false, false, false, false, false, true, false, false, false⟩ := by decide +kernel
theorem live_256 : live 256 = ⟨false, false, false, false, false, false, true, false, false⟩ := by decide +kernel

theorem agree_103 {l m : Loc} (h : l.via = m.via) : Agree (live 103) l m := by
  rw [live_103]
  constructor
  case via => intro _; exact h
  all_goals intro e; cases e

theorem agree_256 {l m : Loc} (h : l.addrp = m.addrp) : Agree (live 256) l m := by
  rw [live_256]
  constructor
  case addrp => intro _; exact h
  all_goals intro e; cases e

/-- A `Via` element from its beginning on. -/
theorem acc_736 {l : Loc} {v : Bytes} {us : List Upd} :
    Acc 736 l v us ↔ Acc 103 { via := some {} } (skipWs v) us := by
  rw [skip_736.skip (E := []) (m := { via := some {} }) (fun s c => ⟨_, rfl, agree_103 rfl⟩)]
  simp

/-- An address from its beginning on. -/
theorem acc_395 {l : Loc} {f : AField} {v : Bytes} {us : List Upd} (h : l.addrp = some f) :
    Acc 395 l v us ↔ Acc 256 { addrp := some f } (skipWs v) us := by
  rw [skip_395.skip (E := []) (m := { addrp := some f }) (fun s c => ⟨_, rfl, agree_256 h⟩)]
  simp

set_option linter.unusedSimpArgs false in
/-- After the comma in a `Via` header. -/
theorem sep_via {k : Nat} {l1 l2 : Loc} {s1 s v : Bytes} {fin : List MAct} {uc us : List Upd}
    (hk : (fin = [.via] ∧ k = 114) ∨ (fin = [.viaParam, .via] ∧ k = 71))
    (hf : sacts fin 10 { l1 with seg := s1 } = some (l2, uc)) (h : Acc 736 {} v us) :
    Acc k { l1 with seg := s } v (uc ++ us) := by
  rw [acc_736] at h
  rcases hk with ⟨rfl, rfl⟩ | ⟨rfl, rfl⟩
  · cases hv : l1.via with
    | none => simp [sacts, sact, hv] at hf
    | some x =>
      simp only [sacts, sact, hv, Option.map_some, Option.bind_some, List.append_nil, Option.some.injEq, Prod.mk.injEq] at hf
      obtain ⟨-, rfl⟩ := hf
      refine (skip_114.skip (E := [.via x]) (m := { via := some {} }) ?_).2 ⟨us, rfl, h⟩
      intro s c
      exact ⟨{ l1 with seg := s, via := some {} }, by simp [sacts, sact, hv], agree_103 rfl⟩
  · cases hv : l1.via with
    | none => simp [sacts, sact, hv] at hf
    | some x =>
      simp only [sacts, sact, hv, Option.map_some, Option.bind_some, List.append_nil, List.nil_append, Option.some.injEq,
        Prod.mk.injEq] at hf
      obtain ⟨-, rfl⟩ := hf
      refine (skip_71.skip (m := { via := some {} }) ?_).2 ⟨us, rfl, h⟩
      intro s c
      exact ⟨{ l1 with seg := s, via := some {} }, by simp [sacts, sact, hv], agree_103 rfl⟩

set_option linter.unusedSimpArgs false in
theorem sacts_addr {fin : List MAct} {l1 l2 : Loc} {uc : List Upd} (h : fin = [.addrParam, .addr] ∨ fin = [.addr])
    (hf : sacts fin 10 l1 = some (l2, uc)) : ∃ f x, l1.addrp = some f ∧ uc = [.addr f x] ∧
      (∀ s c, sacts (fin ++ [.hold]) c { l1 with seg := s } = some ({ l1 with seg := s, addr := none }, uc)) := by
  cases ha : l1.addr with
  | none => rcases h with rfl | rfl <;> cases hp : l1.addrp <;> simp [sacts, sact, ha, hp] at hf
  | some x =>
    cases hp : l1.addrp with
    | none => rcases h with rfl | rfl <;> simp [sacts, sact, ha, hp] at hf
    | some f =>
      rcases h with rfl | rfl <;> simp [sacts, sact, ha, hp] at hf <;> obtain ⟨-, rfl⟩ := hf
      · exact ⟨f, _, rfl, rfl, by intro s c; simp [sacts, sact, ha, hp]⟩
      · exact ⟨f, _, rfl, rfl, by intro s c; simp [sacts, sact, ha, hp]⟩

theorem rows_245 : ∀ n, n < 256 → n = 9 ∨ n = 32 ∨ n = 13 ∨ rowAt 256 n = none ∨ rowAt 245 n = some ([.addr, .hold], 256) := by
  decide +kernel

theorem skipWs_stop {c : UInt8} {v : Bytes} (h : blank c = false) (h' : c ≠ 13) : skipWs (c :: v) = c :: v := by
  unfold skipWs
  rw [skipBlanks_stop h]
  split
  · next heq => cases heq; exact absurd rfl h'
  · rfl

/-- After the comma in a header with addresses. -/
theorem sep_addr {k : Nat} {l1 l2 : Loc} {s1 s v : Bytes} {f : AField} {fin : List MAct} {uc us : List Upd}
    (hk : (fin = [.addrParam, .addr] ∧ k = 156) ∨ (fin = [.addr] ∧ (k = 195 ∨ k = 234 ∨ k = 245 ∧ ¬ Blank v ∧ v.head? ≠ some 13)))
    (hp : l1.addrp = some f) (hf : sacts fin 10 { l1 with seg := s1 } = some (l2, uc)) (h : Acc 395 { addrp := some f } v us) :
    Acc k { l1 with seg := s } v (uc ++ us) := by
  rw [acc_395 rfl] at h
  obtain ⟨f', x, e1, e2, e3⟩ := sacts_addr (by rcases hk with ⟨h, _⟩ | ⟨h, _⟩ <;> simp [h]) hf
  have hfin : ∀ s c, ∃ l', sacts (fin ++ [.hold]) c { l1 with seg := s } = some (l', uc) ∧
      Agree (live 256) l' { addrp := some f } := fun s c => ⟨_, e3 s c, agree_256 hp⟩
  rcases hk with ⟨rfl, rfl⟩ | ⟨rfl, rfl | rfl | ⟨rfl, hs, hs'⟩⟩
  · exact (skip_156.skip (l := { l1 with seg := s }) hfin).2 ⟨us, rfl, h⟩
  · exact (skip_195.skip (l := { l1 with seg := s }) hfin).2 ⟨us, rfl, h⟩
  · exact (skip_234.skip (l := { l1 with seg := s }) hfin).2 ⟨us, rfl, h⟩
  · cases v with
    | nil => exact absurd h (acc_nil (by decide))
    | cons c v =>
      have hc9 : blank c = false := by
        cases hb : blank c with
        | false => rfl
        | true => exact absurd ⟨c, v, rfl, blank_iff'.1 hb⟩ hs
      have hc13 : c ≠ 13 := by rintro rfl; exact hs' rfl
      rw [skipWs_stop hc9 hc13] at h
      rcases rows_245 c.toNat c.toNat_lt with e | e | e | e | e
      · rw [UInt8.toNat_inj (b := 9) |>.1 e] at hc9; cases hc9
      · rw [UInt8.toNat_inj (b := 32) |>.1 e] at hc9; cases hc9
      · exact absurd (UInt8.toNat_inj (b := 13) |>.1 e) hc13
      · exact absurd h (stuck_at (by rw [ssymbol_ne hc13]; exact e))
      · obtain ⟨l', g1, g2⟩ := hfin s c
        have := SRun.one (step_at (l := { l1 with seg := s }) (tl := v) (by rw [ssymbol_ne hc13]; exact e) g1)
        refine (acc_run this).2 ⟨us, rfl, (acc_agree (by decide) g2).2 h⟩

theorem hist_name {n w v : Bytes} (h : Header) :
    Hist false (headerLine n w v ++ CRLF) ⟨entry h (n.map lower), nameLoc h, v ++ CRLF⟩ := by
  have e' : headerLine n w v ++ CRLF = (n ++ w ++ b!":") ++ (v ++ CRLF) := by simp [headerLine]
  obtain ⟨r1, r2, r3, r4, r5, r6, r7⟩ := entry_reg h (n.map lower)
  exact e' ▸ hist_at (nameLoc_seg _) ⟨r4, r5, r6, r7⟩

/-- Two elements of a `Via` header. -/
theorem line_comma_via {n w a b x : Bytes} {us1 us2 : List Upd} (hn : IsName n) (hw : Blanks w)
    (hh : headerOf n = some .via) (ha : LogicalLine a) (hx : Blanks x) (h1 : Line (headerLine n w a) us1)
    (h2 : Line (headerLine n w b) us2) : Line (headerLine n w (a ++ x ++ b!"," ++ b)) (us1 ++ us2) := by
  have hL := ((headerLine_line hn hw).2 ha).one
  rw [line_known hn hw hh] at h1 h2 ⊢
  obtain ⟨l', h1⟩ := h1
  obtain ⟨k, l, u1, u2, rfl, j2, j3, j4, j5, j6, j7, -, -, -⟩ :=
    list_run h1 ⟨rfl, rfl⟩ hL (hist_name _) (show 736 < 765 by decide) (show listState 736 = true by decide +kernel) rfl
  have j5 : reg k = 4 := j5.trans (show reg 736 = 4 by decide +kernel)
  obtain ⟨p, l1, ua, l2, uc, s1, g1, rfl, g3, g4⟩ := end_run j4 (by simp [listState, j5]) j6 j7 ⟨l', j3⟩
  obtain ⟨s, g4⟩ := g4 x (b ++ CRLF) hx
  have h2 : Acc 736 {} (b ++ CRLF) us2 := h2
  have key : Acc (if x = [] then p.comma else p.blankComma) { l1 with seg := s } (b ++ CRLF) (uc ++ us2) := by
    rcases elem_cases g1 with ⟨-, ⟨e1, e2, e3⟩ | ⟨e1, e2, e3⟩⟩ | ⟨h3, -⟩
    · rw [e2, e3, ite_self]; exact sep_via (.inl ⟨e1, rfl⟩) g3 h2
    · rw [e2, e3, ite_self]; exact sep_via (.inr ⟨e1, rfl⟩) g3 h2
    · rw [j5] at h3; cases h3
  have e : a ++ x ++ b!"," ++ b ++ CRLF = a ++ (x ++ 44 :: (b ++ CRLF)) := by simp
  have := (acc_run ((j2 _).trans g4)).2 ⟨uc ++ us2, rfl, key⟩
  rw [e]
  simpa [List.append_assoc] using this

/-- Two addresses in one header. -/
theorem line_comma_addr {n w a b x : Bytes} {f : AField} {us1 us2 : List Upd} (hn : IsName n) (hw : Blanks w)
    (hh : headerOf n = some (.address f)) (ha : LogicalLine a) (hx : Blanks x) (h1 : Line (headerLine n w a) us1)
    (h2 : Line (headerLine n w b) us2) (hs : a.getLast? = some 62 ∨ x ≠ [] ∨ (¬ Blank b ∧ b.head? ≠ some 13)) :
    Line (headerLine n w (a ++ x ++ b!"," ++ b)) (us1 ++ us2) := by
  have hL := ((headerLine_line hn hw).2 ha).one
  have hreg := line_reg hn hw hL h1
  rw [hh] at hreg
  rw [line_known hn hw hh] at h1 h2 ⊢
  obtain ⟨l', h1⟩ := h1
  obtain ⟨k, l, u1, u2, rfl, j2, j3, j4, j5, j6, j7, j8, j9, -⟩ :=
    list_run h1 ⟨rfl, rfl⟩ hL (hist_name _) (show 395 < 765 by decide) (show listState 395 = true by decide +kernel) rfl
  have j5 : reg k = 3 := j5.trans (show reg 395 = 3 by decide +kernel)
  obtain ⟨p, l1, ua, l2, uc, s1, g1, rfl, g3, g4⟩ := end_run j4 (by simp [listState, j5]) j6 j7 ⟨l', j3⟩
  obtain ⟨s, g4⟩ := g4 x (b ++ CRLF) hx
  have h2 : Acc 395 { addrp := some f } (b ++ CRLF) us2 := h2
  -- the field is the one of the header
  have hp : (p.fin = [.addrParam, .addr] ∨ p.fin = [.addr]) → l1.addrp = some f := by
    intro hfin
    obtain ⟨f', y, e1, rfl, -⟩ := sacts_addr hfin g3
    have := hreg (.addr f' y) (by simp)
    obtain ⟨-, e⟩ : _ ∧ some f = some f' := this
    rw [e]
    exact e1
  have key : Acc (if x = [] then p.comma else p.blankComma) { l1 with seg := s } (b ++ CRLF) (uc ++ us2) := by
    rcases elem_cases g1 with ⟨h3, -⟩ | ⟨-, ⟨e1, e2, e3⟩ | ⟨e1, e2, e3⟩ | ⟨ek, e1, e2, e3⟩⟩
    · rw [j5] at h3; cases h3
    · rw [e2, e3, ite_self]; exact sep_addr (.inl ⟨e1, rfl⟩) (hp (.inl e1)) g3 h2
    · rw [e2, e3, ite_self]; exact sep_addr (.inr ⟨e1, .inl rfl⟩) (hp (.inr e1)) g3 h2
    · by_cases hx0 : x = []
      · rw [if_pos hx0, e2]
        refine sep_addr (.inr ⟨e1, .inr (.inr ⟨rfl, ?_⟩)⟩) (hp (.inr e1)) g3 h2
        have hane : a ≠ [] := by
          intro e
          have := j8 e
          rw [ek] at this
          cases this
        obtain ⟨hs1, hs2⟩ := (hs.resolve_left (j9 ek hane)).resolve_left (fun h => h hx0)
        cases b with
        | nil =>
          exfalso
          rw [acc_395 rfl] at h2
          exact noCr_stuck (by decide +kernel) h2
        | cons c b => 
          refine ⟨?_, by simpa using hs2⟩
          rintro ⟨c', r, e, hc⟩
          rw [List.cons_append, List.cons.injEq] at e
          exact hs1 ⟨c, b, rfl, by rw [e.1]; exact hc⟩
      · rw [if_neg hx0, e3]
        exact sep_addr (.inr ⟨e1, .inr (.inl rfl)⟩) (hp (.inr e1)) g3 h2
  have e : a ++ x ++ b!"," ++ b ++ CRLF = a ++ (x ++ 44 :: (b ++ CRLF)) := by simp
  have := (acc_run ((j2 _).trans g4)).2 ⟨uc ++ us2, rfl, key⟩
  rw [e]
  simpa [List.append_assoc] using this

/-! ### White space after the separator that follows a URI without angle brackets -/

theorem uri_sep : ∀ k, k < 60 → ∀ c, c = 44 ∨ c = 59 → ∀ r, Uri.lookup (Uri.rows k) c = some r → r.tgt < 45 := by
  intro k hk c hc
  have h : ∀ k, k < 60 → ((Uri.lookup (Uri.rows k) 44).all fun r => decide (r.tgt < 45)) = true ∧
      ((Uri.lookup (Uri.rows k) 59).all fun r => decide (r.tgt < 45)) = true := by decide +kernel
  intro r hr
  rcases hc with rfl | rfl
  · have := (h k hk).1; rw [hr] at this; simpa using this
  · have := (h k hk).2; rw [hr] at this; simpa using this

theorem asucc_sep {k : Nat} {x : Uri.ACtx} {d : Bytes} {c : UInt8} (hk : k < 60) (hc : c = 44 ∨ c = 59) :
    Uri.asucc k x (d ++ [c]) = none := by
  induction d generalizing k x with
  | nil =>
    rw [List.nil_append, Uri.asucc]
    cases hl : Uri.lookup (Uri.rows k) c.toNat with
    | none => rfl
    | some r =>
      have := uri_sep k hk c.toNat (by rcases hc with rfl | rfl <;> simp) r hl
      simp [Uri.asucc, this]
  | cons b d ih =>
    rw [List.cons_append, Uri.asucc]
    cases hl : Uri.lookup (Uri.rows k) b.toNat with
    | none => rfl
    | some r => exact ih ((Uri.rows_cr k hk).2 r (Uri.lookup_mem' hl))

/-- A URI does not end with a comma or a semicolon. -/
theorem uriOf_sep {d : Bytes} {c : UInt8} (hc : c = 44 ∨ c = 59) : uriOf (d ++ [c]) = none := by
  unfold uriOf
  cases hp : parseURI (d ++ [c]) with
  | ok u =>
    rw [Uri.parseURI_abs, Uri.arun_ok, asucc_sep (by unfold Uri.entry; split <;> decide) hc] at hp
    cases hp
  | err e => rfl
  | panic => rfl

theorem sep_rows : rowAt 232 44 = some ([.addrUri], 245) ∧ rowAt 232 59 = some ([.addrUri], 250) ∧
    (rowAt 245 32 = some ([.addrUri], 246) ∧ rowAt 245 9 = some ([.addrUri], 246)) ∧
    (rowAt 250 32 = some ([.addrUri], 251) ∧ rowAt 250 9 = some ([.addrUri], 251)) := by decide +kernel

theorem fail_at {k t : Nat} {l : Loc} {c : UInt8} {tl : Bytes} {as : List MAct} {us : List Upd}
    (h : rowAt k (ssymbol k (c :: tl) c) = some (as, t)) (g : sacts as c l = none) : ¬ Acc k l (c :: tl) us := by
  rw [acc_cons]
  rintro ⟨t, a, b, g1, -, -⟩
  obtain ⟨c', tl', r', l', e1, e2, e3, -⟩ := sstep_cases g1
  cases e1
  simp only [] at e2 e3
  unfold rowAt at h
  rw [e2] at h
  simp only [Option.map_some, Option.some.injEq, Prod.mk.injEq] at h
  rw [h.1, g] at e3
  cases e3

/-- A URI without angle brackets, then a comma or a semicolon, then a blank: the URI is parsed again with the
separator at its end. -/
theorem addr_space {n w u rest : Bytes} {sep c : UInt8} {f : AField} {us us1 : List Upd} (hn : IsName n) (hw : Blanks w)
    (hh : headerOf n = some (.address f)) (hu : LogicalLine u) (h1 : Line (headerLine n w u) us1)
    (hp : ∀ d ∈ u, d ≠ 59 ∧ d ≠ 60) (hs : sep = 44 ∨ sep = 59) (hc : c = 32 ∨ c = 9) :
    ¬ Line (headerLine n w (u ++ sep :: c :: rest)) us := by
  have hL := ((headerLine_line hn hw).2 hu).one
  rw [line_known hn hw hh] at h1 ⊢
  obtain ⟨l', h1⟩ := h1
  obtain ⟨k, l, u1, u2, rfl, j2, j3, j4, j5, j6, j7, j8, j9, j10⟩ :=
    list_run h1 ⟨rfl, rfl⟩ hL (hist_name _) (show 395 < 765 by decide) (show listState 395 = true by decide +kernel) rfl
  have j5 : reg k = 3 := j5.trans (show reg 395 = 3 by decide +kernel)
  have hk := j10 (by decide +kernel : plainState 395 = true) (by
    intro d hd
    rcases List.mem_append.1 hd with hd | hd
    · exact hp d hd
    · rw [show (nameLoc (.address f)).seg = [] from rfl] at hd; cases hd)
  obtain ⟨p, l1, ua, l2, uc, s1, g1, -⟩ := end_run j4 (by simp [listState, j5]) j6 j7 ⟨l', j3⟩
  have hk : k = 232 := by
    have h0 : ∀ k, k < 765 → plainState k = true → (elemEnd k).isSome = true → reg k = 3 → k = 232 := by decide +kernel
    exact h0 k j4 hk (by rw [g1]; rfl) j5
  subst hk
  have e : u ++ sep :: c :: rest ++ CRLF = u ++ (sep :: c :: (rest ++ CRLF)) := by simp
  rw [e]
  have hrun : SRun ⟨395, nameLoc (.address f), u ++ (sep :: c :: (rest ++ CRLF))⟩ u1 _ := j2 (sep :: c :: (rest ++ CRLF))
  show ¬ Acc 395 _ _ _
  rw [acc_run hrun]
  rintro ⟨b, -, hb⟩
  have hsep13 : sep ≠ 13 := by rcases hs with rfl | rfl <;> decide
  have hc13 : c ≠ 13 := by rcases hc with rfl | rfl <;> decide
  obtain ⟨t, ht, ht2⟩ : ∃ t, rowAt 232 sep.toNat = some ([.addrUri], t) ∧ ∃ t2, rowAt t c.toNat = some ([.addrUri], t2) := by
    obtain ⟨r1, r2, ⟨r3, r4⟩, r5, r6⟩ := sep_rows
    rcases hs with rfl | rfl
    · exact ⟨245, r1, 246, by rcases hc with rfl | rfl <;> assumption⟩
    · exact ⟨250, r2, 251, by rcases hc with rfl | rfl <;> assumption⟩
  obtain ⟨t2, ht2⟩ := ht2
  cases hx : sacts [.addrUri] sep l with
  | none => exact fail_at (by rw [ssymbol_ne hsep13]; exact ht) hx hb
  | some z =>
    obtain ⟨l1, ux⟩ := z
    have hseg : l1.seg = l.seg := by
      simp only [sacts, sact] at hx
      cases hu : uriOf l.seg <;> rw [hu] at hx
      · cases hx
      · cases ha : l.addr <;> rw [ha] at hx <;> cases hx
        rfl
    have := SRun.one (step_at (l := l) (tl := c :: (rest ++ CRLF)) (by rw [ssymbol_ne hsep13]; exact ht) hx)
    rw [show moveOf [.addrUri] = .adv from rfl] at this
    obtain ⟨b', -, hb'⟩ := (acc_run this).1 hb
    refine fail_at (by rw [ssymbol_ne hc13]; exact ht2) ?_ hb'
    show sacts [.addrUri] c { l1 with seg := l1.seg ++ [sep] } = none
    simp [sacts, sact, uriOf_sep hs]

/-- Two lines joined by a separator. -/
theorem logical_join {a t : Bytes} {d : UInt8} (ha : LogicalLine a) (hd : d ≠ 13) (hd' : d ≠ 10) (ht : LogicalLine t) :
    LogicalLine (a ++ d :: t) := by
  intro x y e
  rw [List.append_assoc, List.append_assoc] at e
  rcases List.append_eq_append_iff.1 e with ⟨z, rfl, e2⟩ | ⟨z, rfl, e2⟩
  · -- the line break is in the second part
    refine (logical_append (p := [d]) (v := t) (by simpa using hd)).2 ht z y ?_
    rw [List.append_assoc, List.append_assoc]
    exact e2
  · -- it begins in the first part
    cases z with
    | nil =>
      simp only [CRLF, List.nil_append, List.cons_append, List.cons.injEq] at e2
      exact absurd e2.1.symm hd
    | cons c z =>
      cases z with
      | nil =>
        simp only [CRLF, List.nil_append, List.cons_append, List.cons.injEq] at e2
        exact absurd e2.2.1.symm hd'
      | cons c' z =>
        simp only [CRLF, List.nil_append, List.cons_append, List.cons.injEq] at e2
        obtain ⟨rfl, rfl, rfl⟩ := e2
        rcases ha x (z ++ CRLF) (by simp [CRLF]) with h | ⟨w, r, h, hw⟩
        · simp [CRLF] at h
        · cases z with
          | nil => cases h; rcases hw with h | h <;> cases h
          | cons w' z =>
            simp only [List.cons_append, List.cons.injEq] at h
            exact .inr ⟨w', z ++ d :: (t ++ [13, 10]), by simp, by rw [h.1]; exact hw⟩

theorem logical_comma {a b x : Bytes} (ha : LogicalLine a) (hx : Blanks x) (hb : LogicalLine b) :
    LogicalLine (a ++ x ++ b!"," ++ b) := by
  cases x with
  | nil =>
    have := logical_join (d := 44) ha (by decide) (by decide) hb
    simpa using this
  | cons c x =>
    have h2 : LogicalLine (x ++ b!"," ++ b) := by
      refine (logical_append ?_).2 hb
      intro d hd
      simp only [List.mem_append] at hd
      rcases hd with hd | hd
      · rcases hx d (List.mem_cons_of_mem _ hd) with rfl | rfl <;> decide
      · rintro rfl; revert hd; decide
    have := logical_join (d := c) ha (by rcases hx c List.mem_cons_self with rfl | rfl <;> decide)
      (by rcases hx c List.mem_cons_self with rfl | rfl <;> decide) h2
    simpa using this

end Gosip.Sip.MsgM
