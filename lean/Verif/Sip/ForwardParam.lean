import Verif.Sip.Forward

/-!
# The message machine on parameters written by the library
-/

namespace Gosip.Sip.MsgM
open Spec

/-- What the library writes for one parameter, after the semicolon. -/
def pairText (p : Bytes × Bytes) : Bytes := p.1 ++ (if p.2 ≠ [] then b!"=" ++ quoted p.2 else [])

theorem sanitized_token {n : Bytes} (h : ∀ c ∈ n, token c) : sanitized tokenc n = n :=
  List.filter_eq_self.2 fun c hc => (tokenc_iff c).2 (h c hc)

theorem paramText_cons {p : Bytes × Bytes} {l : Pairs} (h : ∀ c ∈ p.1, token c) :
    paramText (p :: l) = paramText l ++ b!";" ++ pairText p := by
  obtain ⟨n, v⟩ := p
  rw [paramText, sanitized_token h, pairText]
  simp

theorem quoted_token {v : Bytes} (h : ∀ c ∈ v, token c) : quoted v = v := by
  unfold quoted
  rw [if_neg]
  simp only [List.any_eq_true, not_exists, not_and]
  intro c hc
  simp [(tokenc_iff c).2 (h c hc)]

theorem quoted_needs {v : Bytes} (h : NeedsQuotes v) : quoted v = 34 :: (quoteLoop v ++ [34]) := by
  unfold quoted
  rw [if_pos]
  · rfl
  · obtain ⟨c, hc, h1, h2⟩ := h
    refine List.any_eq_true.2 ⟨c, hc, ?_⟩
    rw [Bool.and_eq_true, bne_iff_ne]
    refine ⟨?_, h2⟩
    cases ht : tokenc c
    · rfl
    · exact absurd ((tokenc_iff c).1 ht) h1

/-- The states of a list of parameters: at the name, in the name, after the equals sign, in a plain value, at a
quoted value, and after a semicolon. `Has` says what parameters the object being read already has. -/
structure ParamPart (p0 p1 pv pt q0 q1 q2 q3 q4 q5 ps : Nat) (sa : List MAct) (Has : Pairs → Loc → Prop) : Prop where
  quote : QuotePart q0 q1 q2 q3 q4 q5
  qne : q2 ≠ q1
  name0 : ∀ c : UInt8, token c → rowAt p0 c.toNat = some ([.start, .mark], p1)
  name1 : ∀ c : UInt8, token c → rowAt p1 c.toNat = some ([], p1)
  eq : rowAt p1 61 = some ([.name], pv)
  val0 : ∀ c : UInt8, token c → rowAt pv c.toNat = some ([.append], pt)
  val1 : ∀ c : UInt8, token c → rowAt pt c.toNat = some ([.append], pt)
  dq : rowAt pv 34 = some ([], q0)
  semi1 : rowAt p1 59 = some ([.name], ps)
  semiT : rowAt pt 59 = some ([], ps)
  semiQ : rowAt q2 59 = some ([], ps)
  next : ∀ c : UInt8, token c → rowAt ps c.toNat = some (sa, p0)
  nextMove : moveOf sa = .stay
  nextActs : ∀ l c r, Has r l → ∃ l', sacts sa c l = some (l', []) ∧ Has ((l.name, l.buf) :: r) l'
  frame : ∀ l l' r, l'.via = l.via → l'.addr = l.addr → l'.addrp = l.addrp → Has r l → Has r l'

/-- After a parameter. -/
def PEnd (p1 pt q2 : Nat) (k : Nat) (l : Loc) (p : Bytes × Bytes) : Prop :=
  (k = p1 ∧ l.seg = p.1 ∧ l.buf = [] ∧ p.2 = []) ∨ ((k = pt ∨ k = q2) ∧ l.name = p.1 ∧ l.buf = p.2)

variable {p0 p1 pv pt q0 q1 q2 q3 q4 q5 ps : Nat} {sa : List MAct} {Has : Pairs → Loc → Prop}

/-- The name of a parameter. -/
theorem ParamPart.name (h : ParamPart p0 p1 pv pt q0 q1 q2 q3 q4 q5 ps sa Has) {n : Bytes} (hn : IsToken n) (l : Loc) (tl : Bytes) :
    SRun ⟨p0, l, n ++ tl⟩ [] ⟨p1, { l with seg := n, buf := [] }, tl⟩ := by
  obtain ⟨hn0, hn⟩ := hn
  cases n with
  | nil => exact absurd rfl hn0
  | cons c n =>
    have hc := hn c List.mem_cons_self
    have a := eat (l := l) (tl := n ++ tl) (tok_ne hc) (h.name0 c hc) (l' := { l with seg := [], buf := [] }) rfl rfl
    have b := loop_run (k := p1) (l := { l with seg := [c], buf := [] }) (s := n) (tl := tl) fun d hd =>
      ⟨tok_ne (hn d (List.mem_cons_of_mem _ hd)), h.name1 d (hn d (List.mem_cons_of_mem _ hd))⟩
    exact a.trans b

/-- The name of a parameter and the equals sign. -/
theorem ParamPart.nameEq (h : ParamPart p0 p1 pv pt q0 q1 q2 q3 q4 q5 ps sa Has) {n : Bytes} (hn : IsToken n) (l : Loc) (tl : Bytes) :
    SRun ⟨p0, l, n ++ 61 :: tl⟩ [] ⟨pv, { l with seg := n ++ [61], buf := [], name := n }, tl⟩ :=
  (h.name hn l (61 :: tl)).trans (eat (l := { l with seg := n, buf := [] }) (c := 61) (by decide) h.eq rfl rfl)

/-- A quoted value. -/
theorem ParamPart.quotedValue (h : ParamPart p0 p1 pv pt q0 q1 q2 q3 q4 q5 ps sa Has) {v : Bytes} (hq : Quotable v) (l : Loc)
    (tl : Bytes) : ∃ s, SRun ⟨pv, l, 34 :: (quoteLoop v ++ 34 :: tl)⟩ [] ⟨q2, { l with seg := s, buf := v }, tl⟩ := by
  obtain ⟨s, hs⟩ := h.quote.all h.qne hq { l with seg := l.seg ++ [34] } tl
  exact ⟨s, (eat (c := 34) (by decide) h.dq rfl rfl).trans hs⟩

/-- One parameter. -/
theorem ParamPart.one (h : ParamPart p0 p1 pv pt q0 q1 q2 q3 q4 q5 ps sa Has) {p : Bytes × Bytes} {r : Pairs}
    (hn : IsToken p.1) (hv : ValueOK p.2) (l : Loc) (tl : Bytes) (hh : Has r l) :
    ∃ k l', SRun ⟨p0, l, pairText p ++ tl⟩ [] ⟨k, l', tl⟩ ∧ PEnd p1 pt q2 k l' p ∧ Has r l' := by
  obtain ⟨n, v⟩ := p
  simp only [] at hn hv
  by_cases hv0 : v = []
  · subst hv0
    refine ⟨p1, { l with seg := n, buf := [] }, by simpa [pairText] using h.name hn l tl, .inl ⟨rfl, rfl, rfl, rfl⟩, h.frame l _ _ rfl rfl rfl hh⟩
  · have e : pairText (n, v) ++ tl = n ++ 61 :: (quoted v ++ tl) := by
      simp [pairText, hv0]
    rw [e]
    rcases hv with ht | ⟨hq, hnq⟩
    · rw [quoted_token ht]
      cases v with
      | nil => exact absurd rfl hv0
      | cons d v =>
        have hd := ht d List.mem_cons_self
        refine ⟨pt, _, (h.nameEq hn l (d :: v ++ tl)).trans ((eat (tl := v ++ tl) (tok_ne hd) (h.val0 d hd) rfl rfl).trans
          (append_run fun x hx => ⟨tok_ne (ht x (List.mem_cons_of_mem _ hx)), h.val1 x (ht x (List.mem_cons_of_mem _ hx))⟩)),
          .inr ⟨.inl rfl, rfl, rfl⟩, h.frame l _ _ rfl rfl rfl hh⟩
    · rw [quoted_needs hnq]
      obtain ⟨s, hs⟩ := h.quotedValue hq { l with seg := n ++ [61], buf := [], name := n } tl
      refine ⟨q2, { l with seg := s, buf := v, name := n }, (h.nameEq hn l (34 :: (quoteLoop v ++ [34]) ++ tl)).trans
        (by simpa using hs), .inr ⟨.inr rfl, rfl, rfl⟩, h.frame l _ _ rfl rfl rfl hh⟩

/-- A semicolon after a parameter. -/
theorem ParamPart.semi (h : ParamPart p0 p1 pv pt q0 q1 q2 q3 q4 q5 ps sa Has) {p : Bytes × Bytes} {r : Pairs}
    {k : Nat} {l : Loc} {c : UInt8} (hc : token c) (hp : PEnd p1 pt q2 k l p) (hh : Has r l) (tl : Bytes) :
    ∃ l', SRun ⟨k, l, 59 :: c :: tl⟩ [] ⟨p0, l', c :: tl⟩ ∧ Has (p :: r) l' := by
  obtain ⟨n, v⟩ := p
  obtain ⟨l1, s1, g1, g2, g3⟩ : ∃ l1 : Loc, SRun ⟨k, l, 59 :: c :: tl⟩ [] ⟨ps, l1, c :: tl⟩ ∧ l1.name = n ∧ l1.buf = v ∧ Has r l1 := by
    rcases hp with ⟨rfl, g1, g2, g3⟩ | ⟨rfl | rfl, g1, g2⟩
    · exact ⟨_, eat (c := 59) (by decide) h.semi1 rfl rfl, g1, g2.trans g3.symm, h.frame l _ _ rfl rfl rfl hh⟩
    · exact ⟨_, eat (c := 59) (by decide) h.semiT rfl rfl, g1, g2, h.frame l _ _ rfl rfl rfl hh⟩
    · exact ⟨_, eat (c := 59) (by decide) h.semiQ rfl rfl, g1, g2, h.frame l _ _ rfl rfl rfl hh⟩
  obtain ⟨l2, g4, g5⟩ := h.nextActs l1 c r g3
  rw [g1, g2] at g5
  exact ⟨l2, s1.trans (stay (tok_ne hc) (h.next c hc) g4 h.nextMove), g5⟩

/-- After a list of parameters: `E` describes the end of what precedes them. -/
def Ended (p1 pt q2 : Nat) (Has : Pairs → Loc → Prop) (E : Nat → Loc → Prop) (l : Pairs) (k : Nat) (x : Loc) : Prop :=
  match l with
  | [] => E k x
  | p :: r => PEnd p1 pt q2 k x p ∧ Has r x

/-- The name of the parameter after a list of parameters. -/
theorem ParamPart.next_name (h : ParamPart p0 p1 pv pt q0 q1 q2 q3 q4 q5 ps sa Has) {E : Nat → Loc → Prop}
    (hE : ∀ k x c tl, E k x → token c → ∃ x', SRun ⟨k, x, 59 :: c :: tl⟩ [] ⟨p0, x', c :: tl⟩ ∧ Has [] x') {l : Pairs}
    {n : Bytes} (hn : IsToken n) {k : Nat} {x : Loc} (hx : Ended p1 pt q2 Has E l k x) (tl : Bytes) :
    ∃ x', SRun ⟨k, x, 59 :: (n ++ tl)⟩ [] ⟨p0, x', n ++ tl⟩ ∧ Has l x' := by
  cases n with
  | nil => exact absurd rfl hn.1
  | cons c n =>
    have hc := hn.2 c List.mem_cons_self
    cases l with
    | nil => exact hE k x c (n ++ tl) hx hc
    | cons q l => exact h.semi hc hx.1 hx.2 (n ++ tl)

/-- A list of parameters. -/
theorem ParamPart.list (h : ParamPart p0 p1 pv pt q0 q1 q2 q3 q4 q5 ps sa Has) {E : Nat → Loc → Prop}
    (hE : ∀ k x c tl, E k x → token c → ∃ x', SRun ⟨k, x, 59 :: c :: tl⟩ [] ⟨p0, x', c :: tl⟩ ∧ Has [] x') {l : Pairs}
    (hl : ParamOK l) {k : Nat} {x : Loc} (hx : E k x) (tl : Bytes) :
    ∃ k' x', SRun ⟨k, x, paramText l ++ tl⟩ [] ⟨k', x', tl⟩ ∧ Ended p1 pt q2 Has E l k' x' := by
  induction l generalizing tl with
  | nil => exact ⟨k, x, by simpa [paramText] using SRun.refl _, hx⟩
  | cons p l ih =>
    obtain ⟨hn, hv⟩ := hl p List.mem_cons_self
    rw [paramText_cons hn.2]
    obtain ⟨k1, x1, s1, e1⟩ := ih (fun q hq => hl q (List.mem_cons_of_mem _ hq)) (b!";" ++ (pairText p ++ tl))
    obtain ⟨x2, s2, g2⟩ := h.next_name hE hn e1 ((if p.2 ≠ [] then b!"=" ++ quoted p.2 else []) ++ tl)
    obtain ⟨k3, x3, s3, g3, g4⟩ := h.one hn hv x2 tl g2
    have e : pairText p ++ tl = p.1 ++ ((if p.2 ≠ [] then b!"=" ++ quoted p.2 else []) ++ tl) := by
      rw [pairText, List.append_assoc]
    refine ⟨k3, x3, ?_, g3, g4⟩
    rw [← e] at s2
    have := (s1.trans s2).trans s3
    simpa using this

/-- All but the value of the last parameter. -/
theorem ParamPart.upto (h : ParamPart p0 p1 pv pt q0 q1 q2 q3 q4 q5 ps sa Has) {E : Nat → Loc → Prop}
    (hE : ∀ k x c tl, E k x → token c → ∃ x', SRun ⟨k, x, 59 :: c :: tl⟩ [] ⟨p0, x', c :: tl⟩ ∧ Has [] x') {l : Pairs}
    (hl : ParamOK l) {n v : Bytes} (hn : IsToken n) (hv : v ≠ []) {k : Nat} {x : Loc} (hx : E k x) (tl : Bytes) :
    ∃ x', SRun ⟨k, x, paramText ((n, v) :: l) ++ tl⟩ [] ⟨pv, x', quoted v ++ tl⟩ ∧ x'.name = n ∧ x'.buf = [] ∧ Has l x' := by
  obtain ⟨k1, x1, s1, e1⟩ := h.list hE hl hx (59 :: (n ++ (61 :: (quoted v ++ tl))))
  obtain ⟨x2, s2, g2⟩ := h.next_name hE hn e1 (61 :: (quoted v ++ tl))
  refine ⟨_, ?_, rfl, rfl, h.frame x2 { x2 with seg := n ++ [61], buf := [], name := n } l rfl rfl rfl g2⟩
  have := (s1.trans s2).trans (h.nameEq hn x2 (quoted v ++ tl))
  rw [paramText_cons hn.2]
  simpa [pairText, hv] using this

end Gosip.Sip.MsgM
