import Verif.Sip.GrVia
import Verif.Sip.ForwardUri
import Verif.Sip.Comma

/-!
# Addresses, as read by the message machine
-/

namespace Gosip.Sip.MsgM.Gr
open Spec

/-- The variables in an address. -/
abbrev A (f : AField) (a : Addr) : Loc := { addrp := some f, addr := some a }

theorem acc_addr {k : Nat} (hk : live k = ⟨false, false, false, false, false, false, true, true, false⟩) (lt : k < 765)
    {l : Loc} {f : AField} {a : Addr} (h : l.addrp = some f) (h' : l.addr = some a) {v : Bytes} {us : List Upd} :
    Acc k l v us ↔ Acc k (A f a) v us := by
  refine acc_agree lt ?_
  rw [hk]
  constructor
  case addrp => intro _; exact h
  case addr => intro _; exact h'
  all_goals intro e; cases e

theorem agree_addr {k : Nat} (hk : live k = ⟨false, false, false, false, false, false, true, true, false⟩)
    {l : Loc} {f : AField} {a : Addr} (h : l.addrp = some f) (h' : l.addr = some a) : Agree (live k) l (A f a) := by
  rw [hk]
  constructor
  case addrp => intro _; exact h
  case addr => intro _; exact h'
  all_goals intro e; cases e

theorem addr_lives : live 153 = ⟨false, false, false, false, false, false, true, true, false⟩ ∧
    live 190 = ⟨false, false, false, false, false, false, true, true, false⟩ ∧
    live 194 = ⟨false, false, false, false, false, false, true, true, false⟩ := by decide +kernel

/-! ### The end of a URI -/

/-- Does not end with a comma or semicolon. -/
def Fine (t : Bytes) : Prop := ∀ c ∈ t.getLast?, c ≠ 44 ∧ c ≠ 59

theorem Fine.append {a b : Bytes} (ha : Fine a) (hb : Fine b) : Fine (a ++ b) := by
  intro c hc
  rw [List.getLast?_append] at hc
  cases h : b.getLast? with
  | none => rw [h] at hc; exact ha c hc
  | some d => rw [h] at hc; exact hb c (by rw [h]; exact hc)

theorem Fine.right {a b : Bytes} (hb : Fine b) (hne : b ≠ []) : Fine (a ++ b) := by
  intro c hc
  rw [List.getLast?_append] at hc
  cases h : b.getLast? with
  | none => exact absurd (List.getLast?_eq_none_iff.1 h) hne
  | some d => rw [h] at hc; exact hb c (by rw [h]; exact hc)

theorem Fine.all {t : Bytes} (h : ∀ c ∈ t, c ≠ 44 ∧ c ≠ 59) : Fine t :=
  fun c hc => h c (List.mem_of_getLast? hc)

theorem fine_nil : Fine [] := fun _ h => nomatch h

theorem fine_unescapes {P : UInt8 → Prop} (hP : ∀ c, P c → c ≠ 44 ∧ c ≠ 59) {t s : Bytes} (h : Unescapes P t s) :
    Fine t := by
  have hx : ∀ c : UInt8, hexVal c ≠ none → c ≠ 44 ∧ c ≠ 59 := by decide +kernel
  refine .all ?_
  induction h with
  | nil => intro c hc; cases hc
  | lit h1 _ ih => exact List.forall_mem_cons.2 ⟨hP _ h1, ih⟩
  | esc h1 h2 _ ih =>
    exact List.forall_mem_cons.2 ⟨by decide, List.forall_mem_cons.2 ⟨hx _ (by rw [h1]; simp),
      List.forall_mem_cons.2 ⟨hx _ (by rw [h2]; simp), ih⟩⟩⟩

theorem unescapes_ne {P : UInt8 → Prop} {t s : Bytes} (h : Unescapes P t s) (hs : s ≠ []) : t ≠ [] := by
  rintro rfl; cases h; exact hs rfl

theorem fine_pair {P : UInt8 → Prop} (hP : ∀ c, P c → c ≠ 44 ∧ c ≠ 59) {t : Bytes} {p : Bytes × Bytes}
    (h : PairText P t p) : Fine t ∧ t ≠ [] := by
  cases h with
  | name h1 h2 => exact ⟨fine_unescapes hP h1, unescapes_ne h1 h2⟩
  | value h1 _ h2 h3 => exact ⟨(fine_unescapes hP h2).right (unescapes_ne h2 h3), by simp⟩

theorem fine_params {t : Bytes} {l : List (Bytes × Bytes)} (h : ParamsText t l) : Fine t := by
  have hP : ∀ c : UInt8, param c → c ≠ 44 ∧ c ≠ 59 := by decide +kernel
  induction h with
  | nil => exact fine_nil
  | cons h1 _ ih =>
    obtain ⟨g1, g2⟩ := fine_pair hP h1
    exact (g1.right g2).append ih

theorem fine_headers {t : Bytes} {l : List (Bytes × Bytes)} (h : HeadersText t l) : Fine t := by
  have hP : ∀ c : UInt8, header c → c ≠ 44 ∧ c ≠ 59 := by decide +kernel
  cases h with
  | none => exact fine_nil
  | @some t l h =>
    have : Fine t ∧ t ≠ [] := by
      induction h with
      | one h1 => exact fine_pair hP h1
      | cons h1 _ ih => exact ⟨ih.1.right ih.2, by simp⟩
    exact this.1.right this.2

/-- No URI ends with a comma or a semicolon. -/
theorem uri_fine {t : Bytes} {u : URI} (h : URIText t u) : Fine t := by
  have hH : ∀ c : UInt8, hostc c → c ≠ 44 ∧ c ≠ 59 := by decide +kernel
  have hD : ∀ c : UInt8, isDig c → c ≠ 44 ∧ c ≠ 59 := by decide +kernel
  obtain ⟨hs, hu, hh, hp, hps, hhs⟩ := h
  refine Fine.append (Fine.append (Fine.append ?_ ?_) (fine_params hps)) (fine_headers hhs)
  · cases hh with
    | name h1 h => exact (Fine.all fun c hc => hH c (h c hc)).right h1
    | ip6 h1 h => rw [← List.append_assoc]; exact Fine.right (.all (by intro c hc; rw [List.mem_singleton.1 hc]; decide)) (by simp)
  · cases hp with
    | none => exact fine_nil
    | some h1 h => exact (Fine.all fun c hc => hD c (h c hc)).right h1

theorem uriOf_iff {t : Bytes} {u : URI} : uriOf t = some u ↔ URIText t u := by
  constructor
  · intro h
    unfold uriOf at h
    split at h
    · cases h; exact (Uri.parseURI_grammar t u).1 ‹_›
    · cases h
  · exact uriOf_text

theorem uriOf_comma {t : Bytes} {c : UInt8} (h : c = 44 ∨ c = 59) : uriOf (t ++ [c]) = none := by
  cases e : uriOf (t ++ [c]) with
  | none => rfl
  | some u =>
    have := uri_fine (uriOf_iff.1 e) c (by simp)
    rcases h with rfl | rfl
    · exact absurd rfl this.1
    · exact absurd rfl this.2

/-! ### What follows an address -/

/-- The end of an address: the end of the line, or a comma and another address. -/
def AddrEnd (e : Bool) (f : AField) (a : Addr) (r : Bytes) (us : List Upd) : Prop :=
  (∃ tl b, r = CRLF ++ tl ∧ us = .addr f a :: b ∧ Acc 280 Loc.init tl b) ∨
  (∃ s t b, r = s ++ t ∧ SepAfter e 44 s ∧ us = .addr f a :: b ∧ Acc 256 { addrp := some f } t b)

/-- Behind a part of an address: its end, or a parameter. -/
def AddrRest (e : Bool) (f : AField) (a : Addr) (r : Bytes) (us : List Upd) : Prop :=
  AddrEnd e f a r us ∨ ∃ s t, r = s ++ t ∧ SepAfter e 59 s ∧ Acc 153 (A f a) t us

/-- Letters. -/
def alphaB (c : UInt8) : Bool := decide (isAlpha c)
/-- Characters of a scheme. -/
def schemeB (c : UInt8) : Bool := decide (schemec c)
/-- Characters of a URI. -/
def uriB (c : UInt8) : Bool := decide (uric c)
/-- Characters of a URI without angle brackets. -/
def bareB (c : UInt8) : Bool := uriB c && c != 44 && c != 59

theorem shape_256 : Shape 256 [⟨alphaB, [.mark], 262⟩, ⟨tokenc, [.mark], 257⟩, ⟨fun c => c == 34 || c == 60, [.addrNew, .hold], 188⟩]
    none none := by decide +kernel

theorem first_256 {m : Loc} {t : Bytes} {b : List Upd} (g : Acc 256 m t b) :
    ∃ c t', t = c :: t' ∧ blank c = false ∧ c ≠ 13 := by
  obtain ⟨c, t', as, x, e, h1, h2, _⟩ := out_none.1 ((acc_shape shape_256).1 g)
  refine ⟨c, t', e, ?_, h1⟩
  have : ∀ c : UInt8, blank c = true →
      entAt [⟨alphaB, [.mark], 262⟩, ⟨tokenc, [.mark], 257⟩, ⟨fun c => c == 34 || c == 60, [.addrNew, .hold], 188⟩] c = none := by
    decide +kernel
  cases hb : blank c with
  | false => rfl
  | true => rw [this c hb] at h2; cases h2

theorem no_comma_256 {m : Loc} {c : UInt8} {t : Bytes} {b : List Upd} (g : Acc 256 m (c :: t) b) : c ≠ 44 ∧ c ≠ 59 := by
  obtain ⟨c', t', as, x, e, h1, h2, _⟩ := out_none.1 ((acc_shape shape_256).1 g)
  cases e
  constructor <;> rintro rfl <;> revert h2 <;> simp [entAt, show alphaB 44 = false from by decide, show alphaB 59 = false from by decide,
    show tokenc 44 = false from by decide, show tokenc 59 = false from by decide]

theorem skip_160 : SkipPart 160 161 162 163 153 [.addrParam, .hold] := by
  constructor
  case cr => exact fun _ => cr_shape param_153.s0
  all_goals decide +kernel
theorem skip_199 : SkipPart 199 200 201 202 153 [.hold] := by
  constructor
  case cr => exact fun _ => cr_shape param_153.s0
  all_goals decide +kernel
theorem skip_238 : SkipPart 238 239 240 241 153 [.hold] := by
  constructor
  case cr => exact fun _ => cr_shape param_153.s0
  all_goals decide +kernel

theorem comma_rel {k k1 k2 k3 : Nat} {as : List MAct} (p : SkipPart k k1 k2 k3 256 as) {l : Loc} {f : AField} {a : Addr}
    (hf : ∀ s c, ∃ l', sacts as c { l with seg := s } = some (l', [.addr f a]) ∧ l'.addrp = some f) {v : Bytes} {us : List Upd} :
    Acc k l v us ↔ ∃ w r, v = w ++ r ∧ Sws w ∧ ∃ b, us = .addr f a :: b ∧ Acc 256 { addrp := some f } r b := by
  rw [skip_rel p (m := { addrp := some f }) (E := [.addr f a]) (fun s c => by
    obtain ⟨l', h1, h2⟩ := hf s c
    exact ⟨l', h1, agree_256 h2⟩) first_256]
  constructor
  · rintro ⟨w, r, b, e, h1, h2, h3⟩; exact ⟨w, r, e, h1, b, h2, h3⟩
  · rintro ⟨w, r, e, h1, b, h2, h3⟩; exact ⟨w, r, b, e, h1, h2, h3⟩

theorem semi_rel {k k1 k2 k3 : Nat} {as : List MAct} (p : SkipPart k k1 k2 k3 153 as) {l : Loc} {f : AField} {a : Addr}
    (hf : ∀ s c, ∃ l', sacts as c { l with seg := s } = some (l', []) ∧ l'.addrp = some f ∧ l'.addr = some a) {v : Bytes}
    {us : List Upd} : Acc k l v us ↔ ∃ w r, v = w ++ r ∧ Sws w ∧ Acc 153 (A f a) r us := by
  rw [skip_rel p (m := A f a) (E := []) (fun s c => by
    obtain ⟨l', h1, h2, h3⟩ := hf s c
    exact ⟨l', h1, agree_addr addr_lives.1 h2 h3⟩) (first_tok param_153.s0)]
  constructor
  · rintro ⟨w, r, b, e, h1, h2, h3⟩
    have h2 : us = b := h2
    exact ⟨w, r, e, h1, h2 ▸ h3⟩
  · rintro ⟨w, r, e, h1, h3⟩; exact ⟨w, r, us, e, h1, rfl, h3⟩

theorem tail_rest {k1 k2 e : Nat} {l : Loc} {f : AField} {a : Addr} {r : Bytes} {us : List Upd}
    (s1 : ∀ v us, Acc k1 { l with seg := [] } v us ↔ ∃ w r, v = w ++ r ∧ Sws w ∧ ∃ b, us = .addr f a :: b ∧ Acc 256 { addrp := some f } r b)
    (s2 : ∀ v us, Acc k2 { l with seg := [] } v us ↔ ∃ w r, v = w ++ r ∧ Sws w ∧ Acc 153 (A f a) r us)
    (s3 : ∀ t us, (startsWSP t.tail = false ∧ Acc e { l with seg := [] } t us) ↔
      ∃ tl b, t = 10 :: tl ∧ us = [.addr f a] ++ b ∧ Acc 280 Loc.init tl b) :
    Tail [(44, k1), (59, k2)] (some e) l r us ↔ AddrRest false f a r us := by
  rw [tail_two]
  simp only [s1, s2, s3]
  rw [sep_mid, sep_mid]
  unfold AddrRest AddrEnd
  constructor
  · rintro (⟨s, t, e, h1, b, h2, h3⟩ | h | ⟨t, rfl, tl, b, rfl, h1, h2⟩)
    · exact .inl (.inr ⟨s, t, b, e, h1, h2, h3⟩)
    · exact .inr h
    · exact .inl (.inl ⟨tl, b, rfl, h1, h2⟩)
  · rintro ((⟨tl, b, rfl, h1, h2⟩ | ⟨s, t, b, e, h1, h2, h3⟩) | h)
    · exact .inr (.inr ⟨10 :: tl, rfl, tl, b, rfl, h1, h2⟩)
    · exact .inl ⟨s, t, e, h1, b, h2, h3⟩
    · exact .inr (.inl h)

theorem shape_170 : Shape 170 [⟨(· == 10), [.addrParam, .addr], 280⟩] none none := by decide +kernel
theorem shape_203 : Shape 203 [⟨(· == 10), [.addr], 280⟩] none none := by decide +kernel
theorem shape_255 : Shape 255 [⟨(· == 10), [.addr], 280⟩] none none := by decide +kernel

theorem after_param {f : AField} {a : Addr} {n x : Bytes} {r : Bytes} {us : List Upd} :
    Tail [(44, 156), (59, 160)] (some 170) { A f a with name := n, buf := x } r us ↔
      AddrRest false f { a with param := (n, x) :: a.param } r us := by
  refine tail_rest (fun v us => comma_rel skip_156 ?_) (fun v us => semi_rel skip_160 ?_) (fun t us => ?_)
  · intro s c; simp [sacts, sact]
  · intro s c; simp [sacts, sact]
  · exact eol_shape shape_170 rfl (l' := { A f a with name := n, buf := x, addr := none }) (fun c => by simp [sacts, sact])

theorem after_angle {f : AField} {a : Addr} {r : Bytes} {us : List Upd} :
    Tail [(44, 195), (59, 199)] (some 203) (A f a) r us ↔ AddrRest false f a r us := by
  refine tail_rest (fun v us => comma_rel skip_195 ?_) (fun v us => semi_rel skip_199 ?_) (fun t us => ?_)
  · intro s c; simp [sacts, sact]
  · intro s c; simp [sacts, sact]
  · exact eol_shape shape_203 rfl (l' := { A f a with addr := none }) (fun c => by simp [sacts, sact])

/-! ### Steps at given bytes -/

theorem acc_at {k : Nat} {es : List Ent} {eol fold : Option (List MAct × Nat)} (h : Shape k es eol fold) {l : Loc} {c : UInt8}
    {t : Bytes} {us : List Upd} {as : List MAct} {x : Nat} (hc : c ≠ 13) (he : entAt es c = some (as, x)) :
    Acc k l (c :: t) us ↔ Go as x l c t us := by
  rw [acc_shape h]
  constructor
  · rintro ⟨c', t', as', x', e, h1, ⟨_, h2⟩ | ⟨h2, _⟩ | ⟨h2, _⟩⟩
    · cases e; rw [he] at h2; cases h2; exact h1
    · cases e; exact absurd h2 hc
    · cases e; exact absurd h2 hc
  · intro g; exact ⟨c, t, as, x, rfl, g, .inl ⟨hc, he⟩⟩

theorem acc_foldstep {k : Nat} {es : List Ent} {eol : Option (List MAct × Nat)} {as : List MAct} {x : Nat}
    (h : Shape k es eol (some (as, x))) {l : Loc} {t : Bytes} {us : List Upd} (hw : startsWSP t.tail = true) :
    Acc k l (13 :: t) us ↔ Go as x l 13 t us := by
  rw [acc_shape h]
  constructor
  · rintro ⟨c', t', as', x', e, h1, ⟨h2, _⟩ | ⟨_, h2, _⟩ | ⟨_, _, h2⟩⟩
    · cases e; exact absurd rfl h2
    · cases e; rw [hw] at h2; cases h2
    · cases e; cases h2; exact h1
  · intro g; exact ⟨13, t, as, x, rfl, g, .inr (.inr ⟨rfl, hw, rfl⟩)⟩

theorem go_stay {as : List MAct} {k : Nat} {l l' : Loc} {c : UInt8} {t : Bytes} {us a : List Upd}
    (h : moveOf as = .stay) (g : sacts as c l = some (l', a)) : Go as k l c t us ↔ ∃ b, us = a ++ b ∧ Acc k l' (c :: t) b := by
  unfold Go
  rw [h, g]
  constructor
  · rintro ⟨_, _, b, e, h⟩; cases e; exact ⟨b, h⟩
  · rintro ⟨b, h⟩; exact ⟨_, _, b, rfl, h⟩

theorem go_back {as : List MAct} {k : Nat} {l l' : Loc} {c : UInt8} {t : Bytes} {us a : List Upd}
    (h : moveOf as = .back) (g : sacts as c l = some (l', a)) :
    Go as k l c t us ↔ ∃ b, us = a ++ b ∧ Acc k { l' with seg := [] } (l'.seg ++ c :: t) b := by
  unfold Go
  rw [h, g]
  constructor
  · rintro ⟨_, _, b, e, h⟩; cases e; exact ⟨b, h⟩
  · rintro ⟨b, h⟩; exact ⟨_, _, b, rfl, h⟩

theorem go_adv0 {as : List MAct} {k : Nat} {l l' : Loc} {c : UInt8} {t : Bytes} {us : List Upd}
    (h : moveOf as = .adv) (g : sacts as c l = some (l', [])) :
    Go as k l c t us ↔ Acc k { l' with seg := l'.seg ++ [c] } t us := by
  rw [go_adv' h g]; simp

/-! ### Behind `>` -/

theorem loop_194 : Loop 194 blank [] (sepEnts [] [(44, 195), (59, 199)]) (some ([], 203)) (some ([], 204)) := by decide +kernel
theorem shape_204 : Shape 204 [⟨(· == 10), [], 205⟩] none none := by decide +kernel
theorem shape_205 : Shape 205 [⟨blank, [], 206⟩] none none := by decide +kernel
theorem loop_206 : Loop 206 blank [] (sepEnts [] [(44, 195), (59, 199)]) (some ([], 203)) (some ([], 207)) := by decide +kernel
theorem fold_207 : FoldPart 207 208 209 (sepEnts [] [(44, 195), (59, 199)]) := by decide +kernel
theorem nd_seps : ((([(44, 195), (59, 199)] : List (UInt8 × Nat))).map (·.1)).Nodup := by decide
theorem nb_seps : ∀ x ∈ ([(44, 195), (59, 199)] : List (UInt8 × Nat)), blank x.1 = false ∧ x.1 ≠ 13 ∧ x.2 < 765 ∧
    (live x.2).seg = false := by decide +kernel
theorem seg_203 : (live 203).seg = false ∧ (live 204).seg = false ∧ (live 206).seg = false ∧ (live 194).seg = false := by decide +kernel

/-- Leaving a loop over blanks with separators or the end of the line. -/
theorem out_mid {l : Loc} {k : Nat} {r : Bytes} {us : List Upd} (hk : k < 765) (hl : (live k).seg = false) :
    Out (sepEnts [] [(44, 195), (59, 199)]) (some ([], 203)) (some ([], k)) l r us ↔
      (∃ c t x, r = c :: t ∧ (c, x) ∈ ([(44, 195), (59, 199)] : List (UInt8 × Nat)) ∧ Acc x { l with seg := [] } t us) ∨
      (∃ t, r = 13 :: t ∧ startsWSP t.tail = false ∧ Acc 203 { l with seg := [] } t us) ∨
      (∃ t, r = 13 :: t ∧ startsWSP t.tail = true ∧ Acc k { l with seg := [] } t us) := by
  constructor
  · rintro ⟨c, t, as, x, rfl, h1, ⟨h2, h3⟩ | ⟨rfl, h2, h3⟩ | ⟨rfl, h2, h3⟩⟩
    · obtain ⟨c', t', x', e, h⟩ := (out_seps nd_seps nb_seps).1 (out_none.2 ⟨c, t, as, x, rfl, h2, h3, h1⟩)
      exact .inl ⟨c', t', x', e, h⟩
    · cases h3; exact .inr (.inl ⟨t, rfl, h2, (acc_seg (by decide) seg_203.1).1 (go_nil.1 h1)⟩)
    · cases h3; exact .inr (.inr ⟨t, rfl, h2, (acc_seg hk hl).1 (go_nil.1 h1)⟩)
  · rintro (h | ⟨t, rfl, h2, h3⟩ | ⟨t, rfl, h2, h3⟩)
    · obtain ⟨c, t, as, x, e, h1, h2, h3⟩ := out_none.1 ((out_seps nd_seps nb_seps).2 h)
      exact ⟨c, t, as, x, e, h3, .inl ⟨h1, h2⟩⟩
    · exact ⟨13, t, [], 203, rfl, go_nil.2 ((acc_seg (by decide) seg_203.1).2 h3), .inr (.inl ⟨rfl, h2, rfl⟩)⟩
    · exact ⟨13, t, [], k, rfl, go_nil.2 ((acc_seg hk hl).2 h3), .inr (.inr ⟨rfl, h2, rfl⟩)⟩

theorem seg_207 : (live 207).seg = false := by decide +kernel

theorem acc_207 {l : Loc} {v : Bytes} {us : List Upd} :
    Acc 207 { l with seg := [] } v us ↔ ∃ w c t x, v = 10 :: w ++ c :: t ∧ Blanks w ∧ w ≠ [] ∧
      (c, x) ∈ ([(44, 195), (59, 199)] : List (UInt8 × Nat)) ∧ Acc x { l with seg := [] } t us := by
  rw [fold_207.acc]
  have := fun s r => out_seps nd_seps nb_seps (l := { l with seg := s }) (r := r) (us := us)
  constructor
  · rintro ⟨w, r, rfl, h1, h2, h3⟩
    obtain ⟨c, t, x, rfl, h4, h5⟩ := (this _ _).1 h3
    exact ⟨w, c, t, x, rfl, h1, h2, h4, h5⟩
  · rintro ⟨w, c, t, x, rfl, h1, h2, h4, h5⟩
    exact ⟨w, c :: t, rfl, h1, h2, (this _ _).2 ⟨c, t, x, rfl, h4, h5⟩⟩

theorem acc_206 {l : Loc} {v : Bytes} {us : List Upd} :
    Acc 206 l v us ↔ ∃ w r, v = w ++ r ∧ Blanks w ∧ Tail [(44, 195), (59, 199)] (some 203) l r us := by
  rw [loop_plain loop_206]
  simp only [out_mid (show 207 < 765 by decide) seg_207, acc_207]
  constructor
  · rintro ⟨s, r, rfl, h1, ⟨c, t, x, rfl, h2, h3⟩ | ⟨t, rfl, h2, h3⟩ | ⟨t, rfl, h2, w, c, t, x, rfl, h3, h4, h5, h6⟩⟩
    · exact ⟨s, _, rfl, blanks_iff.2 h1, .inl ⟨[], c, t, x, rfl, sws_nil, h2, h3⟩⟩
    · exact ⟨s, _, rfl, blanks_iff.2 h1, .inr ⟨_, t, rfl, rfl, h2, h3⟩⟩
    · exact ⟨s, _, rfl, blanks_iff.2 h1, .inl ⟨[] ++ CRLF ++ w, c, t, x, by simp [CRLF], .fold (fun _ h => nomatch h) h3 h4, h5, h6⟩⟩
  · rintro ⟨w, r, rfl, h1, ⟨w', c, t, x, rfl, h2, h3, h4⟩ | ⟨e, t, e1, rfl, h2, h3⟩⟩
    · cases h2 with
      | blanks h2 =>
        exact ⟨w ++ w', c :: t, by simp, blanks_iff.1 (fun d hd => (List.mem_append.1 hd).elim (h1 d) (h2 d)), .inl ⟨c, t, x, rfl, h3, h4⟩⟩
      | @fold u u' h2 h5 h6 =>
        refine ⟨w ++ u, 13 :: 10 :: u' ++ c :: t, by simp [CRLF], blanks_iff.1 (fun d hd => (List.mem_append.1 hd).elim (h1 d) (h2 d)),
          .inr (.inr ⟨10 :: u' ++ c :: t, rfl, startsWSP_blanks h5 h6, u', c, t, x, rfl, h5, h6, h3, h4⟩)⟩
    · cases e1
      exact ⟨w, 13 :: t, rfl, blanks_iff.1 h1, .inr (.inl ⟨t, rfl, h2, h3⟩)⟩

theorem acc_204 {l : Loc} {v : Bytes} {us : List Upd} :
    Acc 204 { l with seg := [] } v us ↔ ∃ w r, v = 10 :: w ++ r ∧ Blanks w ∧ w ≠ [] ∧ Tail [(44, 195), (59, 199)] (some 203) l r us := by
  rw [acc_one shape_204]
  have h6 : ∀ s t, Acc 206 { l with seg := s } t us ↔ Acc 206 l t us := fun s t =>
    (acc_seg (by decide) seg_203.2.2.1).trans (acc_seg (l := l) (s := l.seg) (by decide) seg_203.2.2.1).symm
  constructor
  · rintro ⟨c, t, rfl, _, h1, h2⟩
    have : c = 10 := by simpa using h1
    subst this
    obtain ⟨d, t, rfl, _, h3, h4⟩ := (acc_one shape_205).1 h2
    obtain ⟨w, r, rfl, h5, h7⟩ := acc_206.1 ((h6 _ _).1 h4)
    exact ⟨d :: w, r, rfl, List.forall_mem_cons.2 ⟨blank_iff'.1 h3, h5⟩, by simp, h7⟩
  · rintro ⟨w, r, rfl, h1, h2, h3⟩
    cases w with
    | nil => exact absurd rfl h2
    | cons d w =>
      have hd := blank_iff'.2 (h1 d List.mem_cons_self)
      refine ⟨10, d :: w ++ r, rfl, by decide, rfl, (acc_one shape_205).2 ⟨d, w ++ r, rfl, ?_, hd, (h6 _ _).2 (acc_206.2
        ⟨w, r, rfl, fun c hc => h1 c (List.mem_cons_of_mem _ hc), h3⟩)⟩⟩
      rintro rfl; exact absurd hd (by decide)

/-- White space after `>`. -/
theorem acc_194 {l : Loc} {v : Bytes} {us : List Upd} :
    Acc 194 l v us ↔ ∃ w r, v = w ++ r ∧ Sws w ∧ Tail [(44, 195), (59, 199)] (some 203) l r us := by
  rw [loop_plain loop_194]
  simp only [out_mid (show 204 < 765 by decide) seg_203.2.1, acc_204]
  constructor
  · rintro ⟨s, r, rfl, h1, ⟨c, t, x, rfl, h2, h3⟩ | ⟨t, rfl, h2, h3⟩ | ⟨t, rfl, h2, w, r, rfl, h3, h4, h5⟩⟩
    · exact ⟨s, _, rfl, .blanks (blanks_iff.2 h1), .inl ⟨[], c, t, x, rfl, sws_nil, h2, h3⟩⟩
    · exact ⟨s, _, rfl, .blanks (blanks_iff.2 h1), .inr ⟨_, t, rfl, rfl, h2, h3⟩⟩
    · exact ⟨s ++ CRLF ++ w, r, by simp [CRLF], .fold (blanks_iff.2 h1) h3 h4, h5⟩
  · rintro ⟨w, r, rfl, hw, h⟩
    cases hw with
    | @fold u u' h1 h2 h3 =>
      exact ⟨u, 13 :: 10 :: u' ++ r, by simp [CRLF], blanks_iff.1 h1, .inr (.inr ⟨10 :: u' ++ r, rfl, startsWSP_blanks h2 h3, u', r, rfl, h2, h3, h⟩)⟩
    | blanks h1 =>
      rcases h with ⟨w', c, t, x, rfl, h2, h3, h4⟩ | ⟨e, t, e1, rfl, h2, h3⟩
      · cases h2 with
        | blanks h2 =>
          exact ⟨w ++ w', c :: t, by simp, blanks_iff.1 (fun d hd => (List.mem_append.1 hd).elim (h1 d) (h2 d)), .inl ⟨c, t, x, rfl, h3, h4⟩⟩
        | @fold u u' h2 h5 h6 =>
          refine ⟨w ++ u, 13 :: 10 :: u' ++ c :: t, by simp [CRLF], blanks_iff.1 (fun d hd => (List.mem_append.1 hd).elim (h1 d) (h2 d)),
            .inr (.inr ⟨10 :: u' ++ c :: t, rfl, startsWSP_blanks h5 h6, u', c :: t, rfl, h5, h6, .inl ⟨[], c, t, x, rfl, sws_nil, h3, h4⟩⟩)⟩
      · cases e1
        exact ⟨w, 13 :: t, rfl, blanks_iff.1 h1, .inr (.inl ⟨t, rfl, h2, h3⟩)⟩

/-! ### URIs -/

theorem shape_190 : Shape 190 [⟨alphaB, [.mark], 191⟩] none none := by decide +kernel
theorem loop_191 : Loop 191 schemeB [] [⟨(· == 58), [], 192⟩] none none := by decide +kernel
theorem shape_192 : Shape 192 [⟨uriB, [], 193⟩] none none := by decide +kernel
theorem loop_193 : Loop 193 uriB [] [⟨(· == 62), [.addrUri], 194⟩] none none := by decide +kernel

theorem out_one {on : UInt8 → Bool} {as : List MAct} {x : Nat} {l : Loc} {r : Bytes} {us : List Upd} :
    Out [⟨on, as, x⟩] none none l r us ↔ ∃ c t, r = c :: t ∧ c ≠ 13 ∧ on c = true ∧ Go as x l c t us := by
  rw [out_none]
  constructor
  · rintro ⟨c, t, as, x, e, h1, h2, h3⟩
    rcases entAt_cons.1 h2 with ⟨g1, g2⟩ | ⟨_, h2⟩
    · cases g2; exact ⟨c, t, e, h1, g1, h3⟩
    · cases h2
  · rintro ⟨c, t, e, h1, h2, h3⟩
    exact ⟨c, t, as, x, e, h1, entAt_cons.2 (.inl ⟨h2, rfl⟩), h3⟩

theorem out_byte {b : UInt8} (hb : b ≠ 13) {as : List MAct} {x : Nat} {l : Loc} {r : Bytes} {us : List Upd} :
    Out [⟨(· == b), as, x⟩] none none l r us ↔ ∃ t, r = b :: t ∧ Go as x l b t us := by
  rw [out_one]
  constructor
  · rintro ⟨c, t, rfl, _, h2, h3⟩
    have : c = b := by simpa using h2
    subst this
    exact ⟨t, rfl, h3⟩
  · rintro ⟨t, rfl, h⟩; exact ⟨b, t, rfl, hb, by simp, h⟩

/-- A URI in angle brackets. -/
theorem acc_190 {f : AField} {a : Addr} {v : Bytes} {us : List Upd} :
    Acc 190 (A f a) v us ↔ ∃ u x r, v = u ++ 62 :: r ∧ URIText u x ∧ Acc 194 (A f { a with uri := some x }) r us := by
  rw [acc_single shape_190]
  have st : ∀ c t, Go [.mark] 191 (A f a) c t us ↔ ∃ s d r u x, t = s ++ 58 :: d :: (r ++ 62 :: u) ∧ (∀ c ∈ s, schemeB c = true) ∧
      (∀ c ∈ d :: r, uriB c = true) ∧ uriOf (c :: s ++ 58 :: d :: r) = some x ∧ Acc 194 (A f { a with uri := some x }) u us := by
    intro c t
    rw [go_adv0 rfl rfl, loop_plain loop_191]
    have e1 : ∀ s r, Out [⟨(· == 58), [], 192⟩] none none { A f a with seg := [c] ++ s } r us ↔ ∃ t, r = 58 :: t ∧
        Acc 192 { A f a with seg := c :: s ++ [58] } t us := by
      intro s r
      rw [out_byte (by decide)]
      simp only [go_nil]
      exact Iff.rfl
    have e2 : ∀ s t, Acc 192 { A f a with seg := c :: s ++ [58] } t us ↔ ∃ d t', t = d :: t' ∧ uriB d = true ∧
        Acc 193 { A f a with seg := c :: s ++ [58] ++ [d] } t' us := by
      intro s t
      rw [acc_one shape_192]
      constructor
      · rintro ⟨d, t', e, _, h⟩; exact ⟨d, t', e, h⟩
      · rintro ⟨d, t', e, h1, h2⟩
        refine ⟨d, t', e, ?_, h1, h2⟩
        rintro rfl; exact absurd h1 (by decide)
    have e3 : ∀ s d t, Acc 193 { A f a with seg := c :: s ++ [58] ++ [d] } t us ↔ ∃ r u x, t = r ++ 62 :: u ∧ (∀ c ∈ r, uriB c = true) ∧
        uriOf (c :: s ++ 58 :: d :: r) = some x ∧ Acc 194 (A f { a with uri := some x }) u us := by
      intro s d t
      rw [loop_plain loop_193]
      have e : c :: s ++ [58] ++ [d] = c :: s ++ [58, d] := by simp
      constructor
      · rintro ⟨r, w, rfl, h1, h2⟩
        obtain ⟨u, rfl, h3⟩ := (out_byte (by decide)).1 h2
        obtain ⟨l', a', b, g1, g2, g3⟩ := (go_adv rfl).1 h3
        simp only [sacts, sact, e] at g1
        cases hu : uriOf (c :: s ++ 58 :: d :: r) with
        | none => simp at g1 hu; rw [hu] at g1; simp at g1
        | some x =>
          simp at g1 hu
          rw [hu] at g1
          simp at g1
          obtain ⟨rfl, rfl⟩ := g1
          have g2 : us = b := g2
          subst g2
          exact ⟨r, u, x, rfl, h1, by simpa using hu, (acc_addr addr_lives.2.2 (by decide) rfl rfl).1 g3⟩
      · rintro ⟨r, u, x, rfl, h1, h2, h3⟩
        refine ⟨r, 62 :: u, rfl, h1, (out_byte (by decide)).2 ⟨u, rfl, ?_⟩⟩
        refine (go_adv0 rfl (l' := { A f { a with uri := some x } with seg := c :: s ++ 58 :: d :: r }) ?_).2
          ((acc_addr addr_lives.2.2 (by decide) rfl rfl).2 h3)
        simp at h2
        simp [sacts, sact, h2]
    constructor
    · rintro ⟨s, r, rfl, h1, h2⟩
      obtain ⟨t, rfl, h2'⟩ := (e1 s r).1 h2
      obtain ⟨d, t, rfl, h3, h4⟩ := (e2 s t).1 h2'
      obtain ⟨r, u, x, rfl, h5, h6, h7⟩ := (e3 s d t).1 h4
      exact ⟨s, d, r, u, x, rfl, h1, List.forall_mem_cons.2 ⟨h3, h5⟩, h6, h7⟩
    · rintro ⟨s, d, r, u, x, rfl, h1, h2, h3, h4⟩
      refine ⟨s, _, rfl, h1, (e1 s _).2 ⟨_, rfl, (e2 s _).2 ⟨d, _, rfl, h2 d List.mem_cons_self, (e3 s d _).2 ⟨r, u, x, rfl, ?_, h3, h4⟩⟩⟩⟩
      exact fun c hc => h2 c (List.mem_cons_of_mem _ hc)
  simp only [st]
  constructor
  · rintro ⟨c, t, rfl, h1, h2, s, d, r, u, x, rfl, h3, h4, h5, h6⟩
    exact ⟨c :: s ++ 58 :: d :: r, x, u, by simp, uriOf_iff.1 h5, h6⟩
  · rintro ⟨u, x, r, rfl, h1, h2⟩
    obtain ⟨c, s, t, rfl, g1, g2, g3, g4⟩ := uri_shape h1
    cases t with
    | nil => exact absurd rfl g3
    | cons d t =>
      refine ⟨c, s ++ 58 :: d :: (t ++ 62 :: r), by simp, ?_, decide_eq_true g1, s, d, t, r, x, rfl, fun c hc => decide_eq_true (g2 c hc),
        fun c hc => decide_eq_true (g4 c hc), uriOf_iff.2 h1, h2⟩
      rintro rfl; exact absurd g1 (by decide)

theorem go_uri {k : Nat} {f : AField} {a : Addr} {u : Bytes} {c : UInt8} {t : Bytes} {us : List Upd} :
    Go [.addrUri] k { addrp := some f, addr := some a, seg := u } c t us ↔
      ∃ x, uriOf u = some x ∧ Acc k { addrp := some f, addr := some { a with uri := some x }, seg := u ++ [c] } t us := by
  cases hu : uriOf u with
  | none =>
    constructor
    · intro h
      obtain ⟨l', a', b, g, _⟩ := (go_adv rfl).1 h
      simp [sacts, sact, hu] at g
    · rintro ⟨x, h, _⟩; cases h
  | some x =>
    rw [go_adv0 rfl (l' := { addrp := some f, addr := some { a with uri := some x }, seg := u }) (by simp [sacts, sact, hu])]
    constructor
    · intro h; exact ⟨x, rfl, h⟩
    · rintro ⟨y, h, g⟩; cases h; exact g

theorem go_uri_fail {as : List MAct} {k : Nat} {l : Loc} {c : UInt8} {t : Bytes} {us : List Upd} (h : uriOf l.seg = none) :
    ¬ Go (.addrUri :: as) k l c t us := by
  rintro ⟨l', a, b, h1, _⟩
  simp [sacts, sact, h] at h1

theorem shape_245 : Shape 245 [⟨blank, [.addrUri], 246⟩, ⟨(· == 44), [.addrUri], 245⟩, ⟨(· == 59), [.addrUri, .addr, .hold], 256⟩,
    ⟨fun _ => true, [.addr, .hold], 256⟩] (some ([.addrUri, .addr, .hold], 256)) (some ([.addrUri], 247)) := by decide +kernel
theorem shape_250 : Shape 250 [⟨blank, [.addrUri], 251⟩, ⟨(· == 59), [.addrUri], 250⟩, ⟨(· == 44), [.addrUri, .hold], 153⟩,
    ⟨fun _ => true, [.hold], 153⟩] (some ([.addrUri, .hold], 153)) (some ([.addrUri], 252)) := by decide +kernel

theorem acc_245 {f : AField} {a : Addr} {u v : Bytes} {us : List Upd} :
    Acc 245 { addrp := some f, addr := some a, seg := u ++ [44] } v us ↔
      ∃ b, us = .addr f a :: b ∧ Acc 256 { addrp := some f } v b := by
  have hu : uriOf (u ++ [44]) = none := uriOf_comma (.inl rfl)
  have st : ∀ c t, Go [.addr, .hold] 256 { addrp := some f, addr := some a, seg := u ++ [44] } c t us ↔
      ∃ b, us = .addr f a :: b ∧ Acc 256 { addrp := some f } (c :: t) b := by
    intro c t
    rw [go_stay rfl (l' := { addrp := some f, seg := u ++ [44] }) (a := [.addr f a]) rfl]
    have ag : ∀ v b, Acc 256 { addrp := some f, seg := u ++ [44] } v b ↔ Acc 256 { addrp := some f } v b :=
      fun v b => acc_agree (by decide) (agree_256 rfl)
    constructor
    · rintro ⟨b, e, h⟩; exact ⟨b, e, (ag _ _).1 h⟩
    · rintro ⟨b, e, h⟩; exact ⟨b, e, (ag _ _).2 h⟩
  rw [acc_shape shape_245]
  constructor
  · rintro ⟨c, t, as, x, rfl, h1, ⟨h2, h3⟩ | ⟨_, _, h3⟩ | ⟨_, _, h3⟩⟩
    · rcases entAt_cons.1 h3 with ⟨_, g⟩ | ⟨_, h3⟩
      · cases g; exact absurd h1 (go_uri_fail hu)
      rcases entAt_cons.1 h3 with ⟨_, g⟩ | ⟨_, h3⟩
      · cases g; exact absurd h1 (go_uri_fail hu)
      rcases entAt_cons.1 h3 with ⟨_, g⟩ | ⟨_, h3⟩
      · cases g; exact absurd h1 (go_uri_fail hu)
      rcases entAt_cons.1 h3 with ⟨_, g⟩ | ⟨_, h3⟩
      · cases g; exact (st _ _).1 h1
      · cases h3
    · cases h3; exact absurd h1 (go_uri_fail hu)
    · cases h3; exact absurd h1 (go_uri_fail hu)
  · rintro ⟨b, e, h⟩
    obtain ⟨c, t, rfl, h1, h2⟩ := first_256 h
    obtain ⟨h3, h4⟩ := no_comma_256 h
    exact ⟨c, t, _, _, rfl, (st c t).2 ⟨b, e, h⟩, .inl ⟨h2, by simp [entAt, h1, beq_eq_false_iff_ne.2 h3, beq_eq_false_iff_ne.2 h4]⟩⟩

theorem acc_250 {f : AField} {a : Addr} {u v : Bytes} {us : List Upd} :
    Acc 250 { addrp := some f, addr := some a, seg := u ++ [59] } v us ↔ Acc 153 (A f a) v us := by
  have hu : uriOf (u ++ [59]) = none := uriOf_comma (.inr rfl)
  have st : ∀ c t, Go [.hold] 153 { addrp := some f, addr := some a, seg := u ++ [59] } c t us ↔ Acc 153 (A f a) (c :: t) us := by
    intro c t
    rw [go_stay rfl (l' := { addrp := some f, addr := some a, seg := u ++ [59] }) (a := []) rfl]
    simp only [List.nil_append, exists_eq_left']
    exact acc_addr addr_lives.1 (by decide) rfl rfl
  rw [acc_shape shape_250]
  constructor
  · rintro ⟨c, t, as, x, rfl, h1, ⟨h2, h3⟩ | ⟨_, _, h3⟩ | ⟨_, _, h3⟩⟩
    · rcases entAt_cons.1 h3 with ⟨_, g⟩ | ⟨_, h3⟩
      · cases g; exact absurd h1 (go_uri_fail hu)
      rcases entAt_cons.1 h3 with ⟨_, g⟩ | ⟨_, h3⟩
      · cases g; exact absurd h1 (go_uri_fail hu)
      rcases entAt_cons.1 h3 with ⟨_, g⟩ | ⟨_, h3⟩
      · cases g; exact absurd h1 (go_uri_fail hu)
      rcases entAt_cons.1 h3 with ⟨_, g⟩ | ⟨_, h3⟩
      · cases g; exact (st _ _).1 h1
      · cases h3
    · cases h3; exact absurd h1 (go_uri_fail hu)
    · cases h3; exact absurd h1 (go_uri_fail hu)
  · intro h
    obtain ⟨c, t, rfl, h2, h3, _⟩ := (acc_single param_153.s0).1 h
    obtain ⟨h1, _⟩ := token_nb c h3
    have h4 : c ≠ 44 ∧ c ≠ 59 := by
      constructor <;> rintro rfl <;> exact absurd h3 (by decide)
    exact ⟨c, t, _, _, rfl, (st c t).2 h, .inl ⟨h2, by simp [entAt, h1, beq_eq_false_iff_ne.2 h4.1, beq_eq_false_iff_ne.2 h4.2]⟩⟩

theorem shape_229 : Shape 229 [⟨alphaB, [], 230⟩] none none := by decide +kernel
theorem loop_230 : Loop 230 schemeB [] [⟨(· == 58), [], 231⟩] none none := by decide +kernel
theorem shape_231 : Shape 231 [⟨uriB, [], 232⟩] none none := by decide +kernel
theorem loop_232 : Loop 232 bareB [] [⟨blank, [.addrUri], 233⟩, ⟨(· == 44), [.addrUri], 245⟩, ⟨(· == 59), [.addrUri], 250⟩]
    (some ([.addrUri], 255)) (some ([.addrUri], 242)) := by decide +kernel
theorem part_233 : SwsPart 233 242 243 244 (sepEnts [] [(44, 234), (59, 238)]) := by decide +kernel
theorem nb_bare : ∀ x ∈ ([(44, 234), (59, 238)] : List (UInt8 × Nat)), blank x.1 = false ∧ x.1 ≠ 13 ∧ x.2 < 765 ∧
    (live x.2).seg = false := by decide +kernel

/-- After a URI without angle brackets. -/
theorem bare_rest {f : AField} {u r : Bytes} {us : List Upd} :
    Out [⟨blank, [.addrUri], 233⟩, ⟨(· == 44), [.addrUri], 245⟩, ⟨(· == 59), [.addrUri], 250⟩]
      (some ([.addrUri], 255)) (some ([.addrUri], 242)) { addrp := some f, addr := some {}, seg := u } r us ↔
      ∃ x, uriOf u = some x ∧ AddrRest true f { uri := some x } r us := by
  have c1 : ∀ x v us, Acc 234 (A f { uri := some x }) v us ↔ ∃ w r, v = w ++ r ∧ Sws w ∧
      ∃ b, us = .addr f { uri := some x } :: b ∧ Acc 256 { addrp := some f } r b := fun x v us =>
    comma_rel skip_234 (by intro s c; simp [sacts, sact])
  have c2 : ∀ x v us, Acc 238 (A f { uri := some x }) v us ↔ ∃ w r, v = w ++ r ∧ Sws w ∧ Acc 153 (A f { uri := some x }) r us :=
    fun x v us => semi_rel skip_238 (by intro s c; simp [sacts, sact])
  have mid : ∀ x s t us, Out (sepEnts [] [(44, 234), (59, 238)]) none none
      { addrp := some f, addr := some { uri := some x }, seg := s } t us ↔
      ∃ c t' x', t = c :: t' ∧ (c, x') ∈ ([(44, 234), (59, 238)] : List (UInt8 × Nat)) ∧ Acc x' (A f { uri := some x }) t' us :=
    fun x s t us => out_seps (by decide) nb_bare
  have ws : ∀ x w t us, Lws w → (∃ c t' x', t = c :: t' ∧ (c, x') ∈ ([(44, 234), (59, 238)] : List (UInt8 × Nat)) ∧
      Acc x' (A f { uri := some x }) t' us) → AddrRest true f { uri := some x } (w ++ t) us := by
    rintro x w t us hw ⟨c, t', x', rfl, h1, h2⟩
    simp only [List.mem_cons, Prod.mk.injEq, List.not_mem_nil, or_false] at h1
    rcases h1 with ⟨rfl, rfl⟩ | ⟨rfl, rfl⟩
    · obtain ⟨w', r, rfl, h3, b, h4, h5⟩ := (c1 _ _ _).1 h2
      exact .inl (.inr ⟨w ++ 44 :: w', r, b, by simp, .inr ⟨w, w', rfl, hw, h3⟩, h4, h5⟩)
    · obtain ⟨w', r, rfl, h3, h4⟩ := (c2 _ _ _).1 h2
      exact .inr ⟨w ++ 59 :: w', r, by simp, .inr ⟨w, w', rfl, hw, h3⟩, h4⟩
  have e3 := fun x t us => eol_shape shape_255 rfl (l := { addrp := some f, addr := some { uri := some x }, seg := u ++ [13] })
    (l' := { addrp := some f, seg := u ++ [13] }) (E := [.addr f { uri := some x }]) (fun c => by simp [sacts, sact]) (t := t) (us := us)
  constructor
  · rintro ⟨c, t, as, k, rfl, h1, ⟨h2, h3⟩ | ⟨rfl, h2, h3⟩ | ⟨rfl, h2, h3⟩⟩
    · rcases entAt_cons.1 h3 with ⟨hb, g⟩ | ⟨_, h3⟩
      · cases g
        obtain ⟨x, hx, h4⟩ := go_uri.1 h1
        obtain ⟨w, r, rfl, h5, h6⟩ := part_233.acc.1 h4
        exact ⟨x, hx, ws x (c :: w) r us ⟨(sws_cons hb).2 h5, by simp⟩ ((mid _ _ _ _).1 h6)⟩
      rcases entAt_cons.1 h3 with ⟨hb, g⟩ | ⟨_, h3⟩
      · cases g
        have : c = 44 := by simpa using hb
        subst this
        obtain ⟨x, hx, h4⟩ := go_uri.1 h1
        obtain ⟨b, h5, h6⟩ := acc_245.1 h4
        exact ⟨x, hx, .inl (.inr ⟨[44], t, b, rfl, .inl rfl, h5, h6⟩)⟩
      rcases entAt_cons.1 h3 with ⟨hb, g⟩ | ⟨_, h3⟩
      · cases g
        have : c = 59 := by simpa using hb
        subst this
        obtain ⟨x, hx, h4⟩ := go_uri.1 h1
        exact ⟨x, hx, .inr ⟨[59], t, rfl, .inl rfl, acc_250.1 h4⟩⟩
      · cases h3
    · cases h3
      obtain ⟨x, hx, h4⟩ := go_uri.1 h1
      obtain ⟨tl, b, rfl, h5, h6⟩ := (e3 x t us).1 ⟨h2, h4⟩
      exact ⟨x, hx, .inl (.inl ⟨tl, b, rfl, h5, h6⟩)⟩
    · cases h3
      obtain ⟨x, hx, h4⟩ := go_uri.1 h1
      obtain ⟨w, r, rfl, h5, h6, h7⟩ := part_233.f.acc.1 h4
      have := ws x ([] ++ CRLF ++ w) r us ⟨.fold (fun _ h => nomatch h) h5 h6, by simp [CRLF]⟩ ((mid _ _ _ _).1 h7)
      exact ⟨x, hx, by simpa [CRLF] using this⟩
  · rintro ⟨x, hx, h⟩
    have ws' : ∀ w t, Lws w → (∃ c t' x', t = c :: t' ∧ (c, x') ∈ ([(44, 234), (59, 238)] : List (UInt8 × Nat)) ∧
        Acc x' (A f { uri := some x }) t' us) → Out [⟨blank, [.addrUri], 233⟩, ⟨(· == 44), [.addrUri], 245⟩, ⟨(· == 59), [.addrUri], 250⟩]
      (some ([.addrUri], 255)) (some ([.addrUri], 242)) { addrp := some f, addr := some {}, seg := u } (w ++ t) us := by
      rintro w t ⟨h1, hne⟩ h2
      cases w with
      | nil => exact absurd rfl hne
      | cons d w =>
        by_cases hd : blank d = true
        · refine ⟨d, w ++ t, _, 233, rfl, go_uri.2 ⟨x, hx, part_233.acc.2 ⟨w, t, rfl, (sws_cons hd).1 h1, (mid _ _ _ _).2 h2⟩⟩,
            .inl ⟨?_, entAt_cons.2 (.inl ⟨hd, rfl⟩)⟩⟩
          rintro rfl; exact absurd hd (by decide)
        · obtain ⟨w', e, g1, g2⟩ := sws_crlf (Bool.eq_false_iff.2 hd) h1
          cases e
          exact ⟨13, 10 :: w' ++ t, _, 242, rfl, go_uri.2 ⟨x, hx, part_233.f.acc.2 ⟨w', t, rfl, g1, g2, (mid _ _ _ _).2 h2⟩⟩,
            .inr (.inr ⟨rfl, startsWSP_blanks g1 g2, rfl⟩)⟩
    rcases h with (⟨tl, b, rfl, h1, h2⟩ | ⟨s, t, b, rfl, hs, h1, h2⟩) | ⟨s, t, rfl, hs, h1⟩
    · obtain ⟨g1, g2⟩ := (e3 x (10 :: tl) us).2 ⟨tl, b, rfl, h1, h2⟩
      exact ⟨13, 10 :: tl, _, 255, rfl, go_uri.2 ⟨x, hx, g2⟩, .inr (.inl ⟨rfl, g1, rfl⟩)⟩
    · rcases hs with rfl | ⟨w, w', rfl, g1, g2⟩
      · exact ⟨44, t, _, 245, rfl, go_uri.2 ⟨x, hx, acc_245.2 ⟨b, h1, h2⟩⟩, .inl ⟨by decide, rfl⟩⟩
      · have := ws' w (44 :: w' ++ t) g1 ⟨44, w' ++ t, 234, rfl, by simp, (c1 _ _ _).2 ⟨w', t, rfl, g2, b, h1, h2⟩⟩
        simpa using this
    · rcases hs with rfl | ⟨w, w', rfl, g1, g2⟩
      · exact ⟨59, t, _, 250, rfl, go_uri.2 ⟨x, hx, acc_250.2 h1⟩, .inl ⟨by decide, rfl⟩⟩
      · have := ws' w (59 :: w' ++ t) g1 ⟨59, w' ++ t, 238, rfl, by simp, (c2 _ _ _).2 ⟨w', t, rfl, g2, h1⟩⟩
        simpa using this

theorem split_unique {x : UInt8} {a b a' b' : Bytes} (h : a ++ x :: b = a' ++ x :: b') (h1 : x ∉ a) (h2 : x ∉ a') :
    a = a' ∧ b = b' := by
  induction a generalizing a' with
  | nil =>
    cases a' with
    | nil => simpa using h
    | cons c a' => simp at h; exact absurd (h.1 ▸ List.mem_cons_self) h2
  | cons c a ih =>
    cases a' with
    | nil => simp at h; exact absurd (h.1 ▸ List.mem_cons_self) h1
    | cons c' a' =>
      simp only [List.cons_append, List.cons.injEq] at h
      obtain ⟨rfl, h⟩ := h
      obtain ⟨rfl, rfl⟩ := ih h (fun h => h1 (List.mem_cons_of_mem _ h)) (fun h => h2 (List.mem_cons_of_mem _ h))
      exact ⟨rfl, rfl⟩

theorem scheme_colon {c : UInt8} {s : Bytes} (hc : alphaB c = true) (hs : ∀ d ∈ s, schemeB d = true) : (58 : UInt8) ∉ c :: s := by
  intro h
  rcases List.mem_cons.1 h with rfl | h
  · exact absurd hc (by decide)
  · exact absurd (hs _ h) (by decide)

/-- A URI without angle brackets. -/
theorem acc_229 {f : AField} {v : Bytes} {us : List Upd} :
    Acc 229 (A f {}) v us ↔ ∃ u x r, v = u ++ r ∧ URIText u x ∧ Bare u ∧ AddrRest true f { uri := some x } r us := by
  have st : Acc 229 (A f {}) v us ↔ ∃ c s d t r x, v = c :: s ++ 58 :: d :: t ++ r ∧ alphaB c = true ∧ (∀ c ∈ s, schemeB c = true) ∧
      uriB d = true ∧ (∀ c ∈ t, bareB c = true) ∧ uriOf (c :: s ++ 58 :: d :: t) = some x ∧ AddrRest true f { uri := some x } r us := by
    rw [acc_one shape_229]
    constructor
    · rintro ⟨c, t, rfl, _, h1, h2⟩
      obtain ⟨s, r, rfl, h3, h4⟩ := (loop_plain loop_230).1 h2
      obtain ⟨t, rfl, h5⟩ := (out_byte (by decide)).1 h4
      obtain ⟨d, t, rfl, _, h6, h7⟩ := (acc_one shape_231).1 (go_nil.1 h5)
      obtain ⟨t, r, rfl, h8, h9⟩ := (loop_plain loop_232).1 h7
      obtain ⟨x, hx, h10⟩ := bare_rest.1 h9
      exact ⟨c, s, d, t, r, x, by simp, h1, h3, h6, h8, by simpa using hx, h10⟩
    · rintro ⟨c, s, d, t, r, x, rfl, h1, h2, h3, h4, h5, h6⟩
      refine ⟨c, s ++ 58 :: d :: t ++ r, by simp, ?_, h1, (loop_plain loop_230).2 ⟨s, 58 :: d :: t ++ r, by simp, h2, ?_⟩⟩
      · rintro rfl; exact absurd h1 (by decide)
      · refine (out_byte (by decide)).2 ⟨d :: t ++ r, rfl, go_nil.2 ((acc_one shape_231).2 ⟨d, t ++ r, rfl, ?_, h3, ?_⟩)⟩
        · rintro rfl; exact absurd h3 (by decide)
        · exact (loop_plain loop_232).2 ⟨t, r, rfl, h4, bare_rest.2 ⟨x, by simpa using h5, h6⟩⟩
  rw [st]
  have hb : ∀ c, bareB c = true → c ≠ 44 ∧ c ≠ 59 := by decide +kernel
  have hb' : ∀ c, uric c → c ≠ 44 → c ≠ 59 → bareB c = true := by decide +kernel
  constructor
  · rintro ⟨c, s, d, t, r, x, rfl, h1, h2, h3, h4, h5, h6⟩
    refine ⟨c :: s ++ 58 :: d :: t, x, r, rfl, uriOf_iff.1 h5, ⟨c :: s, d, t, rfl, scheme_colon h1 h2, fun h => (hb _ (h4 _ h)).1 rfl,
      fun h => (hb _ (h4 _ h)).2 rfl⟩, h6⟩
  · rintro ⟨u, x, r, rfl, h1, ⟨s', c', r', e, g1, g2, g3⟩, h2⟩
    obtain ⟨c, s, t, rfl, i1, i2, i3, i4⟩ := uri_shape h1
    have hc : alphaB c = true := decide_eq_true i1
    have hs : ∀ d ∈ s, schemeB d = true := fun d hd => decide_eq_true (i2 d hd)
    obtain ⟨rfl, rfl⟩ := split_unique e (scheme_colon hc hs) g1
    refine ⟨c, s, c', r', r, x, by simp, hc, hs, decide_eq_true (i4 _ List.mem_cons_self), fun d hd => ?_, uriOf_iff.2 h1, h2⟩
    exact hb' d (i4 d (List.mem_cons_of_mem _ hd)) (by rintro rfl; exact g2 hd) (by rintro rfl; exact g3 hd)

end Gosip.Sip.MsgM.Gr
