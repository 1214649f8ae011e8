import Verif.Sip.GrMisc

/-!
# Start lines, as read by the message machine
-/

namespace Gosip.Sip.MsgM.Gr
open Spec

theorem start_lives : live 3 = ⟨false, false, false, false, false, false, false, false, false⟩ ∧
    live 5 = ⟨false, false, false, false, false, false, false, false, false⟩ ∧
    live 9 = ⟨false, false, false, false, false, false, false, false, false⟩ ∧
    live 11 = ⟨false, false, false, false, false, false, false, false, false⟩ ∧
    live 17 = ⟨false, false, false, false, false, false, false, false, false⟩ ∧
    live 19 = ⟨false, false, false, false, false, false, false, false, false⟩ ∧
    live 21 = ⟨false, false, false, false, false, false, false, false, false⟩ ∧
    live 25 = ⟨false, false, false, false, false, false, false, false, false⟩ := by decide +kernel

/-- A state that reads one given byte. -/
theorem acc_lit {k x : Nat} {c : UInt8} (h : Shape k [⟨(· == c), [], x⟩] none none) (hc : c ≠ 13) {l : Loc} {v : Bytes}
    {us : List Upd} : Acc k l v us ↔ ∃ t, v = c :: t ∧ Acc x { l with seg := l.seg ++ [c] } t us := by
  rw [acc_one h]
  constructor
  · rintro ⟨d, t, e, _, h1, h2⟩
    have : d = c := by simpa using h1
    subst this
    exact ⟨t, e, h2⟩
  · rintro ⟨t, e, h2⟩
    exact ⟨c, t, e, hc, by simp, h2⟩

theorem acc_ent {k : Nat} {es : List Ent} (h : Shape k es none none) {l : Loc} {c : UInt8} {t : Bytes} {us : List Upd} :
    Acc k l (c :: t) us ↔ c ≠ 13 ∧ ∃ as x, entAt es c = some (as, x) ∧ Go as x l c t us := by
  rw [acc_shape h, out_none]
  constructor
  · rintro ⟨c', t', as, x, e, h1, h2, h3⟩
    cases e; exact ⟨h1, as, x, h2, h3⟩
  · rintro ⟨h1, as, x, h2, h3⟩
    exact ⟨c, t, as, x, rfl, h1, h2, h3⟩

/-- The end of the start line. -/
theorem shape_13 : Shape 13 [⟨(· == 10), [], 280⟩] none none := by decide +kernel

theorem go_13 {as : List MAct} {l l' : Loc} {E : List Upd} (ha : moveOf as = .adv) (hf : ∀ c, sacts as c l = some (l', E))
    {t : Bytes} {us : List Upd} :
    (startsWSP t.tail = false ∧ Go as 13 l 13 t us) ↔ ∃ tl b, t = 10 :: tl ∧ us = E ++ b ∧ Acc 280 Loc.init tl b := by
  rw [go_adv' ha (hf 13)]
  constructor
  · rintro ⟨h1, b, e, h2⟩
    obtain ⟨tl, b', rfl, h3, h4⟩ := (eol_shape shape_13 rfl (E := []) (fun c => rfl)).1 ⟨h1, h2⟩
    have h3 : b = b' := h3
    exact ⟨tl, b, rfl, e, h3 ▸ h4⟩
  · rintro ⟨tl, b, rfl, e, h⟩
    exact ⟨acc_280_blank h, b, e, ((eol_shape shape_13 rfl (E := []) (fun c => rfl)).2 ⟨tl, b, rfl, rfl, h⟩).2⟩

/-! ### Versions -/

/-- Digits, each of which is an assignment. -/
structure DigPart (k k' : Nat) (act : MAct) (es : List Ent) (eol : Option (List MAct × Nat)) : Prop where
  s : Shape k [⟨digB, [act], k'⟩] none none
  d : Loop k' digB [act] es eol none

theorem DigPart.acc {k k' : Nat} {act : MAct} {es : List Ent} {eol : Option (List MAct × Nat)} (p : DigPart k k' act es eol)
    {up : UInt8 → Upd} (hu : ∀ c l, sacts [act] c l = some (l, [up c])) {l : Loc} {v : Bytes} {us : List Upd} :
    Acc k l v us ↔ ∃ ds r b, v = ds ++ r ∧ Digits ds ∧ us = ds.map up ++ b ∧
      Out es eol none { l with seg := l.seg ++ ds } r b := by
  rw [acc_single p.s]
  have hm : ∀ ds : Bytes, ds.flatMap (fun c => [up c]) = ds.map up := fun ds => by
    induction ds with
    | nil => rfl
    | cons c ds ih => simp [ih]
  have lp : ∀ c t b, Acc k' { l with seg := l.seg ++ [c] } t b ↔ ∃ ds r b', t = ds ++ r ∧ (∀ d ∈ ds, digB d = true) ∧
      b = ds.map up ++ b' ∧ Out es eol none { l with seg := l.seg ++ c :: ds } r b' := by
    intro c t b
    rw [loop_acts p.d (fun _ => True) (fun l _ => l) (fun c => [up c]) (fun _ _ _ _ => ⟨hu _ _, trivial⟩) trivial]
    simp only [foldl_seg, hm, List.append_assoc, List.singleton_append]
  constructor
  · rintro ⟨c, t, rfl, h1, h2, h3⟩
    obtain ⟨b, rfl, h4⟩ := (go_adv' p.d.adv (hu c l)).1 h3
    obtain ⟨ds, r, b', rfl, h5, rfl, h6⟩ := (lp _ _ _).1 h4
    exact ⟨c :: ds, r, b', rfl, ⟨by simp, List.forall_mem_cons.2 ⟨(digB_iff c).1 h2, fun d hd => (digB_iff d).1 (h5 d hd)⟩⟩,
      by simp, h6⟩
  · rintro ⟨ds, r, b, rfl, ⟨h1, h2⟩, rfl, h3⟩
    cases ds with
    | nil => exact absurd rfl h1
    | cons c ds =>
      have hc := (digB_iff c).2 (h2 c List.mem_cons_self)
      refine ⟨c, ds ++ r, rfl, ?_, hc, (go_adv' p.d.adv (hu c l)).2 ⟨ds.map up ++ b, by simp, (lp _ _ _).2
        ⟨ds, r, b, rfl, fun d hd => (digB_iff d).2 (h2 d (List.mem_cons_of_mem _ hd)), rfl, h3⟩⟩⟩
      rintro rfl; exact absurd hc (by decide)

theorem part_9 : DigPart 9 10 .versionMajor [⟨(· == 46), [], 11⟩] none := by constructor <;> decide +kernel
theorem part_11 : DigPart 11 12 .versionMinor [] (some ([], 13)) := by constructor <;> decide +kernel
theorem part_17 : DigPart 17 18 .versionMajor [⟨(· == 46), [], 19⟩] none := by constructor <;> decide +kernel
theorem part_19 : DigPart 19 20 .versionMinor [⟨(· == 32), [], 21⟩] none := by constructor <;> decide +kernel

/-- The assignments of a version. -/
def verUpds (a b : Bytes) : List Upd := a.map .versionMajor ++ b.map .versionMinor

/-- The version at the end of a request line. -/
theorem acc_9 {v : Bytes} {us : List Upd} :
    Acc 9 {} v us ↔ ∃ a b tl c, v = a ++ 46 :: b ++ CRLF ++ tl ∧ Digits a ∧ Digits b ∧ us = verUpds a b ++ c ∧
      Acc 280 Loc.init tl c := by
  rw [part_9.acc (up := .versionMajor) (fun _ _ => rfl)]
  constructor
  · rintro ⟨a, r, b0, rfl, h1, rfl, h2⟩
    obtain ⟨t, rfl, h3⟩ := (out_byte (by decide)).1 h2
    have h4 := (acc_dead start_lives.2.2.2.1 (by decide)).1 (go_nil.1 h3)
    obtain ⟨b, r, b1, rfl, h5, rfl, c, t, as, x, rfl, h6, ⟨_, h8⟩ | ⟨rfl, h7, h8⟩ | ⟨_, _, h8⟩⟩ :=
      (part_11.acc (up := .versionMinor) (fun _ _ => rfl)).1 h4
    · cases h8
    · cases h8
      obtain ⟨tl, b', rfl, h9, h10⟩ := (go_13 rfl (E := []) (fun _ => rfl)).1 ⟨h7, h6⟩
      have h9 : b1 = b' := h9
      subst h9
      exact ⟨a, b, tl, b1, by simp [CRLF], h1, h5, by simp [verUpds], h10⟩
    · cases h8
  · rintro ⟨a, b, tl, c, rfl, h1, h2, rfl, h3⟩
    refine ⟨a, 46 :: (b ++ 13 :: 10 :: tl), b.map .versionMinor ++ c, by simp [CRLF], h1, by simp [verUpds],
      (out_byte (by decide)).2 ⟨_, rfl, go_nil.2 ((acc_dead start_lives.2.2.2.1 (by decide)).2
        ((part_11.acc (up := .versionMinor) (fun _ _ => rfl)).2 ⟨b, 13 :: 10 :: tl, c, rfl, h2, rfl, 13, 10 :: tl, [], 13, rfl, ?_,
          .inr (.inl ⟨rfl, acc_280_blank h3, rfl⟩)⟩))⟩⟩
    exact ((go_13 rfl (E := []) (fun _ => rfl)).2 ⟨tl, c, rfl, rfl, h3⟩).2

/-- The version at the beginning of a status line. -/
theorem acc_17 {v : Bytes} {us : List Upd} :
    Acc 17 {} v us ↔ ∃ a b t c, v = a ++ 46 :: b ++ 32 :: t ∧ Digits a ∧ Digits b ∧ us = verUpds a b ++ c ∧
      Acc 21 {} t c := by
  rw [part_17.acc (up := .versionMajor) (fun _ _ => rfl)]
  constructor
  · rintro ⟨a, r, b0, rfl, h1, rfl, h2⟩
    obtain ⟨t, rfl, h3⟩ := (out_byte (by decide)).1 h2
    have h4 := (acc_dead start_lives.2.2.2.2.2.1 (by decide)).1 (go_nil.1 h3)
    obtain ⟨b, r, b1, rfl, h5, rfl, h6⟩ := (part_19.acc (up := .versionMinor) (fun _ _ => rfl)).1 h4
    obtain ⟨t, rfl, h7⟩ := (out_byte (by decide)).1 h6
    exact ⟨a, b, t, b1, by simp, h1, h5, by simp [verUpds], (acc_dead start_lives.2.2.2.2.2.2.1 (by decide)).1 (go_nil.1 h7)⟩
  · rintro ⟨a, b, t, c, rfl, h1, h2, rfl, h3⟩
    exact ⟨a, 46 :: (b ++ 32 :: t), b.map .versionMinor ++ c, by simp, h1, by simp [verUpds],
      (out_byte (by decide)).2 ⟨_, rfl, go_nil.2 ((acc_dead start_lives.2.2.2.2.2.1 (by decide)).2
        ((part_19.acc (up := .versionMinor) (fun _ _ => rfl)).2 ⟨b, 32 :: t, c, rfl, h2, rfl,
          (out_byte (by decide)).2 ⟨t, rfl, go_nil.2 ((acc_dead start_lives.2.2.2.2.2.2.1 (by decide)).2 h3)⟩⟩))⟩⟩

theorem shape_5 : Shape 5 [⟨(· == 83), [], 6⟩] none none := by decide +kernel
theorem shape_6 : Shape 6 [⟨(· == 73), [], 7⟩] none none := by decide +kernel
theorem shape_7 : Shape 7 [⟨(· == 80), [], 8⟩] none none := by decide +kernel
theorem shape_8 : Shape 8 [⟨(· == 47), [], 9⟩] none none := by decide +kernel

theorem acc_5 {v : Bytes} {us : List Upd} : Acc 5 {} v us ↔ ∃ t, v = b!"SIP/" ++ t ∧ Acc 9 {} t us := by
  rw [acc_lit shape_5 (by decide)]
  simp only [acc_lit shape_6 (by decide), acc_lit shape_7 (by decide), acc_lit shape_8 (by decide)]
  constructor
  · rintro ⟨_, rfl, _, rfl, _, rfl, t, rfl, h⟩
    exact ⟨t, rfl, (acc_dead start_lives.2.2.1 (by decide)).1 h⟩
  · rintro ⟨t, rfl, h⟩
    exact ⟨_, rfl, _, rfl, _, rfl, t, rfl, (acc_dead start_lives.2.2.1 (by decide)).2 h⟩

/-! ### The Request-URI -/

theorem shape_3 : Shape 3 [⟨(· != 32), [.mark], 4⟩] (some ([.mark], 4)) (some ([.mark], 4)) := by decide +kernel
theorem shape_4 : Shape 4 [⟨(· != 32), [], 4⟩, ⟨(· == 32), [.requestURI], 5⟩] (some ([], 4)) (some ([], 4)) := by
  decide +kernel

theorem out_any {as : List MAct} {k : Nat} {es : List Ent} {l : Loc} {c : UInt8} {t : Bytes} {us : List Upd} (hc : c ≠ 32) :
    Out (⟨(· != 32), as, k⟩ :: es) (some (as, k)) (some (as, k)) l (c :: t) us ↔ Go as k l c t us := by
  constructor
  · rintro ⟨c', t', as', x, e, h1, ⟨_, h3⟩ | ⟨_, _, h3⟩ | ⟨_, _, h3⟩⟩
    · cases e
      rcases entAt_cons.1 h3 with ⟨_, g⟩ | ⟨g, _⟩
      · cases g; exact h1
      · simp at g; exact absurd g hc
    · cases e; cases h3; exact h1
    · cases e; cases h3; exact h1
  · intro h
    by_cases h13 : c = 13
    · subst h13
      refine ⟨13, t, as, k, rfl, h, .inr ?_⟩
      cases hw : startsWSP t.tail
      · exact .inl ⟨rfl, rfl, rfl⟩
      · exact .inr ⟨rfl, rfl, rfl⟩
    · exact ⟨c, t, as, k, rfl, h, .inl ⟨h13, entAt_cons.2 (.inl ⟨by simpa using hc, rfl⟩)⟩⟩

theorem acc_4 {l : Loc} {v : Bytes} {us : List Upd} :
    Acc 4 l v us ↔ ∃ s r, v = s ++ 32 :: r ∧ 32 ∉ s ∧ Go [.requestURI] 5 { l with seg := l.seg ++ s } 32 r us := by
  induction v generalizing l with
  | nil =>
    constructor
    · intro h; exact absurd h (acc_nil (by decide))
    · rintro ⟨s, r, e, _⟩; simp at e
  | cons c t ih =>
    by_cases hc : c = 32
    · subst hc
      constructor
      · intro h
        obtain ⟨c', t', as, x, e, h1, ⟨_, h3⟩ | ⟨h2, _⟩ | ⟨h2, _⟩⟩ := (acc_shape shape_4).1 h
        · cases e
          rcases entAt_cons.1 h3 with ⟨g, _⟩ | ⟨_, h3⟩
          · simp at g
          · rcases entAt_cons.1 h3 with ⟨_, g⟩ | ⟨_, g⟩
            · cases g; exact ⟨[], t, rfl, by simp, by simpa using h1⟩
            · cases g
        · cases e; exact absurd h2 (by decide)
        · cases e; exact absurd h2 (by decide)
      · rintro ⟨s, r, e, h1, h2⟩
        cases s with
        | nil =>
          cases e
          exact (acc_shape shape_4).2 ⟨32, t, _, _, rfl, by simpa using h2, .inl ⟨by decide,
            entAt_cons.2 (.inr ⟨rfl, entAt_cons.2 (.inl ⟨rfl, rfl⟩)⟩)⟩⟩
        | cons d s => cases e; exact absurd List.mem_cons_self h1
    · rw [acc_shape shape_4, out_any hc, go_nil, ih]
      constructor
      · rintro ⟨s, r, rfl, h1, h2⟩
        exact ⟨c :: s, r, rfl, by simp [h1, Ne.symm hc], by simpa using h2⟩
      · rintro ⟨s, r, e, h1, h2⟩
        cases s with
        | nil => cases e; exact absurd rfl hc
        | cons d s =>
          cases e
          exact ⟨s, r, rfl, fun h => h1 (List.mem_cons_of_mem _ h), by simpa using h2⟩

theorem go_requestURI {l : Loc} {r : Bytes} {us : List Upd} :
    Go [.requestURI] 5 l 32 r us ↔ ∃ x b, URIText l.seg x ∧ us = .request x :: b ∧ Acc 5 {} r b := by
  rw [go_adv rfl]
  constructor
  · rintro ⟨l', a, b, h1, rfl, h2⟩
    cases hu : uriOf l.seg with
    | none => simp [sacts, sact, hu] at h1
    | some x =>
      simp [sacts, sact, hu] at h1
      obtain ⟨rfl, rfl⟩ := h1
      exact ⟨x, b, uriOf_iff.1 hu, rfl, (acc_dead start_lives.2.1 (by decide)).1 h2⟩
  · rintro ⟨x, b, hu, rfl, h⟩
    exact ⟨l, [.request x], b, by simp [sacts, sact, uriOf_iff.2 hu], rfl, (acc_dead start_lives.2.1 (by decide)).2 h⟩

theorem uri_no_space {t : Bytes} {u : URI} (h : URIText t u) : 32 ∉ t := by
  obtain ⟨c, s, r, rfl, h1, h2, _, h3⟩ := uri_shape h
  intro hm
  simp only [List.cons_append, List.mem_cons, List.mem_append] at hm
  rcases hm with rfl | hm | hm | hm
  · exact absurd h1 (by decide)
  · exact absurd (h2 _ hm) (by decide)
  · exact absurd hm (by decide)
  · exact absurd (h3 _ hm) (by decide)

theorem acc_3 {v : Bytes} {us : List Upd} :
    Acc 3 {} v us ↔ ∃ u x r b, v = u ++ 32 :: r ∧ URIText u x ∧ us = .request x :: b ∧ Acc 5 {} r b := by
  cases v with
  | nil =>
    constructor
    · intro h; exact absurd h (acc_nil (by decide))
    · rintro ⟨s, x, r, b, e, _⟩; simp at e
  | cons c t =>
    by_cases hc : c = 32
    · subst hc
      constructor
      · intro h
        obtain ⟨c', t', as, x, e, h1, ⟨_, h3⟩ | ⟨h2, _⟩ | ⟨h2, _⟩⟩ := (acc_shape shape_3).1 h
        · cases e
          rcases entAt_cons.1 h3 with ⟨g, _⟩ | ⟨_, h3⟩
          · simp at g
          · cases h3
        · cases e; exact absurd h2 (by decide)
        · cases e; exact absurd h2 (by decide)
      · rintro ⟨u, x, r, b, e, h1, _⟩
        obtain ⟨c, s, r', rfl, h2, _⟩ := uri_shape h1
        cases e; exact absurd h2 (by decide)
    · rw [acc_shape shape_3, out_any hc, go_adv' rfl rfl]
      simp only [List.nil_append, exists_eq_left', acc_4, go_requestURI]
      constructor
      · rintro ⟨s, r, rfl, h1, x, b, h2, rfl, h3⟩
        exact ⟨c :: s, x, r, b, rfl, h2, rfl, h3⟩
      · rintro ⟨u, x, r, b, e, h1, rfl, h2⟩
        cases u with
        | nil => cases e; exact absurd rfl hc
        | cons d s =>
          cases e
          exact ⟨s, r, rfl, fun h => uri_no_space h1 (List.mem_cons_of_mem _ h), x, b, h1, rfl, h2⟩

/-! ### The method, or the beginning of a status line -/

theorem loop_2 : Loop 2 tokenc [] [⟨(· == 32), [.method], 3⟩] none none := by decide +kernel
theorem shape_1 : Shape 1 [⟨(· == 83), [.mark], 14⟩, ⟨tokenc, [.mark], 2⟩] none none := by decide +kernel
theorem shape_14 : Shape 14 [⟨(· == 73), [], 15⟩, ⟨tokenc, [], 2⟩, ⟨(· == 32), [.method], 3⟩] none none := by decide +kernel
theorem shape_15 : Shape 15 [⟨(· == 80), [], 16⟩, ⟨tokenc, [], 2⟩, ⟨(· == 32), [.method], 3⟩] none none := by decide +kernel
theorem shape_16 : Shape 16 [⟨(· == 47), [], 17⟩, ⟨tokenc, [], 2⟩, ⟨(· == 32), [.method], 3⟩] none none := by decide +kernel

/-- The rest of a method. -/
theorem acc_2 {sg v : Bytes} {us : List Upd} :
    Acc 2 { seg := sg } v us ↔ ∃ s r b, v = s ++ 32 :: r ∧ (∀ c ∈ s, tokenc c = true) ∧ us = .method (sg ++ s) :: b ∧
      Acc 3 {} r b := by
  rw [loop_plain loop_2]
  have hg : ∀ s r us, Go [.method] 3 { seg := sg ++ s } 32 r us ↔ ∃ b, us = .method (sg ++ s) :: b ∧ Acc 3 {} r b := by
    intro s r us
    rw [go_adv' rfl rfl]
    simp only [acc_dead start_lives.1 (by decide) (l := { seg := sg ++ s ++ [32] })]
    rfl
  constructor
  · rintro ⟨s, r, rfl, h1, h2⟩
    obtain ⟨t, rfl, h3⟩ := (out_byte (by decide)).1 h2
    obtain ⟨b, e, h4⟩ := (hg _ _ _).1 h3
    exact ⟨s, t, b, rfl, h1, e, h4⟩
  · rintro ⟨s, r, b, rfl, h1, h2, h3⟩
    exact ⟨s, 32 :: r, rfl, h1, (out_byte (by decide)).2 ⟨r, rfl, (hg _ _ _).2 ⟨b, h2, h3⟩⟩⟩

/-- The states of the method that begin like `SIP/`. -/
theorem acc_trie {k x : Nat} {ch : UInt8} (h : Shape k [⟨(· == ch), [], x⟩, ⟨tokenc, [], 2⟩, ⟨(· == 32), [.method], 3⟩] none none)
    (hc : tokenc ch = true) {suf : Bytes}
    (hx : ∀ l v us, Acc x l v us ↔ Acc 2 l v us ∨ ∃ r, v = suf ++ r ∧ Acc 17 {} r us) (l : Loc) (v : Bytes) (us : List Upd) :
    Acc k l v us ↔ Acc 2 l v us ∨ ∃ r, v = ch :: suf ++ r ∧ Acc 17 {} r us := by
  cases v with
  | nil =>
    constructor
    · intro g; exact absurd g (acc_nil h.ne)
    · rintro (g | ⟨r, e, _⟩)
      · exact absurd g (acc_nil (by decide))
      · cases e
  | cons c t =>
    rw [acc_ent h, acc_ent loop_2.shape]
    by_cases h1 : c = ch
    · subst h1
      have e1 : entAt [⟨(· == c), [], x⟩, ⟨tokenc, [], 2⟩, ⟨(· == 32), [.method], 3⟩] c = some ([], x) := by simp [entAt]
      have e2 : entAt [⟨tokenc, [], 2⟩, ⟨(· == 32), [.method], 3⟩] c = some ([], 2) := by simp [entAt, hc]
      rw [e1, e2]
      constructor
      · rintro ⟨h2, as, y, e, h3⟩
        cases e
        rcases (hx _ _ _).1 (go_nil.1 h3) with h4 | ⟨r, rfl, h4⟩
        · exact .inl ⟨h2, [], 2, rfl, go_nil.2 h4⟩
        · exact .inr ⟨r, rfl, h4⟩
      · rintro (⟨h2, as, y, e, h3⟩ | ⟨r, e, h3⟩)
        · cases e
          exact ⟨h2, [], x, rfl, go_nil.2 ((hx _ _ _).2 (.inl (go_nil.1 h3)))⟩
        · cases e
          exact ⟨token_ne hc, [], x, rfl, go_nil.2 ((hx _ _ _).2 (.inr ⟨r, rfl, h3⟩))⟩
    · have e1 : entAt [⟨(· == ch), [], x⟩, ⟨tokenc, [], 2⟩, ⟨(· == 32), [.method], 3⟩] c =
          entAt [⟨tokenc, [], 2⟩, ⟨(· == 32), [.method], 3⟩] c := by simp [entAt, beq_eq_false_iff_ne.2 h1]
      rw [e1]
      constructor
      · intro h; exact .inl h
      · rintro (h | ⟨r, e, _⟩)
        · exact h
        · cases e; exact absurd rfl h1

theorem acc_16 (l : Loc) (v : Bytes) (us : List Upd) :
    Acc 16 l v us ↔ Acc 2 l v us ∨ ∃ r, v = 47 :: r ∧ Acc 17 {} r us := by
  cases v with
  | nil =>
    constructor
    · intro g; exact absurd g (acc_nil (by decide))
    · rintro (g | ⟨r, e, _⟩)
      · exact absurd g (acc_nil (by decide))
      · cases e
  | cons c t =>
    rw [acc_ent shape_16, acc_ent loop_2.shape]
    by_cases h1 : c = 47
    · subst h1
      have e1 : entAt [⟨(· == 47), [], 17⟩, ⟨tokenc, [], 2⟩, ⟨(· == 32), [.method], 3⟩] 47 = some ([], 17) := by decide
      have e2 : entAt [⟨tokenc, [], 2⟩, ⟨(· == 32), [.method], 3⟩] 47 = none := by decide
      rw [e1, e2]
      constructor
      · rintro ⟨h2, as, y, e, h3⟩
        cases e
        exact .inr ⟨t, rfl, (acc_dead start_lives.2.2.2.2.1 (by decide)).1 (go_nil.1 h3)⟩
      · rintro (⟨h2, as, y, e, h3⟩ | ⟨r, e, h3⟩)
        · cases e
        · cases e
          exact ⟨by decide, [], 17, rfl, go_nil.2 ((acc_dead start_lives.2.2.2.2.1 (by decide)).2 h3)⟩
    · have e1 : entAt [⟨(· == 47), [], 17⟩, ⟨tokenc, [], 2⟩, ⟨(· == 32), [.method], 3⟩] c =
          entAt [⟨tokenc, [], 2⟩, ⟨(· == 32), [.method], 3⟩] c := by simp [entAt, beq_eq_false_iff_ne.2 h1]
      rw [e1]
      constructor
      · intro h; exact .inl h
      · rintro (h | ⟨r, e, _⟩)
        · exact h
        · cases e; exact absurd rfl h1

theorem acc_14 (l : Loc) (v : Bytes) (us : List Upd) :
    Acc 14 l v us ↔ Acc 2 l v us ∨ ∃ r, v = b!"IP/" ++ r ∧ Acc 17 {} r us :=
  acc_trie (suf := b!"P/") shape_14 (by decide) (acc_trie (suf := b!"/") shape_15 (by decide) acc_16) l v us

/-- A method or `SIP/`. -/
theorem acc_1 {v : Bytes} {us : List Upd} :
    Acc 1 {} v us ↔ (∃ m r b, v = m ++ 32 :: r ∧ IsToken m ∧ us = .method m :: b ∧ Acc 3 {} r b) ∨
      ∃ r, v = b!"SIP/" ++ r ∧ Acc 17 {} r us := by
  have key : Acc 1 {} v us ↔ (∃ c t, v = c :: t ∧ tokenc c = true ∧ Acc 2 { seg := [c] } t us) ∨
      ∃ r, v = b!"SIP/" ++ r ∧ Acc 17 {} r us := by
    cases v with
    | nil =>
      constructor
      · intro g; exact absurd g (acc_nil (by decide))
      · rintro (⟨c, t, e, _⟩ | ⟨r, e, _⟩) <;> cases e
    | cons c t =>
      rw [acc_ent shape_1]
      have hm : ∀ k us, Go [.mark] k {} c t us ↔ Acc k { seg := [c] } t us := by
        intro k us; rw [go_adv' rfl rfl]; simp
      by_cases h1 : c = 83
      · subst h1
        have e1 : entAt [⟨(· == 83), [.mark], 14⟩, ⟨tokenc, [.mark], 2⟩] 83 = some ([.mark], 14) := by decide
        rw [e1]
        constructor
        · rintro ⟨_, as, y, e, h3⟩
          cases e
          rcases (acc_14 _ _ _).1 ((hm _ _).1 h3) with h | ⟨r, rfl, h⟩
          · exact .inl ⟨83, t, rfl, by decide, h⟩
          · exact .inr ⟨r, rfl, h⟩
        · rintro (⟨c, t', e, _, h⟩ | ⟨r, e, h⟩)
          · cases e; exact ⟨by decide, _, _, rfl, (hm _ _).2 ((acc_14 _ _ _).2 (.inl h))⟩
          · cases e; exact ⟨by decide, _, _, rfl, (hm _ _).2 ((acc_14 _ _ _).2 (.inr ⟨r, rfl, h⟩))⟩
      · have e1 : entAt [⟨(· == 83), [.mark], 14⟩, ⟨tokenc, [.mark], 2⟩] c = entAt [⟨tokenc, [.mark], 2⟩] c := by
          simp [entAt, beq_eq_false_iff_ne.2 h1]
        rw [e1]
        constructor
        · rintro ⟨_, as, y, e, h3⟩
          rcases entAt_cons.1 e with ⟨g1, g2⟩ | ⟨_, g2⟩
          · cases g2; exact .inl ⟨c, t, rfl, g1, (hm _ _).1 h3⟩
          · cases g2
        · rintro (⟨c, t', e, h2, h⟩ | ⟨r, e, h⟩)
          · cases e; exact ⟨token_ne h2, _, _, entAt_cons.2 (.inl ⟨h2, rfl⟩), (hm _ _).2 h⟩
          · cases e; exact absurd rfl h1
  rw [key]
  simp only [acc_2]
  refine or_congr ?_ Iff.rfl
  constructor
  · rintro ⟨c, _, rfl, h1, s, r, b, rfl, h2, rfl, h3⟩
    exact ⟨c :: s, r, b, rfl, isToken_cons h1 h2, rfl, h3⟩
  · rintro ⟨m, r, b, rfl, hm, rfl, h⟩
    obtain ⟨c, s, rfl, h1, h2⟩ := isToken_iff.1 hm
    exact ⟨c, _, rfl, h1, s, r, b, rfl, h2, rfl, h⟩

/-! ### Status codes and reason phrases -/

theorem shape_21 : Shape 21 [⟨digB, [.statusCode], 22⟩] none none := by decide +kernel
theorem shape_22 : Shape 22 [⟨digB, [.statusCode], 23⟩] none none := by decide +kernel
theorem shape_23 : Shape 23 [⟨digB, [.statusCode], 24⟩] none none := by decide +kernel
theorem shape_24 : Shape 24 [⟨(· == 32), [], 25⟩] none none := by decide +kernel

theorem acc_status {k x : Nat} (h : Shape k [⟨digB, [.statusCode], x⟩] none none) {l : Loc} {v : Bytes} {us : List Upd} :
    Acc k l v us ↔ ∃ c t b, v = c :: t ∧ isDig c ∧ us = .status c :: b ∧ Acc x { l with seg := l.seg ++ [c] } t b := by
  rw [acc_single h]
  constructor
  · rintro ⟨c, t, rfl, _, h1, h2⟩
    rw [go_adv' rfl rfl] at h2
    obtain ⟨b, e, h2⟩ := h2
    exact ⟨c, t, b, rfl, (digB_iff c).1 h1, e, h2⟩
  · rintro ⟨c, t, b, rfl, h1, e, h2⟩
    refine ⟨c, t, rfl, ?_, (digB_iff c).2 h1, (go_adv' rfl rfl).2 ⟨b, e, h2⟩⟩
    rintro rfl; exact absurd h1 (by unfold isDig; decide)

theorem acc_21 {v : Bytes} {us : List Upd} :
    Acc 21 {} v us ↔ ∃ ds t b, v = ds ++ 32 :: t ∧ Digits ds ∧ ds.length = 3 ∧ us = ds.map .status ++ b ∧ Acc 25 {} t b := by
  rw [acc_status shape_21]
  simp only [acc_status shape_22, acc_status shape_23, acc_lit shape_24 (by decide)]
  constructor
  · rintro ⟨x, _, _, rfl, h1, rfl, y, _, _, rfl, h2, rfl, z, _, b, rfl, h3, rfl, t, rfl, h⟩
    refine ⟨[x, y, z], t, b, rfl, ⟨by simp, ?_⟩, rfl, rfl, (acc_dead start_lives.2.2.2.2.2.2.2 (by decide)).1 h⟩
    intro c hc
    simp only [List.mem_cons, List.not_mem_nil, or_false] at hc
    rcases hc with rfl | rfl | rfl
    · exact h1
    · exact h2
    · exact h3
  · rintro ⟨ds, t, b, rfl, ⟨_, h1⟩, h2, rfl, h⟩
    match ds, h2 with
    | [x, y, z], _ =>
      exact ⟨x, _, _, rfl, h1 x (by simp), rfl, y, _, _, rfl, h1 y (by simp), rfl, z, _, b, rfl, h1 z (by simp), rfl, t, rfl,
        (acc_dead start_lives.2.2.2.2.2.2.2 (by decide)).2 h⟩

/-- Bytes of a reason phrase that stand for themselves. -/
def reasonB (c : UInt8) : Bool := decide (reasonc c)

theorem reasonB_iff (c : UInt8) : reasonB c = true ↔ reasonc c := by simp [reasonB]

/-- Hexadecimal digits. -/
def hexB (c : UInt8) : Bool := (hexVal c).isSome

/-- The transitions inside of a reason phrase. -/
def phraseEnts (s : List MAct) : List Ent :=
  ⟨reasonB, s ++ [.append], 26⟩ :: ⟨(· == 37), s, 27⟩ :: utf8Ents s 29 30 31 32 33

theorem shape_25 : Shape 25 (phraseEnts [.start]) none none := by decide +kernel
theorem shape_26 : Shape 26 (phraseEnts []) (some ([.reasonPhrase], 13)) none := by decide +kernel
theorem shape_27 : Shape 27 [⟨hexB, [.hexHi], 28⟩] none none := by decide +kernel
theorem shape_28 : Shape 28 [⟨hexB, [.hexLo], 26⟩] none none := by decide +kernel
theorem utf8_26 : Utf8Part 26 29 30 31 32 33 := by constructor <;> decide +kernel
theorem phrase_lives : live 26 = ⟨false, true, false, false, false, false, false, false, false⟩ ∧ (live 27).seg = false ∧
    (live 33).seg = false := by
  decide +kernel

theorem acc_26 {l : Loc} {v : Bytes} {us : List Upd} : Acc 26 l v us ↔ Acc 26 (Loc.b {} l.buf) v us := by
  refine acc_agree (by decide) ?_
  rw [phrase_lives.1]
  constructor
  case buf => intro _; rfl
  all_goals simp

/-- An escape. -/
theorem acc_27 {l : Loc} {b v : Bytes} {us : List Upd} :
    Acc 27 (Loc.b l b) v us ↔ ∃ h g t, v = h :: g :: t ∧ hexB h = true ∧ hexB g = true ∧
      Acc 26 (Loc.b {} (b ++ [unhex h * 16 + unhex g])) t us := by
  have hn : ∀ c, hexB c = true → c ≠ 13 := by
    rintro c h rfl; exact absurd h (by decide)
  rw [acc_single shape_27]
  constructor
  · rintro ⟨h, t, rfl, _, h1, h2⟩
    rw [go_adv' rfl rfl] at h2
    obtain ⟨b', e, h2⟩ := h2
    have e : us = b' := e
    subst e
    obtain ⟨g, t, rfl, _, h3, h4⟩ := (acc_single shape_28).1 h2
    rw [go_adv' rfl rfl] at h4
    obtain ⟨b', e, h4⟩ := h4
    have e : us = b' := e
    subst e
    exact ⟨h, g, t, rfl, h1, h3, acc_26.1 h4⟩
  · rintro ⟨h, g, t, rfl, h1, h3, h4⟩
    refine ⟨h, g :: t, rfl, hn h h1, h1, (go_adv' rfl rfl).2 ⟨us, rfl, (acc_single shape_28).2 ⟨g, t, rfl, hn g h3, h3,
      (go_adv' rfl rfl).2 ⟨us, rfl, ?_⟩⟩⟩⟩
    exact acc_26.2 h4

theorem first_25 {l : Loc} {v : Bytes} {us : List Upd} :
    Acc 25 l v us ↔ v.head? ≠ some 13 ∧ Acc 26 (Loc.b l []) v us := by
  have ents : ∀ c, entAt (phraseEnts [.start]) c = (entAt (phraseEnts []) c).map fun y => (.start :: y.1, y.2) := by
    intro c
    simp only [phraseEnts, entAt, utf8Ents_at]
    cases reasonB c
    · cases (c == 37)
      · cases utf8Len c <;> rfl
      · rfl
    · rfl
  have go : ∀ {as x c t}, Go (.start :: as) x l c t us ↔ Go as x { l with buf := [] } c t us := by
    intro as x c t
    have h1 : sacts (.start :: as) c l = sacts as c { l with buf := [] } := by
      simp only [sacts, sact, Option.bind_some]
      cases sacts as c _ <;> simp
    have h2 : moveOf (.start :: as) = moveOf as := by simp [moveOf]
    unfold Go
    rw [h1, h2]
  have hseg : (live 26).seg = false := by rw [phrase_lives.1]
  rw [acc_shape shape_25, show Loc.b l [] = Loc.b { l with buf := [] } [] from rfl,
    ← acc_segb (l := { l with buf := [] }) shape_26.lt hseg, acc_shape shape_26]
  constructor
  · rintro ⟨c, t, as, x, rfl, h1, ⟨h2, h3⟩ | ⟨_, _, h3⟩ | ⟨h2, h3, h4⟩⟩
    · rw [ents] at h3
      cases hy : entAt (phraseEnts []) c with
      | none => rw [hy] at h3; cases h3
      | some y =>
        rw [hy] at h3; cases h3
        exact ⟨by simpa using h2, c, t, y.1, y.2, rfl, go.1 h1, .inl ⟨h2, hy⟩⟩
    · cases h3
    · cases h4
  · rintro ⟨hv, c, t, as, x, rfl, h1, ⟨h2, h3⟩ | ⟨h2, _, h3⟩ | ⟨h2, h3, h4⟩⟩
    · exact ⟨c, t, _, _, rfl, go.2 h1, .inl ⟨h2, by rw [ents, h3]; rfl⟩⟩
    · subst h2; exact absurd rfl hv
    · cases h4

theorem hexB_iff {c : UInt8} : hexB c = true ↔ ∃ x, hexVal c = some x := by
  unfold hexB
  cases hexVal c <;> simp

/-- A reason phrase up to the end of the line. -/
theorem phrase_text {b v : Bytes} {us : List Upd} :
    Acc 26 (Loc.b {} b) v us ↔
      ∃ t x tl c, v = t ++ CRLF ++ tl ∧ PhraseText t x ∧ us = .phrase (b ++ x) :: c ∧ Acc 280 Loc.init tl c := by
  have l26 : (live 26).seg = false := by rw [phrase_lives.1]
  have ha : ∀ k < 765, (live k).seg = false → ∀ b c t us, Go [.append] k (Loc.b {} b) c t us ↔ Acc k (Loc.b {} (b ++ [c])) t us :=
    fun k hk hl b c t us => go_buf rfl rfl hk hl
  have hn : ∀ b c t us, Go [] 27 (Loc.b {} b) c t us ↔ Acc 27 (Loc.b {} b) t us :=
    fun b c t us => go_buf rfl rfl (by decide) phrase_lives.2.1
  have hu : ∀ n, 1 ≤ n ∧ n ≤ 5 → utf8State 29 30 31 32 33 n < 765 ∧ (live (utf8State 29 30 31 32 33 n)).seg = false := by
    intro n h
    match n, h with
    | 1, _ => exact ⟨by decide, utf8_26.l1⟩
    | 2, _ => exact ⟨by decide, utf8_26.l2⟩
    | 3, _ => exact ⟨by decide, utf8_26.l3⟩
    | 4, _ => exact ⟨by decide, utf8_26.l4⟩
    | 5, _ => exact ⟨by decide, phrase_lives.2.2⟩
    | 0, h => omega
    | n + 6, h => omega
  constructor
  · generalize hN : v.length = N
    intro h
    induction N using Nat.strongRecOn generalizing v b with
    | ind N ih =>
      obtain ⟨c, t, as, x, rfl, h1, ⟨h2, h3⟩ | ⟨rfl, h3, h4⟩ | ⟨_, _, h3⟩⟩ := (acc_shape shape_26).1 h
      · rcases entAt_cons.1 h3 with ⟨g1, g2⟩ | ⟨g1, h3⟩
        · cases g2
          obtain ⟨t', x', tl, b', rfl, i1, i2, i3⟩ := ih _ (by rw [← hN]; simp) rfl ((ha _ (by decide) l26 _ _ _ _).1 h1)
          exact ⟨c :: t', c :: x', tl, b', rfl, .char ((reasonB_iff c).1 g1) i1, by simpa using i2, i3⟩
        rcases entAt_cons.1 h3 with ⟨g1, g2⟩ | ⟨g1, h3⟩
        · cases g2
          have : c = 37 := by simpa using g1
          subst this
          obtain ⟨y, z, t', rfl, g2, g3, g4⟩ := acc_27.1 ((hn _ _ _ _).1 h1)
          obtain ⟨t', x', tl, b', rfl, i1, i2, i3⟩ := ih _ (by rw [← hN]; simp; omega) rfl g4
          obtain ⟨p, hp⟩ := hexB_iff.1 g2
          obtain ⟨q, hq⟩ := hexB_iff.1 g3
          rw [Uri.unhex_join _ _ _ _ hp hq] at i2
          exact ⟨37 :: y :: z :: t', _ :: x', tl, b', rfl, .esc hp hq i1, by simpa using i2, i3⟩
        · rw [utf8Ents_at] at h3
          cases hl : utf8Len c with
          | none => rw [hl] at h3; cases h3
          | some n =>
            rw [hl] at h3; cases h3
            have hle := utf8Len_le c n hl
            obtain ⟨s, r, rfl, g1, g2, g3⟩ := (utf8_26.state hle _ _ _ _).1 ((ha _ (hu n hle).1 (hu n hle).2 _ _ _ _).1 h1)
            obtain ⟨t', x', tl, b', rfl, i1, i2, i3⟩ := ih _ (by rw [← hN]; simp; omega) rfl g3
            exact ⟨c :: s ++ t', c :: s ++ x', tl, b', by simp, .utf8 (by rw [hl, g1]) g2 i1, by simpa using i2, i3⟩
      · cases h4
        obtain ⟨tl, b', rfl, rfl, g⟩ := (go_13 rfl (l := Loc.b {} b) (l' := Loc.b {} b) (E := [.phrase b]) (fun _ => rfl)).1 ⟨h3, h1⟩
        exact ⟨[], [], tl, b', rfl, .nil, by simp, g⟩
      · cases h3
  · rintro ⟨t, x, tl, c, rfl, h1, rfl, h2⟩
    induction h1 generalizing b with
    | nil =>
      refine (acc_shape shape_26).2 ⟨13, 10 :: tl, [.reasonPhrase], 13, rfl, ?_, .inr (.inl ⟨rfl, acc_280_blank h2, rfl⟩)⟩
      exact ((go_13 rfl (l := Loc.b {} b) (l' := Loc.b {} b) (E := [.phrase b]) (fun _ => rfl)).2 ⟨tl, c, rfl, by simp, h2⟩).2
    | @char d t v hd _ ih =>
      have h13 : d ≠ 13 := by rintro rfl; exact absurd hd (by decide)
      refine (acc_shape shape_26).2 ⟨d, t ++ CRLF ++ tl, [.append], 26, by simp, (ha _ (by decide) l26 _ _ _ _).2
        (by simpa using ih (b := b ++ [d])), .inl ⟨h13, ?_⟩⟩
      rw [phraseEnts, entAt_cons]
      exact .inl ⟨(reasonB_iff d).2 hd, rfl⟩
    | @esc y z p q t v hp hq _ ih =>
      refine (acc_shape shape_26).2 ⟨37, y :: z :: (t ++ CRLF ++ tl), [], 27, by simp, (hn _ _ _ _).2 (acc_27.2
        ⟨y, z, _, rfl, hexB_iff.2 ⟨p, hp⟩, hexB_iff.2 ⟨q, hq⟩, ?_⟩), .inl ⟨by decide, by decide⟩⟩
      rw [Uri.unhex_join _ _ _ _ hp hq]
      simpa using ih (b := b ++ [UInt8.ofNat (p * 16 + q)])
    | @utf8 d s t v hl hs _ ih =>
      have hle := utf8Len_le d _ hl
      have hno : ∀ c n, utf8Len c = some n → reasonB c = false ∧ (c == 37) = false ∧ c ≠ 13 := by
        intro c n h
        have : ∀ c, utf8Len c ≠ none → reasonB c = false ∧ (c == 37) = false ∧ c ≠ 13 := by decide +kernel
        exact this c (by rw [h]; simp)
      obtain ⟨n1, n2, n4⟩ := hno d _ hl
      refine (acc_shape shape_26).2 ⟨d, s ++ (t ++ CRLF ++ tl), [.append], _, by simp, (ha _ (hu _ hle).1 (hu _ hle).2 _ _ _ _).2
        ((utf8_26.state hle _ _ _ _).2 ⟨s, _, rfl, rfl, hs, by simpa using ih (b := b ++ [d] ++ s)⟩), .inl ⟨n4, ?_⟩⟩
      rw [phraseEnts, entAt_cons, entAt_cons, utf8Ents_at, hl]
      exact .inr ⟨n1, .inr ⟨n2, rfl⟩⟩

theorem phrase_head {t x : Bytes} (h : PhraseText t x) : t.head? ≠ some 13 := by
  cases h with
  | nil => simp
  | char hc _ => rintro e; cases e; exact absurd hc (by decide)
  | esc => simp
  | utf8 hl _ _ => rintro e; cases e; rw [show utf8Len 13 = none from rfl] at hl; cases hl

theorem acc_25 {v : Bytes} {us : List Upd} :
    Acc 25 {} v us ↔ ∃ t x tl c, v = t ++ CRLF ++ tl ∧ t ≠ [] ∧ PhraseText t x ∧ us = .phrase x :: c ∧ Acc 280 Loc.init tl c := by
  rw [first_25, phrase_text]
  constructor
  · rintro ⟨hv, t, x, tl, c, rfl, h1, h2, h3⟩
    refine ⟨t, x, tl, c, rfl, ?_, h1, h2, h3⟩
    rintro rfl; exact hv rfl
  · rintro ⟨t, x, tl, c, rfl, h0, h1, h2, h3⟩
    refine ⟨?_, t, x, tl, c, rfl, h1, h2, h3⟩
    have := phrase_head h1
    cases t with
    | nil => exact absurd rfl h0
    | cons d t => simpa using this

/-- A start line, and the assignments it makes. -/
theorem start_iff {s : Bytes} {us : List Upd} (hs : LogicalLine s) :
    Start s us ↔
      (∃ m u x a b, s = m ++ 32 :: u ++ 32 :: (b!"SIP/" ++ a ++ b!"." ++ b) ∧ IsToken m ∧ URIText u x ∧ Digits a ∧ Digits b ∧
        us = .method m :: .request x :: verUpds a b) ∨
      (∃ a b ds t p, s = b!"SIP/" ++ a ++ b!"." ++ b ++ 32 :: ds ++ 32 :: t ∧ Digits a ∧ Digits b ∧ Digits ds ∧
        ds.length = 3 ∧ t ≠ [] ∧ PhraseText t p ∧ us = verUpds a b ++ ds.map .status ++ [.phrase p]) := by
  rw [start_acc, show Loc.init = {} from rfl, acc_1]
  simp only [acc_3, acc_5, acc_9, acc_17, acc_21, acc_25]
  refine or_congr ?_ ?_
  · constructor
    · rintro ⟨m, r, _, e, h1, rfl, u, x, _, _, rfl, h2, rfl, _, rfl, a, b, tl, c, rfl, h3, h4, rfl, h5⟩
      obtain ⟨rfl, rfl, e2⟩ := logical_rest (x := m ++ 32 :: u ++ 32 :: (b!"SIP/" ++ a ++ b!"." ++ b)) hs (by rw [e]; simp) h5
      exact ⟨m, u, x, a, b, e2, h1, h2, h3, h4, by simp⟩
    · rintro ⟨m, u, x, a, b, rfl, h1, h2, h3, h4, rfl⟩
      exact ⟨m, _, _, by simp; rfl, h1, rfl, u, x, _, _, rfl, h2, rfl, _, rfl, a, b, [], [], by simp, h3, h4, by simp, acc_280_nil.2 rfl⟩
  · constructor
    · rintro ⟨_, e, a, b, _, _, rfl, h1, h2, rfl, ds, _, _, rfl, h3, h4, rfl, t, p, tl, c, rfl, h5, h6, rfl, h7⟩
      obtain ⟨rfl, rfl, e2⟩ := logical_rest (x := b!"SIP/" ++ a ++ b!"." ++ b ++ 32 :: ds ++ 32 :: t) hs (by rw [e]; simp) h7
      exact ⟨a, b, ds, t, p, e2, h1, h2, h3, h4, h5, h6, by simp⟩
    · rintro ⟨a, b, ds, t, p, rfl, h1, h2, h3, h4, h5, h6, rfl⟩
      exact ⟨a ++ 46 :: b ++ 32 :: (ds ++ 32 :: (t ++ CRLF ++ [])), by simp, a, b, _, _, rfl, h1, h2, by simp, ds, _, _, rfl, h3, h4, rfl,
        t, p, [], [], rfl, h5, h6, rfl, acc_280_nil.2 rfl⟩

end Gosip.Sip.MsgM.Gr
