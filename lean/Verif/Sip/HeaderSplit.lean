import Verif.Sip.NameEnd

/-!
# A header line is its name and its value
-/

namespace Gosip.Sip.MsgM
open Spec

/-- Variables set by the name of a known header. -/
def nameLoc : Header → Loc
  | .text f => { value := some f }
  | .address f => { addrp := some f }
  | _ => {}

theorem blank_ne13 {w : Bytes} (h : Blanks w) : ∀ c ∈ w, c ≠ 13 := by
  rintro c hc rfl
  rcases h _ hc with h | h <;> cases h

theorem first_280 {l : Loc} {c : UInt8} {tl : Bytes} (hc : tokenc c = true) :
    SRun ⟨280, l, c :: tl⟩ [] ⟨281, { l with seg := [] }, c :: tl⟩ := by
  have h : ∀ n, n < 256 → tokenN n = true → rowAt 280 n = some ([.mark, .hold], 281) := by decide +kernel
  have hne : c ≠ 13 := by rintro rfl; revert hc; decide
  exact .one (step_at (as := [.mark, .hold]) (l' := { l with seg := [] })
    (by rw [ssymbol_ne hne]; exact h _ c.toNat_lt (by simpa [tokenN] using hc)) rfl)

/-- From the beginning of the line to the end of the name. -/
theorem name_run {l : Loc} {n tl : Bytes} (hn : IsName n) :
    SRun ⟨280, l, n ++ tl⟩ [] ⟨walk 281 n, { l with seg := n }, tl⟩ ∧ (trie (walk 281 n) = true ∨ walk 281 n = 274) := by
  obtain ⟨h1, h2⟩ := hn
  have h2 : ∀ c ∈ n, tokenc c = true := fun c hc => (tokenc_iff c).2 (h2 c hc)
  have hf : SRun ⟨280, l, n ++ tl⟩ [] ⟨281, { l with seg := [] }, n ++ tl⟩ := by
    cases n with
    | nil => exact absurd rfl h1
    | cons c n => exact first_280 (h2 c List.mem_cons_self)
  obtain ⟨g1, g2⟩ := name_walk (l := { l with seg := [] }) (tl := tl) (.inl trie_281) h2
  exact ⟨by simpa using hf.trans g1, g2⟩

theorem walk_mem {n : Bytes} (hn : IsName n) (ht : trie (walk 281 n) = true) :
    n.map lower ∈ pre (walk 281 n) := by
  have h2 : ∀ c ∈ n, tokenc c = true := fun c hc => (tokenc_iff c).2 (hn.2 c hc)
  have h0 : ([] : Bytes) ∈ pre 281 := by decide +kernel
  simpa using walk_pre trie_281 h2 ht h0

theorem lookup_mem_names {l : List (Bytes × Header)} {w : Bytes} {h : Header} (e : l.lookup w = some h) :
    (w, h) ∈ l := by
  induction l with
  | nil => cases e
  | cons p l ih =>
    obtain ⟨a, b⟩ := p
    rw [List.lookup_cons] at e
    cases hb : (w == a) with
    | true =>
      rw [hb] at e
      have : w = a := by simpa using hb
      cases e; subst this; exact List.mem_cons_self
    | false => rw [hb] at e; exact List.mem_cons_of_mem _ (ih e)

/-- A beginning of a known name stays in the trie. -/
theorem trie_of_prefix {n : Bytes} (hn : IsName n) {p : Bytes × Header} (hp : p ∈ headerNames)
    (h : n.map lower <+: p.1) : trie (walk 281 n) = true := by
  have h2 : ∀ c ∈ n, tokenc c = true := fun c hc => (tokenc_iff c).2 (hn.2 c hc)
  obtain ⟨x, hx⟩ := h
  have := names_stay p hp
  rw [← hx] at this
  rw [← walk_lower (.inl trie_281) h2]
  exact staysIn_prefix this

theorem prefix_of_trie {n : Bytes} (hn : IsName n) (ht : trie (walk 281 n) = true) :
    ∃ p ∈ headerNames, n.map lower <+: p.1 := by
  have := pre_prefix _ (trie_lt ht) _ (walk_mem hn ht)
  rw [List.any_eq_true] at this
  obtain ⟨p, hp, h⟩ := this
  exact ⟨p, hp, List.isPrefixOf_iff_prefix.1 h⟩

theorem rowAt_some {k n t : Nat} {as : List MAct} (h : rowAt k n = some (as, t)) :
    ∃ r, lookup (rows k) n = some r ∧ r.acts = as ∧ r.tgt = t := by
  unfold rowAt at h
  cases hr : lookup (rows k) n with
  | none => rw [hr] at h; cases h
  | some r =>
    rw [hr] at h
    simp only [Option.map_some, Option.some.injEq, Prod.mk.injEq] at h
    exact ⟨r, rfl, h⟩

theorem sacts_name (h : Header) (w : Bytes) (c : UInt8) (l : Loc) :
    ∃ l', sacts (nameActs h w) c l = some (l', []) ∧ moveOf (nameActs h w) = .adv := by
  cases h
  case text f => unfold nameActs; simp only []; split <;> exact ⟨_, rfl, rfl⟩
  case address f => exact ⟨_, rfl, rfl⟩
  all_goals exact ⟨_, rfl, rfl⟩

theorem lookup_u : headerNames.lookup b!"u" = some (.text .allowEvents) := by decide +kernel

theorem agree_entry {h : Header} {w : Bytes} {c : UInt8} {l l' : Loc} {s : Bytes} (hw : headerNames.lookup w = some h)
    (g : sacts (nameActs h w) c l = some (l', [])) :
    Agree (live (entry h w)) { l' with seg := s } (nameLoc h) := by
  cases h
  case text f =>
    have hl : live 284 = ⟨false, false, false, false, true, false, false, false, true⟩ := by decide
    simp only [entry, hl]
    have hv : l'.value = some f := by
      unfold nameActs at g
      simp only [] at g
      split at g
      · next hu => rw [hu, lookup_u] at hw; cases hw; cases g; rfl
      · cases g; rfl
    constructor
    case value => intro _; exact hv
    case nv => intro _; exact .inr ⟨hv, by simp [hv]⟩
    all_goals intro e; cases e
  case address f =>
    have hl : live 395 = ⟨false, false, false, false, false, false, true, false, false⟩ := by decide
    simp only [entry, hl]
    cases g
    constructor
    case addrp => intro _; rfl
    all_goals intro e; cases e
  case contentLength =>
    have hl : live 507 = ⟨false, false, false, false, false, false, false, false, false⟩ := by decide
    have hl2 : live 436 = ⟨false, false, false, false, false, false, false, false, false⟩ := by decide
    unfold entry; simp only []
    split
    · rw [hl]; constructor <;> intro e <;> cases e
    · rw [hl2]; constructor <;> intro e <;> cases e
  all_goals
    have hl : live 736 = ⟨false, false, false, false, false, false, false, false, false⟩ := by decide
    have hl1 : live 377 = ⟨false, false, false, false, false, false, false, false, false⟩ := by decide
    have hl2 : live 449 = ⟨false, false, false, false, false, false, false, false, false⟩ := by decide
    have hl3 : live 366 = ⟨false, false, false, false, false, false, false, false, false⟩ := by decide
    have hl4 : live 484 = ⟨false, false, false, false, false, false, false, false, false⟩ := by decide
    have hl5 : live 525 = ⟨false, false, false, false, false, false, false, false, false⟩ := by decide
    have hl6 : live 551 = ⟨false, false, false, false, false, false, false, false, false⟩ := by decide
    simp only [entry, hl, hl1, hl2, hl3, hl4, hl5, hl6]
    constructor <;> intro e <;> cases e

theorem entry_lt (h : Header) (w : Bytes) : entry h w < 765 := by
  cases h <;> simp [entry]
  split <;> decide

/-- A known header: the machine for its value is entered. -/
theorem acc_known {l : Loc} {n w v : Bytes} {us : List Upd} {h : Header} (hn : IsName n) (hw : Blanks w)
    (hh : headerOf n = some h) :
    Acc 280 l (headerLine n w v) us ↔ Acc (entry h (n.map lower)) (nameLoc h) v us := by
  have hmem := lookup_mem_names hh
  have ht := trie_of_prefix hn hmem (List.prefix_refl _)
  have hk := trie_lt ht
  obtain ⟨r1, _⟩ := name_run (l := l) (tl := w ++ 58 :: v) hn
  have hnil : n.map lower ≠ [] := by have := hn.1; simpa using this
  have hend := (end_check _ hk _ (walk_mem hn ht)).resolve_left hnil
  unfold endCheck at hend
  rw [show headerNames.lookup (n.map lower) = some h from hh] at hend
  simp only [Bool.and_eq_true, decide_eq_true_eq] at hend
  obtain ⟨hc, hend⟩ := hend
  cases h32 : rowAt (walk 281 n) 32 with
  | none => rw [h32] at hend; cases hend
  | some y =>
    obtain ⟨as, t⟩ := y
    rw [h32] at hend
    simp only [Bool.and_eq_true, decide_eq_true_eq, Nat.blt_eq, Bool.not_eq_true'] at hend
    obtain ⟨⟨⟨⟨⟨⟨⟨e1, e2⟩, e3⟩, e4⟩, e5⟩, e6⟩, e7⟩, _⟩ := hend
    subst e1
    have hline : headerLine n w v = n ++ (w ++ 58 :: v) := by simp [headerLine]
    rw [hline, acc_run_nil r1]
    have hcolon : (58 : UInt8) ≠ 13 := by decide
    cases w with
    | nil =>
      obtain ⟨l', g1, g2⟩ := sacts_name h (n.map lower) 58 { l with seg := n }
      have := SRun.one (step_at (tl := v) (by rw [ssymbol_ne hcolon]; exact hc) g1)
      rw [g2] at this
      rw [List.nil_append, acc_run_nil this]
      exact acc_agree (entry_lt _ _) (agree_entry hh g1)
    | cons b w =>
      obtain ⟨l', g1, g2⟩ := sacts_name h (n.map lower) b { l with seg := n }
      have hb := hw b List.mem_cons_self
      have hb13 := blank_ne13 hw b List.mem_cons_self
      have hrow : rowAt (walk 281 n) b.toNat = some (nameActs h (n.map lower), t) := by
        rcases hb with rfl | rfl
        · exact h32
        · exact e2
      have s1 := SRun.one (step_at (tl := w ++ 58 :: v) (by rw [ssymbol_ne hb13]; exact hrow) g1)
      rw [g2] at s1
      have s2 := loop_run (k := t) (l := { l' with seg := l'.seg ++ [b] }) (s := w) (tl := 58 :: v) (by
        intro c hcw
        refine ⟨blank_ne13 hw c (List.mem_cons_of_mem _ hcw), ?_⟩
        rcases hw c (List.mem_cons_of_mem _ hcw) with rfl | rfl
        · exact e6
        · exact e5)
      have s3 := plain_step (tl := v) (l := { l' with seg := l'.seg ++ [b] ++ w }) hcolon e7
      have := (s1.trans s2).trans s3
      rw [List.cons_append, acc_run_nil this]
      have hag := agree_entry (s := l'.seg ++ [b] ++ w ++ [58]) hh g1
      exact acc_agree (entry_lt _ _) hag

theorem rows_27x : rowAt 274 9 = some ([.name], 275) ∧ rowAt 274 32 = some ([.name], 275) ∧
    rowAt 274 58 = some ([.name], 276) ∧ rowAt 275 9 = some ([], 275) ∧ rowAt 275 32 = some ([], 275) ∧
    rowAt 275 58 = some ([], 276) := by decide +kernel

/-- An extension header. -/
theorem acc_ext {l : Loc} {n w v : Bytes} {us : List Upd} (hn : IsName n) (hw : Blanks w)
    (hh : headerOf n = none) (hs : ¬ StubName n) :
    Acc 280 l (headerLine n w v) us ↔ Acc 276 { name := n } v us := by
  obtain ⟨r1, r2⟩ := name_run (l := l) (tl := w ++ 58 :: v) hn
  have hk : walk 281 n = 274 := by
    refine r2.resolve_left fun ht => hs ⟨hh, prefix_of_trie hn ht⟩
  rw [hk] at r1
  obtain ⟨e1, e2, e3, e4, e5, e6⟩ := rows_27x
  have hline : headerLine n w v = n ++ (w ++ 58 :: v) := by simp [headerLine]
  rw [hline, acc_run_nil r1]
  have hcolon : (58 : UInt8) ≠ 13 := by decide
  have hlive : live 276 = ⟨false, false, true, false, false, false, false, false, false⟩ := by decide
  have hag : ∀ l' : Loc, l'.name = n → Agree (live 276) l' { name := n } := by
    intro l' hl
    rw [hlive]
    constructor
    case name => intro _; exact hl
    all_goals intro e; cases e
  cases w with
  | nil =>
    have := SRun.one (step_at (k := 274) (l := { l with seg := n }) (tl := v) (by rw [ssymbol_ne hcolon]; exact e3) rfl)
    rw [List.nil_append, acc_run_nil this]
    exact acc_agree (by decide) (hag _ rfl)
  | cons b w =>
    have hb := hw b List.mem_cons_self
    have hb13 := blank_ne13 hw b List.mem_cons_self
    have hrow : rowAt 274 b.toNat = some ([.name], 275) := by
      rcases hb with rfl | rfl
      · exact e2
      · exact e1
    have s1 := SRun.one (step_at (l := { l with seg := n }) (tl := w ++ 58 :: v) (by rw [ssymbol_ne hb13]; exact hrow) rfl)
    have s2 := loop_run (k := 275) (l := { l with seg := n ++ [b], name := n }) (s := w) (tl := 58 :: v) (by
      intro c hcw
      refine ⟨blank_ne13 hw c (List.mem_cons_of_mem _ hcw), ?_⟩
      rcases hw c (List.mem_cons_of_mem _ hcw) with rfl | rfl
      · exact e5
      · exact e4)
    have s3 := plain_step (tl := v) (l := { l with seg := n ++ [b] ++ w, name := n }) hcolon e6
    have := (s1.trans s2).trans s3
    rw [List.cons_append, acc_run_nil this]
    exact acc_agree (by decide) (hag _ rfl)

/-- After the hold to 273 a byte that is no token character is an error. -/
theorem stuck_273 {l : Loc} {c : UInt8} {tl : Bytes} {us : List Upd} (hc : tokenc c = false) :
    ¬ Acc 273 l (c :: tl) us := by
  refine stuck_at ?_
  rw [ssymbol_narrow (trie_narrow 273 (by decide) (.inr (.inl rfl)))]
  have := (other_27x c.toNat c.toNat_lt).1
  have ht : tokenN c.toNat = false := by simpa [tokenN] using hc
  rw [ht] at this
  have := this.resolve_left (by simp)
  unfold rowAt; rw [this]; rfl

/-- The beginning of a known name is not accepted. -/
theorem acc_stub {l : Loc} {n w v : Bytes} {us : List Upd} (hn : IsName n) (hw : Blanks w)
    (hs : StubName n) : ¬ Acc 280 l (headerLine n w v) us := by
  obtain ⟨hh, p, hp, hpre⟩ := hs
  have ht := trie_of_prefix hn hp hpre
  have hk := trie_lt ht
  obtain ⟨r1, _⟩ := name_run (l := l) (tl := w ++ 58 :: v) hn
  have hnil : n.map lower ≠ [] := by have := hn.1; simpa using this
  have hend := (end_check _ hk _ (walk_mem hn ht)).resolve_left hnil
  unfold endCheck at hend
  rw [show headerNames.lookup (n.map lower) = none from hh] at hend
  simp only [List.all_cons, List.all_nil, Bool.and_true, Bool.and_eq_true, decide_eq_true_eq] at hend
  have hline : headerLine n w v = n ++ (w ++ 58 :: v) := by simp [headerLine]
  rw [hline, acc_run_nil r1]
  obtain ⟨b, tl, e, hb⟩ : ∃ b tl, w ++ 58 :: v = b :: tl ∧ (b = 9 ∨ b = 32 ∨ b = 58) := by
    cases w with
    | nil => exact ⟨58, v, rfl, .inr (.inr rfl)⟩
    | cons b w =>
      exact ⟨b, w ++ 58 :: v, rfl, (hw b List.mem_cons_self).elim (fun h => .inr (.inl h)) .inl⟩
  rw [e]
  have hb13 : b ≠ 13 := by rcases hb with rfl | rfl | rfl <;> decide
  have hrow : rowAt (walk 281 n) b.toNat = some ([.hold], 273) := by
    rcases hb with rfl | rfl | rfl
    · exact hend.1
    · exact hend.2.1
    · exact hend.2.2
  have s1 := SRun.one (step_at (l := { l with seg := n }) (tl := tl) (by rw [ssymbol_ne hb13]; exact hrow) rfl)
  rw [acc_run_nil s1]
  exact stuck_273 (by rcases hb with rfl | rfl | rfl <;> decide)

/-- The longest beginning of a text with a property. -/
theorem span_all (p : UInt8 → Bool) (s : Bytes) :
    ∃ a b, s = a ++ b ∧ (∀ c ∈ a, p c = true) ∧ (∀ c t, b = c :: t → p c = false) := by
  induction s with
  | nil => exact ⟨[], [], rfl, (by intro c h; cases h), (by intro c t h; cases h)⟩
  | cons c s ih =>
    cases hc : p c with
    | false => exact ⟨[], c :: s, rfl, (by intro d h; cases h), (by intro d t h; cases h; exact hc)⟩
    | true =>
      obtain ⟨a, b, rfl, h1, h2⟩ := ih
      exact ⟨c :: a, b, rfl, (by
        intro d hd
        rcases List.mem_cons.1 hd with rfl | hd
        · exact hc
        · exact h1 d hd), h2⟩

/-- After the blanks only a colon is accepted. -/
theorem stuck_blank {t : Nat} {l : Loc} {b : Bytes} {us : List Upd} (h280 : t ≠ 280) (hw : wide t = false)
    (hr : ((rows t).all fun r => Nat.beq r.lo r.hi && (Nat.beq r.lo 9 || Nat.beq r.lo 32 || Nat.beq r.lo 58)) = true)
    (hb : ∀ c tl, b = c :: tl → (c == 32 || c == 9) = false) (h : Acc t l b us) : ∃ v, b = 58 :: v := by
  cases b with
  | nil => exact absurd h (acc_nil h280)
  | cons d v =>
    by_cases hd : d = 58
    · subst hd; exact ⟨v, rfl⟩
    · exfalso
      have hdb := hb d v rfl
      simp only [Bool.or_eq_false_iff, beq_eq_false_iff_ne, ne_eq] at hdb
      have hdn : ∀ z : UInt8, d ≠ z → d.toNat ≠ z.toNat := fun z hz he => hz (UInt8.toNat_inj.1 he)
      have n9 := hdn 9 hdb.2
      have n32 := hdn 32 hdb.1
      have n58 := hdn 58 hd
      refine acc_stuck ?_ h
      rw [ssymbol_narrow hw]
      cases hl : lookup (rows t) d.toNat with
      | none => rfl
      | some r =>
        exfalso
        obtain ⟨m1, m2, m3⟩ := lookup_mem hl
        rw [List.all_eq_true] at hr
        have := hr r m1
        simp only [Bool.and_eq_true, Bool.or_eq_true] at this
        have e1 := Nat.eq_of_beq_eq_true this.1
        have e2 := this.2.imp_left (Or.imp Nat.eq_of_beq_eq_true Nat.eq_of_beq_eq_true) |>.imp_right Nat.eq_of_beq_eq_true
        change d.toNat ≠ 9 at n9
        change d.toNat ≠ 32 at n32
        change d.toNat ≠ 58 at n58
        omega

theorem rows_275 : wide 275 = false ∧
    ((rows 275).all fun r => Nat.beq r.lo r.hi && (Nat.beq r.lo 9 || Nat.beq r.lo 32 || Nat.beq r.lo 58)) = true := by
  decide +kernel

/-- What is accepted as a line is a name, a colon and a value. -/
theorem acc_shape {l : Loc} {c : UInt8} {t : Bytes} {us : List Upd} (h : Acc 280 l (c :: t) us) :
    ∃ n w v, IsName n ∧ Blanks w ∧ c :: t = headerLine n w v := by
  have hc : tokenc c = true := by
    obtain ⟨r, m1, m2, m3, l', a, b, h1, h2, h3⟩ := (acc_rows (by decide)).1 h
    have hr : ∀ r ∈ rows 280, (r.acts = [] ∧ r.tgt = 764) ∨ (14 ≤ r.lo ∧ r.hi < 256 ∧ (List.range 256).all fun n => !(Nat.ble r.lo n && Nat.ble n r.hi) || tokenN n) := by
      decide +kernel
    rcases hr r m1 with ⟨r1, r2⟩ | ⟨r1, r2, r3⟩
    · exfalso
      rw [r1, r2] at h3
      rw [r1] at h1
      cases h1
      change Acc 764 _ t b at h3
      cases t with
      | nil => exact acc_nil (by decide) h3
      | cons d t =>
        obtain ⟨q, n1, n2, n3, l2, a2, b2, i1, i2, i3⟩ := (acc_rows (by decide)).1 h3
        rw [rows764] at n1
        simp only [List.mem_cons, List.not_mem_nil, or_false] at n1
        subst n1
        simp only [] at i3
        generalize (proceed _ 781 l2 (d :: t) t d).l = l3 at i3
        generalize (proceed _ 781 l2 (d :: t) t d).inp = inp3 at i3
        obtain ⟨l4, i3⟩ := i3
        generalize hu : (⟨280, l4, []⟩ : Conf) = u at i3
        cases i3 with
        | refl => cases hu
        | step j1 _ => rw [sstep_781] at j1; cases j1
    · have hs : ssymbol 280 (c :: t) c = c.toNat := by
        rcases ssymbol_bound 280 (c :: t) c with h | ⟨_, _, h⟩
        · exact h
        · rw [h] at m3
          cases hl : lookWSP (c :: t) <;> rw [hl] at m3 <;> simp only [cond_true, cond_false] at m3 <;> omega
      rw [hs] at m2 m3
      rw [List.all_eq_true] at r3
      have := r3 c.toNat (by rw [List.mem_range]; exact c.toNat_lt)
      rw [Nat.ble_eq_true_of_le m2, Nat.ble_eq_true_of_le m3] at this
      simpa [tokenN] using this
  obtain ⟨n, b, e, h1, h2⟩ := span_all tokenc (c :: t)
  have hn : IsName n := by
    refine ⟨?_, fun d hd => (tokenc_iff d).1 (h1 d hd)⟩
    rintro rfl
    have := h2 c t (by simpa using e.symm)
    rw [hc] at this; cases this
  obtain ⟨r1, r2⟩ := name_run (l := l) (tl := b) hn
  rw [e, acc_run_nil r1] at h
  obtain ⟨w, b', rfl, g1, g2⟩ := span_all (fun c => c == 32 || c == 9) b
  have hw : Blanks w := fun d hd => by simpa using g1 d hd
  -- the state after the blanks
  cases w with
  | nil =>
    cases b' with
    | nil => 
      exfalso
      refine acc_nil ?_ h
      rcases r2 with r2 | r2
      · intro e; rw [e] at r2; revert r2; decide +kernel
      · rw [r2]; decide
    | cons d v =>
      by_cases hd : d = 58
      · subst hd; exact ⟨n, [], v, hn, hw, by rw [e]; simp [headerLine]⟩
      · exfalso
        have hdt := h2 d v rfl
        have hdb := g2 d v rfl
        simp only [Bool.or_eq_false_iff, beq_eq_false_iff_ne, ne_eq] at hdb
        have hdn : ∀ z : UInt8, d ≠ z → d.toNat ≠ z.toNat := fun z hz he => hz (UInt8.toNat_inj.1 he)
        have n9 := hdn 9 hdb.2
        have n32 := hdn 32 hdb.1
        have n58 := hdn 58 hd
        have htk : tokenN d.toNat = false := by simpa [tokenN] using hdt
        rcases r2 with r2 | r2
        · have hoc := other_check _ (trie_lt r2) r2 d.toNat d.toNat_lt
          have b9 : Nat.beq d.toNat 9 = false := by rw [← Bool.not_eq_true]; intro hh; exact n9 (Nat.eq_of_beq_eq_true hh)
          have b32 : Nat.beq d.toNat 32 = false := by rw [← Bool.not_eq_true]; intro hh; exact n32 (Nat.eq_of_beq_eq_true hh)
          have b58 : Nat.beq d.toNat 58 = false := by rw [← Bool.not_eq_true]; intro hh; exact n58 (Nat.eq_of_beq_eq_true hh)
          unfold otherCheck at hoc
          rw [htk, b9, b32, b58] at hoc
          simp only [Bool.false_or] at hoc
          have hsy : ssymbol (walk 281 n) (d :: v) d = d.toNat := ssymbol_narrow (trie_narrow _ (trie_lt r2) (.inl r2))
          simp only [List.nil_append] at h
          cases hlk : lookup (rows (walk 281 n)) d.toNat with
          | none => exact acc_stuck (by rw [hsy]; exact hlk) h
          | some r =>
            rw [hlk] at hoc
            simp only [Bool.and_eq_true, decide_eq_true_eq] at hoc
            have hrow : rowAt (walk 281 n) d.toNat = some ([.hold], 273) := by
              unfold rowAt; rw [hlk, ← hoc.1, ← Nat.eq_of_beq_eq_true hoc.2]; rfl
            have s1 := SRun.one (step_at (l := { l with seg := n }) (tl := v) (by rw [hsy]; exact hrow) rfl)
            rw [acc_run_nil s1] at h
            exact stuck_273 hdt h
        · rw [r2] at h
          have := (other_27x d.toNat d.toNat_lt).2
          rw [htk] at this
          simp only [Bool.false_eq_true, false_or] at this
          have h274 : lookup (rows 274) d.toNat = none := by
            rcases this with h | h | h | h
            · exact absurd h n9
            · exact absurd h n32
            · exact absurd h n58
            · exact h
          refine acc_stuck ?_ h
          rw [ssymbol_narrow (trie_narrow 274 (by decide) (.inr (.inr (.inl rfl))))]
          exact h274
  | cons s w =>
    have hs := hw s List.mem_cons_self
    have hs13 := blank_ne13 hw s List.mem_cons_self
    have hw' : Blanks w := fun c hc => hw c (List.mem_cons_of_mem _ hc)
    rw [List.cons_append] at h
    suffices ∃ v, b' = 58 :: v by
      obtain ⟨v, rfl⟩ := this
      exact ⟨n, s :: w, v, hn, hw, by rw [e]; simp [headerLine]⟩
    rcases r2 with r2 | r2
    · have hk := trie_lt r2
      have hnil : n.map lower ≠ [] := by have := hn.1; simpa using this
      have hend := (end_check _ hk _ (walk_mem hn r2)).resolve_left hnil
      unfold endCheck at hend
      cases hh : headerNames.lookup (n.map lower) with
      | none =>
        exfalso
        rw [hh] at hend
        simp only [List.all_cons, List.all_nil, Bool.and_true, Bool.and_eq_true, decide_eq_true_eq] at hend
        have hrow : rowAt (walk 281 n) s.toNat = some ([.hold], 273) := by
          rcases hs with rfl | rfl
          · exact hend.2.1
          · exact hend.1
        have s1 := SRun.one (step_at (l := { l with seg := n }) (tl := w ++ b') (by rw [ssymbol_ne hs13]; exact hrow) rfl)
        rw [acc_run_nil s1] at h
        exact stuck_273 (by rcases hs with rfl | rfl <;> decide) h
      | some hd =>
        rw [hh] at hend
        simp only [Bool.and_eq_true, decide_eq_true_eq] at hend
        obtain ⟨_, hend⟩ := hend
        cases h32 : rowAt (walk 281 n) 32 with
        | none => rw [h32] at hend; cases hend
        | some y =>
          obtain ⟨as, t⟩ := y
          rw [h32] at hend
          simp only [Bool.and_eq_true, decide_eq_true_eq, Nat.blt_eq, Bool.not_eq_true'] at hend
          obtain ⟨⟨⟨⟨⟨⟨⟨e1, e2⟩, e3⟩, e4⟩, e5⟩, e6⟩, e7⟩, e8⟩ := hend
          subst e1
          obtain ⟨l', g1', g2'⟩ := sacts_name hd (n.map lower) s { l with seg := n }
          have hrow : rowAt (walk 281 n) s.toNat = some (nameActs hd (n.map lower), t) := by
            rcases hs with rfl | rfl
            · exact h32
            · exact e2
          have s1 := SRun.one (step_at (tl := w ++ b') (by rw [ssymbol_ne hs13]; exact hrow) g1')
          rw [g2'] at s1
          have s2 := loop_run (k := t) (l := { l' with seg := l'.seg ++ [s] }) (s := w) (tl := b') (by
            intro c hcw
            refine ⟨blank_ne13 hw' c hcw, ?_⟩
            rcases hw' c hcw with rfl | rfl
            · exact e6
            · exact e5)
          rw [acc_run_nil (s1.trans s2)] at h
          refine stuck_blank ?_ e4 e8 g2 h
          rintro rfl
          rw [wide280] at e4; cases e4
    · obtain ⟨e1, e2, e3, e4, e5, e6⟩ := rows_27x
      rw [r2] at h
      have hrow : rowAt 274 s.toNat = some ([.name], 275) := by
        rcases hs with rfl | rfl
        · exact e2
        · exact e1
      have s1 := SRun.one (step_at (l := { l with seg := n }) (tl := w ++ b') (by rw [ssymbol_ne hs13]; exact hrow) rfl)
      have s2 := loop_run (k := 275) (l := { l with seg := n ++ [s], name := n }) (s := w) (tl := b') (by
        intro c hcw
        refine ⟨blank_ne13 hw' c hcw, ?_⟩
        rcases hw' c hcw with rfl | rfl
        · exact e5
        · exact e4)
      rw [acc_run_nil (s1.trans s2)] at h
      exact stuck_blank (by decide) rows_275.1 rows_275.2 g2 h

end Gosip.Sip.MsgM
