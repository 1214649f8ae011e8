import Verif.Sip.Lines
import Verif.Sip.UriGrammar

/-!
# The lines of an accepted message
-/

namespace Gosip.Sip

/-! ### A URI has no line break -/

theorem Uri.rows_cr : ∀ k, k < 60 → (Uri.lookup (Uri.rows k) 13 = none ∧ Uri.lookup (Uri.rows k) 32 = none) ∧
    ∀ r ∈ Uri.rows k, r.tgt < 60 := by
  decide +kernel

theorem Uri.lookup_mem' {l : List Uri.Row} {c : Nat} {r : Uri.Row} (h : Uri.lookup l c = some r) : r ∈ l := by
  induction l with
  | nil => simp [Uri.lookup] at h
  | cons a l ih =>
    rw [Uri.lookup] at h
    cases hb : Nat.ble a.lo c && Nat.ble c a.hi <;> rw [hb] at h <;> simp at h hb
    · simp [ih h]
    · subst h; simp

theorem Uri.asucc_cr {k : Nat} {x : Uri.ACtx} {d : Bytes} {u : URI} (hk : k < 60)
    (h : Uri.asucc k x d = some u) : 13 ∉ d ∧ 32 ∉ d := by
  induction d generalizing k x with
  | nil => simp
  | cons c d ih =>
    rw [Uri.asucc] at h
    cases hl : Uri.lookup (Uri.rows k) c.toNat with
    | none => rw [hl] at h; cases h
    | some r =>
      rw [hl] at h
      obtain ⟨⟨h13, h32⟩, ht⟩ := Uri.rows_cr k hk
      obtain ⟨i1, i2⟩ := ih (ht r (Uri.lookup_mem' hl)) h
      constructor
      · rintro (_ | ⟨_, hm⟩)
        · rw [show (13 : UInt8).toNat = 13 from rfl, h13] at hl; cases hl
        · exact i1 hm
      · rintro (_ | ⟨_, hm⟩)
        · rw [show (32 : UInt8).toNat = 32 from rfl, h32] at hl; cases hl
        · exact i2 hm

namespace MsgM

theorem uriOf_cr {d : Bytes} (h : 13 ∈ d) : uriOf d = none := by
  unfold uriOf
  cases hp : parseURI d with
  | ok u =>
    rw [Uri.parseURI_abs, Uri.arun_ok] at hp
    have := (Uri.asucc_cr (by unfold Uri.entry; split <;> decide) hp).1
    exact absurd h this
  | err e => rfl
  | panic => rfl

/-! ### Facts about line ends in the table -/

/-- States between the CR and the LF of a line. -/
def crState (k : Nat) : Bool :=
  k == 13 || k == 44 || k == 85 || k == 128 || k == 170 || k == 203 || k == 255 || k == 270 || k == 381

/-- Only one byte is read. -/
def only (r : Row) (c : Nat) : Bool := Nat.beq r.lo c && Nat.beq r.hi c

/-- Line ends, row by row. -/
def lineRow (k : Nat) (r : Row) : Bool :=
  -- a CR that is read and does not begin a continuation is the end of a line
  (!(wide k && Nat.ble r.lo 269 && Nat.ble 269 r.hi && decide (moveOf r.acts = .adv)) ||
    crState r.tgt || (Nat.beq r.tgt 764 && Nat.beq k 280)) &&
  -- no other CR is read, except in the request line
  (!(!wide k && Nat.ble r.lo 13 && Nat.ble 13 r.hi && decide (moveOf r.acts = .adv)) ||
    ((Nat.beq k 3 || Nat.beq k 4) && Nat.beq r.tgt 4)) &&
  -- after CR comes LF, and then the next line
  (!crState k || (only r 10 && decide (moveOf r.acts = .adv) && Nat.beq r.tgt 280)) &&
  (!Nat.beq k 764 || (only r 10 && decide (moveOf r.acts = .adv) && Nat.beq r.tgt 781)) &&
  -- and these are the only ways
  (!crState r.tgt || (wide k && only r 269 && decide (moveOf r.acts = .adv))) &&
  (!Nat.beq r.tgt 764 || (Nat.beq k 280 && only r 269 && decide (moveOf r.acts = .adv))) &&
  (!Nat.beq r.tgt 280 || crState k) &&
  (!Nat.beq r.tgt 781 || Nat.beq k 764)

theorem line_check : ∀ k, k < 765 → ∀ r ∈ rows k, lineRow k r = true := by decide +kernel

theorem wide_cr : ∀ k, k < 765 → crState k = true ∨ k = 764 → wide k = false := by decide +kernel

theorem rows4 : rows 4 = [⟨0, 31, [], 4⟩, ⟨32, 32, [.requestURI], 5⟩, ⟨33, 255, [], 4⟩] := by decide +kernel
theorem rows3 : rows 3 = [⟨0, 31, [.mark], 4⟩, ⟨33, 255, [.mark], 4⟩] := by decide +kernel
theorem wide34 : wide 3 = false ∧ wide 4 = false := by decide +kernel

/-- Where the machine is when `a` is what is left up to the end of a line. -/
inductive AtEnd : Bytes → Conf → Prop
  | nl {s : Conf} : s.k = 280 ∨ s.k = 781 → AtEnd [] s
  | cr {s : Conf} : crState s.k = true ∨ s.k = 764 → AtEnd [10] s
  | before {s : Conf} (z : Bytes) : AtEnd (z ++ [13, 10]) s
  | bad {s : Conf} (a : Bytes) : s.k = 4 → 13 ∈ s.l.seg → AtEnd a s

theorem bad_step {s t : Conf} {x : List Upd} (hk : s.k = 4) (hb : 13 ∈ s.l.seg)
    (h : sstep s = some (t, x)) : t.k = 4 ∧ 13 ∈ t.l.seg := by
  obtain ⟨k, l, inp⟩ := s
  simp only [] at hk hb
  subst hk
  obtain ⟨c, tl, r, l', e1, e2, e3, rfl⟩ := sstep_cases h
  have hm := (lookup_mem e2).1
  rw [show (⟨4, l, inp⟩ : Conf).k = 4 from rfl, rows4] at hm
  simp only [List.mem_cons, List.not_mem_nil, or_false] at hm
  rcases hm with rfl | rfl | rfl
  · cases e3; exact ⟨rfl, by simp [proceed, moveOf, hb]⟩
  · simp only [sacts, sact, uriOf_cr hb] at e3; cases e3
  · cases e3; exact ⟨rfl, by simp [proceed, moveOf, hb]⟩

theorem ssymbol_bound (k : Nat) (inp : Bytes) (c : UInt8) :
    ssymbol k inp c = c.toNat ∨ (c = 13 ∧ wide k = true ∧
      ssymbol k inp c = bif lookWSP inp then 525 else 269) := by
  unfold ssymbol
  cases hw : wide k
  · left; rfl
  · by_cases hc : c = 13
    · right; subst hc; exact ⟨rfl, rfl, rfl⟩
    · left; have : (c == 13) = false := by simpa using hc
      simp [this]

/-- Reading on up to the end of a line. -/
theorem AtEnd.step {a b : Bytes} {s t : Conf} {x : List Upd} (hs : s.inp = a ++ b) (ha : a ≠ [])
    (hb : startsWSP b = false) (hk : s.k < 765) (h : AtEnd a s) (hst : sstep s = some (t, x)) :
    ∃ a', t.inp = a' ++ b ∧ AtEnd a' t := by
  have hst' := hst
  obtain ⟨k, l, inp⟩ := s
  simp only [] at hs hk
  obtain ⟨c, tl, r, l', e1, e2, e3, e4⟩ := sstep_cases hst
  simp only [] at e1 e2 e3 e4
  obtain ⟨tl', e5, e6⟩ : ∃ tl', a = c :: tl' ∧ tl = tl' ++ b := by
    rw [hs] at e1
    cases a with
    | nil => exact absurd rfl ha
    | cons d w =>
      simp only [List.cons_append, List.cons.injEq] at e1
      exact ⟨w, by rw [e1.1], e1.2.symm⟩
  obtain ⟨m1, m2, m3⟩ := lookup_mem e2
  have hc := line_check k hk r m1
  simp only [lineRow, Bool.and_eq_true, Bool.or_eq_true, Bool.not_eq_true', Bool.and_eq_false_iff,
    decide_eq_true_eq, decide_eq_false_iff_not, only] at hc
  obtain ⟨⟨⟨⟨⟨⟨⟨c1, c2⟩, c3⟩, c4⟩, c5⟩, c6⟩, c7⟩, c8⟩ := hc
  cases h with
  | nl _ => exact absurd rfl ha
  | bad _ hk4 hcr =>
    obtain ⟨g1, g2⟩ := bad_step hk4 hcr hst'
    have : ∃ a', t.inp = a' ++ b := by
      rw [e4]
      cases moveOf r.acts with
      | adv => exact ⟨tl', e6⟩
      | stay => exact ⟨a, hs⟩
      | back => exact ⟨l'.seg ++ a, by simp only [proceed, hs, List.append_assoc]⟩
    obtain ⟨a', ht⟩ := this
    exact ⟨a', ht, .bad _ g1 g2⟩
  | cr hcr =>
    simp only [List.cons.injEq] at e5
    have hadv : moveOf r.acts = .adv ∧ (r.tgt = 280 ∨ r.tgt = 781) := by
      rcases hcr with hcr | hcr
      · simp only [] at hcr
        rcases c3 with c3 | c3
        · rw [hcr] at c3; cases c3
        · exact ⟨c3.1.2, .inl (Nat.eq_of_beq_eq_true c3.2)⟩
      · simp only [] at hcr
        subst hcr
        rcases c4 with c4 | c4
        · cases c4
        · exact ⟨c4.1.2, .inr (Nat.eq_of_beq_eq_true c4.2)⟩
    rw [hadv.1] at e4
    refine ⟨[], by rw [e4, e6, ← e5.2]; rfl, .nl ?_⟩
    rw [e4]; exact hadv.2
  | before z =>
    cases hm : moveOf r.acts with
    | stay =>
      rw [hm] at e4
      exact ⟨z ++ [13, 10], by rw [e4]; exact hs, .before z⟩
    | back =>
      rw [hm] at e4
      exact ⟨l'.seg ++ z ++ [13, 10], by rw [e4]; simp only [proceed, hs, List.append_assoc],
        .before _⟩
    | adv =>
      rw [hm] at e4
      refine ⟨tl', by rw [e4]; exact e6, ?_⟩
      cases z with
      | cons d w =>
        simp only [List.cons_append, List.cons.injEq] at e5
        rw [← e5.2]
        exact .before w
      | nil =>
        simp only [List.nil_append, List.cons.injEq] at e5
        obtain ⟨rfl, rfl⟩ := e5
        have hlook : lookWSP inp = false := by
          rw [hs]
          cases b with
          | nil => rfl
          | cons w b => exact hb
        rcases ssymbol_bound k inp 13 with hsy | ⟨_, hw, hsy⟩
        · rw [hsy, show (13 : UInt8).toNat = 13 from rfl] at m2 m3
          have hnw : wide k = false := by
            cases hw : wide k with
            | false => rfl
            | true =>
              rw [ssymbol, hw, hlook] at hsy; cases hsy
          rcases c2 with ((((c2 | c2) | c2) | c2) | c2)
          · rw [hnw] at c2; cases c2
          · rw [Nat.ble_eq_true_of_le m2] at c2; cases c2
          · rw [Nat.ble_eq_true_of_le m3] at c2; cases c2
          · exact absurd hm c2
          · have ht4 := Nat.eq_of_beq_eq_true c2.2
            refine .bad _ (by rw [e4]; exact ht4) ?_
            rcases c2.1 with h3 | h3
            all_goals
              have h3 := Nat.eq_of_beq_eq_true h3
              rw [e4]
              simp [proceed]
        · rw [hsy, hlook, cond_false] at m2 m3
          refine .cr ?_
          rw [e4]
          rcases c1 with ((((((c1 | c1) | c1) | c1) | c1)) | c1)
          · rw [hw] at c1; cases c1
          · rw [Nat.ble_eq_true_of_le m2] at c1; cases c1
          · rw [Nat.ble_eq_true_of_le m3] at c1; cases c1
          · exact absurd hm c1
          · exact .inl c1
          · exact .inr (Nat.eq_of_beq_eq_true c1.1)

theorem LRun.atEnd {b : Bytes} (hb : startsWSP b = false) {s t : Conf} {us : List Upd} (h : LRun b s us t)
    {a : Bytes} (hs : s.inp = a ++ b) (hk : s.k < 765 ∨ s.k = 781) (ha : AtEnd a s) :
    ∃ a', t.inp = a' ++ b ∧ AtEnd a' t := by
  induction h generalizing a with
  | refl s => exact ⟨a, hs, ha⟩
  | @step s t u x y h0 h1 h2 ih =>
    have hne : a ≠ [] := by rintro rfl; rw [hs] at h0; simp at h0
    have hk' : s.k < 765 := by
      rcases hk with hk | hk
      · exact hk
      · obtain ⟨k, l, inp⟩ := s
        simp only [] at hk
        subst hk
        rw [sstep_781] at h1; cases h1
    obtain ⟨a', g1, g2⟩ := ha.step hs hne hb hk' h1
    exact ih g1 (sstep_k hk' h1).symm g2

/-- From a request line with a CR nothing is accepted. -/
theorem bad_run {s t : Conf} {us : List Upd} (h : SRun s us t) (hk : s.k = 4) (hb : 13 ∈ s.l.seg) :
    t.k = 4 := by
  induction h with
  | refl => exact hk
  | step h1 _ ih =>
    obtain ⟨g1, g2⟩ := bad_step hk hb h1
    exact ih g1 g2

/-- A run to the end of the message passes every end of a line. -/
theorem run_line {k : Nat} {l l' : Loc} {L b body : Bytes} {us : List Upd} (hk : k < 765)
    (h : SRun ⟨k, l, L ++ [13, 10] ++ b⟩ us ⟨781, l', body⟩) (hb : startsWSP b = false)
    (hlen : body.length ≤ b.length) :
    ∃ k1 l1 u1 u2, (k1 = 280 ∨ k1 = 781) ∧ LRun b ⟨k, l, L ++ [13, 10] ++ b⟩ u1 ⟨k1, l1, b⟩ ∧
      SRun ⟨k1, l1, b⟩ u2 ⟨781, l', body⟩ ∧ us = u1 ++ u2 := by
  obtain ⟨k1, l1, u1, u2, h1, h2, h3⟩ := h.split (a := L ++ [13, 10]) rfl hlen
  obtain ⟨a', g1, g2⟩ := h1.atEnd hb rfl (.inl hk) (.before L)
  have ha' : a' = [] := by simpa using g1
  subst ha'
  refine ⟨k1, l1, u1, u2, ?_, h1, h2, h3⟩
  generalize he : ([] : Bytes) = a' at g2
  cases g2 with
  | nl h => exact h
  | cr _ => cases he
  | before z => simp at he
  | bad _ h4 h5 =>
    have := bad_run h2 h4 h5
    simp only [] at this
    cases this

/-! ### What precedes the body -/

/-- What has been read when the machine is in a state at the end of a line; `z` if it started there. -/
def Read (z : Bool) (k : Nat) (q : Bytes) : Prop :=
  (k = 280 → (z = true ∧ q = []) ∨ ∃ x, q = x ++ [13, 10]) ∧
  (crState k = true → ∃ x, q = x ++ [13]) ∧
  (k = 764 → (z = true ∧ q = [13]) ∨ ∃ x, q = x ++ [13, 10, 13]) ∧
  (k = 781 → (z = true ∧ q = [13, 10]) ∨ ∃ x, q = x ++ [13, 10, 13, 10])

/-- The text read up to a configuration. -/
structure Hist (z : Bool) (d : Bytes) (s : Conf) : Prop where
  read : ∃ q pre, d = q ++ s.inp ∧ q = pre ++ s.l.seg ∧ Read z s.k q

theorem sact_seg {a : MAct} {c : UInt8} {l l' : Loc} {us : List Upd} (h : sact a c l = some (l', us)) :
    l'.seg = l.seg ∨ l'.seg = [] := by
  cases a <;> simp only [sact] at h
  case value => split at h <;> (cases h; exact .inl rfl)
  case requestURI =>
    cases hu : uriOf l.seg <;> rw [hu] at h <;> cases h
    exact .inl rfl
  case addrUri =>
    cases hu : uriOf l.seg <;> rw [hu] at h
    · cases h
    · cases ha : l.addr <;> rw [ha] at h <;> cases h
      exact .inl rfl
  case addr =>
    cases hu : l.addrp <;> rw [hu] at h
    · cases h
    · cases ha : l.addr <;> rw [ha] at h <;> cases h
      exact .inl rfl
  case via | viaProtocol | viaVersion | viaTransport | viaHost | viaPort | viaParam =>
    cases ha : l.via <;> rw [ha] at h <;> cases h
    exact .inl rfl
  case addrQuotedDisplay | addrUnquotedDisplay | addrParam =>
    cases ha : l.addr <;> rw [ha] at h <;> cases h
    exact .inl rfl
  case mark => cases h; exact .inr rfl
  all_goals (cases h; exact .inl rfl)

theorem sacts_seg {as : List MAct} {c : UInt8} {l l' : Loc} {us : List Upd} (h : sacts as c l = some (l', us)) :
    l'.seg = l.seg ∨ l'.seg = [] := by
  induction as generalizing l us with
  | nil => cases h; exact .inl rfl
  | cons a as ih =>
    simp only [sacts] at h
    cases h1 : sact a c l with
    | none => rw [h1] at h; cases h
    | some y =>
      rw [h1] at h
      simp only [Option.bind_some] at h
      cases h2 : sacts as c y.1 with
      | none => rw [h2] at h; cases h
      | some w =>
        rw [h2] at h
        cases h
        rcases ih h2 with e | e
        · rcases sact_seg h1 with e' | e'
          · exact .inl (e.trans e')
          · exact .inr (e.trans e')
        · exact .inr e

theorem Hist.step {z : Bool} {d : Bytes} {s t : Conf} {x : List Upd} (h : Hist z d s) (hk : s.k < 765)
    (hst : sstep s = some (t, x)) : Hist z d t := by
  obtain ⟨k, l, inp⟩ := s
  obtain ⟨q, pre, hq, hpre, hr⟩ := h
  simp only [] at hq hpre hr hk
  obtain ⟨c, tl, r, l', e1, e2, e3, rfl⟩ := sstep_cases hst
  simp only [] at e1 e2 e3
  obtain ⟨pre', hpre'⟩ : ∃ pre', q = pre' ++ l'.seg := by
    rcases sacts_seg e3 with e | e
    · exact ⟨pre, by rw [e]; exact hpre⟩
    · exact ⟨q, by rw [e]; simp⟩
  obtain ⟨m1, m2, m3⟩ := lookup_mem e2
  have hc := line_check k hk r m1
  simp only [lineRow, Bool.and_eq_true, Bool.or_eq_true, Bool.not_eq_true',
    decide_eq_true_eq, only] at hc
  obtain ⟨⟨⟨⟨⟨⟨⟨-, -⟩, c3⟩, c4⟩, c5⟩, c6⟩, c7⟩, c8⟩ := hc
  have h269 : r.lo.beq 269 = true ∧ r.hi.beq 269 = true → c = 13 := by
    rintro ⟨a1, a2⟩
    have a1 := Nat.eq_of_beq_eq_true a1
    have a2 := Nat.eq_of_beq_eq_true a2
    rcases ssymbol_bound k inp c with hsy | ⟨hc, _⟩
    · rw [hsy] at m2 m3
      have := c.toNat_lt
      omega
    · exact hc
  have h10 : r.lo.beq 10 = true ∧ r.hi.beq 10 = true → c = 10 := by
    rintro ⟨a1, a2⟩
    have a1 := Nat.eq_of_beq_eq_true a1
    have a2 := Nat.eq_of_beq_eq_true a2
    rcases ssymbol_bound k inp c with hsy | ⟨_, _, hsy⟩
    · rw [hsy] at m2 m3
      exact UInt8.toNat_inj.1 (show c.toNat = (10 : UInt8).toNat by rw [show (10 : UInt8).toNat = 10 from rfl]; omega)
    · rw [hsy] at m2 m3
      cases hl : lookWSP inp <;> rw [hl] at m2 m3 <;> simp only [cond_true, cond_false] at m2 m3 <;> omega
  -- the four kinds of states at the end of a line are entered by reading on
  have key : ∀ m, moveOf r.acts = m → Read z r.tgt (match m with | .adv => q ++ [c] | .stay => q | .back => pre') := by
    intro m hm
    refine ⟨?_, ?_, ?_, ?_⟩
    · intro ht
      rcases c7 with c7 | c7
      · rw [ht] at c7; cases c7
      · rcases c3 with c3 | c3
        · rw [c7] at c3; cases c3
        · rw [c3.1.2] at hm; subst hm
          obtain ⟨w, hw⟩ := hr.2.1 c7
          exact .inr ⟨w, by simp only [hw, h10 c3.1.1]; simp⟩
    · intro ht
      rcases c5 with c5 | c5
      · rw [ht] at c5; cases c5
      · rw [c5.2] at hm; subst hm
        exact ⟨q, by simp only [h269 c5.1.2]⟩
    · intro ht
      rcases c6 with c6 | c6
      · rw [ht] at c6; cases c6
      · rw [c6.2] at hm; subst hm
        have h280 := Nat.eq_of_beq_eq_true c6.1.1
        simp only [h269 c6.1.2]
        rcases hr.1 h280 with ⟨hz, hq0⟩ | ⟨w, hw⟩
        · exact .inl ⟨hz, by rw [hq0]; rfl⟩
        · exact .inr ⟨w, by rw [hw]; simp⟩
    · intro ht
      rcases c8 with c8 | c8
      · rw [ht] at c8; cases c8
      · have h764 := Nat.eq_of_beq_eq_true c8
        rcases c4 with c4 | c4
        · rw [h764] at c4; cases c4
        · rw [c4.1.2] at hm; subst hm
          simp only [h10 c4.1.1]
          rcases hr.2.2.1 h764 with ⟨hz, hq0⟩ | ⟨w, hw⟩
          · exact .inl ⟨hz, by rw [hq0]; rfl⟩
          · exact .inr ⟨w, by rw [hw]; simp⟩
  have key := key _ rfl
  cases hm : moveOf r.acts with
  | adv =>
    rw [hm] at key
    exact ⟨q ++ [c], pre', by rw [hq, e1]; simp [proceed], by rw [hpre']; simp [proceed], key⟩
  | stay =>
    rw [hm] at key
    exact ⟨q, pre', hq, hpre', key⟩
  | back =>
    rw [hm] at key
    exact ⟨pre', pre', by rw [hq, hpre']; simp [proceed], by simp [proceed], key⟩

theorem Hist.run {z : Bool} {d : Bytes} {s t : Conf} {us : List Upd} (h : SRun s us t) (hk : s.k < 765 ∨ s.k = 781)
    (hh : Hist z d s) : Hist z d t := by
  induction h with
  | refl => exact hh
  | @step s t u x y h1 h2 ih =>
    have hk' : s.k < 765 := by
      rcases hk with hk | hk
      · exact hk
      · obtain ⟨k, l, inp⟩ := s
        simp only [] at hk
        subst hk
        rw [sstep_781] at h1; cases h1
    exact ih (sstep_k hk' h1).symm (hh.step hk' h1)

theorem no {k j : Nat} {P : Prop} (h : k ≠ j) : k = j → P := fun e => absurd e h
theorem no' {k : Nat} {P : Prop} (h : crState k = false) : crState k = true → P := fun e => by
  rw [h] at e; cases e

/-- The body comes after an empty line. -/
theorem accepts_blank {d body : Bytes} {us : List Upd} (h : Accepts d us body) :
    ∃ x, d = x ++ [13, 10, 13, 10] ++ body := by
  obtain ⟨l, h⟩ := h
  have : Hist false d ⟨1, Loc.init, d⟩ :=
    ⟨[], [], rfl, rfl, ⟨no (k := 1) (by decide), no' (k := 1) (by decide), no (k := 1) (by decide), no (k := 1) (by decide)⟩⟩
  obtain ⟨q, pre, hq, _, hr⟩ := this.run h (.inl (show (1 : Nat) < 765 by decide))
  rcases hr.2.2.2 rfl with ⟨hz, _⟩ | ⟨x, hx⟩
  · cases hz
  · exact ⟨x, by rw [hq, hx]⟩

/-- From the beginning of a header line. -/
theorem headers_blank {l l' : Loc} {inp body : Bytes} {us : List Upd}
    (h : SRun ⟨280, l, inp⟩ us ⟨781, l', body⟩) :
    inp = [13, 10] ++ body ∨ ∃ x, inp = x ++ [13, 10, 13, 10] ++ body := by
  obtain ⟨m', hm, _⟩ := h.toL.agree (m := Loc.init) (show (280 : Nat) < 765 by decide) agree_none
  have : Hist true inp ⟨280, Loc.init, inp⟩ :=
    ⟨[], [], rfl, rfl, ⟨fun _ => .inl ⟨rfl, rfl⟩, no' (k := 280) (by decide), no (k := 280) (by decide),
      no (k := 280) (by decide)⟩⟩
  obtain ⟨q, pre, hq, _, hr⟩ := this.run hm.run (.inl (show (280 : Nat) < 765 by decide))
  rcases hr.2.2.2 rfl with ⟨_, hx⟩ | ⟨x, hx⟩
  · exact .inl (by rw [hq, hx])
  · exact .inr ⟨x, by rw [hq, hx]⟩

end MsgM
end Gosip.Sip
