import Verif.Sip.UriGrammar

/-! # The URI machine accepts exactly the grammar `Spec.URIText`: the states -/

namespace Gosip.Sip.Uri
open Gosip.Spec

/-! ### Transitions of the states that do not occur in loops over escapes -/

theorem n1 : ∀ c, next 1 c = if isAlpha c then some ([.start, .lower], 2) else none := by
  decide +kernel
theorem n27 : ∀ c, next 27 c = if isAlpha c then some ([.start, .lower], 28) else none := by
  decide +kernel
theorem n2 : ∀ c, next 2 c = if schemec c then some ([.lower], 2) else
    if c = 58 then some ([.scheme], 3) else none := by decide +kernel
theorem n28 : ∀ c, next 28 c = if schemec c then some ([.lower], 28) else
    if c = 58 then some ([.scheme], 29) else none := by decide +kernel
theorem n4 : ∀ c, ¬ user c → c ≠ 37 → next 4 c = if c = 58 then some ([.user], 7) else
    if c = 64 then some ([.user], 11) else none := by decide +kernel
theorem n8 : ∀ c, ¬ pass c → c ≠ 37 → next 8 c =
    if c = 64 then some ([.pass], 11) else none := by decide +kernel
theorem n11 : ∀ c, next 11 c = if hostc c then some ([.start, .lower], 45) else
    if c = 91 then some ([], 25) else none := by decide +kernel
theorem n12 : ∀ c, next 12 c = if isDig c then some ([.port], 46) else none := by decide +kernel
theorem n25 : ∀ c, next 25 c = if ip6c c then some ([.start, .lower], 26) else none := by
  decide +kernel
theorem n26 : ∀ c, next 26 c = if ip6c c then some ([.lower], 26) else
    if c = 93 then some ([.host], 51) else none := by decide +kernel
theorem n45 : ∀ c, next 45 c = if hostc c then some ([.lower], 45) else
    if c = 58 then some ([.host], 12) else if c = 59 then some ([.host], 13) else
    if c = 63 then some ([.host], 19) else none := by decide +kernel
theorem n46 : ∀ c, next 46 c = if isDig c then some ([.port], 46) else
    if c = 59 then some ([], 13) else if c = 63 then some ([], 19) else none := by decide +kernel
theorem n51 : ∀ c, next 51 c = if c = 58 then some ([], 12) else
    if c = 59 then some ([], 13) else if c = 63 then some ([], 19) else none := by decide +kernel
theorem n47 : ∀ c, ¬ param c → c ≠ 37 → next 47 c =
    if c = 59 then some ([.b1, .param], 13) else if c = 61 then some ([.b1], 16) else
    if c = 63 then some ([.b1, .param], 19) else none := by decide +kernel
theorem n48 : ∀ c, ¬ param c → c ≠ 37 → next 48 c =
    if c = 59 then some ([.b2, .param], 13) else
    if c = 63 then some ([.b2, .param], 19) else none := by decide +kernel
theorem n49 : ∀ c, ¬ header c → c ≠ 37 → next 49 c =
    if c = 38 then some ([.b1, .header], 19) else if c = 61 then some ([.b1], 22) else none := by
  decide +kernel
theorem n50 : ∀ c, ¬ header c → c ≠ 37 → next 50 c =
    if c = 38 then some ([.b2, .header], 19) else none := by decide +kernel

theorem loop4 : Loop user 4 5 6 := by constructor <;> decide +kernel
theorem loop8 : Loop pass 8 9 10 := by constructor <;> decide +kernel
theorem loop47 : Loop param 47 14 15 := by constructor <;> decide +kernel
theorem loop48 : Loop param 48 17 18 := by constructor <;> decide +kernel
theorem loop49 : Loop header 49 20 21 := by constructor <;> decide +kernel
theorem loop50 : Loop header 50 23 24 := by constructor <;> decide +kernel

theorem entry3 : Entry user 3 4 5 [.start] :=
  ⟨by decide +kernel, by decide, fun _ _ _ => rfl, fun _ _ => rfl, fun _ _ => rfl⟩
theorem entry7 : Entry pass 7 8 9 [.start] :=
  ⟨by decide +kernel, by decide, fun _ _ _ => rfl, fun _ _ => rfl, fun _ _ => rfl⟩

theorem pairParam : PairStates param 13 47 14 15 16 48 17 18 where
  E1 := ⟨by decide +kernel, by decide, fun _ _ _ => rfl, fun _ _ => rfl, fun _ _ => rfl⟩
  L1 := loop47
  E2 := ⟨by decide +kernel, by decide, fun _ _ _ => rfl, fun _ _ => rfl, fun _ _ => rfl⟩
  L2 := loop48
  neq := by decide

theorem pairHeader : PairStates header 19 49 20 21 22 50 23 24 where
  E1 := ⟨by decide +kernel, by decide, fun _ _ _ => rfl, fun _ _ => rfl, fun _ _ => rfl⟩
  L1 := loop49
  E2 := ⟨by decide +kernel, by decide, fun _ _ _ => rfl, fun _ _ => rfl, fun _ _ => rfl⟩
  L2 := loop50
  neq := by decide

theorem pair_ne_nil {P : UInt8 → Prop} {t : Bytes} {p : Bytes × Bytes} (h : PairText P t p) :
    t ≠ [] := by
  cases h with
  | name a b => rintro rfl; cases a; exact b rfl
  | value _ _ _ _ => simp

/-! ### Headers -/

def pushH (p : Bytes × Bytes) (u : URI) : URI := { u with header := p :: u.header }
def pushP (p : Bytes × Bytes) (u : URI) : URI := { u with param := p :: u.param }

/-- `pair *( "&" pair )` read after a prefix giving `w`. -/
def HL (w : URI) (d : Bytes) (u : URI) : Prop :=
  ∃ l, HeaderListText d l ∧ u = { w with header := l.reverse ++ w.header }

/-- What may follow a header pair. -/
def RH (w : URI) (d : Bytes) (u : URI) : Prop :=
  (d = [] ∧ u = w) ∨ ∃ r, d = 38 :: r ∧ HL w r u

theorem HL_iff (w : URI) (d : Bytes) (u : URI) :
    HL w d u ↔ ∃ t p r, d = t ++ r ∧ PairText header t p ∧ RH (pushH p w) r u := by
  constructor
  · rintro ⟨l, h, rfl⟩
    cases h with
    | @one t p h => exact ⟨d, p, [], by simp, h, .inl ⟨rfl, by simp [pushH]⟩⟩
    | @cons t p r l h1 h2 =>
      exact ⟨t, p, 38 :: r, by simp, h1, .inr ⟨r, rfl, l, h2, by simp [pushH]⟩⟩
  · rintro ⟨t, p, r, rfl, h1, h2⟩
    rcases h2 with ⟨rfl, rfl⟩ | ⟨r, rfl, l, h2, rfl⟩
    · exact ⟨[p], by simpa using .one h1, by simp [pushH]⟩
    · exact ⟨p :: l, by simpa using HeaderListText.cons h1 h2, by simp [pushH]⟩

theorem run_header (n : Nat) : ∀ d, d.length ≤ n → ∀ x u,
    (asucc 19 x d = some u ↔ HL x.uri d u) := by
  induction n with
  | zero =>
    intro d hd x u
    have : d = [] := by cases d <;> simp_all
    subst this
    rw [asucc_nil]
    simp only [Nat.reduceLT, ↓reduceIte, reduceCtorEq, false_iff]
    rw [HL_iff]
    rintro ⟨t, p, r, h1, h2, h3⟩
    simp at h1; exact pair_ne_nil h2 h1.1
  | succ n ih =>
    intro d hd x u
    rw [pairHeader.run pushH RH (n + 1) ?_ ?_ ?_ d hd x u, HL_iff]
    · intro x d u hn hs
      cases d with
      | nil =>
        rw [asucc_nil]
        simp only [Nat.reduceLT, ↓reduceIte, RH, true_and, reduceCtorEq, false_and, exists_false,
          or_false, Option.some.injEq]
        exact eq_comm
      | cons c d =>
        obtain ⟨s1, s2⟩ := stop_cons.1 hs
        have hx := n49 c s1 s2
        by_cases h1 : c = 38
        · subst h1; rw [if_pos rfl] at hx
          rw [asucc_some hx, ih d (by simp at hn; omega)]
          simp [RH, aexecs, aexec, pushH]
        · by_cases h2 : c = 61
          · subst h2; rw [if_neg (by decide), if_pos rfl] at hx
            rw [asucc_some hx]
            simp [RH, aexecs, aexec]
          · rw [if_neg h1, if_neg h2] at hx
            rw [asucc_none hx]
            simp [RH, h1, h2]
    · intro x d u hn hs
      cases d with
      | nil =>
        rw [asucc_nil]
        simp only [Nat.reduceLT, ↓reduceIte, RH, true_and, reduceCtorEq, false_and, exists_false,
          or_false, Option.some.injEq]
        exact eq_comm
      | cons c d =>
        obtain ⟨s1, s2⟩ := stop_cons.1 hs
        have hx := n50 c s1 s2
        by_cases h1 : c = 38
        · subst h1; rw [if_pos rfl] at hx
          rw [asucc_some hx, ih d (by simp at hn; omega)]
          simp [RH, aexecs, aexec, pushH]
        · rw [if_neg h1] at hx
          rw [asucc_none hx]
          simp [RH, h1]
    · rintro w d u (⟨rfl, _⟩ | ⟨r, rfl, _⟩)
      · exact stop_nil _
      · exact stop_cons.2 ⟨by decide, by decide⟩

/-! ### Parameters -/

/-- `*( ";" pair ) [ "?" headers ]` read after a prefix giving `w`. -/
def RP (w : URI) (d : Bytes) (u : URI) : Prop :=
  ∃ ps params hs hdrs, d = ps ++ hs ∧ ParamsText ps params ∧ HeadersText hs hdrs ∧
    u = { w with param := params.reverse ++ w.param, header := hdrs.reverse ++ w.header }

theorem RP_iff (w : URI) (d : Bytes) (u : URI) :
    RP w d u ↔ (d = [] ∧ u = w) ∨
      (∃ r, d = 59 :: r ∧ ∃ t p r', r = t ++ r' ∧ PairText param t p ∧ RP (pushP p w) r' u) ∨
      ∃ r, d = 63 :: r ∧ HL w r u := by
  constructor
  · rintro ⟨ps, params, hs, hdrs, rfl, h1, h2, rfl⟩
    cases h1 with
    | nil =>
      cases h2 with
      | none => exact .inl ⟨rfl, by simp⟩
      | @some t l h => exact .inr (.inr ⟨t, by simp, hdrs, h, by simp⟩)
    | @cons t p r l a1 a2 =>
      refine .inr (.inl ⟨t ++ (r ++ hs), by simp, t, p, r ++ hs, rfl, a1, ?_⟩)
      exact ⟨r, l, hs, hdrs, rfl, a2, h2, by simp [pushP]⟩
  · rintro (⟨rfl, rfl⟩ | ⟨_, rfl, t, p, r', rfl, h1, ps, params, hs, hdrs, rfl, h2, h3, rfl⟩ |
      ⟨r, rfl, l, h, rfl⟩)
    · exact ⟨[], [], [], [], rfl, .nil, .none, by simp⟩
    · exact ⟨_, p :: params, hs, hdrs, by simp, .cons h1 h2, h3, by simp [pushP]⟩
    · exact ⟨[], [], 63 :: r, l, rfl, .nil, .some h, by simp⟩

theorem RP_stop {P : UInt8 → Prop} (h1 : ¬ P 59) (h2 : ¬ P 63) {w : URI} {d : Bytes} {u : URI}
    (h : RP w d u) : Stop P d := by
  rw [RP_iff] at h
  rcases h with ⟨rfl, _⟩ | ⟨r, rfl, _⟩ | ⟨r, rfl, _⟩
  · exact stop_nil _
  · exact stop_cons.2 ⟨h1, by decide⟩
  · exact stop_cons.2 ⟨h2, by decide⟩

theorem run_param (n : Nat) : ∀ d, d.length ≤ n → ∀ x u, (asucc 13 x d = some u ↔
      ∃ t p r', d = t ++ r' ∧ PairText param t p ∧ RP (pushP p x.uri) r' u) := by
  induction n with
  | zero =>
    intro d hd x u
    have : d = [] := by cases d <;> simp_all
    subst this
    rw [asucc_nil]
    simp only [Nat.reduceLT, ↓reduceIte, reduceCtorEq, false_iff]
    rintro ⟨t, p, r, h1, h2, h3⟩
    simp at h1; exact pair_ne_nil h2 h1.1
  | succ n ih =>
    intro d hd x u
    rw [pairParam.run pushP RP (n + 1) ?_ ?_ (fun w d u => RP_stop (by decide) (by decide)) d hd x u]
    · intro x d u hn hs
      rw [RP_iff]
      cases d with
      | nil =>
        rw [asucc_nil]
        simp only [Nat.reduceLT, ↓reduceIte, true_and, reduceCtorEq, false_and, exists_false,
          or_false, Option.some.injEq]
        exact eq_comm
      | cons c d =>
        obtain ⟨s1, s2⟩ := stop_cons.1 hs
        have hx := n47 c s1 s2
        by_cases h1 : c = 59
        · subst h1; rw [if_pos rfl] at hx
          rw [asucc_some hx, ih d (by simp at hn; omega)]
          simp [aexecs, aexec, pushP]
        · by_cases h2 : c = 61
          · subst h2; rw [if_neg (by decide), if_pos rfl] at hx
            rw [asucc_some hx]
            simp [aexecs, aexec]
          · by_cases h3 : c = 63
            · subst h3; rw [if_neg (by decide), if_neg (by decide), if_pos rfl] at hx
              rw [asucc_some hx, run_header _ d (Nat.le_refl _)]
              simp [aexecs, aexec, pushP]
            · rw [if_neg h1, if_neg h2, if_neg h3] at hx
              rw [asucc_none hx]
              simp [h1, h2, h3]
    · intro x d u hn hs
      rw [RP_iff]
      cases d with
      | nil =>
        rw [asucc_nil]
        simp only [Nat.reduceLT, ↓reduceIte, true_and, reduceCtorEq, false_and, exists_false,
          or_false, Option.some.injEq]
        exact eq_comm
      | cons c d =>
        obtain ⟨s1, s2⟩ := stop_cons.1 hs
        have hx := n48 c s1 s2
        by_cases h1 : c = 59
        · subst h1; rw [if_pos rfl] at hx
          rw [asucc_some hx, ih d (by simp at hn; omega)]
          simp [aexecs, aexec, pushP]
        · by_cases h3 : c = 63
          · subst h3; rw [if_neg (by decide), if_pos rfl] at hx
            rw [asucc_some hx, run_header _ d (Nat.le_refl _)]
            simp [aexecs, aexec, pushP]
          · rw [if_neg h1, if_neg h3] at hx
            rw [asucc_none hx]
            simp [h1, h3]

/-! ### Port and host -/

theorem RP_cons (w : URI) (c : UInt8) (d : Bytes) (u : URI) : RP w (c :: d) u ↔
    (c = 59 ∧ ∃ t p r', d = t ++ r' ∧ PairText param t p ∧ RP (pushP p w) r' u) ∨
      (c = 63 ∧ HL w d u) := by
  rw [RP_iff]
  constructor
  · rintro (⟨h, _⟩ | ⟨r, h, g⟩ | ⟨r, h, g⟩)
    · simp at h
    · simp at h; obtain ⟨rfl, rfl⟩ := h; exact .inl ⟨rfl, g⟩
    · simp at h; obtain ⟨rfl, rfl⟩ := h; exact .inr ⟨rfl, g⟩
  · rintro (⟨rfl, g⟩ | ⟨rfl, g⟩)
    · exact .inr (.inl ⟨d, rfl, g⟩)
    · exact .inr (.inr ⟨d, rfl, g⟩)

theorem RP_nil (w u : URI) : RP w [] u ↔ u = w := by
  rw [RP_iff]; simp

/-- `[ ":" digits ]` and the rest, read after a prefix giving `w`. -/
def PR (w : URI) (d : Bytes) (u : URI) : Prop :=
  ∃ pt port r, d = pt ++ r ∧ PortText pt port ∧ RP { w with port := port } r u

theorem PR_nil (w u : URI) (h0 : w.port = 0) : PR w [] u ↔ u = w := by
  constructor
  · rintro ⟨pt, port, r, h1, h2, h3⟩
    simp at h1; obtain ⟨rfl, rfl⟩ := h1
    rw [RP_nil] at h3
    cases h2; rw [h3, ← h0]
  · rintro rfl
    exact ⟨[], 0, [], rfl, .none, by rw [RP_nil, ← h0]⟩

theorem PR_cons (w : URI) (c : UInt8) (d : Bytes) (u : URI) (h0 : w.port = 0) :
    PR w (c :: d) u ↔ RP w (c :: d) u ∨ (c = 58 ∧ ∃ ds r, d = ds ++ r ∧ ds ≠ [] ∧
      (∀ c ∈ ds, isDig c) ∧ RP { w with port := UInt16.ofNat (decVal ds) } r u) := by
  have hw : ({ w with port := 0 } : URI) = w := by rw [← h0]
  constructor
  · rintro ⟨pt, port, r, h1, h2, h3⟩
    cases h2 with
    | none => simp at h1; rw [hw] at h3; rw [h1]; exact .inl h3
    | @some ds a1 a2 =>
      simp at h1; obtain ⟨rfl, rfl⟩ := h1
      exact .inr ⟨rfl, ds, r, rfl, a1, a2, h3⟩
  · rintro (h | ⟨rfl, ds, r, rfl, a1, a2, h3⟩)
    · exact ⟨[], 0, c :: d, rfl, .none, by rw [hw]; exact h⟩
    · exact ⟨58 :: ds, _, r, by simp, .some a1 a2, h3⟩

theorem run46_stop (x : ACtx) (d : Bytes) (u : URI) (h : StopC isDig d) :
    asucc 46 x d = some u ↔ RP x.uri d u := by
  cases d with
  | nil =>
    rw [asucc_nil, RP_nil]
    simp only [Nat.reduceLT, ↓reduceIte, Option.some.injEq]
    exact eq_comm
  | cons c d =>
    have hx := n46 c
    rw [if_neg (h c d rfl)] at hx
    rw [RP_cons]
    by_cases h1 : c = 59
    · subst h1; rw [if_pos rfl] at hx
      rw [asucc_some hx, run_param _ d (Nat.le_refl _)]
      simp [aexecs]
    · by_cases h3 : c = 63
      · subst h3; rw [if_neg (by decide), if_pos rfl] at hx
        rw [asucc_some hx, run_header _ d (Nat.le_refl _)]
        simp [aexecs]
      · rw [if_neg h1, if_neg h3] at hx
        rw [asucc_none hx]
        simp [h1, h3]

theorem RP_stopC {P : UInt8 → Prop} (h1 : ¬ P 59) (h2 : ¬ P 63) {w : URI} {d : Bytes} {u : URI}
    (h : RP w d u) : StopC P d := by
  intro c r' hd; subst hd
  rw [RP_cons] at h
  rcases h with ⟨rfl, _⟩ | ⟨rfl, _⟩ <;> assumption

theorem run46 (x : ACtx) (d : Bytes) (u : URI) (v : Nat) (hv : x.uri.port = UInt16.ofNat v) :
    asucc 46 x d = some u ↔ ∃ ds r, d = ds ++ r ∧ (∀ c ∈ ds, isDig c) ∧
      RP { x.uri with port := UInt16.ofNat (ds.foldl (fun a c => a * 10 + (c.toNat - 48)) v) } r u := by
  rw [class_run (P := isDig) (a := .port) (fun c h => by rw [n46, if_pos h])]
  constructor
  · rintro ⟨t, r, g1, g2, g3, g4⟩
    rw [run46_stop _ _ _ g3, foldl_port _ _ g2 v hv] at g4
    exact ⟨t, r, g1, g2, g4⟩
  · rintro ⟨t, r, g1, g2, g4⟩
    refine ⟨t, r, g1, g2, RP_stopC (by decide) (by decide) g4, ?_⟩
    rw [run46_stop _ _ _ (RP_stopC (by decide) (by decide) g4), foldl_port _ _ g2 v hv]
    exact g4

theorem run12 (x : ACtx) (d : Bytes) (u : URI) (h0 : x.uri.port = 0) :
    asucc 12 x d = some u ↔ ∃ ds r, d = ds ++ r ∧ ds ≠ [] ∧
      (∀ c ∈ ds, isDig c) ∧ RP { x.uri with port := UInt16.ofNat (decVal ds) } r u := by
  cases d with
  | nil =>
    rw [asucc_nil]
    simp only [Nat.reduceLT, ↓reduceIte, reduceCtorEq, false_iff]
    rintro ⟨ds, r, h1, h2, _⟩
    simp at h1; exact h2 h1.1
  | cons c d =>
    by_cases hp : isDig c
    · rw [asucc_some (by rw [n12, if_pos hp]), run46 _ d u (c.toNat - 48) (by
        simp [aexecs, aexec, h0, digit_val c hp])]
      constructor
      · rintro ⟨ds, r, g1, g2, g3⟩
        refine ⟨c :: ds, r, by simp [g1], by simp, by simpa [hp] using g2, ?_⟩
        simpa [aexecs, aexec, decVal] using g3
      · rintro ⟨ds, r, g1, g2, g3, g4⟩
        cases ds with
        | nil => simp at g2
        | cons b ds =>
          simp at g1; obtain ⟨rfl, rfl⟩ := g1
          exact ⟨ds, r, rfl, fun b hb => g3 b (by simp [hb]), by simpa [aexecs, aexec, decVal] using g4⟩
    · rw [asucc_none (by rw [n12, if_neg hp])]
      simp only [reduceCtorEq, false_iff]
      rintro ⟨ds, r, g1, g2, g3, g4⟩
      cases ds with
      | nil => simp at g2
      | cons b ds => simp at g1; rw [g1.1] at hp; exact hp (g3 b (by simp))

theorem run51 (x : ACtx) (d : Bytes) (u : URI) (h0 : x.uri.port = 0) :
    asucc 51 x d = some u ↔ PR x.uri d u := by
  cases d with
  | nil =>
    rw [asucc_nil, PR_nil _ _ h0]
    simp only [Nat.reduceLT, ↓reduceIte, Option.some.injEq]
    exact eq_comm
  | cons c d =>
    rw [PR_cons _ _ _ _ h0, RP_cons]
    have hx := n51 c
    by_cases h1 : c = 58
    · subst h1; rw [if_pos rfl] at hx
      rw [asucc_some hx, run12 _ _ _ (by simpa [aexecs] using h0)]
      simp [aexecs]
    · by_cases h2 : c = 59
      · subst h2; rw [if_neg (by decide), if_pos rfl] at hx
        rw [asucc_some hx, run_param _ d (Nat.le_refl _)]
        simp [aexecs]
      · by_cases h3 : c = 63
        · subst h3; rw [if_neg (by decide), if_neg (by decide), if_pos rfl] at hx
          rw [asucc_some hx, run_header _ d (Nat.le_refl _)]
          simp [aexecs]
        · rw [if_neg h1, if_neg h2, if_neg h3] at hx
          rw [asucc_none hx]
          simp [h1, h2, h3]

theorem run45_stop (x : ACtx) (d : Bytes) (u : URI) (h0 : x.uri.port = 0) (h : StopC hostc d) :
    asucc 45 x d = some u ↔ PR { x.uri with host := x.acc } d u := by
  cases d with
  | nil =>
    rw [asucc_nil, PR_nil _ _ (by simpa using h0)]
    simp only [Nat.reduceLT, ↓reduceIte, Option.some.injEq]
    exact eq_comm
  | cons c d =>
    rw [PR_cons _ _ _ _ (by simpa using h0), RP_cons]
    have hx := n45 c
    rw [if_neg (h c d rfl)] at hx
    by_cases h1 : c = 58
    · subst h1; rw [if_pos rfl] at hx
      rw [asucc_some hx, run12 _ _ _ (by simpa [aexecs, aexec] using h0)]
      simp [aexecs, aexec]
    · by_cases h2 : c = 59
      · subst h2; rw [if_neg (by decide), if_pos rfl] at hx
        rw [asucc_some hx, run_param _ d (Nat.le_refl _)]
        simp [aexecs, aexec]
      · by_cases h3 : c = 63
        · subst h3; rw [if_neg (by decide), if_neg (by decide), if_pos rfl] at hx
          rw [asucc_some hx, run_header _ d (Nat.le_refl _)]
          simp [aexecs, aexec]
        · rw [if_neg h1, if_neg h2, if_neg h3] at hx
          rw [asucc_none hx]
          simp [h1, h2, h3]

theorem PR_stopC {P : UInt8 → Prop} (h0 : ¬ P 58) (h1 : ¬ P 59) (h2 : ¬ P 63) {w : URI} {d : Bytes}
    {u : URI} (h : PR w d u) : StopC P d := by
  obtain ⟨pt, port, r, rfl, a, b⟩ := h
  cases a with
  | none => exact RP_stopC h1 h2 b
  | some _ _ => intro c r' hd; simp at hd; rw [← hd.1]; exact h0

/-- Host, port and the rest, read after a prefix giving `w`. -/
def HR (w : URI) (d : Bytes) (u : URI) : Prop :=
  ∃ h host r, d = h ++ r ∧ HostText h host ∧ PR { w with host := host } r u

theorem run11 (x : ACtx) (d : Bytes) (u : URI) (h0 : x.uri.port = 0) :
    asucc 11 x d = some u ↔ HR x.uri d u := by
  cases d with
  | nil =>
    rw [asucc_nil]
    simp only [Nat.reduceLT, ↓reduceIte, reduceCtorEq, false_iff]
    rintro ⟨h, host, r, h1, h2, _⟩
    simp at h1
    cases h2 with
    | name a _ => exact a h1.1
    | ip6 _ _ => simp at h1
  | cons c d =>
    by_cases hp : hostc c
    · rw [asucc_some (by rw [n11, if_pos hp]),
        class_run (P := hostc) (a := .lower) (fun c h => by rw [n45, if_pos h])]
      constructor
      · rintro ⟨t, r, g1, g2, g3, g4⟩
        rw [foldl_lower, run45_stop _ _ _ (by simpa [aexecs, aexec] using h0) g3] at g4
        refine ⟨c :: t, (c :: t).map lower, r, by simp [g1], .name (by simp) (by simpa [hp] using g2), ?_⟩
        simpa [aexecs, aexec, lowerByte_eq] using g4
      · rintro ⟨h, host, r, h1, h2, h3⟩
        cases h2 with
        | name a b =>
          cases h with
          | nil => simp at a
          | cons c' t =>
            simp at h1; obtain ⟨rfl, rfl⟩ := h1
            have hs := PR_stopC (P := hostc) (by decide) (by decide) (by decide) h3
            refine ⟨t, r, rfl, fun c hc => b c (by simp [hc]), hs, ?_⟩
            rw [foldl_lower, run45_stop _ _ _ (by simpa [aexecs, aexec] using h0) hs]
            simpa [aexecs, aexec, lowerByte_eq] using h3
        | ip6 _ _ => simp at h1; rw [h1.1] at hp; exact absurd hp (by decide)
    · by_cases hb : c = 91
      · subst hb
        rw [asucc_some (by rw [n11, if_neg hp, if_pos rfl])]
        cases d with
        | nil =>
          rw [asucc_nil]
          simp only [Nat.reduceLT, ↓reduceIte, reduceCtorEq, false_iff]
          rintro ⟨h, host, r, h1, h2, _⟩
          cases h2 with
          | name a b =>
            cases h with
            | nil => simp at a
            | cons c' t => simp at h1; rw [h1.1] at hp; exact hp (b _ (by simp))
          | ip6 _ _ => simp at h1
        | cons c d =>
          by_cases h6 : ip6c c
          · rw [asucc_some (by rw [n25, if_pos h6]),
              class_run (P := ip6c) (a := .lower) (fun c h => by rw [n26, if_pos h])]
            constructor
            · rintro ⟨t, r, g1, g2, g3, g4⟩
              rw [foldl_lower] at g4
              cases r with
              | nil => simp [asucc_nil] at g4
              | cons b r =>
                by_cases hb : b = 93
                · subst hb
                  rw [asucc_some (by rw [n26, if_neg (g3 93 r rfl), if_pos rfl]),
                    run51 _ _ _ (by simpa [aexecs, aexec] using h0)] at g4
                  refine ⟨91 :: (c :: t ++ [93]), (c :: t).map lower, r, by simp [g1],
                    HostText.ip6 (by simp) (by simpa [h6] using g2), ?_⟩
                  simpa [aexecs, aexec, lowerByte_eq] using g4
                · rw [asucc_none (by rw [n26, if_neg (g3 b r rfl), if_neg hb])] at g4
                  simp at g4
            · rintro ⟨h, host, r, h1, h2, h3⟩
              cases h2 with
              | name a b =>
                cases h with
                | nil => simp at a
                | cons c' t => simp at h1; rw [h1.1] at hp; exact absurd (b _ (by simp)) hp
              | @ip6 t a b =>
                cases t with
                | nil => simp at a
                | cons c' t =>
                  simp at h1; obtain ⟨rfl, rfl⟩ := h1
                  refine ⟨t, 93 :: r, by simp, fun c hc => b c (by simp [hc]), ?_, ?_⟩
                  · intro c r' hd; simp at hd; rw [← hd.1]; decide
                  · rw [foldl_lower, asucc_some (by rw [n26, if_neg (by decide), if_pos rfl]),
                      run51 _ _ _ (by simpa [aexecs, aexec] using h0)]
                    simpa [aexecs, aexec, lowerByte_eq] using h3
          · rw [asucc_none (by rw [n25, if_neg h6])]
            simp only [reduceCtorEq, false_iff]
            rintro ⟨h, host, r, h1, h2, h3⟩
            cases h2 with
            | name a b =>
              cases h with
              | nil => simp at a
              | cons c' t => simp at h1; rw [h1.1] at hp; exact absurd (b _ (by simp)) hp
            | @ip6 t a b =>
              cases t with
              | nil => simp at a
              | cons c' t => simp at h1; rw [h1.1] at h6; exact absurd (b _ (by simp)) h6
      · rw [asucc_none (by rw [n11, if_neg hp, if_neg hb])]
        simp only [reduceCtorEq, false_iff]
        rintro ⟨h, host, r, h1, h2, h3⟩
        cases h2 with
        | name a b =>
          cases h with
          | nil => simp at a
          | cons c' t => simp at h1; rw [h1.1] at hp; exact absurd (b _ (by simp)) hp
        | ip6 _ _ => simp at h1; exact hb h1.1

/-! ### User and password -/

theorem run3 (x : ACtx) (d : Bytes) (u : URI) (h0 : x.uri.port = 0) (hpw : x.uri.pass = []) :
    asucc 3 x d = some u ↔ ∃ ut usr pw r, ut ≠ [] ∧ d = ut ++ r ∧ UserText ut usr pw ∧
      HR { x.uri with user := usr, pass := pw } r u := by
  let Q8 : ACtx → Bytes → URI → Prop := fun x d u => ∃ r, d = 64 :: r ∧
    HR { x.uri with pass := x.acc } r u
  let Q7 : URI → Bytes → URI → Prop := fun w d u => ∃ t s r, d = t ++ 64 :: r ∧
    Unescapes pass t s ∧ s ≠ [] ∧ HR { w with pass := s } r u
  have h7 : ∀ x : ACtx, x.uri.port = 0 → ∀ d u, asucc 7 x d = some u ↔ Q7 x.uri d u := by
    intro x h0 d u
    rw [entry7.run loop8 Q8 (fun _ _ _ _ => Iff.rfl) d.length d (Nat.le_refl _) x u]
    · constructor
      · rintro ⟨t, s, _, rfl, g2, g3, g4, r, rfl, g5⟩
        exact ⟨t, s, r, rfl, g2, g3, g5⟩
      · rintro ⟨t, s, r, rfl, g2, g3, g5⟩
        exact ⟨t, s, _, rfl, g2, g3, stop_cons.2 ⟨by decide, by decide⟩, r, rfl, g5⟩
    · intro y d u hy _ hs
      cases d with
      | nil => simp [asucc_nil, Q8]
      | cons c d =>
        obtain ⟨s1, s2⟩ := stop_cons.1 hs
        have hx := n8 c s1 s2
        by_cases h1 : c = 64
        · subst h1; rw [if_pos rfl] at hx
          rw [asucc_some hx, run11 _ _ _ (by simp [aexecs, aexec, hy, h0])]
          simp [Q8, aexecs, aexec]
        · rw [if_neg h1] at hx
          rw [asucc_none hx]
          simp [Q8, h1]
  let Q4 : ACtx → Bytes → URI → Prop := fun x d u =>
    (∃ r, d = 64 :: r ∧ HR { x.uri with user := x.acc } r u) ∨
    (∃ r, d = 58 :: r ∧ Q7 { x.uri with user := x.acc } r u)
  rw [entry3.run loop4 Q4 (fun _ _ _ _ => Iff.rfl) d.length d (Nat.le_refl _) x u]
  · constructor
    · rintro ⟨t, s, _, rfl, g2, g3, g4, ⟨r, rfl, g5⟩ | ⟨_, rfl, t', s', r, rfl, g5, g6, g7⟩⟩
      · refine ⟨t ++ b!"@", s, [], r, by simp, by simp, .user g2 g3, ?_⟩
        simpa [aexecs, aexec, ← hpw] using g5
      · refine ⟨t ++ b!":" ++ t' ++ b!"@", s, s', r, by simp, by simp, .userPass g2 g3 g5 g6, ?_⟩
        simpa [aexecs, aexec] using g7
    · rintro ⟨ut, usr, pw, r, g0, rfl, g2, g3⟩
      cases g2 with
      | none => exact absurd rfl g0
      | @user t _ a1 a2 =>
        refine ⟨t, usr, 64 :: r, by simp, a1, a2, stop_cons.2 ⟨by decide, by decide⟩,
          .inl ⟨r, rfl, ?_⟩⟩
        simpa [aexecs, aexec, ← hpw] using g3
      | @userPass t _ w _ a1 a2 a3 a4 =>
        refine ⟨t, usr, 58 :: (w ++ 64 :: r), by simp, a1, a2, stop_cons.2 ⟨by decide, by decide⟩,
          .inr ⟨_, rfl, w, pw, r, rfl, a3, a4, ?_⟩⟩
        simpa [aexecs, aexec] using g3
  · intro y d u hy _ hs
    cases d with
    | nil => simp [asucc_nil, Q4]
    | cons c d =>
      obtain ⟨s1, s2⟩ := stop_cons.1 hs
      have hx := n4 c s1 s2
      by_cases h1 : c = 58
      · subst h1; rw [if_pos rfl] at hx
        rw [asucc_some hx, h7 _ (by simp [aexecs, aexec, hy, h0])]
        simp [Q4, aexecs, aexec]
      · by_cases h2 : c = 64
        · subst h2; rw [if_neg (by decide), if_pos rfl] at hx
          rw [asucc_some hx, run11 _ _ _ (by simp [aexecs, aexec, hy, h0])]
          simp [Q4, aexecs, aexec]
        · rw [if_neg h1, if_neg h2] at hx
          rw [asucc_none hx]
          simp [Q4, h1, h2]

/-! ### The copy of the tail used when there is no user -/

/-- The tail states and their copies. -/
def copyOf (k : Nat) : Nat := bif Nat.blt k 45 then k + 18 else k + 7

def tailStates : List Nat := [11, 12, 13, 14, 15, 16, 17, 18, 19, 20, 21, 22, 23, 24, 25, 26, 45, 46, 47,
  48, 49, 50, 51]

def copyRow (r : Row) : Row := { r with tgt := copyOf r.tgt }

theorem copy_rows : ∀ k ∈ tailStates, rows (copyOf k) = (rows k).map copyRow := by decide +kernel
theorem copy_closed : ∀ k ∈ tailStates, ∀ r ∈ rows k, r.tgt ∈ tailStates := by decide +kernel
theorem copy_eof : ∀ k ∈ tailStates, eofActs (copyOf k) = eofActs k ∧ (copyOf k < 45 ↔ k < 45) := by
  decide +kernel

theorem lookup_map (l : List Row) (f : Row → Row) (hlo : ∀ r, (f r).lo = r.lo)
    (hhi : ∀ r, (f r).hi = r.hi) (c : Nat) : lookup (l.map f) c = (lookup l c).map f := by
  induction l with
  | nil => rfl
  | cons r l ih =>
    simp only [List.map_cons, lookup, hlo, hhi, ih]
    cases Nat.ble r.lo c && Nat.ble c r.hi <;> rfl

theorem copy_run (k : Nat) (hk : k ∈ tailStates) (x : ACtx) (d : Bytes) :
    asucc (copyOf k) x d = asucc k x d := by
  induction d generalizing k x with
  | nil =>
    obtain ⟨h1, h2⟩ := copy_eof k hk
    rw [asucc_nil, asucc_nil, h1]
    simp only [h2]
  | cons c d ih =>
    rw [asucc, asucc, copy_rows k hk, lookup_map _ copyRow (fun _ => rfl) (fun _ => rfl)]
    cases hl : lookup (rows k) c.toNat with
    | none => rfl
    | some r => exact ih r.tgt (copy_closed k hk r (lookup_mem hl).1) _

theorem run29 (x : ACtx) (d : Bytes) (u : URI) (h0 : x.uri.port = 0) :
    asucc 29 x d = some u ↔ HR x.uri d u := by
  have h : asucc 29 x d = asucc 11 x d := copy_run 11 (by decide) x d
  rw [h, run11 x d u h0]

/-! ### Scheme and the whole URI -/

theorem run_scheme (e k t : Nat) (he : e < 45) (hk : k < 45)
    (h1 : ∀ c, next e c = if isAlpha c then some ([.start, .lower], k) else none)
    (h2 : ∀ c, next k c = if schemec c then some ([.lower], k) else
      if c = 58 then some ([.scheme], t) else none) (x : ACtx) (d : Bytes) (u : URI) :
    asucc e x d = some u ↔ ∃ s sch r, d = s ++ 58 :: r ∧ SchemeText s sch ∧
      asucc t { x with uri.scheme := sch, acc := sch } r = some u := by
  cases d with
  | nil =>
    rw [asucc_nil, if_pos he]; simp
  | cons c d =>
    by_cases ha : isAlpha c
    · rw [asucc_some (by rw [h1, if_pos ha]),
        class_run (P := schemec) (a := .lower) (fun c h => by rw [h2, if_pos h])]
      constructor
      · rintro ⟨s, r, g1, g2, g3, g4⟩
        rw [foldl_lower] at g4
        cases r with
        | nil => rw [asucc_nil, if_pos hk] at g4; simp at g4
        | cons b r =>
          by_cases hb : b = 58
          · subst hb
            rw [asucc_some (by rw [h2, if_neg (g3 58 r rfl), if_pos rfl])] at g4
            refine ⟨c :: s, (c :: s).map lower, r, by simp [g1], .mk ha g2, ?_⟩
            simpa [aexecs, aexec, lowerByte_eq] using g4
          · rw [asucc_none (by rw [h2, if_neg (g3 b r rfl), if_neg hb])] at g4
            simp at g4
      · rintro ⟨s, sch, r, g1, g2, g3⟩
        cases g2 with
        | @mk c' s a b =>
          simp at g1; obtain ⟨rfl, rfl⟩ := g1
          refine ⟨s, 58 :: r, rfl, b, ?_, ?_⟩
          · intro c r' hd; simp at hd; rw [← hd.1]; decide
          · rw [foldl_lower, asucc_some (by rw [h2, if_neg (by decide), if_pos rfl])]
            simpa [aexecs, aexec, lowerByte_eq] using g3
    · rw [asucc_none (by rw [h1, if_neg ha])]
      simp only [reduceCtorEq, false_iff]
      rintro ⟨s, sch, r, g1, g2, g3⟩
      cases g2 with
      | mk a b => simp at g1; rw [g1.1] at ha; exact ha a

theorem run1 (d : Bytes) (u : URI) : asucc 1 initA d = some u ↔
    ∃ s sch ut usr pw r, d = s ++ 58 :: (ut ++ r) ∧ ut ≠ [] ∧ SchemeText s sch ∧ UserText ut usr pw ∧
      HR { scheme := sch, user := usr, pass := pw } r u := by
  rw [run_scheme 1 2 3 (by decide) (by decide) n1 n2]
  constructor
  · rintro ⟨s, sch, r, rfl, g2, g3⟩
    rw [run3 _ _ _ rfl rfl] at g3
    obtain ⟨ut, usr, pw, r', a1, rfl, a3, a4⟩ := g3
    exact ⟨s, sch, ut, usr, pw, r', rfl, a1, g2, a3, a4⟩
  · rintro ⟨s, sch, ut, usr, pw, r, rfl, a1, a2, a3, a4⟩
    refine ⟨s, sch, ut ++ r, rfl, a2, ?_⟩
    rw [run3 _ _ _ rfl rfl]
    exact ⟨ut, usr, pw, r, a1, rfl, a3, a4⟩

theorem run27 (d : Bytes) (u : URI) : asucc 27 initA d = some u ↔
    ∃ s sch r, d = s ++ 58 :: r ∧ SchemeText s sch ∧ HR { scheme := sch } r u := by
  rw [run_scheme 27 28 29 (by decide) (by decide) n27 n28]
  constructor
  · rintro ⟨s, sch, r, rfl, g2, g3⟩
    rw [run29 _ _ _ rfl] at g3
    exact ⟨s, sch, r, rfl, g2, g3⟩
  · rintro ⟨s, sch, r, rfl, g2, g3⟩
    refine ⟨s, sch, r, rfl, g2, ?_⟩
    rw [run29 _ _ _ rfl]; exact g3

theorem HR_iff (w : URI) (hp : w.param = []) (hh : w.header = []) (d : Bytes) (u : URI) :
    HR w d u ↔ ∃ h host pt port ps params hs hdrs, d = h ++ pt ++ ps ++ hs ∧ HostText h host ∧
      PortText pt port ∧ ParamsText ps params ∧ HeadersText hs hdrs ∧
      u = { w with host := host, port := port, param := params.reverse, header := hdrs.reverse } := by
  constructor
  · rintro ⟨h, host, r, rfl, a1, pt, port, r', rfl, a2, ps, params, hs, hdrs, rfl, a3, a4, rfl⟩
    exact ⟨h, host, pt, port, ps, params, hs, hdrs, by simp, a1, a2, a3, a4, by simp [hp, hh]⟩
  · rintro ⟨h, host, pt, port, ps, params, hs, hdrs, rfl, a1, a2, a3, a4, rfl⟩
    exact ⟨h, host, pt ++ (ps ++ hs), by simp, a1, pt, port, ps ++ hs, rfl, a2, ps, params, hs, hdrs,
      rfl, a3, a4, by simp [hp, hh]⟩

/-! No `@` outside the user part. -/

theorem unescapes_at {P : UInt8 → Prop} (hP : ¬ P 64) {t s : Bytes} (h : Unescapes P t s) :
    64 ∉ t := by
  induction h with
  | nil => simp
  | @lit c t s hp _ ih => simp; exact ⟨fun h => hP (h ▸ hp), ih⟩
  | @esc h l x y t s h1 h2 _ ih =>
    have h0 : hexVal 64 = none := by decide
    simp only [List.mem_cons, not_or]
    refine ⟨by decide, ?_, ?_, ih⟩
    · rintro rfl; rw [h0] at h1; simp at h1
    · rintro rfl; rw [h0] at h2; simp at h2

theorem scheme_at {t s : Bytes} (h : SchemeText t s) : 64 ∉ t := by
  cases h with
  | mk a b =>
    simp only [List.mem_cons, not_or]
    refine ⟨?_, fun h => absurd (b _ h) (by decide)⟩
    rintro rfl; exact absurd a (by decide)

theorem host_at {t s : Bytes} (h : HostText t s) : 64 ∉ t := by
  cases h with
  | name a b => intro h; exact absurd (b _ h) (by decide)
  | ip6 a b =>
    simp only [List.mem_append, not_or]
    refine ⟨⟨by decide, fun h => absurd (b _ h) (by decide)⟩, by decide⟩

theorem port_at {t : Bytes} {p : UInt16} (h : PortText t p) : 64 ∉ t := by
  cases h with
  | none => simp
  | some a b =>
    simp only [List.mem_append, not_or]
    exact ⟨by decide, fun h => absurd (b _ h) (by decide)⟩

theorem pair_at {P : UInt8 → Prop} (hP : ¬ P 64) {t : Bytes} {p : Bytes × Bytes}
    (h : PairText P t p) : 64 ∉ t := by
  cases h with
  | name a b => exact unescapes_at hP a
  | value a b c d =>
    simp only [List.mem_append, not_or]
    exact ⟨⟨unescapes_at hP a, by decide⟩, unescapes_at hP c⟩

theorem params_at {t : Bytes} {l : List (Bytes × Bytes)} (h : ParamsText t l) : 64 ∉ t := by
  induction h with
  | nil => simp
  | cons a _ ih =>
    simp only [List.mem_append, not_or]
    exact ⟨⟨by decide, pair_at (by decide) a⟩, ih⟩

theorem headerList_at {t : Bytes} {l : List (Bytes × Bytes)} (h : HeaderListText t l) : 64 ∉ t := by
  induction h with
  | one a => exact pair_at (by decide) a
  | cons a _ ih =>
    simp only [List.mem_append, not_or]
    exact ⟨⟨pair_at (by decide) a, by decide⟩, ih⟩

theorem headers_at {t : Bytes} {l : List (Bytes × Bytes)} (h : HeadersText t l) : 64 ∉ t := by
  cases h with
  | none => simp
  | some a =>
    simp only [List.mem_append, not_or]
    exact ⟨by decide, headerList_at a⟩

theorem user_nil {usr pw : Bytes} (h : UserText [] usr pw) : usr = [] ∧ pw = [] := by
  generalize ht : ([] : Bytes) = t at h
  cases h with
  | none => exact ⟨rfl, rfl⟩
  | user _ _ => simp at ht
  | userPass _ _ _ _ => simp at ht

theorem parseURI_grammar (d : Bytes) (u : URI) : parseURI d = .ok u ↔ URIText d u := by
  rw [parseURI_abs, arun_ok]
  constructor
  · intro h
    unfold entry at h
    split at h
    · rw [run1] at h
      obtain ⟨s, sch, ut, usr, pw, r, rfl, _, a1, a2, a3⟩ := h
      rw [HR_iff _ rfl rfl] at a3
      obtain ⟨h, host, pt, port, ps, params, hs, hdrs, rfl, b1, b2, b3, b4, rfl⟩ := a3
      have := URIText.mk a1 a2 b1 b2 b3 b4
      simpa using this
    · rw [run27] at h
      obtain ⟨s, sch, r, rfl, a1, a3⟩ := h
      rw [HR_iff _ rfl rfl] at a3
      obtain ⟨h, host, pt, port, ps, params, hs, hdrs, rfl, b1, b2, b3, b4, rfl⟩ := a3
      have := URIText.mk a1 .none b1 b2 b3 b4
      simpa using this
  · rintro ⟨a1, a2, b1, b2, b3, b4⟩
    rename_i s sch ut usr pw h host pt port ps params hs hdrs
    by_cases hu : ut = []
    · subst hu
      have hn : ¬ (s ++ b!":" ++ [] ++ h ++ pt ++ ps ++ hs).contains 64 = true := by
        simp [scheme_at a1, host_at b1, port_at b2, params_at b3, headers_at b4]
      unfold entry
      rw [if_neg hn, run27]
      obtain ⟨rfl, rfl⟩ := user_nil a2
      refine ⟨s, sch, h ++ pt ++ ps ++ hs, by simp, a1, ?_⟩
      rw [HR_iff _ rfl rfl]
      exact ⟨h, host, pt, port, ps, params, hs, hdrs, rfl, b1, b2, b3, b4, rfl⟩
    · have hn : (s ++ b!":" ++ ut ++ h ++ pt ++ ps ++ hs).contains 64 = true := by
        cases a2 with
        | none => exact absurd rfl hu
        | user _ _ => simp
        | userPass _ _ _ _ => simp
      unfold entry
      rw [if_pos hn, run1]
      refine ⟨s, sch, ut, usr, pw, h ++ pt ++ ps ++ hs, by simp, hu, a1, a2, ?_⟩
      rw [HR_iff _ rfl rfl]
      exact ⟨h, host, pt, port, ps, params, hs, hdrs, rfl, b1, b2, b3, b4, rfl⟩

end Gosip.Sip.Uri
