import Verif.Sip.Stream
import Verif.Sip.LiveTable

/-!
# The message machine reads a message line by line

A logical line ends at a CRLF that is not followed by a blank. What the machine does with a header line
depends neither on the lines before it nor on those after it.
-/

namespace Gosip.Sip.MsgM

/-! ### Inversion of a step -/

theorem sstep_cases {s t : Conf} {a : List Upd} (h : sstep s = some (t, a)) :
    ∃ c tl r l', s.inp = c :: tl ∧ lookup (rows s.k) (ssymbol s.k s.inp c) = some r ∧
      sacts r.acts c s.l = some (l', a) ∧ t = proceed (moveOf r.acts) r.tgt l' s.inp tl c := by
  obtain ⟨k, l, inp⟩ := s
  cases inp with
  | nil => cases h
  | cons c tl =>
    simp only [sstep, rowOf] at h
    cases hl : lookup (rows k) (ssymbol k (c :: tl) c) with
    | none => rw [hl] at h; cases h
    | some r =>
      rw [hl] at h
      simp only [Option.map_some, Option.bind_some] at h
      cases hs : sacts r.acts c l with
      | none => rw [hs] at h; cases h
      | some y =>
        rw [hs] at h
        simp only [Option.map_some, Option.some.injEq, Prod.mk.injEq] at h
        exact ⟨c, tl, r, y.1, rfl, hl, by rw [hs, ← h.2], h.1.symm⟩

theorem sstep_intro {k : Nat} {l l' : Loc} {c : UInt8} {tl : Bytes} {r : Row} {a : List Upd}
    (h : lookup (rows k) (ssymbol k (c :: tl) c) = some r) (g : sacts r.acts c l = some (l', a)) :
    sstep ⟨k, l, c :: tl⟩ = some (proceed (moveOf r.acts) r.tgt l' (c :: tl) tl c, a) := by
  simp only [sstep, rowOf, h, Option.map_some, Option.bind_some, g]

/-- Targets are states, or the end. -/
theorem tgt_lt {k : Nat} (hk : k < 765) {r : Row} (h : r ∈ rows k) : r.tgt = 781 ∨ r.tgt < 765 := by
  have := check_all k hk r h
  unfold checkRow at this
  split at this
  · cases this
  · simp only [Bool.or_eq_true, Bool.and_eq_true, Nat.blt_eq] at this
    exact this.imp Nat.eq_of_beq_eq_true fun h => h.2

theorem proceed_k (m : Move) (k : Nat) (l : Loc) (i t : Bytes) (c : UInt8) : (proceed m k l i t c).k = k := by
  cases m <;> rfl

theorem sstep_k {s t : Conf} {a : List Upd} (hk : s.k < 765) (h : sstep s = some (t, a)) :
    t.k = 781 ∨ t.k < 765 := by
  obtain ⟨c, tl, r, l', h1, h2, h3, rfl⟩ := sstep_cases h
  rw [proceed_k]
  exact tgt_lt hk (lookup_mem h2).1

/-! ### Variables are set before they are used, line by line -/

/-- Two assignments agree on the variables that matter. -/
structure Agree (v : LV) (l m : Loc) : Prop where
  seg : v.seg = true → l.seg = m.seg
  buf : v.buf = true → l.buf = m.buf
  name : v.name = true → l.name = m.name
  hex : v.hex = true → l.hex = m.hex
  value : v.value = true → l.value = m.value
  via : v.via = true → l.via = m.via
  addrp : v.addrp = true → l.addrp = m.addrp
  addr : v.addr = true → l.addr = m.addr
  nv : v.nv = true → l.name = m.name ∨ (l.value = m.value ∧ l.value ≠ none)

/-- Guard. -/
def kreq (b : Bool) (v : LV) : Option LV := bif b then some v else none

theorem kreq_some {b : Bool} {v w : LV} (h : kreq b v = some w) : b = true ∧ w = v := by
  cases b <;> simp [kreq] at h; exact ⟨rfl, h.symm⟩

/-- Effect of an action on the variables that matter; `none` if it reads another one. -/
def kact (a : MAct) (v : LV) : Option LV :=
  match a with
  | .mark => some { v with seg := true }
  | .backtrack => kreq v.seg v
  | .start => some { v with buf := true }
  | .append => kreq v.buf v
  | .hexHi => some { v with hex := true }
  | .hexLo => kreq (v.buf && v.hex) v
  | .method | .requestURI | .callID | .contentType | .cseqMethod => kreq v.seg v
  | .reasonPhrase => kreq v.buf v
  | .viaNew => some { v with via := true }
  | .via | .viaPort => kreq v.via v
  | .viaProtocol | .viaVersion | .viaTransport | .viaHost => kreq (v.seg && v.via) v
  | .viaParam => kreq (v.name && v.buf && v.via) v
  | .name => kreq v.seg { v with name := true, nv := true }
  | .value => kreq (v.seg && v.value && v.nv) v
  | .addrNew => some { v with addr := true }
  | .addrQuotedDisplay => kreq (v.buf && v.addr) v
  | .addrUnquotedDisplay | .addrUri => kreq (v.seg && v.addr) v
  | .addrParam => kreq (v.name && v.buf && v.addr) v
  | .addr => kreq (v.addrp && v.addr) v
  | .valueNil => some { v with value := true, nv := v.name }
  | .setValue _ => some { v with value := true, nv := true }
  | .lastAddr _ => some { v with addrp := true }
  | .hold | .versionMajor | .versionMinor | .statusCode | .contentLength | .cseq
  | .expires | .maxForwards | .minExpires | .clen0 | .expires0 | .maxForwards0 | .minExpires0 => some v

/-- Effect of a list of actions. -/
def kacts : List MAct → LV → Option LV
  | [], v => some v
  | a :: l, v => (kact a v).bind (kacts l)

/-- Inclusion. -/
def LV.le (v w : LV) : Bool :=
  (!v.seg || w.seg) && (!v.buf || w.buf) && (!v.name || w.name) && (!v.hex || w.hex) &&
  (!v.value || w.value) && (!v.via || w.via) && (!v.addrp || w.addrp) && (!v.addr || w.addr) &&
  (!v.nv || w.nv)

theorem Agree.weaken {v w : LV} {l m : Loc} (h : Agree w l m) (hw : v.le w = true) : Agree v l m := by
  simp only [LV.le, Bool.and_eq_true, Bool.or_eq_true, Bool.not_eq_true'] at hw
  obtain ⟨⟨⟨⟨⟨⟨⟨⟨a1, a2⟩, a3⟩, a4⟩, a5⟩, a6⟩, a7⟩, a8⟩, a9⟩ := hw
  constructor
  case seg => intro e; exact h.seg (by simpa [e] using a1)
  case buf => intro e; exact h.buf (by simpa [e] using a2)
  case name => intro e; exact h.name (by simpa [e] using a3)
  case hex => intro e; exact h.hex (by simpa [e] using a4)
  case value => intro e; exact h.value (by simpa [e] using a5)
  case via => intro e; exact h.via (by simpa [e] using a6)
  case addrp => intro e; exact h.addrp (by simpa [e] using a7)
  case addr => intro e; exact h.addr (by simpa [e] using a8)
  case nv => intro e; exact h.nv (by simpa [e] using a9)

/-- The check of a row. -/
def kcheck (k : Nat) (r : Row) : Bool :=
  match kacts r.acts (live k) with
  | none => false
  | some v => Nat.beq r.tgt 781 || (live r.tgt).le v

theorem live_check : ∀ k, k < 765 → ∀ r ∈ rows k, kcheck k r = true := by decide +kernel

theorem sact_agree {a : MAct} {c : UInt8} {v v' : LV} {l m : Loc} (h : Agree v l m)
    (hk : kact a v = some v') :
    (sact a c l = none ∧ sact a c m = none) ∨
    ∃ l' m' us, sact a c l = some (l', us) ∧ sact a c m = some (m', us) ∧ Agree v' l' m' := by
  obtain ⟨h1, h2, h3, h4, h5, h6, h7, h8, h9⟩ := h
  cases a
  case value =>
    obtain ⟨g, rfl⟩ := kreq_some hk
    simp only [Bool.and_eq_true] at g
    have e1 := h1 g.1.1
    have e2 := h5 g.1.2
    refine .inr ?_
    simp only [sact, ← e2, ← e1]
    cases hv : l.value with
    | some f => exact ⟨l, m, _, rfl, rfl, h1, h2, h3, h4, h5, h6, h7, h8, h9⟩
    | none =>
      have e3 : l.name = m.name := by
        rcases h9 g.2 with e | ⟨_, e⟩
        · exact e
        · exact absurd hv e
      rw [← e3]
      exact ⟨l, m, _, rfl, rfl, h1, h2, h3, h4, h5, h6, h7, h8, h9⟩
  case valueNil =>
    cases hk
    exact .inr ⟨_, _, _, rfl, rfl, h1, h2, h3, h4, fun _ => rfl, h6, h7, h8, fun e => .inl (h3 e)⟩
  case setValue f =>
    cases hk
    exact .inr ⟨_, _, _, rfl, rfl, h1, h2, h3, h4, fun _ => rfl, h6, h7, h8,
      fun _ => .inr ⟨rfl, by simp⟩⟩
  case name =>
    obtain ⟨g, rfl⟩ := kreq_some hk
    have e1 := h1 g
    exact .inr ⟨_, _, _, rfl, rfl, h1, h2, (fun _ => by first | rfl | exact e1), h4, h5, h6, h7, h8, fun _ => .inl e1⟩
  case via =>
    obtain ⟨g, rfl⟩ := kreq_some hk
    have e1 := h6 g
    simp only [sact, ← e1]
    cases hv : l.via with
    | none => exact .inl ⟨rfl, rfl⟩
    | some w => exact .inr ⟨_, _, _, rfl, rfl, h1, h2, h3, h4, h5, fun _ => rfl, h7, h8, h9⟩
  case viaPort =>
    obtain ⟨g, rfl⟩ := kreq_some hk
    have e1 := h6 g
    simp only [sact, ← e1]
    cases hv : l.via with
    | none => exact .inl ⟨rfl, rfl⟩
    | some w => exact .inr ⟨_, _, _, rfl, rfl, h1, h2, h3, h4, h5, fun _ => rfl, h7, h8, h9⟩
  case viaProtocol | viaVersion | viaTransport | viaHost =>
    obtain ⟨g, rfl⟩ := kreq_some hk
    simp only [Bool.and_eq_true] at g
    have e1 := h6 g.2
    have e2 := h1 g.1
    simp only [sact, ← e1, ← e2]
    cases hv : l.via with
    | none => exact .inl ⟨rfl, rfl⟩
    | some w => exact .inr ⟨_, _, _, rfl, rfl, (fun _ => by first | rfl | exact e2), h2, h3, h4, h5, fun _ => rfl, h7, h8, h9⟩
  case viaParam =>
    obtain ⟨g, rfl⟩ := kreq_some hk
    simp only [Bool.and_eq_true] at g
    have e1 := h6 g.2
    have e2 := h3 g.1.1
    have e3 := h2 g.1.2
    simp only [sact, ← e1, ← e2, ← e3]
    cases hv : l.via with
    | none => exact .inl ⟨rfl, rfl⟩
    | some w => exact .inr ⟨_, _, _, rfl, rfl, h1, (fun _ => by first | rfl | exact e3), (fun _ => by first | rfl | exact e2), h4, h5, fun _ => rfl, h7, h8, fun _ => .inl rfl⟩
  case addrQuotedDisplay =>
    obtain ⟨g, rfl⟩ := kreq_some hk
    simp only [Bool.and_eq_true] at g
    have e1 := h8 g.2
    have e2 := h2 g.1
    simp only [sact, ← e1, ← e2]
    cases hv : l.addr with
    | none => exact .inl ⟨rfl, rfl⟩
    | some w => exact .inr ⟨_, _, _, rfl, rfl, h1, (fun _ => by first | rfl | exact e2), h3, h4, h5, h6, h7, fun _ => rfl, h9⟩
  case addrUnquotedDisplay =>
    obtain ⟨g, rfl⟩ := kreq_some hk
    simp only [Bool.and_eq_true] at g
    have e1 := h8 g.2
    have e2 := h1 g.1
    simp only [sact, ← e1, ← e2]
    cases hv : l.addr with
    | none => exact .inl ⟨rfl, rfl⟩
    | some w => exact .inr ⟨_, _, _, rfl, rfl, (fun _ => by first | rfl | exact e2), h2, h3, h4, h5, h6, h7, fun _ => rfl, h9⟩
  case addrUri =>
    obtain ⟨g, rfl⟩ := kreq_some hk
    simp only [Bool.and_eq_true] at g
    have e1 := h8 g.2
    have e2 := h1 g.1
    simp only [sact, ← e1, ← e2]
    cases hu : uriOf l.seg with
    | none => exact .inl ⟨rfl, rfl⟩
    | some u =>
      cases hv : l.addr with
      | none => exact .inl ⟨rfl, rfl⟩
      | some w => exact .inr ⟨_, _, _, rfl, rfl, (fun _ => by first | rfl | exact e2), h2, h3, h4, h5, h6, h7, fun _ => rfl, h9⟩
  case addrParam =>
    obtain ⟨g, rfl⟩ := kreq_some hk
    simp only [Bool.and_eq_true] at g
    have e1 := h8 g.2
    have e2 := h3 g.1.1
    have e3 := h2 g.1.2
    simp only [sact, ← e1, ← e2, ← e3]
    cases hv : l.addr with
    | none => exact .inl ⟨rfl, rfl⟩
    | some w => exact .inr ⟨_, _, _, rfl, rfl, h1, (fun _ => by first | rfl | exact e3), (fun _ => by first | rfl | exact e2), h4, h5, h6, h7, fun _ => rfl, fun _ => .inl rfl⟩
  case addr =>
    obtain ⟨g, rfl⟩ := kreq_some hk
    simp only [Bool.and_eq_true] at g
    have e1 := h8 g.2
    have e2 := h7 g.1
    simp only [sact, ← e1, ← e2]
    cases hu : l.addrp with
    | none => exact .inl ⟨rfl, rfl⟩
    | some u =>
      cases hv : l.addr with
      | none => exact .inl ⟨rfl, rfl⟩
      | some w => exact .inr ⟨_, _, _, rfl, rfl, h1, h2, h3, h4, h5, h6, fun _ => rfl, fun _ => rfl, h9⟩
  case requestURI =>
    obtain ⟨g, rfl⟩ := kreq_some hk
    have e2 := h1 g
    simp only [sact, ← e2]
    cases hu : uriOf l.seg with
    | none => exact .inl ⟨rfl, rfl⟩
    | some u => exact .inr ⟨_, _, _, rfl, rfl, (fun _ => by first | rfl | exact e2), h2, h3, h4, h5, h6, h7, h8, h9⟩
  case method | callID | contentType | cseqMethod =>
    obtain ⟨g, rfl⟩ := kreq_some hk
    have e2 := h1 g
    simp only [sact, ← e2]
    exact .inr ⟨_, _, _, rfl, rfl, (fun _ => by first | rfl | exact e2), h2, h3, h4, h5, h6, h7, h8, h9⟩
  case reasonPhrase =>
    obtain ⟨g, rfl⟩ := kreq_some hk
    have e2 := h2 g
    simp only [sact, ← e2]
    exact .inr ⟨_, _, _, rfl, rfl, h1, (fun _ => by first | rfl | exact e2), h3, h4, h5, h6, h7, h8, h9⟩
  case append =>
    obtain ⟨g, rfl⟩ := kreq_some hk
    have e2 := h2 g
    exact .inr ⟨_, _, _, rfl, rfl, h1, fun _ => by simp only [e2], h3, h4, h5, h6, h7, h8, h9⟩
  case hexLo =>
    obtain ⟨g, rfl⟩ := kreq_some hk
    simp only [Bool.and_eq_true] at g
    have e2 := h2 g.1
    have e3 := h4 g.2
    exact .inr ⟨_, _, _, rfl, rfl, h1, fun _ => by simp only [e2, e3], h3, fun _ => by simp only [e3], h5, h6,
      h7, h8, h9⟩
  case backtrack =>
    obtain ⟨g, rfl⟩ := kreq_some hk
    exact .inr ⟨_, _, _, rfl, rfl, h1, h2, h3, h4, h5, h6, h7, h8, h9⟩
  case mark =>
    cases hk
    exact .inr ⟨_, _, _, rfl, rfl, fun _ => rfl, h2, h3, h4, h5, h6, h7, h8, h9⟩
  case start =>
    cases hk
    exact .inr ⟨_, _, _, rfl, rfl, h1, fun _ => rfl, h3, h4, h5, h6, h7, h8, h9⟩
  case hexHi =>
    cases hk
    exact .inr ⟨_, _, _, rfl, rfl, h1, h2, h3, fun _ => rfl, h5, h6, h7, h8, h9⟩
  case viaNew =>
    cases hk
    exact .inr ⟨_, _, _, rfl, rfl, h1, h2, h3, h4, h5, fun _ => rfl, h7, h8, h9⟩
  case lastAddr f =>
    cases hk
    exact .inr ⟨_, _, _, rfl, rfl, h1, h2, h3, h4, h5, h6, fun _ => rfl, h8, h9⟩
  case addrNew =>
    cases hk
    exact .inr ⟨_, _, _, rfl, rfl, h1, h2, h3, h4, h5, h6, h7, fun _ => rfl, h9⟩
  all_goals
    cases hk
    exact .inr ⟨_, _, _, rfl, rfl, h1, h2, h3, h4, h5, h6, h7, h8, h9⟩

theorem kacts_back {as : List MAct} {v v' : LV} (h : kacts as v = some v') (hb : moveOf as = .back)
    (ho : okMoves as = true) : v'.seg = true := by
  induction as generalizing v with
  | nil => cases hb
  | cons a as ih =>
    by_cases hm : isMove a = true
    · have hhold : a = .hold ∨ a = .backtrack := by
        cases a <;> first | exact .inl rfl | exact .inr rfl | cases hm
      rcases hhold with rfl | rfl
      · match as, ho with
        | [], _ => cases hb
        | [.start], _ => cases hb
      · match as, ho with
        | [], _ =>
          simp only [kacts, kact] at h
          cases hr : kreq v.seg v with
          | none => rw [hr] at h; cases h
          | some w =>
            rw [hr] at h; cases h
            obtain ⟨g, rfl⟩ := kreq_some hr
            exact g
    · have hm : isMove a = false := by simpa using hm
      have ho' : okMoves as = true := by
        revert ho
        cases a <;> simp_all [okMoves, isMove]
      rw [moveOf_cons as hm] at hb
      simp only [kacts] at h
      cases hr : kact a v with
      | none => rw [hr] at h; cases h
      | some w => rw [hr] at h; exact ih h hb ho'

theorem sacts_agree {as : List MAct} {c : UInt8} {v v' : LV} {l m : Loc} (h : Agree v l m)
    (hk : kacts as v = some v') :
    (sacts as c l = none ∧ sacts as c m = none) ∨
    ∃ l' m' us, sacts as c l = some (l', us) ∧ sacts as c m = some (m', us) ∧ Agree v' l' m' := by
  induction as generalizing v l m with
  | nil => cases hk; exact .inr ⟨l, m, [], rfl, rfl, h⟩
  | cons a as ih =>
    simp only [kacts] at hk
    cases hr : kact a v with
    | none => rw [hr] at hk; cases hk
    | some w =>
      rw [hr] at hk
      simp only [Option.bind_some] at hk
      rcases sact_agree (c := c) h hr with ⟨e1, e2⟩ | ⟨l1, m1, us, e1, e2, h1⟩
      · left; simp [sacts, e1, e2]
      · rcases ih h1 hk with ⟨g1, g2⟩ | ⟨l2, m2, vs, g1, g2, h2⟩
        · left; simp [sacts, e1, e2, g1, g2]
        · right; exact ⟨l2, m2, us ++ vs, by simp [sacts, e1, g1], by simp [sacts, e2, g2], h2⟩

/-- A step does not depend on the other variables. -/
theorem sstep_agree {k : Nat} {l m : Loc} {inp : Bytes} {t : Conf} {us : List Upd} (hk : k < 765)
    (h : Agree (live k) l m) (hs : sstep ⟨k, l, inp⟩ = some (t, us)) :
    ∃ m', sstep ⟨k, m, inp⟩ = some (⟨t.k, m', t.inp⟩, us) ∧ (t.k = 781 ∨ Agree (live t.k) t.l m') := by
  obtain ⟨c, tl, r, l', h1, h2, h3, rfl⟩ := sstep_cases hs
  simp only [] at h1 h2 h3
  subst h1
  have hc := live_check k hk r (lookup_mem h2).1
  have ho := moves_check k hk r (lookup_mem h2).1
  unfold kcheck at hc
  cases ha : kacts r.acts (live k) with
  | none => rw [ha] at hc; cases hc
  | some v =>
    rw [ha] at hc
    simp only [Bool.or_eq_true] at hc
    have hc := hc.imp_left Nat.eq_of_beq_eq_true
    rcases sacts_agree (c := c) h ha with ⟨g, _⟩ | ⟨l1, m1, vs, e1, e2, h4⟩
    · rw [g] at h3; cases h3
    · rw [h3] at e1; cases e1
      have := sstep_intro (l := m) h2 e2
      rw [this]
      cases hmv : moveOf r.acts with
      | adv =>
        refine ⟨{ m1 with seg := m1.seg ++ [c] }, rfl, hc.imp id fun g => Agree.weaken ?_ g⟩
        exact ⟨fun e => by simp only [proceed, h4.seg e], h4.buf, h4.name, h4.hex, h4.value, h4.via, h4.addrp, h4.addr,
          h4.nv⟩
      | stay => exact ⟨m1, rfl, hc.imp id fun g => Agree.weaken h4 g⟩
      | back =>
        have hsg := h4.seg (kacts_back ha hmv ho)
        refine ⟨{ m1 with seg := [] }, by simp only [proceed, hsg], hc.imp id fun g => Agree.weaken ?_ g⟩
        exact ⟨fun e => rfl, h4.buf, h4.name, h4.hex, h4.value, h4.via, h4.addrp, h4.addr, h4.nv⟩

/-! ### Runs that stop before a given rest of the input -/

/-- Several steps, each of which reads a byte before the rest `b`. -/
inductive LRun (b : Bytes) : Conf → List Upd → Conf → Prop
  | refl (s : Conf) : LRun b s [] s
  | step {s t u : Conf} {x y : List Upd} : b.length < s.inp.length → sstep s = some (t, x) → LRun b t y u →
      LRun b s (x ++ y) u

theorem LRun.run {b : Bytes} {s t : Conf} {us : List Upd} (h : LRun b s us t) : SRun s us t := by
  induction h with
  | refl s => exact .refl s
  | step _ h1 _ ih => exact .step h1 ih

theorem LRun.trans {b : Bytes} {s t u : Conf} {x y : List Upd} (h : LRun b s x t) (g : LRun b t y u) :
    LRun b s (x ++ y) u := by
  induction h with
  | refl => simpa using g
  | step h0 h1 _ ih => rw [List.append_assoc]; exact .step h0 h1 (ih g)

/-- Shorter rest, same run. -/
theorem LRun.mono {b b' : Bytes} {s t : Conf} {x : List Upd} (h : LRun b s x t) (hb : b'.length ≤ b.length) :
    LRun b' s x t := by
  induction h with
  | refl s => exact .refl s
  | step h0 h1 _ ih => exact .step (by omega) h1 ih

/-- A run from one assignment is a run from another one that agrees. -/
theorem LRun.agree {b : Bytes} {s t : Conf} {us : List Upd} {m : Loc} (h : LRun b s us t) (hk : s.k < 765)
    (ha : Agree (live s.k) s.l m) :
    ∃ m', LRun b ⟨s.k, m, s.inp⟩ us ⟨t.k, m', t.inp⟩ ∧ (t.k = 781 ∨ Agree (live t.k) t.l m') := by
  induction h generalizing m with
  | refl s => exact ⟨m, .refl _, .inr ha⟩
  | @step s t u x y h0 h1 h2 ih =>
    obtain ⟨m', g1, g2⟩ := sstep_agree (k := s.k) (l := s.l) (inp := s.inp) hk ha h1
    rcases g2 with g2 | g2
    · cases h2 with
      | refl => exact ⟨m', .step h0 g1 (.refl _), .inl g2⟩
      | step _ h3 _ =>
        obtain ⟨tk, tl, ti⟩ := t
        simp only [] at g2
        subst g2
        rw [sstep_781] at h3; cases h3
    · have htk : t.k < 765 ∨ t.k = 781 := (sstep_k hk h1).symm
      rcases htk with htk | htk
      · obtain ⟨m'', i1, i2⟩ := ih htk g2
        exact ⟨m'', .step h0 g1 i1, i2⟩
      · cases h2 with
        | refl => exact ⟨m', .step h0 g1 (.refl _), .inl htk⟩
        | step _ h3 _ =>
          obtain ⟨tk, tl, ti⟩ := t
          simp only [] at htk
          subst htk
          rw [sstep_781] at h3; cases h3

/-- The same for unrestricted runs. -/
theorem SRun.toL {s t : Conf} {us : List Upd} (h : SRun s us t) : LRun [] s us t := by
  induction h with
  | refl s => exact .refl s
  | step h1 _ ih =>
    refine .step ?_ h1 ih
    obtain ⟨c, tl, r, l', e, _⟩ := sstep_cases h1
    rw [e]; simp

theorem agree_none {l m : Loc} : Agree (live 280) l m := by
  have : live 280 = ⟨false, false, false, false, false, false, false, false, false⟩ := by decide
  rw [this]
  constructor <;> intro e <;> cases e

theorem agree_start {l m : Loc} : Agree (live 1) l m := by
  have : live 1 = ⟨false, false, false, false, false, false, false, false, false⟩ := by decide
  rw [this]
  constructor <;> intro e <;> cases e

/-- The first time a run reaches the rest `b` of the input. -/
theorem SRun.split {s t : Conf} {us : List Upd} (h : SRun s us t) {a b : Bytes} (hs : s.inp = a ++ b)
    (hb : t.inp.length ≤ b.length) :
    ∃ k l us1 us2, LRun b s us1 ⟨k, l, b⟩ ∧ SRun ⟨k, l, b⟩ us2 t ∧ us = us1 ++ us2 := by
  induction h generalizing a with
  | refl s =>
    obtain ⟨k, l, inp⟩ := s
    simp only [] at hs hb
    have : a = [] := by
      rw [hs, List.length_append] at hb
      exact List.eq_nil_of_length_eq_zero (by omega)
    subst this
    simp only [List.nil_append] at hs
    subst hs
    exact ⟨k, l, [], [], .refl _, .refl _, rfl⟩
  | @step s t u x y h1 h2 ih =>
    cases a with
    | nil =>
      obtain ⟨k, l, inp⟩ := s
      simp only [List.nil_append] at hs
      subst hs
      exact ⟨k, l, [], x ++ y, .refl _, .step h1 h2, rfl⟩
    | cons c a =>
      have hlen : b.length < s.inp.length := by rw [hs]; simp; omega
      have ht : ∃ a', t.inp = a' ++ b := by
        obtain ⟨c', tl, r, l', e1, _, _, rfl⟩ := sstep_cases h1
        cases moveOf r.acts with
        | adv =>
          rw [hs] at e1
          simp only [List.cons_append, List.cons.injEq] at e1
          exact ⟨a, e1.2.symm⟩
        | stay => exact ⟨c :: a, hs⟩
        | back => exact ⟨l'.seg ++ c :: a, by simp only [proceed, hs, List.append_assoc]⟩
      obtain ⟨a', ht⟩ := ht
      obtain ⟨k, l, u1, u2, g1, g2, g3⟩ := ih ht hb
      exact ⟨k, l, x ++ u1, u2, .step hlen h1 g1, g2, by rw [g3, List.append_assoc]⟩

/-- Does a text begin with a blank? -/
def startsWSP : Bytes → Bool
  | w :: _ => w == 32 || w == 9
  | [] => false

theorem lookWSP_eq {a b b' : Bytes} (hl : a ≠ []) (hb : startsWSP b = startsWSP b') (h : a ≠ [13]) :
    ∀ c tl, a = c :: tl → (c = 13 → lookWSP (a ++ b) = lookWSP (a ++ b')) := by
  intro c tl e hc
  subst e; subst hc
  match tl with
  | [] => exact absurd rfl h
  | [x] =>
    simp only [List.cons_append, List.nil_append]
    cases b <;> cases b' <;> simp_all [lookWSP, startsWSP]
  | x :: y :: tl => simp [lookWSP]

/-- Ends with LF. -/
def EndsLF (a : Bytes) : Prop := a = [] ∨ ∃ x, a = x ++ [10]

/-- What comes after a complete line does not matter, except for a blank that continues the line. -/
theorem LRun.local {b b' : Bytes} {s t : Conf} {us : List Upd} (h : LRun b s us t) (hw : startsWSP b = startsWSP b')
    {a : Bytes} (hs : s.inp = a ++ b) (ha : EndsLF a) :
    ∃ a', t.inp = a' ++ b ∧ EndsLF a' ∧ LRun b' ⟨s.k, s.l, a ++ b'⟩ us ⟨t.k, t.l, a' ++ b'⟩ := by
  induction h generalizing a with
  | refl s => exact ⟨a, hs, ha, .refl _⟩
  | @step s t u x y h0 h1 h2 ih =>
    have hne : a ≠ [] := by rintro rfl; rw [hs] at h0; simp at h0
    obtain ⟨z, rfl⟩ : ∃ z, a = z ++ [10] := ha.resolve_left hne
    have hn13 : z ++ [10] ≠ [13] := by
      intro e; have := congrArg List.getLast? e; simp at this
    obtain ⟨c, tl, r, l', e1, e2, e3, e4⟩ := sstep_cases h1
    obtain ⟨tl', e5, e6⟩ : ∃ tl', z ++ [10] = c :: tl' ∧ tl = tl' ++ b := by
      rw [hs] at e1
      cases hz : z ++ [10] with
      | nil => exact absurd hz hne
      | cons d w =>
        rw [hz] at e1
        simp only [List.cons_append, List.cons.injEq] at e1
        exact ⟨w, by rw [e1.1], e1.2.symm⟩
    have hsym : ssymbol s.k (z ++ [10] ++ b') c = ssymbol s.k s.inp c := by
      unfold ssymbol
      by_cases hc : c = 13
      · rw [hs, lookWSP_eq hne hw hn13 c tl' e5 hc]
      · have : (c == 13) = false := by simpa using hc
        simp [this]
    have hstep : sstep ⟨s.k, s.l, z ++ [10] ++ b'⟩ =
        some (proceed (moveOf r.acts) r.tgt l' (z ++ [10] ++ b') (tl' ++ b') c, x) := by
      have := sstep_intro (k := s.k) (l := s.l) (c := c) (tl := tl' ++ b') (r := r) (l' := l') (a := x)
        (by rw [← List.cons_append, ← e5, hsym]; exact e2) e3
      rw [← List.cons_append, ← e5] at this
      exact this
    have hlen : b'.length < (z ++ [10] ++ b').length := by simp; omega
    have htl : EndsLF tl' := by
      cases z with
      | nil => simp at e5; exact .inl e5.2
      | cons d w =>
        simp only [List.cons_append, List.cons.injEq] at e5
        exact .inr ⟨w, e5.2.symm⟩
    cases hm : moveOf r.acts with
    | adv =>
      rw [hm] at e4 hstep
      obtain ⟨a', g1, g2, g3⟩ := ih (a := tl') (by rw [e4, e6]; rfl) htl
      refine ⟨a', g1, g2, .step hlen hstep ?_⟩
      rw [e4] at g3
      exact g3
    | stay =>
      rw [hm] at e4 hstep
      obtain ⟨a', g1, g2, g3⟩ := ih (a := z ++ [10]) (by rw [e4]; exact hs) (.inr ⟨z, rfl⟩)
      refine ⟨a', g1, g2, .step hlen hstep ?_⟩
      rw [e4] at g3
      exact g3
    | back =>
      rw [hm] at e4 hstep
      obtain ⟨a', g1, g2, g3⟩ := ih (a := l'.seg ++ (z ++ [10]))
        (by rw [e4, List.append_assoc, ← hs]; rfl) (.inr ⟨l'.seg ++ z, by simp⟩)
      refine ⟨a', g1, g2, .step hlen hstep ?_⟩
      rw [e4] at g3
      simpa only [proceed, List.append_assoc] using g3

end Gosip.Sip.MsgM
