import Verif.Sip.Digits
import Verif.Sip.RegionTable

/-!
# A header line changes the field of its header only
-/

namespace Gosip.Sip.MsgM
open Spec

/-- The parts of the machine that may contain an action. -/
def actReg : MAct → List Nat
  | .hold | .backtrack | .mark | .start | .append | .hexHi | .hexLo | .viaNew | .viaProtocol | .viaVersion
  | .viaTransport | .viaHost | .viaPort | .viaParam | .addrNew | .addrQuotedDisplay | .addrUnquotedDisplay
  | .addrUri | .addrParam => [1, 2, 3, 4, 5, 6, 7, 8, 9, 10, 11, 12, 13, 14]
  | .name => [3, 4]
  | .valueNil => [2, 3]
  | .value => [1]
  | .addr => [3]
  | .via => [4]
  | .callID => [5]
  | .cseq | .cseqMethod => [6]
  | .contentType => [7]
  | .contentLength | .clen0 => [8, 12]
  | .expires | .expires0 => [9, 12]
  | .maxForwards | .maxForwards0 => [10, 12]
  | .minExpires | .minExpires0 => [11, 12]
  | .method | .versionMajor | .versionMinor | .requestURI | .statusCode | .reasonPhrase => [14]
  | .lastAddr _ | .setValue _ => []

/-- Rows stay within a part and use its actions only. -/
def regRow (k : Nat) (r : Row) : Bool :=
  Nat.beq (reg k) 0 ||
    (r.acts.all (fun a => (actReg a).contains (reg k)) &&
      (Nat.beq r.tgt 280 || Nat.beq r.tgt 381 || Nat.beq (reg r.tgt) (reg k) || (Nat.beq (reg k) 2 && Nat.beq r.tgt 263) ||
        (Nat.beq (reg k) 7 && Nat.beq (reg r.tgt) 13)))

theorem reg_check : ∀ k, k < 765 → ∀ r ∈ rows k, regRow k r = true := by decide +kernel

/-- The assignments a part of the machine makes, depending on the variables set before it is entered. -/
def RegUpd (g : Nat) (l : Loc) : Upd → Prop
  | .hdr f _ => g = 1 ∧ l.value = some f
  | .xheader n _ => (g = 1 ∧ l.value = none ∨ g = 2) ∧ n = l.name
  | .addr f _ => g = 3 ∧ l.addrp = some f
  | .via _ => g = 4
  | .callID _ => g = 5
  | .cseq _ | .cseqMethod _ => g = 6
  | .ctype _ => g = 7
  | .clen _ | .clen0 => g = 8 ∨ g = 12
  | .expires _ | .expires0 => g = 9 ∨ g = 12
  | .maxForwards _ | .maxForwards0 => g = 10 ∨ g = 12
  | .minExpires _ | .minExpires0 => g = 11 ∨ g = 12
  | .method _ | .versionMajor _ | .versionMinor _ | .request _ | .status _ | .phrase _ => g = 14

/-- The variables a part depends on and does not change. -/
def SameLoc (g : Nat) (l m : Loc) : Prop :=
  (g = 1 → l.value = m.value) ∧ (g = 1 ∨ g = 2 → l.name = m.name) ∧ (g = 3 → l.addrp = m.addrp)

theorem RegUpd.same {g : Nat} {l m : Loc} {u : Upd} (h : SameLoc g l m) (hu : RegUpd g m u) : RegUpd g l u := by
  obtain ⟨h1, h2, h3⟩ := h
  cases u <;> simp only [RegUpd] at hu ⊢ <;> try exact hu
  case hdr f _ => exact ⟨hu.1, by rw [h1 hu.1]; exact hu.2⟩
  case addr f _ => exact ⟨hu.1, by rw [h3 hu.1]; exact hu.2⟩
  case xheader n _ =>
    obtain ⟨a, b⟩ := hu
    rcases a with ⟨a, a'⟩ | a
    · exact ⟨.inl ⟨a, by rw [h1 a]; exact a'⟩, by rw [b, h2 (.inl a)]⟩
    · exact ⟨.inr a, by rw [b, h2 (.inr a)]⟩

theorem SameLoc.refl (g : Nat) (l : Loc) : SameLoc g l l := ⟨fun _ => rfl, fun _ => rfl, fun _ => rfl⟩

theorem SameLoc.trans {g : Nat} {l m n : Loc} (h : SameLoc g l m) (h' : SameLoc g m n) : SameLoc g l n :=
  ⟨fun e => (h.1 e).trans (h'.1 e), fun e => (h.2.1 e).trans (h'.2.1 e), fun e => (h.2.2 e).trans (h'.2.2 e)⟩

theorem sact_reg {a : MAct} {c : UInt8} {g : Nat} {l l' : Loc} {us : List Upd} (h : sact a c l = some (l', us))
    (hr : (actReg a).contains g = true) : (∀ u ∈ us, RegUpd g l u) ∧ SameLoc g l l' := by
  have hr : g ∈ actReg a := by simpa using hr
  cases a
  case value =>
    simp only [actReg, List.mem_singleton] at hr
    simp only [sact] at h
    cases hv : l.value with
    | some f => rw [hv] at h; cases h; exact ⟨by simp [RegUpd, hr, hv], SameLoc.refl _ _⟩
    | none => rw [hv] at h; cases h; exact ⟨by simp [RegUpd, hr, hv], SameLoc.refl _ _⟩
  case via | viaProtocol | viaVersion | viaTransport | viaHost | viaPort | viaParam =>
    simp only [actReg, List.mem_cons, List.not_mem_nil, or_false] at hr
    simp only [sact] at h
    cases ha : l.via <;> rw [ha] at h <;> cases h
    exact ⟨by simp [RegUpd, hr], ⟨fun _ => rfl, fun _ => rfl, fun _ => rfl⟩⟩
  case addrQuotedDisplay | addrUnquotedDisplay | addrParam =>
    simp only [sact] at h
    cases ha : l.addr <;> rw [ha] at h <;> cases h
    exact ⟨by simp, ⟨fun _ => rfl, fun _ => rfl, fun _ => rfl⟩⟩
  case addrUri =>
    simp only [sact] at h
    cases hu : uriOf l.seg <;> rw [hu] at h
    · cases h
    · cases ha : l.addr <;> rw [ha] at h <;> cases h
      exact ⟨by simp, ⟨fun _ => rfl, fun _ => rfl, fun _ => rfl⟩⟩
  case addr =>
    simp only [actReg, List.mem_singleton] at hr
    simp only [sact] at h
    cases hu : l.addrp <;> rw [hu] at h
    · cases h
    · cases ha : l.addr <;> rw [ha] at h <;> cases h
      exact ⟨by simp [RegUpd, hr, hu], ⟨fun _ => rfl, fun _ => rfl, fun _ => hu⟩⟩
  case lastAddr | setValue => simp [actReg] at hr
  case requestURI =>
    simp only [actReg, List.mem_singleton] at hr
    simp only [sact] at h
    cases hu : uriOf l.seg <;> rw [hu] at h <;> cases h
    exact ⟨by simp [RegUpd, hr], ⟨fun _ => rfl, fun _ => rfl, fun _ => rfl⟩⟩
  case name =>
    simp only [actReg, List.mem_cons, List.not_mem_nil, or_false] at hr
    cases h
    exact ⟨by simp, ⟨fun _ => rfl, fun e => by omega, fun _ => rfl⟩⟩
  case valueNil =>
    simp only [actReg, List.mem_cons, List.not_mem_nil, or_false] at hr
    cases h
    exact ⟨by simp, ⟨fun e => by omega, fun _ => rfl, fun _ => rfl⟩⟩
  all_goals
    simp only [actReg, List.mem_cons, List.not_mem_nil, or_false] at hr
    cases h
    exact ⟨by simp [RegUpd, hr], ⟨fun _ => rfl, fun _ => rfl, fun _ => rfl⟩⟩

theorem sacts_reg {as : List MAct} {c : UInt8} {g : Nat} {l l' : Loc} {us : List Upd}
    (h : sacts as c l = some (l', us)) (hr : (as.all fun a => (actReg a).contains g) = true) :
    (∀ u ∈ us, RegUpd g l u) ∧ SameLoc g l l' := by
  induction as generalizing l us with
  | nil => cases h; exact ⟨by simp, SameLoc.refl _ _⟩
  | cons a as ih =>
    simp only [List.all_cons, Bool.and_eq_true] at hr
    simp only [sacts] at h
    cases h1 : sact a c l with
    | none => rw [h1] at h; cases h
    | some y =>
      rw [h1] at h
      simp only [Option.bind_some] at h
      cases h2 : sacts as c y.1 with
      | none => rw [h2] at h; cases h
      | some z =>
        rw [h2] at h
        cases h
        obtain ⟨i1, i2⟩ := sact_reg h1 hr.1
        obtain ⟨j1, j2⟩ := ih h2 hr.2
        refine ⟨?_, i2.trans j2⟩
        intro u hu
        rcases List.mem_append.1 hu with hu | hu
        · exact i1 u hu
        · exact (j1 u hu).same i2

theorem reg_280 : reg 280 = 0 ∧ reg 381 = 0 ∧ reg 263 = 1 := by decide +kernel

/-- In state 276 and after it up to the value, the destination is reset before the value is read. -/
theorem rows_2 : ∀ k, k < 765 → reg k = 2 → ∀ r ∈ rows k,
    reg r.tgt = 2 ∨ (r.acts = [.valueNil, .hold] ∧ r.tgt = 263) := by
  decide +kernel

/-- A line that has ended. -/
theorem line_ended {t v : Conf} {L : Bytes} {y : List Upd} (htk : t.k = 280) (h2 : SRun t y v)
    (hv : v.k = 280 ∧ v.inp = []) (hL : LogicalLine L) (hh : Hist false (L ++ CRLF) t) : y = [] := by
  obtain ⟨q, pre, hq, _, hr⟩ := hh
  obtain ⟨tk, tl, ti⟩ := t
  obtain ⟨vk, vl, vi⟩ := v
  simp only [] at htk hv hq hr
  obtain ⟨rfl, rfl⟩ := hv
  subst htk
  have hacc : Acc 280 tl ti y := ⟨vl, h2⟩
  rcases hr.1 rfl with ⟨h, _⟩ | ⟨x, rfl⟩
  · cases h
  · exact (logical_rest hL hq hacc).2.1

/-- A line from within a part of the machine on. -/
theorem reg_run {s t : Conf} {us : List Upd} {L : Bytes} {g : Nat} (h : SRun s us t) (ht : t.k = 280 ∧ t.inp = [])
    (hL : LogicalLine L) (hh : Hist false (L ++ CRLF) s) (hk : s.k < 765)
    (hg : (reg s.k = g ∧ g ≠ 0) ∨ s.k = 280 ∨ s.k = 381) :
    ∀ u ∈ us, RegUpd g s.l u := by
  induction h generalizing g with
  | refl s => simp
  | @step s t v x y h1 h2 ih =>
    have hh' := hh.step hk h1
    have hkt : t.k < 765 := by
      refine (sstep_k hk h1).resolve_left fun e => ?_
      cases h2 with
      | refl => rw [e] at ht; cases ht.1
      | step g _ =>
        obtain ⟨tk, tl, ti⟩ := t
        simp only [] at e
        subst e
        rw [sstep_781] at g; cases g
    rcases hg with ⟨hg, hg0⟩ | hg | hg
    · obtain ⟨k, l, inp⟩ := s
      obtain ⟨c, tl, r, l', e1, e2, e3, e4⟩ := sstep_cases h1
      simp only [] at e1 e2 e3 e4 hk hg ⊢
      obtain ⟨m1, m2, m3⟩ := lookup_mem e2
      have hc := reg_check k hk r m1
      have hb : Nat.beq (reg k) 0 = false := by
        rw [← Bool.not_eq_true]; intro hx; exact hg0 (hg ▸ Nat.eq_of_beq_eq_true hx)
      simp only [regRow, hb, Bool.false_or, Bool.and_eq_true, Bool.or_eq_true] at hc
      obtain ⟨c1, c2⟩ := hc
      rw [hg] at c1 c2
      obtain ⟨i1, i2⟩ := sacts_reg e3 c1
      have htk : t.k = r.tgt := by rw [e4, proceed_k]
      have hloc : SameLoc g l' t.l := by
        rw [e4]
        unfold proceed
        cases moveOf r.acts <;> exact ⟨fun _ => rfl, fun _ => rfl, fun _ => rfl⟩
      intro u hu
      rcases List.mem_append.1 hu with hu | hu
      · exact i1 u hu
      · rcases c2 with (((c2 | c2) | c2) | ⟨c2, c3⟩) | ⟨c2, c3⟩
        · exact (ih ht hh' hkt (.inr (.inl (htk.trans (Nat.eq_of_beq_eq_true c2)))) u hu).same (i2.trans hloc)
        · exact (ih ht hh' hkt (.inr (.inr (htk.trans (Nat.eq_of_beq_eq_true c2)))) u hu).same (i2.trans hloc)
        · exact (ih ht hh' hkt (.inl ⟨htk ▸ Nat.eq_of_beq_eq_true c2, hg0⟩) u hu).same (i2.trans hloc)
        · have g2 := Nat.eq_of_beq_eq_true c2
          have t3 := Nat.eq_of_beq_eq_true c3
          have hu' := ih (g := 1) ht hh' hkt (.inl ⟨by rw [htk, t3]; exact reg_280.2.2, by decide⟩) u hu
          rcases rows_2 k hk (hg.trans g2) r m1 with e | ⟨e, _⟩
          · rw [t3, reg_280.2.2] at e; cases e
          · rw [e] at e3 e4
            cases e3
            have hv : t.l.value = none := by rw [e4]; rfl
            have hn : t.l.name = l.name := by rw [e4]; rfl
            subst g2
            revert hu'
            cases u <;> simp [RegUpd, hv, hn]
        · have hu' := ih (g := 13) ht hh' hkt (.inl ⟨htk ▸ Nat.eq_of_beq_eq_true c3, by decide⟩) u hu
          revert hu'
          cases u <;> simp [RegUpd]
    · have := line_ended hg (.step h1 h2) ht hL hh
      intro u hu
      rw [this] at hu; cases hu
    · obtain ⟨k, l, inp⟩ := s
      simp only [] at hg
      subst hg
      obtain ⟨c, tl, r, l', e1, e2, e3, e4⟩ := sstep_cases h1
      simp only [] at e1 e2 e3 e4
      obtain ⟨m1, m2, m3⟩ := lookup_mem e2
      rw [rows_381.1, List.mem_singleton] at m1
      subst m1
      cases e3
      have := line_ended (t := t) (by rw [e4]; rfl) h2 ht hL hh'
      rw [this]
      simp

/-- The part of the machine for the value of a header. -/
def hreg : Header → Bytes → Nat
  | .text _, _ => 1
  | .address _, _ => 3
  | .via, _ => 4
  | .callID, _ => 5
  | .cseq, _ => 6
  | .contentType, _ => 7
  | .contentLength, w => if w = b!"l" then 12 else 8
  | .expires, _ => 9
  | .maxForwards, _ => 10
  | .minExpires, _ => 11

theorem entry_reg (h : Header) (w : Bytes) : reg (entry h w) = hreg h w ∧ hreg h w ≠ 0 ∧ entry h w < 765 ∧
    entry h w ≠ 280 ∧ entry h w ≠ 764 ∧ entry h w ≠ 781 ∧ crState (entry h w) = false := by
  cases h <;> simp only [entry, hreg]
  case contentLength => split <;> decide +kernel
  all_goals decide +kernel

theorem hist_at {q v : Bytes} {k : Nat} {l : Loc} (hl : l.seg = []) (h : k ≠ 280 ∧ k ≠ 764 ∧ k ≠ 781 ∧ crState k = false) :
    Hist false (q ++ v) ⟨k, l, v⟩ :=
  ⟨q, q, rfl, by simp [hl], no h.1, no' h.2.2.2, no h.2.1, no h.2.2.1⟩

/-- The assignments a header line may make. -/
def HeaderUpd (n : Bytes) : Option Header → Upd → Prop
  | some h, u => RegUpd (hreg h (n.map lower)) (nameLoc h) u
  | none, u => ∃ v, u = .xheader n v

theorem nameLoc_seg (h : Header) : (nameLoc h).seg = [] := by cases h <;> rfl

/-- A line assigns the field of its header only. -/
theorem line_reg {n w v : Bytes} {us : List Upd} (hn : IsName n) (hw : Blanks w) (hL : LogicalLine (headerLine n w v))
    (h : Line (headerLine n w v) us) : ∀ u ∈ us, HeaderUpd n (headerOf n) u := by
  rw [line_acc] at h
  have e : headerLine n w v ++ CRLF = headerLine n w (v ++ CRLF) := by simp [headerLine]
  have e' : headerLine n w v ++ CRLF = (n ++ w ++ b!":") ++ (v ++ CRLF) := by simp [headerLine]
  rw [e] at h
  cases hh : headerOf n with
  | some hd =>
    rw [acc_known hn hw hh] at h
    obtain ⟨l', h⟩ := h
    obtain ⟨r1, r2, r3, r4, r5, r6, r7⟩ := entry_reg hd (n.map lower)
    exact reg_run h ⟨rfl, rfl⟩ hL (e' ▸ hist_at (nameLoc_seg _) ⟨r4, r5, r6, r7⟩) r3 (.inl ⟨r1, r2⟩)
  | none =>
    by_cases hs : StubName n
    · exact absurd h (acc_stub hn hw hs)
    rw [acc_ext hn hw hh hs] at h
    obtain ⟨l', h⟩ := h
    have := reg_run (g := 2) h ⟨rfl, rfl⟩ hL (e' ▸ hist_at rfl (by decide +kernel)) (show (276 : Nat) < 765 by decide)
      (.inl ⟨by show reg 276 = 2; decide +kernel, by decide⟩)
    intro u hu
    have hu := this u hu
    revert hu
    cases u <;> simp [RegUpd, HeaderUpd]

/-- The start line assigns its own fields only. -/
theorem start_reg {s : Bytes} {us : List Upd} (hs : LogicalLine s) (h : Start s us) : ∀ u ∈ us, RegUpd 14 {} u := by
  rw [start_acc] at h
  obtain ⟨l', h⟩ := h
  have hh : Hist false (s ++ CRLF) ⟨1, Loc.init, s ++ CRLF⟩ := hist_at (q := []) (l := Loc.init) rfl (by decide +kernel)
  exact reg_run h ⟨rfl, rfl⟩ hs hh (show (1 : Nat) < 765 by decide) (.inl ⟨by show reg 1 = 14; decide +kernel, by decide⟩)

end Gosip.Sip.MsgM
