import Verif.Sip.LineValues
import Verif.Sip.QuoteLemmas
import Verif.Spec.Wellformed

/-!
# The message machine on texts written by the library: steps, quoted strings, parameters
-/

namespace Gosip.Sip.MsgM
open Spec

/-! ### Steps -/

/-- A transition that reads a byte. -/
theorem eat {k t : Nat} {l l' : Loc} {c : UInt8} {tl : Bytes} {as : List MAct} {us : List Upd} (hc : c ≠ 13)
    (h : rowAt k c.toNat = some (as, t)) (g : sacts as c l = some (l', us)) (hm : moveOf as = .adv) :
    SRun ⟨k, l, c :: tl⟩ us ⟨t, { l' with seg := l'.seg ++ [c] }, tl⟩ := by
  have := step_at (l := l) (c := c) (tl := tl) (by rw [ssymbol_ne hc]; exact h) g
  rw [hm] at this
  exact .one this

/-- A transition that leaves the byte to the next state. -/
theorem stay {k t : Nat} {l l' : Loc} {c : UInt8} {tl : Bytes} {as : List MAct} {us : List Upd} (hc : c ≠ 13)
    (h : rowAt k c.toNat = some (as, t)) (g : sacts as c l = some (l', us)) (hm : moveOf as = .stay) :
    SRun ⟨k, l, c :: tl⟩ us ⟨t, l', c :: tl⟩ := by
  have := step_at (l := l) (c := c) (tl := tl) (by rw [ssymbol_ne hc]; exact h) g
  rw [hm] at this
  exact .one this

/-- A transition that goes back to the mark. -/
theorem goBack {k t : Nat} {l l' : Loc} {c : UInt8} {tl : Bytes} {as : List MAct} {us : List Upd} (hc : c ≠ 13)
    (h : rowAt k c.toNat = some (as, t)) (g : sacts as c l = some (l', us)) (hm : moveOf as = .back) :
    SRun ⟨k, l, c :: tl⟩ us ⟨t, { l' with seg := [] }, l'.seg ++ c :: tl⟩ := by
  have := step_at (l := l) (c := c) (tl := tl) (by rw [ssymbol_ne hc]; exact h) g
  rw [hm] at this
  exact .one this

/-- The end of a line. -/
theorem lineEnd {k t : Nat} {l l1 l2 : Loc} {as bs : List MAct} {u v : List Upd} (hw : wide k = true)
    (h : rowAt k 269 = some (as, t)) (g : sacts as 13 l = some (l1, u)) (hm : moveOf as = .adv)
    (h2 : rowAt t 10 = some (bs, 280)) (g2 : sacts bs 10 { l1 with seg := l1.seg ++ [13] } = some (l2, v))
    (hm2 : moveOf bs = .adv) : Acc k l CRLF (u ++ v) := by
  have e : ssymbol k (13 :: [10]) 13 = 269 := by rw [ssymbol_cr hw]; rfl
  have h1 := step_at (l := l) (c := 13) (tl := [10]) (by rw [e]; exact h) g
  rw [hm] at h1
  have := (SRun.one h1).trans (eat (tl := []) (by decide) h2 g2 hm2)
  exact ⟨_, this⟩

/-- A loop that appends what it reads to the buffer. -/
theorem append_run {k : Nat} {l : Loc} {s tl : Bytes} (h : ∀ c ∈ s, c ≠ 13 ∧ rowAt k c.toNat = some ([.append], k)) :
    SRun ⟨k, l, s ++ tl⟩ [] ⟨k, { l with seg := l.seg ++ s, buf := l.buf ++ s }, tl⟩ := by
  induction s generalizing l with
  | nil => simpa using SRun.refl _
  | cons c s ih =>
    obtain ⟨h1, h2⟩ := h c List.mem_cons_self
    have := (eat (l := l) (tl := s ++ tl) h1 h2 rfl rfl).trans
      (ih (l := { l with seg := l.seg ++ [c], buf := l.buf ++ [c] }) fun d hd => h d (List.mem_cons_of_mem _ hd))
    simpa using this

theorem tok_ne {c : UInt8} (h : token c) : c ≠ 13 := (token_ne13 h).1

/-! ### Quoted strings -/

/-- The states of a quoted string: before the first byte, inside, after the end, after a backslash, and in a
continued line. -/
structure QuotePart (q0 q1 q2 q3 q4 q5 : Nat) : Prop where
  plain : ∀ c : UInt8, qdtextc c = true → c ≠ 13 → c ≠ 10 → rowAt q1 c.toNat = some ([.append], q1)
  esc : rowAt q1 92 = some ([], q3)
  pair : ∀ c : UInt8, qdtextesc c = true → rowAt q3 c.toNat = some ([.append], q1)
  close : rowAt q1 34 = some ([], q2)
  cr : rowAt q1 525 = some ([.append], q4)
  lf : rowAt q4 10 = some ([.append], q5)
  sp : rowAt q5 32 = some ([.append], q1)
  ht : rowAt q5 9 = some ([.append], q1)
  first : ∀ n, n < 526 → rowAt q0 n = (rowAt q1 n).map fun x => (.start :: x.1, x.2)
  w0 : wide q0 = true
  w1 : wide q1 = true

theorem quote_via : QuotePart 86 87 88 89 95 96 := by constructor <;> decide +kernel
theorem quote_param : QuotePart 171 172 173 174 180 181 := by constructor <;> decide +kernel
theorem quote_display : QuotePart 218 219 220 221 227 228 := by constructor <;> decide +kernel

theorem quotable_esc : ∀ c : UInt8, c.toNat < 128 → c ≠ 13 → c ≠ 10 → qdtextc c = false →
    (!qdtextesc c) = false ∧ qdtextesc c = true := by decide +kernel

/-- Inside of a quoted string, up to any byte. -/
theorem QuotePart.inner {q0 q1 q2 q3 q4 q5 : Nat} (h : QuotePart q0 q1 q2 q3 q4 q5) {v : Bytes} (hv : Quotable v) (l : Loc)
    (tl : Bytes) : ∃ s, SRun ⟨q1, l, quoteLoop v ++ tl⟩ [] ⟨q1, { l with seg := s, buf := l.buf ++ v }, tl⟩ := by
  induction hv generalizing l with
  | nil =>
    exact ⟨l.seg, by simpa [quoteLoop] using SRun.refl _⟩
  | @char c v hc h13 h10 _ ih =>
    cases hq : qdtextc c with
    | true =>
      have e : quoteLoop (c :: v) = c :: quoteLoop v := by
        rw [quoteLoop, if_pos hq, if_neg (by simp [h13])]
      obtain ⟨s, hs⟩ := ih { l with seg := l.seg ++ [c], buf := l.buf ++ [c] }
      refine ⟨s, ?_⟩
      have := (eat (l := l) (tl := quoteLoop v ++ tl) h13 (h.plain c hq h13 h10) rfl rfl).trans hs
      rw [e]
      simpa using this
    | false =>
      obtain ⟨q1', q2'⟩ := quotable_esc c hc h13 h10 hq
      have e : quoteLoop (c :: v) = 92 :: c :: quoteLoop v := by
        rw [quoteLoop, if_neg (by simp [hq]), if_neg (by simp [q1'])]
      obtain ⟨s, hs⟩ := ih { l with seg := l.seg ++ [92] ++ [c], buf := l.buf ++ [c] }
      refine ⟨s, ?_⟩
      have := ((eat (l := l) (tl := c :: (quoteLoop v ++ tl)) (by decide) h.esc rfl rfl).trans
        (eat (l := { l with seg := l.seg ++ [92] }) h13 (h.pair c q2') rfl rfl)).trans hs
      rw [e]
      simpa using this
  | @fold w v hw _ ih =>
    have hww : w = 32 ∨ w = 9 := hw
    have hq : qdtextc w = true := by rcases hww with rfl | rfl <;> decide
    have h13 : w ≠ 13 := by rcases hww with rfl | rfl <;> decide
    have e : quoteLoop (13 :: 10 :: w :: v) = 13 :: 10 :: w :: quoteLoop v := by
      rw [quoteLoop, if_pos (by decide), if_neg (by
        rintro ⟨_, h⟩
        rw [show foldAhead (10 :: w :: v) = true from (foldAhead_iff _).2 ⟨w, v, rfl, hww⟩] at h
        cases h), (quoteLoop_fold w v hww).1]
    obtain ⟨s, hs⟩ := ih { l with seg := l.seg ++ [13] ++ [10] ++ [w], buf := l.buf ++ [13] ++ [10] ++ [w] }
    refine ⟨s, ?_⟩
    have s1 : SRun ⟨q1, l, 13 :: 10 :: w :: (quoteLoop v ++ tl)⟩ []
        ⟨q4, { l with seg := l.seg ++ [13], buf := l.buf ++ [13] }, 10 :: w :: (quoteLoop v ++ tl)⟩ := by
      refine .one (step_at (as := [.append]) (l' := { l with buf := l.buf ++ [13] }) ?_ rfl)
      rw [ssymbol_cr h.w1]
      rcases hww with rfl | rfl <;> exact h.cr
    have s2 := eat (l := { l with seg := l.seg ++ [13], buf := l.buf ++ [13] }) (c := 10)
      (tl := w :: (quoteLoop v ++ tl)) (by decide) h.lf rfl rfl
    have s3 := eat (l := { l with seg := l.seg ++ [13] ++ [10], buf := l.buf ++ [13] ++ [10] }) (c := w)
      (tl := quoteLoop v ++ tl) (as := [.append]) h13 (by rcases hww with rfl | rfl; exact h.sp; exact h.ht) rfl rfl
    have := ((s1.trans s2).trans s3).trans hs
    rw [e]
    simpa using this

/-- Inside of a quoted string. -/
theorem QuotePart.run {q0 q1 q2 q3 q4 q5 : Nat} (h : QuotePart q0 q1 q2 q3 q4 q5) {v : Bytes} (hv : Quotable v) (l : Loc)
    (tl : Bytes) : ∃ s, SRun ⟨q1, l, quoteLoop v ++ 34 :: tl⟩ [] ⟨q2, { l with seg := s, buf := l.buf ++ v }, tl⟩ := by
  obtain ⟨s, hs⟩ := h.inner hv l (34 :: tl)
  exact ⟨s ++ [34], hs.trans (eat (l := { l with seg := s, buf := l.buf ++ v }) (c := 34) (by decide) h.close rfl rfl)⟩

/-- The first byte after the quotation mark empties the buffer. -/
theorem QuotePart.start {q0 q1 q2 q3 q4 q5 : Nat} (h : QuotePart q0 q1 q2 q3 q4 q5) {l : Loc} {inp : Bytes}
    {us : List Upd} {t : Conf} (hi : inp ≠ []) (ht : t.k ≠ q1) (g : SRun ⟨q1, { l with buf := [] }, inp⟩ us t) :
    SRun ⟨q0, l, inp⟩ us t := by
  cases g with
  | refl => exact absurd rfl ht
  | step h1 h2 =>
    refine .step ?_ h2
    obtain ⟨c, tl, r, l', e1, e2, e3, e4⟩ := sstep_cases h1
    simp only [] at e1 e2 e3 e4
    subst e1
    have hs : ssymbol q0 (c :: tl) c = ssymbol q1 (c :: tl) c := by simp [ssymbol, h.w0, h.w1]
    have hlt : ssymbol q1 (c :: tl) c < 526 := by
      have hb := c.toNat_lt
      unfold ssymbol
      cases wide q1 && c == 13
      · show c.toNat < 526; omega
      · cases lookWSP (c :: tl) <;> simp
    have hr : rowAt q1 (ssymbol q1 (c :: tl) c) = some (r.acts, r.tgt) := by simp [rowAt, e2]
    have := h.first _ hlt
    rw [hr] at this
    have := step_at (l := l) (l' := l') (by rw [hs]; exact this) (by
      show (sacts r.acts c { l with buf := [] }).map _ = _
      rw [e3]; rfl)
    rw [this, e4]
    rfl

theorem quote_end {v : Bytes} (tl : Bytes) : quoteLoop v ++ 34 :: tl ≠ [] := by simp

/-- A quoted string, after the quotation mark. -/
theorem QuotePart.all {q0 q1 q2 q3 q4 q5 : Nat} (h : QuotePart q0 q1 q2 q3 q4 q5) (hne : q2 ≠ q1) {v : Bytes}
    (hv : Quotable v) (l : Loc) (tl : Bytes) :
    ∃ s, SRun ⟨q0, l, quoteLoop v ++ 34 :: tl⟩ [] ⟨q2, { l with seg := s, buf := v }, tl⟩ := by
  obtain ⟨s, hs⟩ := h.run hv { l with buf := [] } tl
  exact ⟨s, by simpa using h.start (quote_end tl) (by simpa using hne) hs⟩

end Gosip.Sip.MsgM
