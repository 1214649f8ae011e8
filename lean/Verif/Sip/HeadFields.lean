import Verif.Sip.CoreSame
import Verif.Spec.Body

/-!
# The fields after all lines of the head
-/

namespace Gosip.Sip.MsgM
open Spec

/-- What header lines with certain names do not change. -/
theorem reads_keep {β : Type} {f : Core → β} {Q : Bytes → Prop}
    (hf : ∀ n u x, Q n → HeaderUpd n (headerOf n) u → f (u.app x) = f x) {ls : List Bytes} {us : List Upd} {x : Core}
    (hl : ∀ L ∈ ls, HeaderLine L) (hq : ∀ n w v, headerLine n w v ∈ ls → IsName n → Blanks w → Q n)
    (h : Reads ls us) : f (apps x us) = f x := by
  induction h generalizing x with
  | nil => rfl
  | @cons L ls u us h1 _ ih =>
    rw [apps_append, ih (fun L hL => hl L (List.mem_cons_of_mem _ hL))
      (fun n w v hm => hq n w v (List.mem_cons_of_mem _ hm))]
    obtain ⟨n, w, v, hn, hw, rfl⟩ := line_shape (hl L List.mem_cons_self) h1
    have hQ := hq n w v List.mem_cons_self hn hw
    have hu := line_reg hn hw (hl _ List.mem_cons_self).one h1
    generalize u = u at hu
    clear h1
    induction u generalizing x with
    | nil => rfl
    | cons a u ih2 =>
      rw [apps_cons, ih2 (fun b hb => hu b (List.mem_cons_of_mem _ hb)), hf n a x hQ (hu a List.mem_cons_self)]

/-- What the start line does not change. -/
theorem start_keep {β : Type} {f : Core → β} (hf : ∀ u x, RegUpd 14 {} u → f (u.app x) = f x) {s : Bytes} {us : List Upd}
    {x : Core} (hs : LogicalLine s) (h : Start s us) : f (apps x us) = f x := by
  have hu := start_reg hs h
  clear h
  induction us generalizing x with
  | nil => rfl
  | cons a u ih => rw [apps_cons, ih (fun b hb => hu b (List.mem_cons_of_mem _ hb)), hf a x (hu a List.mem_cons_self)]

theorem name_l {n : Bytes} (h : n.map lower = b!"l") : headerOf n = some .contentLength := by
  unfold headerOf; rw [h]; decide +kernel

theorem ne_l {n : Bytes} (h : headerOf n ≠ some .contentLength) : n.map lower ≠ b!"l" := fun e => h (name_l e)

/-- The variables of the epilogue are not changed by other headers. -/
theorem keep_clen {n : Bytes} {u : Upd} {x : Core} (hn : headerOf n ≠ some .contentLength)
    (hu : HeaderUpd n (headerOf n) u) : (u.app x).clen = x.clen :=
  (app_own x (ne_l hn) hu).clen hn

theorem keep_ctype {n : Bytes} {u : Upd} {x : Core} (hn : headerOf n ≠ some .contentType)
    (hu : HeaderUpd n (headerOf n) u) : (u.app x).ctype = x.ctype := by
  by_cases hl : n.map lower = b!"l"
  · rw [name_l hl] at hu
    simp only [HeaderUpd, hreg, if_pos hl] at hu
    cases u <;> simp [RegUpd] at hu <;> rfl
  · exact (app_own x hl hu).ctype hn

theorem keep_payload {n : Bytes} {u : Upd} {x : Core} (hu : HeaderUpd n (headerOf n) u) :
    (u.app x).msg.payload = x.msg.payload := by
  cases u <;> rfl

theorem start_fields {s : Bytes} {us : List Upd} {x : Core} (hs : LogicalLine s) (h : Start s us) :
    (apps x us).clen = x.clen ∧ (apps x us).ctype = x.ctype := by
  refine ⟨start_keep (f := fun y => y.clen) ?_ hs h, start_keep (f := fun y => y.ctype) ?_ hs h⟩ <;>
    (intro u x hu; cases u <;> simp [RegUpd] at hu <;> rfl)

theorem apps_payload (x : Core) (us : List Upd) : (apps x us).msg.payload = x.msg.payload := by
  induction us generalizing x with
  | nil => rfl
  | cons u us ih => rw [apps_cons, ih]; cases u <;> rfl

/-- Content-Length digits. -/
theorem numUpd_clen (x : Core) (w : Bytes) (ds : Bytes) :
    (apps x (ds.flatMap (numUpd .contentLength w).2)).clen = ds.foldl dec64 x.clen := by
  induction ds generalizing x with
  | nil => rfl
  | cons d ds ih =>
    rw [List.flatMap_cons, apps_append, ih, List.foldl_cons]
    congr 1
    simp only [numUpd]
    split <;> rfl

theorem sws_number {v ds : Bytes} (h : NumText v ds) : NumberText v ds := by
  obtain ⟨s, rfl, hs, h1, h2⟩ := h
  refine ⟨?_, h1, h2⟩
  cases hs with
  | blanks hw => exact ⟨s, [], .inl rfl, hw, by intro c hc; cases hc⟩
  | @fold w w' hw hw' hne => exact ⟨w, w', .inr ⟨rfl, hne⟩, hw, hw'⟩

theorem number_sws {v ds : Bytes} (h : NumberText v ds) : NumText v ds := by
  obtain ⟨⟨w, w', h | ⟨h, hne⟩, hw, hw'⟩, h1, h2⟩ := h
  · exact ⟨w, h, .blanks hw, h1, h2⟩
  · exact ⟨w ++ CRLF ++ w', h, .fold hw hw' hne, h1, h2⟩

theorem line_clen {n w v : Bytes} {us : List Upd} (x : Core) (hn : IsName n) (hw : Blanks w) (hv : LogicalLine v)
    (hh : headerOf n = some .contentLength) (h : Line (headerLine n w v) us) :
    ∃ ds, NumberText v ds ∧ (apps x us).clen = wrap64 (decVal ds) := by
  obtain ⟨d, ds, h1, rfl⟩ := (line_num hn hw hv hh rfl).1 h
  refine ⟨d :: ds, sws_number h1, ?_⟩
  obtain ⟨_, _, _, _, hd⟩ := h1
  rw [← dec64_digits d ds hd, apps_append, numUpd_clen]
  congr 1
  simp only [numUpd]
  split <;> rfl

/-- The digits are determined by the text. -/
theorem line_clen' {n w v ds : Bytes} {us : List Upd} (x : Core) (hn : IsName n) (hw : Blanks w) (hv : LogicalLine v)
    (hh : headerOf n = some .contentLength) (h : Line (headerLine n w v) us) (hd : NumberText v ds) :
    (apps x us).clen = wrap64 (decVal ds) := by
  have hd' := number_sws hd
  cases ds with
  | nil => exact absurd rfl hd.2.1
  | cons d ds =>
    have h2 := (line_num hn hw hv hh rfl).2 ⟨d, ds, hd', rfl⟩
    rw [Line.det h h2, ← dec64_digits d ds hd.2.2, apps_append, numUpd_clen]
    congr 1
    simp only [numUpd]
    split <;> rfl

/-- The declared length. -/
theorem reads_clen {ls : List Bytes} {us : List Upd} (x : Core) (hl : ∀ L ∈ ls, HeaderLine L) (h : Reads ls us) :
    (NoHeader .contentLength ls → (apps x us).clen = x.clen) ∧
    ∀ v, LastHeader .contentLength ls v → (∃ ds, NumberText v ds) ∧
      ∀ ds, NumberText v ds → (apps x us).clen = wrap64 (decVal ds) := by
  have keep : ∀ {ls us x}, (∀ L ∈ ls, HeaderLine L) → Reads ls us → NoHeader .contentLength ls →
      (apps x us).clen = x.clen := by
    intro ls us x hl h hno
    refine reads_keep (f := fun y => y.clen) (Q := fun n => headerOf n ≠ some .contentLength)
      (fun n u x hn hu => keep_clen hn hu) hl ?_ h
    intro n w v hm hn hw e
    exact hno _ hm ⟨n, w, v, rfl, hn, hw, e⟩
  refine ⟨keep hl h, ?_⟩
  rintro v ⟨pre, post, n, w, rfl, hn, hw, hh, hno⟩
  obtain ⟨u1, u', rfl, _, h2⟩ := reads_append.1 h
  obtain ⟨u2, u3, rfl, h3, h4⟩ := reads_cons.1 h2
  have hL := hl (headerLine n w v) (by simp)
  have hv := (headerLine_line hn hw).1 hL
  obtain ⟨ds, g1, _⟩ := line_clen (apps x u1) hn hw hv hh h3
  refine ⟨⟨ds, g1⟩, ?_⟩
  intro ds hd
  rw [apps_append, apps_append, keep (fun L hL => hl L (by simp [hL])) h4 hno, line_clen' _ hn hw hv hh h3 hd]

/-- The declared type. -/
theorem reads_ctype {ls : List Bytes} {us : List Upd} (x : Core) (hl : ∀ L ∈ ls, HeaderLine L) (h : Reads ls us) :
    (NoHeader .contentType ls → (apps x us).ctype = x.ctype) ∧
    ∀ v, LastHeader .contentType ls v → ∃ t, MediaType v t ∧ (apps x us).ctype = t := by
  have keep : ∀ {ls us x}, (∀ L ∈ ls, HeaderLine L) → Reads ls us → NoHeader .contentType ls →
      (apps x us).ctype = x.ctype := by
    intro ls us x hl h hno
    refine reads_keep (f := fun y => y.ctype) (Q := fun n => headerOf n ≠ some .contentType)
      (fun n u x hn hu => keep_ctype hn hu) hl ?_ h
    intro n w v hm hn hw e
    exact hno _ hm ⟨n, w, v, rfl, hn, hw, e⟩
  refine ⟨keep hl h, ?_⟩
  rintro v ⟨pre, post, n, w, rfl, hn, hw, hh, hno⟩
  obtain ⟨u1, u', rfl, _, h2⟩ := reads_append.1 h
  obtain ⟨u2, u3, rfl, h3, h4⟩ := reads_cons.1 h2
  have hL := hl (headerLine n w v) (by simp)
  obtain ⟨a, b, r, g1, g2, g3, g4, g5, rfl⟩ := line_ctype hn hw ((headerLine_line hn hw).1 hL) hh h3
  refine ⟨a ++ b!"/" ++ b, ⟨a, b, r, g1, g2, g3, g4, g5, rfl⟩, ?_⟩
  rw [apps_append, apps_append, keep (fun L hL => hl L (by simp [hL])) h4 hno]
  rfl

/-- The result of a Content-Length line in terms of its number. -/
def putLength (w : Bytes) (y : Int) (x : Core) : Core :=
  if w = b!"l" then
    { x with clen := y, msg := { x.msg with expires := y, maxForwards := y, minExpires := y } }
  else { x with clen := y }

theorem numUpd_l (x : Core) (ds : Bytes) : apps x (ds.flatMap (numUpd .contentLength b!"l").2) =
    { x with
      clen := ds.foldl dec64 x.clen
      msg := { x.msg with
        expires := ds.foldl dec64 x.msg.expires
        maxForwards := ds.foldl dec64 x.msg.maxForwards
        minExpires := ds.foldl dec64 x.msg.minExpires } } := by
  induction ds generalizing x with
  | nil => rfl
  | cons d ds ih =>
    rw [List.flatMap_cons, apps_append, ih]
    simp only [numUpd, if_true, apps, List.foldl_cons, List.foldl_nil, Upd.app]

theorem numUpd_long (x : Core) (ds : Bytes) {w : Bytes} (hw : w ≠ b!"l") :
    apps x (ds.flatMap (numUpd .contentLength w).2) = { x with clen := ds.foldl dec64 x.clen } := by
  induction ds generalizing x with
  | nil => rfl
  | cons d ds ih => rw [List.flatMap_cons, apps_append, ih]; simp only [numUpd, if_neg hw, apps, List.foldl_cons, List.foldl_nil, Upd.app]

theorem numUpd_put (x : Core) (w : Bytes) (d : UInt8) (ds : Bytes) (hd : ∀ c ∈ d :: ds, isDigit c = true) :
    apps x ((numUpd .contentLength w).1 d ++ ds.flatMap (numUpd .contentLength w).2) =
      putLength w (wrap64 (decVal (d :: ds))) x := by
  rw [apps_append, ← dec64_digits d ds hd]
  by_cases hw : w = b!"l"
  · subst hw
    rw [numUpd_l, putLength, if_pos rfl]
    simp only [numUpd, if_true, apps, List.foldl_cons, List.foldl_nil, Upd.app]
  · rw [numUpd_long _ _ hw, putLength, if_neg hw]
    simp only [numUpd, if_neg hw, apps, List.foldl_cons, List.foldl_nil, Upd.app]

/-- A Content-Length line. -/
theorem line_length {n w v : Bytes} (hn : IsName n) (hw : Blanks w) (hv : LogicalLine v)
    (hh : headerOf n = some .contentLength) :
    (∀ us, Line (headerLine n w v) us → ∃ ds, NumberText v ds) ∧
    ∀ ds, NumberText v ds → ∃ us, Line (headerLine n w v) us ∧
      ∀ x, apps x us = putLength (n.map lower) (wrap64 (decVal ds)) x := by
  constructor
  · intro us h
    obtain ⟨d, ds, h1, _⟩ := (line_num hn hw hv hh rfl).1 h
    exact ⟨_, sws_number h1⟩
  · intro ds hd
    cases ds with
    | nil => exact absurd rfl hd.2.1
    | cons d ds =>
      exact ⟨_, (line_num hn hw hv hh rfl).2 ⟨d, ds, number_sws hd, rfl⟩, fun x => numUpd_put x _ d ds hd.2.2⟩

theorem span_unique {p : UInt8 → Prop} {a b x y : Bytes} (ha : ∀ c ∈ a, p c) (hb : ∀ c ∈ b, p c)
    (hx : ∀ c t, x = c :: t → ¬ p c) (hy : ∀ c t, y = c :: t → ¬ p c) (e : a ++ x = b ++ y) : a = b ∧ x = y := by
  induction a generalizing b with
  | nil =>
    cases b with
    | nil => exact ⟨rfl, e⟩
    | cons c b => exact absurd (hb c List.mem_cons_self) (hx c (b ++ y) e)
  | cons c a ih =>
    cases b with
    | nil => exact absurd (ha c List.mem_cons_self) (hy c (a ++ x) e.symm)
    | cons d b =>
      simp only [List.cons_append, List.cons.injEq] at e
      obtain ⟨rfl, e⟩ := e
      obtain ⟨rfl, h⟩ := ih (fun c hc => ha c (List.mem_cons_of_mem _ hc)) (fun c hc => hb c (List.mem_cons_of_mem _ hc)) e
      exact ⟨rfl, h⟩

/-- The parts of a header line are determined by it. -/
theorem headerLine_inj {n w v n' w' v' : Bytes} (hn : IsName n) (hw : Blanks w) (hn' : IsName n') (hw' : Blanks w')
    (e : headerLine n w v = headerLine n' w' v') : n = n' ∧ w = w' ∧ v = v' := by
  unfold headerLine at e
  simp only [List.append_assoc] at e
  have nt : ∀ {w : Bytes}, Blanks w → ∀ (v : Bytes) c t, w ++ (b!":" ++ v) = c :: t → ¬ token c := by
    intro w hw v c t e ht
    obtain ⟨_, h1, h2, h3⟩ := token_ne13 ht
    cases w with
    | nil => exact h3 (by simpa using (congrArg List.head? e).symm)
    | cons d w =>
      obtain ⟨rfl, _⟩ := List.cons.inj e
      rcases hw d List.mem_cons_self with h | h
      · exact h1 h
      · exact h2 h
  obtain ⟨rfl, e2⟩ := span_unique hn.2 hn'.2 (nt hw v) (nt hw' v') e
  have nb : ∀ (v : Bytes) c t, b!":" ++ v = c :: t → ¬ (c = 32 ∨ c = 9) := by
    intro v c t e
    have : c = 58 := by simpa using (congrArg List.head? e).symm
    rw [this]; decide
  obtain ⟨rfl, e3⟩ := span_unique (p := fun c => c = 32 ∨ c = 9) hw hw' (nb v) (nb v') e2
  exact ⟨rfl, rfl, List.append_cancel_left e3⟩

/-- The last line of a header, if there is one. -/
theorem last_header (h : Header) (ls : List Bytes) : NoHeader h ls ∨ ∃ v, LastHeader h ls v := by
  induction ls with
  | nil => exact .inl (by intro L hL; cases hL)
  | cons L ls ih =>
    rcases ih with ih | ⟨v, pre, post, n, w, rfl, h1⟩
    · by_cases hL : IsHeader h L
      · obtain ⟨n, w, v, rfl, h1, h2, h3⟩ := hL
        exact .inr ⟨v, [], ls, n, w, rfl, h1, h2, h3, ih⟩
      · refine .inl ?_
        intro M hM
        rcases List.mem_cons.1 hM with rfl | hM
        · exact hL
        · exact ih M hM
    · exact .inr ⟨v, L :: pre, post, n, w, rfl, h1⟩

end Gosip.Sip.MsgM
