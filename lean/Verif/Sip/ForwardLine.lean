import Verif.Sip.ForwardVia
import Verif.Sip.ForwardAddr
import Verif.Sip.Split

/-!
# Header lines written by the library
-/

namespace Gosip.Sip.MsgM
open Spec

/-! ### Texts in which lines break only to be continued -/

/-- CR only before LF and a blank. -/
inductive Flat : Bytes → Prop
  | nil : Flat []
  | char {c : UInt8} {s : Bytes} : c ≠ 13 → Flat s → Flat (c :: s)
  | fold {w : UInt8} {s : Bytes} : wsp w → Flat s → Flat (13 :: 10 :: w :: s)

theorem Flat.append {a b : Bytes} (h : Flat a) (g : Flat b) : Flat (a ++ b) := by
  induction h with
  | nil => exact g
  | char h1 _ ih => exact .char h1 ih
  | fold h1 _ ih => exact .fold h1 ih

theorem Flat.plain {a : Bytes} (h : ∀ c ∈ a, c ≠ 13) : Flat a := by
  induction a with
  | nil => exact .nil
  | cons c a ih => exact .char (h c List.mem_cons_self) (ih fun d hd => h d (List.mem_cons_of_mem _ hd))

theorem Flat.tokens {a : Bytes} (h : ∀ c ∈ a, token c) : Flat a := .plain fun c hc => tok_ne (h c hc)

theorem Flat.lit {a : Bytes} (h : (a.all fun c => c != 13) = true) : Flat a :=
  .plain fun c hc => by simpa using List.all_eq_true.1 h c hc

theorem Flat.logical {a : Bytes} (h : Flat a) : LogicalLine a := by
  induction h with
  | nil =>
    intro x y e
    have hl := congrArg List.length e
    simp [CRLF] at hl
    exact .inl (List.length_eq_zero_iff.1 (by omega))
  | @char c s hc _ ih =>
    exact (logical_append (p := [c]) (by
      intro d hd
      rw [List.mem_singleton] at hd
      subst hd
      exact hc)).2 ih
  | @fold w s hw _ ih =>
    have h' : LogicalLine ([w] ++ s) := (logical_append (by
      intro d hd
      rw [List.mem_singleton] at hd
      subst hd
      rcases hw with rfl | rfl <;> decide)).2 ih
    intro x y e
    match x with
    | [] =>
      have e := List.append_cancel_left (as := CRLF) (bs := w :: s ++ CRLF) (cs := y) (by simpa [CRLF] using e)
      exact .inr ⟨w, s ++ CRLF, e.symm, hw⟩
    | [a] => simp [CRLF] at e
    | a :: b :: x =>
      simp only [CRLF, List.cons_append, List.cons.injEq] at e
      exact h' x y (by simpa [CRLF] using e.2.2)

theorem Flat.quoteLoop {v : Bytes} (h : Quotable v) : Flat (quoteLoop v) := by
  induction h with
  | nil => exact .nil
  | @char c v hc h13 h10 _ ih =>
    cases hq : qdtextc c with
    | true =>
      have e : Sip.quoteLoop (c :: v) = c :: Sip.quoteLoop v := by
        rw [Sip.quoteLoop, if_pos hq, if_neg (by simp [h13])]
      rw [e]
      exact .char h13 ih
    | false =>
      obtain ⟨q1', q2'⟩ := quotable_esc c hc h13 h10 hq
      have e : Sip.quoteLoop (c :: v) = 92 :: c :: Sip.quoteLoop v := by
        rw [Sip.quoteLoop, if_neg (by simp [hq]), if_neg (by simp [q1'])]
      rw [e]
      exact .char (by decide) (.char h13 ih)
  | @fold w v hw _ ih =>
    have hww : w = 32 ∨ w = 9 := hw
    have hq : qdtextc w = true := by rcases hww with rfl | rfl <;> decide
    have h13 : w ≠ 13 := by rcases hww with rfl | rfl <;> decide
    have e : Sip.quoteLoop (13 :: 10 :: w :: v) = 13 :: 10 :: w :: Sip.quoteLoop v := by
      rw [Sip.quoteLoop, if_pos (by decide), if_neg (by
        rintro ⟨_, h⟩
        rw [show foldAhead (10 :: w :: v) = true from (foldAhead_iff _).2 ⟨w, v, rfl, hww⟩] at h
        cases h), (quoteLoop_fold w v hww).1]
    rw [e]
    exact .fold hw ih

theorem Flat.needs {v : Bytes} (h : Quotable v) (g : NeedsQuotes v) : Flat (quoted v) := by
  rw [quoted_needs g]
  exact .char (by decide) ((Flat.quoteLoop h).append (.lit (by decide)))

theorem Flat.params {l : Pairs} (h : ParamOK l) : Flat (paramText l) := by
  induction l with
  | nil => exact .nil
  | cons p l ih =>
    obtain ⟨hn, hv⟩ := h p List.mem_cons_self
    rw [paramText_cons hn.2]
    refine ((ih fun q hq => h q (List.mem_cons_of_mem _ hq)).append (.lit (by decide))).append ?_
    unfold pairText
    refine (Flat.tokens hn.2).append ?_
    split
    · refine (Flat.lit (by decide)).append ?_
      rcases hv with h | ⟨h1, h2⟩
      · rw [quoted_token h]; exact .tokens h
      · exact .needs h1 h2
    · exact .nil

theorem uric_ne : ∀ c : UInt8, uric c → c ≠ 13 := by decide +kernel
theorem schemec_ne : ∀ c : UInt8, schemec c → c ≠ 13 ∧ c ≠ 32 ∧ uric c := by decide +kernel
theorem alpha_ne : ∀ c : UInt8, isAlpha c → c ≠ 13 ∧ c ≠ 32 ∧ uric c := by decide +kernel

theorem uri_uric {t : Bytes} {u : URI} (h : URIText t u) : t ≠ [] ∧ ∀ c ∈ t, uric c := by
  obtain ⟨c, s, r, rfl, h1, h2, h3, h4⟩ := uri_shape h
  refine ⟨by simp, ?_⟩
  intro d hd
  rcases List.mem_append.1 hd with hd | hd
  · rcases List.mem_cons.1 hd with rfl | hd
    · exact (alpha_ne d h1).2.2
    · exact (schemec_ne d (h2 d hd)).2.2
  · rcases List.mem_cons.1 hd with rfl | hd
    · decide
    · exact h4 d hd

theorem Flat.uri {t : Bytes} {u : URI} (h : URIText t u) : Flat t := .plain fun c hc => uric_ne c ((uri_uric h).2 c hc)

theorem Flat.addr {a : Addr} (h : AddrOK a) : Flat a.text := by
  obtain ⟨⟨u, hu, ht⟩, hd, hp⟩ := h
  unfold Addr.text
  rw [hu]
  refine (((Flat.append ?_ (.lit (by decide))).append (.uri ht)).append (.lit (by decide))).append (.params hp)
  split
  · refine Flat.append ?_ (.lit (by decide))
    rcases hd with ⟨h1, _, _⟩ | ⟨h1, h2⟩
    · rw [quoted_words h1]
      refine .plain ?_
      intro c hc
      rcases h1 c hc with h | rfl
      · exact tok_ne h
      · decide
    · exact .needs h1 h2
  · exact .nil

theorem Flat.addrs {as : List Addr} (h : ∀ a ∈ as, AddrOK a) : Flat (addrsText as) := by
  induction as with
  | nil => exact .nil
  | cons a as ih =>
    cases as with
    | nil => exact .addr (h a List.mem_cons_self)
    | cons b bs =>
      exact ((Flat.addr (h a List.mem_cons_self)).append (.lit (by decide))).append
        (ih fun x hx => h x (List.mem_cons_of_mem _ hx))

theorem digits_ne {ds : Bytes} (h : ∀ c ∈ ds, isDigit c = true) : ∀ c ∈ ds, c ≠ 13 := by
  have : ∀ c : UInt8, isDigit c = true → c ≠ 13 := by decide +kernel
  exact fun c hc => this c (h c hc)

theorem Flat.natDec (n : Nat) : Flat (natDec n) := .plain (digits_ne (natDec_isDigit n))

theorem Flat.viaParts {v : Via} (h1 : ∀ c ∈ v.protocol, token c) (h2 : ∀ c ∈ v.version, token c) (h3 : ∀ c ∈ v.transport, token c)
    (h5 : ∀ c ∈ v.host, c ≠ 13) (h6 : Flat (paramText v.param)) : Flat v.text := by
  unfold Via.text
  refine (((((Flat.append ?_ ?_).append ?_).append (.plain h5)).append ?_).append h6)
  · split
    · exact .lit (by decide)
    · exact (Flat.tokens h1).append (.lit (by decide))
  · split
    · exact .lit (by decide)
    · exact (Flat.tokens h2).append (.lit (by decide))
  · split
    · exact .lit (by decide)
    · exact (Flat.tokens h3).append (.lit (by decide))
  · split
    · rw [itoa_nat]; exact (Flat.lit (by decide)).append (.natDec _)
    · exact .nil

theorem Flat.via {v : Via} (h : ViaOK v) : Flat v.text := by
  have hh : ∀ c : UInt8, viaHostc c → c ≠ 13 := by decide +kernel
  exact .viaParts h.protocol h.version h.transport (fun c hc => hh c (h.hostc c hc)) (.params h.param)

/-! ### Lines -/

/-- A line of a header, as the library writes it. -/
theorem line_ok {n v : Bytes} (hn : IsName n) (hv : Flat v) : HeaderLine (headerLine n [] (32 :: v)) :=
  (headerLine_line hn (by intro c hc; cases hc)).2 (Flat.char (by decide) hv).logical

theorem no_blanks : Blanks [] := by intro c hc; cases hc

theorem line_via {n : Bytes} {v : Via} (hn : IsName n) (hh : headerOf n = some .via) (hv : ViaOK v) :
    HeaderLine (headerLine n [] (32 :: v.text)) ∧ Line (headerLine n [] (32 :: v.text)) [.via (viaRead v)] :=
  ⟨line_ok hn (.via hv), (line_known hn no_blanks hh).2 (via_acc hv _)⟩

/-- A host with two colons cannot be read. -/
theorem line_via_colons {n : Bytes} {v : Via} (hn : IsName n) (hh : headerOf n = some .via)
    (h1 : ∀ c ∈ v.protocol, token c) (h2 : ∀ c ∈ v.version, token c) (h3 : ∀ c ∈ v.transport, token c)
    (h4 : ∀ c ∈ v.host, ip6c c) (h5 : 2 ≤ v.host.count 58) (us : List Upd) : ¬ Line (headerLine n [] (32 :: v.text)) us := by
  intro h
  have h := (line_known hn no_blanks hh).1 h
  exact (host_colons v.host h4).2 h5 111 (.inl rfl) ((acc_run_nil (via_prefix h1 h2 h3 (nameLoc .via))).1 h)

theorem line_addrs {n : Bytes} {f : AField} {as : List Addr} (hn : IsName n) (hh : headerOf n = some (.address f))
    (h0 : as ≠ []) (ha : ∀ a ∈ as, AddrOK a) :
    HeaderLine (headerLine n [] (32 :: addrsText as)) ∧ Line (headerLine n [] (32 :: addrsText as)) (as.map (.addr f)) :=
  ⟨line_ok hn (.addrs ha), (line_known hn no_blanks hh).2 (addr_acc ha h0 rfl)⟩

theorem Flat.value {v : Bytes} (h : ValueText v) : Flat v := by
  induction h with
  | nil => exact .nil
  | @char c t hc ht ih => exact .char (by rintro rfl; exact absurd hc (by decide)) ih
  | @utf8 c s t hc hs ht ih =>
    refine Flat.append (.plain ?_) ih
    intro d hd
    rcases List.mem_cons.1 hd with rfl | hd
    · rintro rfl; cases hc
    · rintro rfl
      exact absurd (hs 13 hd) (by unfold utf8Cont; decide)
  | @fold w t hw ht ih => exact .fold (blank_iff'.1 hw) ih

theorem skipWs_space (v : Bytes) : skipWs (32 :: v) = skipWs v := by
  unfold skipWs
  rw [skipBlanks_cons (by decide)]

theorem line_value {n v : Bytes} {f : SField} (hn : IsName n) (hh : headerOf n = some (.text f)) (hv : TextOK v) :
    HeaderLine (headerLine n [] (32 :: v)) ∧ Line (headerLine n [] (32 :: v)) [.hdr f v] := by
  refine ⟨line_ok hn (.value hv.1), (line_text hn no_blanks (Flat.char (by decide) (.value hv.1)).logical hh).2 ?_⟩
  rw [skipWs_space, hv.2]
  exact ⟨hv.1, rfl⟩

theorem line_extension {n v : Bytes} (hn : IsName n) (hh : headerOf n = none) (hs : ¬ StubName n) (hv : TextOK v) :
    HeaderLine (headerLine n [] (32 :: v)) ∧ Line (headerLine n [] (32 :: v)) [.xheader n v] := by
  refine ⟨line_ok hn (.value hv.1), (line_ext hn no_blanks (Flat.char (by decide) (.value hv.1)).logical hh hs).2 ?_⟩
  rw [skipWs_space, hv.2]
  exact ⟨hv.1, rfl⟩

/-- The assignments for a number. -/
def numUs (e0 e1 : UInt8 → List Upd) (n : Nat) : List Upd :=
  match natDec n with
  | [] => []
  | d :: ds => e0 d ++ ds.flatMap e1

theorem line_number {n : Bytes} {h : Header} {k : Nat} (hn : IsName n) (hh : headerOf n = some h) (hnum : numeric h = true) :
    HeaderLine (headerLine n [] (32 :: natDec k)) ∧
      Line (headerLine n [] (32 :: natDec k)) (numUs (numUpd h (n.map lower)).1 (numUpd h (n.map lower)).2 k) := by
  refine ⟨line_ok hn (.natDec k), (line_num hn no_blanks (Flat.char (by decide) (.natDec k)).logical hh hnum).2 ?_⟩
  have hd := natDec_isDigit k
  unfold numUs
  cases e : natDec k with
  | nil => exact absurd e (natDec_ne_nil k)
  | cons d ds =>
    rw [e] at hd
    exact ⟨d, ds, ⟨[32], rfl, .blanks (by intro c hc; simp at hc; exact .inl hc), by simp, hd⟩, rfl⟩

/-! ### Call-ID, CSeq and Content-Type -/

theorem line_callID {n v : Bytes} (hn : IsName n) (hh : headerOf n = some .callID) (hv : CallIDText v) :
    HeaderLine (headerLine n [] (32 :: v)) ∧ Line (headerLine n [] (32 :: v)) [.callID v] := by
  have tab : (∀ c : UInt8, wordc c → c ≠ 13 ∧ rowAt 377 c.toNat = some ([.mark], 378) ∧
      rowAt 378 c.toNat = some ([], 378) ∧ rowAt 379 c.toNat = some ([], 380) ∧ rowAt 380 c.toNat = some ([], 380)) := by decide +kernel
  have t2 : rowAt 377 32 = some ([], 377) ∧ rowAt 378 64 = some ([], 379) ∧ wide 378 = true ∧ wide 380 = true ∧
      rowAt 378 269 = some ([.callID], 381) ∧ rowAt 380 269 = some ([.callID], 381) ∧ rowAt 381 10 = some ([], 280) := by
    decide +kernel
  obtain ⟨r1, r2, w1, w2, r3, r4, r5⟩ := t2
  obtain ⟨a, b, h0, ha, hb⟩ := hv
  have h13 : ∀ c ∈ v, c ≠ 13 := by
    intro c hc
    rcases hb with rfl | ⟨rfl, _, hb⟩
    · exact (tab c (ha c hc)).1
    · rcases List.mem_append.1 hc with hc | hc
      · exact (tab c (ha c hc)).1
      · rcases List.mem_cons.1 hc with rfl | hc
        · decide
        · exact (tab c (hb c hc)).1
  refine ⟨line_ok hn (.plain h13), (line_known hn no_blanks hh).2 ?_⟩
  show Acc 377 _ (32 :: (v ++ CRLF)) _
  refine (acc_run_nil (eat (c := 32) (by decide) r1 rfl rfl)).2 ?_
  generalize hl : ({ seg := ({} : Loc).seg ++ [32] } : Loc) = l
  have hfirst : ∀ tl, SRun ⟨377, l, a ++ tl⟩ [] ⟨378, { l with seg := a }, tl⟩ := by
    intro tl
    cases a with
    | nil => exact absurd rfl h0
    | cons c a =>
      have a1 := eat (l := l) (tl := a ++ tl) (tab c (ha c List.mem_cons_self)).1 (tab c (ha c List.mem_cons_self)).2.1 rfl rfl
      have a2 := loop_run (k := 378) (l := { l with seg := [c] }) (s := a) (tl := tl) fun x hx =>
        ⟨(tab x (ha x (List.mem_cons_of_mem _ hx))).1, (tab x (ha x (List.mem_cons_of_mem _ hx))).2.2.1⟩
      exact a1.trans a2
  have e : ({ (nameLoc Header.callID) with seg := (nameLoc Header.callID).seg ++ [32] } : Loc) = l := hl
  rw [e]
  rcases hb with rfl | ⟨rfl, h1, hb⟩
  · exact (acc_run_nil (hfirst CRLF)).2 (lineEnd (u := [.callID v]) (v := []) w1 r3 rfl rfl r5 rfl rfl)
  · cases b with
    | nil => exact absurd rfl h1
    | cons d b =>
      have a3 := eat (l := { l with seg := a }) (c := 64) (tl := d :: b ++ CRLF) (by decide) r2 rfl rfl
      have a4 := eat (l := { l with seg := a ++ [64] }) (tl := b ++ CRLF) (tab d (hb d List.mem_cons_self)).1 (tab d (hb d List.mem_cons_self)).2.2.2.1 rfl rfl
      have a5 := loop_run (k := 380) (l := { l with seg := a ++ [64] ++ [d] }) (s := b) (tl := CRLF) fun x hx =>
        ⟨(tab x (hb x (List.mem_cons_of_mem _ hx))).1, (tab x (hb x (List.mem_cons_of_mem _ hx))).2.2.2.2⟩
      have s := (hfirst (64 :: (d :: b ++ CRLF))).trans (a3.trans (a4.trans a5))
      have := (acc_run_nil s).2 (lineEnd (u := [.callID (a ++ [64] ++ [d] ++ b)]) (v := []) w2 r4 rfl rfl r5 rfl rfl)
      simpa using this

theorem line_cseq {n m : Bytes} {k : Nat} (hn : IsName n) (hh : headerOf n = some .cseq) (hm : IsToken m) :
    HeaderLine (headerLine n [] (32 :: (natDec k ++ 32 :: m))) ∧
      Line (headerLine n [] (32 :: (natDec k ++ 32 :: m))) ((natDec k).map .cseq ++ [.cseqMethod m]) := by
  have t0 : ∀ c : UInt8, isDigit c = true → c ≠ 13 ∧ rowAt 449 c.toNat = some ([.cseq], 450) ∧
      rowAt 450 c.toNat = some ([.cseq], 450) := by decide +kernel
  have t1 : ∀ c : UInt8, token c → rowAt 451 c.toNat = some ([.mark], 452) ∧ rowAt 452 c.toNat = some ([], 452) := by decide +kernel
  have t2 : rowAt 449 32 = some ([], 449) ∧ rowAt 450 32 = some ([], 451) ∧ wide 452 = true ∧
      rowAt 452 269 = some ([.cseqMethod], 381) ∧ rowAt 381 10 = some ([], 280) := by decide +kernel
  obtain ⟨r1, r2, w, r3, r4⟩ := t2
  refine ⟨line_ok hn ((Flat.natDec k).append (.char (by decide) (.tokens hm.2))), (line_known hn no_blanks hh).2 ?_⟩
  show Acc 449 _ (32 :: (natDec k ++ 32 :: m ++ CRLF)) _
  refine (acc_run_nil (eat (c := 32) (by decide) r1 rfl rfl)).2 ?_
  have hd := natDec_isDigit k
  have loop : ∀ ds : Bytes, (∀ c ∈ ds, isDigit c = true) → ∀ (l : Loc) (tl : Bytes),
      SRun ⟨450, l, ds ++ tl⟩ (ds.map .cseq) ⟨450, { l with seg := l.seg ++ ds }, tl⟩ := by
    intro ds
    induction ds with
    | nil => intro _ l tl; simpa using SRun.refl _
    | cons c ds ih =>
      intro h l tl
      have hc := t0 c (h c List.mem_cons_self)
      have := (eat (l := l) (tl := ds ++ tl) hc.1 hc.2.2 rfl rfl).trans (ih (fun x hx => h x (List.mem_cons_of_mem _ hx)) { l with seg := l.seg ++ [c] } tl)
      simpa using this
  obtain ⟨hm0, hm⟩ := hm
  cases m with
  | nil => exact absurd rfl hm0
  | cons c m =>
    have hc := hm c List.mem_cons_self
    have tail : ∀ l : Loc, Acc 450 l (32 :: c :: m ++ CRLF) [.cseqMethod (c :: m)] := by
      intro l
      have a1 := eat (l := l) (c := 32) (tl := c :: m ++ CRLF) (by decide) r2 rfl rfl
      have a2 := eat (l := { l with seg := l.seg ++ [32] }) (tl := m ++ CRLF) (tok_ne hc) (t1 c hc).1 rfl rfl
      have a3 := loop_run (k := 452) (l := { l with seg := [c] }) (s := m) (tl := CRLF) fun x hx =>
        ⟨tok_ne (hm x (List.mem_cons_of_mem _ hx)), (t1 x (hm x (List.mem_cons_of_mem _ hx))).2⟩
      exact (acc_run_nil (a1.trans (a2.trans a3))).2 (lineEnd (u := [.cseqMethod (c :: m)]) (v := []) w r3 rfl rfl r4 rfl rfl)
    cases e : natDec k with
    | nil => exact absurd e (natDec_ne_nil k)
    | cons d ds =>
      rw [e] at hd
      have b1 := eat (l := { (nameLoc Header.cseq) with seg := (nameLoc Header.cseq).seg ++ [32] }) (tl := ds ++ 32 :: c :: m ++ CRLF)
        (t0 d (hd d List.mem_cons_self)).1 (t0 d (hd d List.mem_cons_self)).2.1 rfl rfl
      have b2 := loop ds (fun x hx => hd x (List.mem_cons_of_mem _ hx)) { (nameLoc Header.cseq) with seg := (nameLoc Header.cseq).seg ++ [32] ++ [d] } (32 :: c :: m ++ CRLF)
      have s := b1.trans (by simpa using b2)
      refine (acc_run (a := .cseq d :: ds.map .cseq) (by simpa using s)).2 ⟨[.cseqMethod (c :: m)], by simp, tail _⟩

theorem line_contentType {n v : Bytes} (hn : IsName n) (hh : headerOf n = some .contentType) (hv : TypeText v) :
    HeaderLine (headerLine n [] (32 :: v)) ∧ Line (headerLine n [] (32 :: v)) [.ctype v] := by
  have s0 : ∀ c : UInt8, token c → rowAt 366 c.toNat = some ([.hold], 34) ∧ rowAt 34 c.toNat = some ([.mark], 35) ∧
      rowAt 35 c.toNat = some ([], 35) := by decide +kernel
  have s1 : ∀ c : UInt8, token c → rowAt 36 c.toNat = some ([], 37) ∧ rowAt 37 c.toNat = some ([], 37) := by decide +kernel
  have t0 := fun c hc => And.intro (s0 c hc).1 (And.intro (s0 c hc).2.1 (And.intro (s0 c hc).2.2 (s1 c hc)))
  have t2 : rowAt 366 32 = some ([], 366) ∧ rowAt 35 47 = some ([], 36) ∧ wide 37 = true ∧
      rowAt 37 269 = some ([.contentType], 44) ∧ rowAt 44 10 = some ([], 280) := by decide +kernel
  obtain ⟨r1, r2, w, r3, r4⟩ := t2
  obtain ⟨a, b, rfl, ⟨ha0, ha⟩, ⟨hb0, hb⟩⟩ := hv
  refine ⟨line_ok hn ((Flat.tokens ha).append (.char (by decide) (.tokens hb))), (line_known hn no_blanks hh).2 ?_⟩
  show Acc 366 _ (32 :: (a ++ 47 :: b ++ CRLF)) _
  refine (acc_run_nil (eat (c := 32) (by decide) r1 rfl rfl)).2 ?_
  generalize ({ (nameLoc Header.contentType) with seg := (nameLoc Header.contentType).seg ++ [32] } : Loc) = l
  cases a with
  | nil => exact absurd rfl ha0
  | cons c a =>
    cases b with
    | nil => exact absurd rfl hb0
    | cons d b =>
      have hc := ha c List.mem_cons_self
      have hd := hb d List.mem_cons_self
      have a0 := stay (l := l) (tl := a ++ 47 :: d :: b ++ CRLF) (tok_ne hc) (t0 c hc).1 rfl rfl
      have a1 := eat (l := l) (tl := a ++ 47 :: d :: b ++ CRLF) (tok_ne hc) (t0 c hc).2.1 rfl rfl
      have a2 := loop_run (k := 35) (l := { l with seg := [c] }) (s := a) (tl := 47 :: d :: b ++ CRLF) fun x hx =>
        ⟨tok_ne (ha x (List.mem_cons_of_mem _ hx)), (t0 x (ha x (List.mem_cons_of_mem _ hx))).2.2.1⟩
      have a3 := eat (l := { l with seg := [c] ++ a }) (c := 47) (tl := d :: b ++ CRLF) (by decide) r2 rfl rfl
      have a4 := eat (l := { l with seg := [c] ++ a ++ [47] }) (tl := b ++ CRLF) (tok_ne hd) (t0 d hd).2.2.2.1 rfl rfl
      have a5 := loop_run (k := 37) (l := { l with seg := [c] ++ a ++ [47] ++ [d] }) (s := b) (tl := CRLF) fun x hx =>
        ⟨tok_ne (hb x (List.mem_cons_of_mem _ hx)), (t0 x (hb x (List.mem_cons_of_mem _ hx))).2.2.2.2⟩
      have s := (a0.trans a1).trans ((by simpa using a2 : SRun _ [] _).trans (a3.trans (a4.trans a5)))
      have := (acc_run_nil s).2 (lineEnd (u := [.ctype ([c] ++ a ++ [47] ++ [d] ++ b)]) (v := []) w r3 rfl rfl r4 rfl rfl)
      simpa using this

end Gosip.Sip.MsgM
