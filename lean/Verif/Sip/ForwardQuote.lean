import Verif.Sip.ForwardLine

/-!
# What the parser makes of any parameter value and any display name written by the library
-/

namespace Gosip.Sip.MsgM
open Spec

theorem acc_det {k : Nat} {l : Loc} {inp : Bytes} {us vs : List Upd} (h : Acc k l inp us) (g : Acc k l inp vs) : us = vs := by
  obtain ⟨_, h⟩ := h
  obtain ⟨_, g⟩ := g
  exact (h.det280 g).1

/-! ### Quoting -/

theorem quote_char {c : UInt8} (hc : c.toNat < 128) (h13 : c ≠ 13) (h10 : c ≠ 10) :
    ∃ pre, ∀ s, quoteLoop (c :: s) = pre ++ quoteLoop s := by
  cases hq : qdtextc c with
  | true => exact ⟨[c], fun s => by rw [quoteLoop, if_pos hq, if_neg (by simp [h13])]; rfl⟩
  | false =>
    obtain ⟨q1', q2'⟩ := quotable_esc c hc h13 h10 hq
    exact ⟨[92, c], fun s => by rw [quoteLoop, if_neg (by simp [hq]), if_neg (by simp [q1'])]; rfl⟩

theorem quote_fold {w : UInt8} (hw : wsp w) (s : Bytes) : quoteLoop (13 :: 10 :: w :: s) = [13, 10, w] ++ quoteLoop s := by
  have hww : w = 32 ∨ w = 9 := hw
  rw [quoteLoop, if_pos (by decide), if_neg (by
    rintro ⟨_, h⟩
    rw [show foldAhead (10 :: w :: s) = true from (foldAhead_iff _).2 ⟨w, s, rfl, hww⟩] at h
    cases h), (quoteLoop_fold w s hww).1]
  rfl

/-- Quoting writes a part that can be read, and then either everything, or nothing more, or a bare LF. -/
theorem quote_split (v : Bytes) : ∃ p r, v = p ++ r ∧ Quotable p ∧
    (r = [] ∨ (r ≠ [] ∧ quoteLoop v = quoteLoop p) ∨ ∃ y, quoteLoop v = quoteLoop p ++ 10 :: y) := by
  have high : ∀ c : UInt8, ¬ c.toNat < 128 → qdtextc c = false ∧ (!qdtextesc c) = true := by decide +kernel
  suffices H : ∀ n, ∀ v : Bytes, v.length ≤ n → ∃ p r, v = p ++ r ∧ Quotable p ∧
      (r = [] ∨ (r ≠ [] ∧ quoteLoop v = quoteLoop p) ∨ ∃ y, quoteLoop v = quoteLoop p ++ 10 :: y) from H _ v (Nat.le_refl _)
  intro n
  induction n with
  | zero =>
    intro v hv
    cases v with
    | nil => exact ⟨[], [], rfl, .nil, .inl rfl⟩
    | cons c v => simp at hv
  | succ n ih =>
    intro v hv
    cases v with
    | nil => exact ⟨[], [], rfl, .nil, .inl rfl⟩
    | cons c v =>
      simp only [List.length_cons] at hv
      by_cases hc : c.toNat < 128
      · by_cases h10 : c = 10
        · subst h10
          exact ⟨[], 10 :: v, rfl, .nil, .inr (.inr ⟨quoteLoop v, by
            rw [quoteLoop.eq_2, if_pos (by decide), if_neg (fun h => absurd h.1 (by decide))]; rfl⟩)⟩
        · by_cases h13 : c = 13
          · subst h13
            cases hf : foldAhead v with
            | true =>
              obtain ⟨w, r, rfl, hw⟩ := (foldAhead_iff v).1 hf
              obtain ⟨p, r', e, hp, h⟩ := ih r (by simp at hv; omega)
              refine ⟨13 :: 10 :: w :: p, r', by rw [e]; rfl, .fold hw hp, ?_⟩
              rw [quote_fold hw, quote_fold hw]
              rcases h with h | ⟨h, h2⟩ | ⟨y, h⟩
              · exact .inl h
              · exact .inr (.inl ⟨h, by rw [h2]⟩)
              · exact .inr (.inr ⟨y, by rw [h, List.append_assoc]⟩)
            | false =>
              exact ⟨[], 13 :: v, rfl, .nil, .inr (.inl ⟨by simp, by rw [quoteLoop.eq_2, if_pos (by decide), if_pos ⟨rfl, hf⟩]; rfl⟩)⟩
          · obtain ⟨pre, hpre⟩ := quote_char hc h13 h10
            obtain ⟨p, r', e, hp, h⟩ := ih v (by omega)
            refine ⟨c :: p, r', by rw [e]; rfl, .char hc h13 h10 hp, ?_⟩
            rw [hpre, hpre]
            rcases h with h | ⟨h, h2⟩ | ⟨y, h⟩
            · exact .inl h
            · exact .inr (.inl ⟨h, by rw [h2]⟩)
            · exact .inr (.inr ⟨y, by rw [h, List.append_assoc]⟩)
      · obtain ⟨h1, h2⟩ := high c hc
        exact ⟨[], c :: v, rfl, .nil, .inr (.inl ⟨by simp, by rw [quoteLoop.eq_2, if_neg (by simp [h1]), if_pos h2]; rfl⟩)⟩

theorem quoteLoop_flat (v : Bytes) : Flat (quoteLoop v) := by
  have hq : ∀ c : UInt8, quotable c → c ≠ 13 := by decide +kernel
  have key : ∀ {x : Bytes}, QBodyLF x → Flat x := by
    intro x h
    induction h with
    | nil => exact .nil
    | plain _ _ h3 _ ih => exact .char h3 ih
    | pair h1 _ ih => exact .char (by decide) (.char (hq _ h1) ih)
    | @fold w s hw _ ih =>
      refine .fold hw ?_
      cases ih with
      | char _ h =>
        cases h with
        | char _ h => exact h
        | fold _ _ => rcases hw with h | h <;> cases h
  exact key (quoteLoop_lf v)

theorem quoted_cases (v : Bytes) : (NeedsQuotes v ∧ quoted v = 34 :: (quoteLoop v ++ [34])) ∨
    ((∀ c ∈ v, token c ∨ c = 32) ∧ quoted v = v) := by
  by_cases h : NeedsQuotes v
  · exact .inl ⟨h, quoted_needs h⟩
  · have : ∀ c ∈ v, token c ∨ c = 32 := by
      intro c hc
      by_cases ht : token c
      · exact .inl ht
      · by_cases h32 : c = 32
        · exact .inr h32
        · exact absurd ⟨c, hc, ht, h32⟩ h
    exact .inr ⟨this, quoted_words this⟩

theorem quoted_flat (v : Bytes) : Flat (quoted v) := by
  rcases quoted_cases v with ⟨_, e⟩ | ⟨h, e⟩
  · rw [e]; exact .char (by decide) ((quoteLoop_flat v).append (.lit (by decide)))
  · rw [e]
    refine .plain fun c hc => ?_
    rcases h c hc with h | rfl
    · exact tok_ne h
    · decide

/-- The first byte of a quoted string. -/
theorem QuotePart.start_acc {q0 q1 q2 q3 q4 q5 : Nat} (h : QuotePart q0 q1 q2 q3 q4 q5) {l : Loc} {inp : Bytes}
    {us : List Upd} (hi : inp ≠ []) (g : Acc q0 l inp us) : Acc q1 { l with buf := [] } inp us := by
  cases inp with
  | nil => exact absurd rfl hi
  | cons c tl =>
    obtain ⟨t, a, b, h1, rfl, h3⟩ := acc_cons.1 g
    refine acc_cons.2 ⟨t, a, b, ?_, rfl, h3⟩
    obtain ⟨c', tl', r, l', e1, e2, e3, e4⟩ := sstep_cases h1
    cases e1
    have hs : ssymbol q0 (c :: tl) c = ssymbol q1 (c :: tl) c := by simp [ssymbol, h.w0, h.w1]
    have hlt : ssymbol q1 (c :: tl) c < 526 := by
      have hb := c.toNat_lt
      unfold ssymbol
      cases wide q1 && c == 13
      · show c.toNat < 526; omega
      · cases lookWSP (c :: tl) <;> simp
    have hr : rowAt q0 (ssymbol q0 (c :: tl) c) = some (r.acts, r.tgt) := by simp [rowAt, e2]
    rw [hs, h.first _ hlt] at hr
    cases hq : rowAt q1 (ssymbol q1 (c :: tl) c) with
    | none => rw [hq] at hr; cases hr
    | some y =>
      obtain ⟨as, t'⟩ := y
      rw [hq] at hr
      simp only [Option.map_some, Option.some.injEq, Prod.mk.injEq] at hr
      obtain ⟨ha, rfl⟩ := hr
      rw [← ha] at e3 e4
      have e3' : sacts as c { l with buf := [] } = some (l', a) := by
        have : sacts (.start :: as) c l = (sacts as c { l with buf := [] }).map fun x => (x.1, [] ++ x.2) := rfl
        rw [this] at e3
        cases hx : sacts as c { l with buf := [] } with
        | none => rw [hx] at e3; cases e3
        | some z => rw [hx] at e3; simpa [Prod.ext_iff] using e3
      rw [step_at (l := { l with buf := [] }) hq e3', e4]
      rfl

/-- What is read of a quoted string. -/
theorem QuotePart.any {q0 q1 q2 q3 q4 q5 : Nat} (h : QuotePart q0 q1 q2 q3 q4 q5) (hlf : rowAt q1 10 = none) {v : Bytes} {l : Loc} {tl : Bytes}
    {us : List Upd} (g : Acc q0 l (quoteLoop v ++ 34 :: tl) us) :
    ∃ p s, Acc q2 { l with seg := s, buf := p } tl us ∧ (p = v → Quotable v) := by
  have g := h.start_acc (quote_end tl) g
  obtain ⟨p, r, e, hp, hr⟩ := quote_split v
  rcases hr with rfl | ⟨hr, h2⟩ | ⟨y, hy⟩
  · rw [List.append_nil] at e
    subst e
    obtain ⟨s, hs⟩ := h.run hp { l with buf := [] } tl
    exact ⟨v, s, by simpa using (acc_run_nil hs).1 g, fun _ => hp⟩
  · rw [h2] at g
    obtain ⟨s, hs⟩ := h.run hp { l with buf := [] } tl
    refine ⟨p, s, by simpa using (acc_run_nil hs).1 g, ?_⟩
    intro e'
    rw [e'] at e
    exact absurd (List.self_eq_append_right.1 e) hr
  · rw [hy, List.append_assoc] at g
    obtain ⟨s, hs⟩ := h.inner hp { l with buf := [] } (10 :: y ++ 34 :: tl)
    exact absurd ((acc_run_nil hs).1 g) (stuck_at (by rw [ssymbol_ne (by decide)]; exact hlf))

/-! ### Parameter values -/

/-- The states in which a plain value is read, and where they get stuck: at the value, in it, after it. -/
structure PlainPart (pv pt pw q1 : Nat) : Prop where
  sp0 : rowAt pv 32 = some ([], pv)
  sp1 : rowAt pt 32 = some ([], pw)
  sp2 : rowAt pw 32 = some ([], pw)
  tok2 : ∀ c : UInt8, token c → rowAt pw c.toNat = none
  end0 : rowAt pv 269 = none
  end2 : rowAt pw 269 = none
  w0 : wide pv = true
  w2 : wide pw = true
  lf : rowAt q1 10 = none

theorem plain_via : PlainPart 79 80 81 87 := by constructor <;> decide +kernel
theorem plain_addr : PlainPart 164 165 166 172 := by constructor <;> decide +kernel

variable {p0 p1 pv pt pw q0 q1 q2 q3 q4 q5 ps : Nat} {sa : List MAct} {Has : Pairs → Loc → Prop}

/-- A plain value at the end of the line: the spaces are not part of what is read. -/
theorem ParamPart.plain (h : ParamPart p0 p1 pv pt q0 q1 q2 q3 q4 q5 ps sa Has) (hp : PlainPart pv pt pw q1) {v : Bytes}
    (hv : ∀ c ∈ v, token c ∨ c = 32) {k : Nat} (hk : k = pv ∨ k = pt ∨ k = pw) {l : Loc} {us : List Upd} (hl : ∀ c ∈ l.buf, token c)
    (g : Acc k l (v ++ CRLF) us) : ∃ t s, Acc pt { l with seg := s, buf := t } CRLF us ∧ ∀ c ∈ t, token c := by
  induction v generalizing k l with
  | nil =>
    have dead : ∀ k, wide k = true → rowAt k 269 = none → ¬ Acc k l CRLF us := by
      intro k hw hr
      refine stuck_at ?_
      rw [ssymbol_cr hw]
      exact hr
    rcases hk with rfl | rfl | rfl
    · exact absurd g (dead _ hp.w0 hp.end0)
    · exact ⟨l.buf, l.seg, g, hl⟩
    · exact absurd g (dead _ hp.w2 hp.end2)
  | cons c v ih =>
    have hv' : ∀ c ∈ v, token c ∨ c = 32 := fun d hd => hv d (List.mem_cons_of_mem _ hd)
    have space : ∀ {k'}, (k' = pv ∨ k' = pt ∨ k' = pw) → c ≠ 13 → rowAt k c.toNat = some ([], k') →
        ∃ t s, Acc pt { l with seg := s, buf := t } CRLF us ∧ ∀ c ∈ t, token c := by
      intro k' hk' h13 hr
      have := (acc_run_nil (eat (l := l) (tl := v ++ CRLF) h13 hr rfl rfl)).1 g
      exact ih hv' hk' (l := { l with seg := l.seg ++ [c] }) hl this
    have letter : token c → rowAt k c.toNat = some ([.append], pt) →
        ∃ t s, Acc pt { l with seg := s, buf := t } CRLF us ∧ ∀ c ∈ t, token c := by
      intro ht hr
      have := (acc_run_nil (eat (l := l) (tl := v ++ CRLF) (tok_ne ht) hr rfl rfl)).1 g
      exact ih hv' (.inr (.inl rfl)) (l := { l with seg := l.seg ++ [c], buf := l.buf ++ [c] }) (by
        intro d hd
        rcases List.mem_append.1 hd with hd | hd
        · exact hl d hd
        · rw [List.mem_singleton] at hd; subst hd; exact ht) this
    rcases hv c List.mem_cons_self with ht | rfl
    · rcases hk with rfl | rfl | rfl
      · exact letter ht (h.val0 c ht)
      · exact letter ht (h.val1 c ht)
      · exact absurd g (stuck_at (by rw [ssymbol_ne (tok_ne ht)]; exact hp.tok2 c ht))
    · rcases hk with rfl | rfl | rfl
      · exact space (.inl rfl) (by decide) hp.sp0
      · exact space (.inr (.inr rfl)) (by decide) hp.sp1
      · exact space (.inr (.inr rfl)) (by decide) hp.sp2

/-- The value of the last parameter: what is read is not what was written unless the value is well formed. -/
theorem ParamPart.value (h : ParamPart p0 p1 pv pt q0 q1 q2 q3 q4 q5 ps sa Has) (hp : PlainPart pv pt pw q1) {v : Bytes}
    {l : Loc} {us : List Upd} (hl : l.buf = []) (g : Acc pv l (quoted v ++ CRLF) us) :
    ∃ k s t, (k = pt ∨ k = q2) ∧ Acc k { l with seg := s, buf := t } CRLF us ∧ (t = v → ValueOK v) := by
  rcases quoted_cases v with ⟨hn, e⟩ | ⟨hs, e⟩
  · rw [e, List.cons_append] at g
    have g := (acc_run_nil (eat (l := l) (c := 34) (tl := quoteLoop v ++ [34] ++ CRLF) (by decide) h.dq rfl rfl)).1 g
    rw [List.append_assoc] at g
    obtain ⟨p, s, g, hq⟩ := h.quote.any hp.lf (tl := CRLF) g
    exact ⟨q2, s, p, .inr rfl, g, fun e => .inr ⟨hq e, hn⟩⟩
  · rw [e] at g
    obtain ⟨t, s, g, ht⟩ := h.plain hp hs (.inl rfl) (by rw [hl]; intro c hc; cases hc) g
    exact ⟨pt, s, t, .inl rfl, g, fun e => .inl (e ▸ ht)⟩

/-- A Via whose last parameter has any value. -/
theorem via_value {v : Via} {n x : Bytes} {r : Pairs} (hv : ViaOK { v with param := r }) (hn : IsToken n) (hx : x ≠ []) {l : Loc}
    {us : List Upd} (g : Acc 736 l (32 :: (({ v with param := (n, x) :: r } : Via).text ++ CRLF)) us) :
    ∃ t, us = [.via (viaRead { v with param := (n, t) :: r })] ∧ (t = x → ValueOK x) := by
  obtain ⟨h1, h2, h3, h4, h5, h6⟩ := hv
  obtain ⟨k, y, s, e⟩ := via_host (v := { v with param := (n, x) :: r }) h1 h2 h3 h4 h5 l
  have g := (acc_run_nil s).1 g
  obtain ⟨z, s2, z1, z2, z3⟩ := (part_via (viaRead { v with param := (n, x) :: r })).upto (via_semi _) h6 hn hx e CRLF
  have g := (acc_run_nil s2).1 g
  obtain ⟨k2, s3, t, hk, g, ht⟩ := (part_via (viaRead { v with param := (n, x) :: r })).value plain_via z2 g
  refine ⟨t, ?_, ht⟩
  refine acc_det g (via_end (v := viaRead { v with param := (n, t) :: r }) ⟨.inr ⟨hk, z1, rfl⟩, ?_⟩)
  exact z3

/-- An address whose last parameter has any value. -/
theorem addr_value {a : Addr} {n x : Bytes} {r : Pairs} (ha : AddrOK { a with param := r }) (hn : IsToken n) (hx : x ≠ []) {l : Loc}
    {f : AField} (hf : l.addrp = some f) {us : List Upd} (g : Acc 256 l (({ a with param := (n, x) :: r } : Addr).text ++ CRLF) us) :
    ∃ t, us = [.addr f { a with param := (n, t) :: r }] ∧ (t = x → ValueOK x) := by
  obtain ⟨⟨u, hu, ht⟩, hd, hp⟩ := ha
  simp only [] at hu hd hp
  have e : ({ a with param := (n, x) :: r } : Addr).text ++ CRLF =
      displayText a.display ++ 60 :: (u.text ++ 62 :: (paramText ((n, x) :: r) ++ CRLF)) := by
    simp [Addr.text, displayText, hu]
  rw [e] at g
  obtain ⟨y, s1, g1, g2⟩ := display_run hd hf (u.text ++ 62 :: (paramText ((n, x) :: r) ++ CRLF))
  have g := (acc_run_nil s1).1 g
  obtain ⟨s, s2⟩ := uri_run ht g1 (paramText ((n, x) :: r) ++ CRLF)
  have g := (acc_run_nil s2).1 g
  obtain ⟨z, s3, z1, z2, z3⟩ := (part_addr a f).upto (E := AddrE a f) (addr_semi a f) hp hn hx (k := 194)
    (x := { y with seg := s, addr := some { uri := some u, display := a.display } }) ⟨rfl, by rw [hu], g2⟩ CRLF
  have g := (acc_run_nil s3).1 g
  obtain ⟨k2, s4, t, hk, g, ht⟩ := (part_addr a f).value plain_addr z2 g
  refine ⟨t, ?_, ht⟩
  exact acc_det g (addr_end (a := { a with param := (n, t) :: r }) ⟨.inr ⟨hk, z1, rfl⟩, z3⟩)

/-! ### Display names -/

theorem trimR_split (x : Bytes) : ∃ z, x = trimR x ++ z ∧ (∀ c ∈ z, whitespacec c = true) ∧ (trimR x).getLast? ≠ some 32 := by
  unfold trimR
  refine ⟨(x.reverse.takeWhile whitespacec).reverse, ?_, ?_, ?_⟩
  · rw [← List.reverse_append, List.takeWhile_append_dropWhile, List.reverse_reverse]
  · intro c hc
    exact List.all_eq_true.1 List.all_takeWhile c (List.mem_reverse.1 hc)
  · rw [List.getLast?_reverse]
    intro h
    have := List.head?_dropWhile_not whitespacec x.reverse
    rw [h] at this
    exact absurd this (by decide)

/-- Blanks before an address. -/
theorem entry_run {l : Loc} {sp : Bytes} (hs : ∀ c ∈ sp, c = 32) {c : UInt8} (hc : c ≠ 13 ∧ c ≠ 32 ∧ c ≠ 9) (tl : Bytes) :
    ∃ x, SRun ⟨395, l, 32 :: (sp ++ c :: tl)⟩ [] ⟨256, x, c :: tl⟩ ∧ x.addrp = l.addrp := by
  have r1 : rowAt 395 32 = some ([], 395) := by decide +kernel
  have r2 : ∀ c : UInt8, c ≠ 13 ∧ c ≠ 32 ∧ c ≠ 9 → rowAt 395 c.toNat = some ([.valueNil, .hold], 256) := by decide +kernel
  have s1 := loop_run (k := 395) (l := l) (s := 32 :: sp) (tl := c :: tl) (by
    intro d hd
    have : d = 32 := by
      rcases List.mem_cons.1 hd with rfl | hd
      · rfl
      · exact hs d hd
    subst this
    exact ⟨by decide, r1⟩)
  exact ⟨_, s1.trans (stay hc.1 (r2 c hc) rfl rfl), rfl⟩

/-- An address with any display name. -/
theorem addr_display {a : Addr} (hu : ∃ u, a.uri = some u ∧ URIText u.text u) (hp : ParamOK a.param) {l : Loc}
    {f : AField} (hf : l.addrp = some f) {us : List Upd} (g : Acc 395 l (32 :: (a.text ++ CRLF)) us) :
    ∃ d, us = [.addr f { a with display := d }] ∧ (d = a.display → DisplayOK a.display) := by
  by_cases hd : DisplayOK a.display
  · refine ⟨a.display, ?_, fun _ => hd⟩
    exact acc_det g (addr_acc (as := [a]) (by
      intro b hb
      rw [List.mem_singleton] at hb
      subst hb
      exact ⟨hu, hd, hp⟩) (by simp) hf)
  obtain ⟨u, hu, ht⟩ := hu
  have fin : ∀ {x : Loc} {d : Bytes}, Acc 190 x (u.text ++ 62 :: (paramText a.param ++ CRLF)) us →
      x.addr = some { display := d } → x.addrp = some f → us = [.addr f { a with display := d }] := by
    intro x d g h1 h2
    obtain ⟨k, x', s, h⟩ := addr_after hu ht hp h1 h2 CRLF
    exact acc_det ((acc_run_nil s).1 g) (addr_end (a := { a with display := d }) h)
  have e : a.text ++ CRLF = displayText a.display ++ 60 :: (u.text ++ 62 :: (paramText a.param ++ CRLF)) := by
    simp [Addr.text, displayText, hu]
  rw [e] at g
  have h0 : a.display ≠ [] := by
    intro h0
    exact hd (.inl (by rw [h0]; exact ⟨(by intro c hc; cases hc), by simp, by simp⟩))
  unfold displayText at g
  rw [if_pos h0] at g
  have tab : rowAt 256 34 = some ([.addrNew, .hold], 188) ∧ rowAt 188 34 = some ([.start], 218) ∧
      rowAt 220 32 = some ([.addrQuotedDisplay], 189) ∧ rowAt 189 60 = some ([], 190) ∧
      rowAt 256 60 = some ([.addrNew, .hold], 188) ∧ rowAt 188 60 = some ([], 190) ∧ rowAt 219 10 = none := by decide +kernel
  obtain ⟨t1, t2, t3, t4, t5, t6, t7⟩ := tab
  rcases quoted_cases a.display with ⟨hn, eq⟩ | ⟨hs, eq⟩
  · rw [eq] at g
    obtain ⟨x, s1, hx⟩ := entry_run (l := l) (sp := []) (by intro c hc; cases hc) (c := 34) (by decide)
      (quoteLoop a.display ++ 34 :: 32 :: 60 :: (u.text ++ 62 :: (paramText a.param ++ CRLF)))
    have g := (acc_run_nil s1).1 (by simpa using g)
    have g := (acc_run_nil (stay (l := x) (c := 34) (by decide) t1 rfl rfl)).1 g
    have g := (acc_run_nil (eat (l := { x with addr := some {} }) (c := 34) (by decide) t2 rfl rfl)).1 g
    obtain ⟨p, s, g, hq⟩ := quote_display.any t7 g
    have g := (acc_run_nil (eat (c := 32) (l' := { x with seg := s, buf := p, addr := some { display := p } }) (by decide) t3 rfl rfl)).1 g
    have g := (acc_run_nil (eat (c := 60) (by decide) t4 rfl rfl)).1 g
    exact ⟨p, fin g rfl (hx.trans hf), fun e => .inr ⟨hq e, hn⟩⟩
  · rw [eq] at g
    obtain ⟨sp, d1, e1, hsp, hd1⟩ : ∃ sp d1, a.display = sp ++ d1 ∧ (∀ c ∈ sp, c = 32) ∧ d1.head? ≠ some 32 := by
      refine ⟨a.display.takeWhile (· == 32), a.display.dropWhile (· == 32), List.takeWhile_append_dropWhile.symm, ?_, ?_⟩
      · intro c hc
        simpa using List.all_eq_true.1 List.all_takeWhile c hc
      · intro h
        have := List.head?_dropWhile_not (· == 32) a.display
        rw [h] at this
        exact absurd this (by decide)
    cases d1 with
    | nil =>
      rw [List.append_nil] at e1
      obtain ⟨x, s1, hx⟩ := entry_run (l := l) (sp := a.display ++ [32]) (by
        intro c hc
        rcases List.mem_append.1 hc with hc | hc
        · rw [e1] at hc; exact hsp c hc
        · simpa using hc) (c := 60) (by decide) (u.text ++ 62 :: (paramText a.param ++ CRLF))
      have g := (acc_run_nil s1).1 (by simpa using g)
      have g := (acc_run_nil (stay (l := x) (c := 60) (by decide) t5 rfl rfl)).1 g
      have g := (acc_run_nil (eat (l := { x with addr := some {} }) (c := 60) (by decide) t6 rfl rfl)).1 g
      exact ⟨[], fin g rfl (hx.trans hf), fun e => absurd e.symm h0⟩
    | cons c d =>
      have hs' : ∀ x ∈ c :: d, token x ∨ x = 32 := fun x hx => hs x (by rw [e1]; exact List.mem_append_right _ hx)
      have hc : token c := by
        rcases hs' c List.mem_cons_self with h | rfl
        · exact h
        · exact absurd rfl hd1
      have hne : ∀ c : UInt8, token c → (c ≠ 13 ∧ c ≠ 32 ∧ c ≠ 9) ∧ whitespacec c = false := by decide +kernel
      obtain ⟨x, s1, hx⟩ := entry_run (l := l) hsp (hne c hc).1 (d ++ 32 :: 60 :: (u.text ++ 62 :: (paramText a.param ++ CRLF)))
      have g := (acc_run_nil s1).1 (by rw [e1] at g; simpa using g)
      obtain ⟨y, s2, y1, y2⟩ := display_words hc (fun x hx => hs' x (List.mem_cons_of_mem _ hx)) (hx.trans hf) (u.text ++ 62 :: (paramText a.param ++ CRLF))
      have g := (acc_run_nil s2).1 g
      refine ⟨_, fin g y1 y2, ?_⟩
      intro e
      obtain ⟨z, ez, hz, hlast⟩ := trimR_split (c :: d ++ [32])
      rw [e] at ez hlast
      refine .inl ⟨hs, ?_, hlast⟩
      cases hdis : a.display with
      | nil => exact absurd hdis h0
      | cons b t =>
        rw [hdis] at ez
        have : b = c := by simpa using (congrArg List.head? ez).symm
        subst this
        intro h
        exact (hne b hc).1.2.1 (by simpa using h)

end Gosip.Sip.MsgM
