import Verif.Sip.ForwardUri

/-!
# The message machine on addresses written by the library
-/

namespace Gosip.Sip.MsgM
open Spec

/-- The address being read, with given parameters, and the field it goes to. -/
def HasAddr (a : Addr) (f : AField) (r : Pairs) (l : Loc) : Prop :=
  l.addr = some { a with param := r } ∧ l.addrp = some f

theorem part_addr (a : Addr) (f : AField) :
    ParamPart 153 154 164 165 171 172 173 174 180 181 160 [.addrParam, .hold] (HasAddr a f) where
  quote := quote_param
  qne := by decide
  name0 := by decide +kernel
  name1 := by decide +kernel
  eq := by decide +kernel
  val0 := by decide +kernel
  val1 := by decide +kernel
  dq := by decide +kernel
  semi1 := by decide +kernel
  semiT := by decide +kernel
  semiQ := by decide +kernel
  next := by decide +kernel
  nextMove := rfl
  nextActs := by
    intro l c r h
    obtain ⟨h, h'⟩ := h
    refine ⟨{ l with addr := some { a with param := (l.name, l.buf) :: r } }, ?_, rfl, h'⟩
    simp [sacts, sact, h]
  frame := by
    intro l l' r _ h1 h2 h
    exact ⟨h1.trans h.1, h2.trans h.2⟩

/-- After the closing bracket. -/
def AddrE (a : Addr) (f : AField) (k : Nat) (l : Loc) : Prop := k = 194 ∧ HasAddr a f [] l

theorem addr_semi (a : Addr) (f : AField) (k : Nat) (x : Loc) (c : UInt8) (tl : Bytes) (h : AddrE a f k x) (hc : token c) :
    ∃ x', SRun ⟨k, x, 59 :: c :: tl⟩ [] ⟨153, x', c :: tl⟩ ∧ HasAddr a f [] x' := by
  have r1 : rowAt 194 59 = some ([], 199) := by decide +kernel
  have r2 : ∀ c : UInt8, token c → rowAt 199 c.toNat = some ([.hold], 153) := by decide +kernel
  obtain ⟨rfl, h⟩ := h
  exact ⟨_, (eat (c := 59) (by decide) r1 rfl rfl).trans (stay (tok_ne hc) (r2 c hc) rfl rfl), h⟩

/-- The end of the line. -/
theorem addr_end {a : Addr} {f : AField} {k : Nat} {x : Loc}
    (h : Ended 154 165 173 (HasAddr a f) (AddrE a f) a.param k x) : Acc k x CRLF [.addr f a] := by
  have r : (wide 194 = true ∧ wide 154 = true ∧ wide 165 = true ∧ wide 173 = true) ∧
      rowAt 194 269 = some ([], 203) ∧ rowAt 154 269 = some ([.name], 170) ∧
      rowAt 165 269 = some ([], 170) ∧ rowAt 173 269 = some ([], 170) ∧ rowAt 203 10 = some ([.addr], 280) ∧
      rowAt 170 10 = some ([.addrParam, .addr], 280) := by decide +kernel
  obtain ⟨⟨w1, w3, w4, w5⟩, r1, r3, r4, r5, r6, r7⟩ := r
  cases hp : a.param with
  | nil =>
    rw [hp] at h
    have ev : { a with param := [] } = a := by cases a; cases hp; rfl
    obtain ⟨rfl, h1, h2⟩ := h
    rw [ev] at h1
    exact lineEnd (u := []) (v := [.addr f a]) w1 r1 rfl rfl r6 (by simp [sacts, sact, h1, h2]; rfl) rfl
  | cons p r =>
    rw [hp] at h
    obtain ⟨h, hh, hf⟩ := h
    obtain ⟨n, y⟩ := p
    have ev : { a with param := (n, y) :: r } = a := by cases a; cases hp; rfl
    rcases h with ⟨rfl, g1, g2, g3⟩ | ⟨rfl | rfl, g1, g2⟩
    · simp only [] at g1 g3
      refine lineEnd (u := []) (v := [.addr f a]) (l1 := { x with name := x.seg }) w3 r3 rfl rfl r7 (by
        simp [sacts, sact, hh, g1, g2, hf]; rw [g3] at ev; exact ⟨rfl, ev⟩) rfl
    all_goals
      simp only [] at g1 g2
      refine lineEnd (u := []) (v := [.addr f a]) (l1 := x) (by first | exact w4 | exact w5) (by first | exact r4 | exact r5) rfl rfl r7 (by
        simp [sacts, sact, hh, g1, g2, hf]; exact ⟨rfl, ev⟩) rfl

/-- A comma, a space and the next address. -/
theorem addr_comma {a : Addr} {f : AField} {k : Nat} {x : Loc} {c : UInt8} (tl : Bytes)
    (h : Ended 154 165 173 (HasAddr a f) (AddrE a f) a.param k x) (hc : c ≠ 13 ∧ c ≠ 32 ∧ c ≠ 9) :
    ∃ x', SRun ⟨k, x, 44 :: 32 :: c :: tl⟩ [.addr f a] ⟨256, x', c :: tl⟩ ∧ x'.addrp = some f := by
  have r : rowAt 194 44 = some ([], 195) ∧ rowAt 154 44 = some ([.name], 156) ∧
      rowAt 165 44 = some ([], 156) ∧ rowAt 173 44 = some ([], 156) ∧ rowAt 195 32 = some ([], 195) ∧
      rowAt 156 32 = some ([], 156) := by decide +kernel
  have rc : ∀ c : UInt8, c ≠ 13 ∧ c ≠ 32 ∧ c ≠ 9 → rowAt 195 c.toNat = some ([.addr, .hold], 256) ∧
      rowAt 156 c.toNat = some ([.addrParam, .addr, .hold], 256) := by decide +kernel
  obtain ⟨r1, r2, r3, r4, r5, r6⟩ := r
  obtain ⟨c1, c2⟩ := rc c hc
  cases hp : a.param with
  | nil =>
    rw [hp] at h
    have ev : { a with param := [] } = a := by cases a; cases hp; rfl
    obtain ⟨rfl, h1, h2⟩ := h
    rw [ev] at h1
    exact ⟨{ x with seg := x.seg ++ [44] ++ [32], addr := none },
      (eat (c := 44) (by decide) r1 rfl rfl).trans ((eat (c := 32) (by decide) r5 rfl rfl).trans
      (stay (us := [.addr f a]) hc.1 c1 (by simp [sacts, sact, h1, h2]) rfl)), h2⟩
  | cons p r =>
    rw [hp] at h
    obtain ⟨h, hh, hf⟩ := h
    obtain ⟨n, y⟩ := p
    have ev : { a with param := (n, y) :: r } = a := by cases a; cases hp; rfl
    have fin : ∀ z : Loc, z.name = n → z.buf = y → z.addr = some { a with param := r } → z.addrp = some f →
        ∃ x', SRun ⟨156, z, 32 :: c :: tl⟩ [.addr f a] ⟨256, x', c :: tl⟩ ∧ x'.addrp = some f := by
      intro z z1 z2 z3 z4
      exact ⟨{ z with seg := z.seg ++ [32], addr := none }, (eat (c := 32) (by decide) r6 rfl rfl).trans
        (stay (us := [.addr f a]) hc.1 c2 (by simp [sacts, sact, z1, z2, z3, z4]; exact ev) rfl), z4⟩
    rcases h with ⟨rfl, g1, g2, g3⟩ | ⟨rfl | rfl, g1, g2⟩
    · obtain ⟨x', s, hs⟩ := fin { x with name := x.seg, seg := x.seg ++ [44] } g1 (g2.trans g3.symm) hh hf
      exact ⟨x', (eat (c := 44) (by decide) r2 rfl rfl).trans s, hs⟩
    · obtain ⟨x', s, hs⟩ := fin { x with seg := x.seg ++ [44] } g1 g2 hh hf
      exact ⟨x', (eat (c := 44) (by decide) r3 rfl rfl).trans s, hs⟩
    · obtain ⟨x', s, hs⟩ := fin { x with seg := x.seg ++ [44] } g1 g2 hh hf
      exact ⟨x', (eat (c := 44) (by decide) r4 rfl rfl).trans s, hs⟩

/-- The URI of an address. -/
theorem uri_run {t : Bytes} {u : URI} (h : URIText t u) {l : Loc} {a : Addr} (ha : l.addr = some a) (tl : Bytes) :
    ∃ s, SRun ⟨190, l, t ++ 62 :: tl⟩ [] ⟨194, { l with seg := s, addr := some { a with uri := some u } }, tl⟩ := by
  obtain ⟨c, s, r, rfl, h1, h2, h3, h4⟩ := uri_shape h
  have t1 : ∀ c : UInt8, isAlpha c → c ≠ 13 ∧ rowAt 190 c.toNat = some ([.mark], 191) := by decide +kernel
  have t2 : ∀ c : UInt8, schemec c → c ≠ 13 ∧ rowAt 191 c.toNat = some ([], 191) := by decide +kernel
  have t3 : ∀ c : UInt8, uric c → c ≠ 13 ∧ rowAt 192 c.toNat = some ([], 193) ∧ rowAt 193 c.toNat = some ([], 193) := by decide +kernel
  have t4 : rowAt 191 58 = some ([], 192) ∧ rowAt 193 62 = some ([.addrUri], 194) := by decide +kernel
  cases r with
  | nil => exact absurd rfl h3
  | cons d r =>
    have a1 := eat (l := l) (tl := s ++ 58 :: d :: r ++ 62 :: tl) (t1 c h1).1 (t1 c h1).2 rfl rfl
    have a2 := loop_run (k := 191) (l := { l with seg := [c] }) (s := s) (tl := 58 :: d :: r ++ 62 :: tl) fun x hx => t2 x (h2 x hx)
    have a3 := eat (l := { l with seg := [c] ++ s }) (c := 58) (tl := d :: r ++ 62 :: tl) (by decide) t4.1 rfl rfl
    have a4 := eat (l := { l with seg := [c] ++ s ++ [58] }) (tl := r ++ 62 :: tl) (t3 d (h4 d List.mem_cons_self)).1 (t3 d (h4 d List.mem_cons_self)).2.1 rfl rfl
    have a5 := loop_run (k := 193) (l := { l with seg := [c] ++ s ++ [58] ++ [d] }) (s := r) (tl := 62 :: tl)
      fun x hx => ⟨(t3 x (h4 x (List.mem_cons_of_mem _ hx))).1, (t3 x (h4 x (List.mem_cons_of_mem _ hx))).2.2⟩
    have hu : uriOf ([c] ++ s ++ [58] ++ [d] ++ r) = some u := by
      have := uriOf_text h
      simpa using this
    have a6 := eat (l := { l with seg := [c] ++ s ++ [58] ++ [d] ++ r }) (c := 62) (tl := tl)
      (l' := { l with seg := [c] ++ s ++ [58] ++ [d] ++ r, addr := some { a with uri := some u } }) (us := []) (by decide) t4.2
      (by simp only [sacts, sact, hu, ha]; rfl) rfl
    have := ((((a1.trans (by simpa using a2)).trans a3).trans a4).trans a5).trans a6
    exact ⟨_, by simpa using this⟩

/-- Letters and spaces of a display name, before it is known to be one. -/
theorem look_run {s : Bytes} (hs : ∀ c ∈ s, token c ∨ c = 32) {k : Nat} (hk : k = 257 ∨ k = 258 ∨ k = 262) (l : Loc) (tl : Bytes) :
    ∃ k', (k' = 257 ∨ k' = 258 ∨ k' = 262) ∧ SRun ⟨k, l, s ++ tl⟩ [] ⟨k', { l with seg := l.seg ++ s }, tl⟩ := by
  have tab : ∀ k ∈ [257, 258, 262], ∀ c : UInt8, token c ∨ c = 32 →
      ∃ k' ∈ [257, 258, 262], rowAt k c.toNat = some ([], k') := by decide +kernel
  induction s generalizing k l with
  | nil => exact ⟨k, hk, by simpa using SRun.refl _⟩
  | cons c s ih =>
    obtain ⟨k1, h1, h2⟩ := tab k (by rcases hk with rfl | rfl | rfl <;> decide) c (hs c List.mem_cons_self)
    have hc : c ≠ 13 := by
      rcases hs c List.mem_cons_self with h | rfl
      · exact tok_ne h
      · decide
    obtain ⟨k2, h3, h4⟩ := ih (fun d hd => hs d (List.mem_cons_of_mem _ hd)) (k := k1) (by simpa using h1) { l with seg := l.seg ++ [c] }
    exact ⟨k2, h3, by simpa using (eat (l := l) (tl := s ++ tl) hc h2 rfl rfl).trans h4⟩

/-- Letters and spaces of a display name. -/
theorem word_loop {s : Bytes} (hs : ∀ c ∈ s, token c ∨ c = 32) {k : Nat} (hk : k = 213 ∨ k = 214) (l : Loc) {d : Bytes}
    (hl : l.addr = some { display := d }) (tl : Bytes) :
    ∃ k' d', (k' = 213 ∨ k' = 214) ∧ SRun ⟨k, l, s ++ tl⟩ [] ⟨k', { l with seg := l.seg ++ s, addr := some { display := d' } }, tl⟩ := by
  have tab : ∀ k ∈ [213, 214], ∀ c : UInt8, token c ∨ c = 32 →
      ∃ k' ∈ [213, 214], rowAt k c.toNat = some ([], k') ∨ rowAt k c.toNat = some ([.addrUnquotedDisplay], k') := by decide +kernel
  induction s generalizing k l d with
  | nil => exact ⟨k, d, hk, by simpa [← hl] using SRun.refl _⟩
  | cons c s ih =>
    obtain ⟨k1, h1, h2⟩ := tab k (by rcases hk with rfl | rfl <;> decide) c (hs c List.mem_cons_self)
    have hc : c ≠ 13 := by
      rcases hs c List.mem_cons_self with h | rfl
      · exact tok_ne h
      · decide
    have hs' : ∀ d ∈ s, token d ∨ d = 32 := fun d hd => hs d (List.mem_cons_of_mem _ hd)
    rcases h2 with h2 | h2
    · obtain ⟨k2, d', h3, h4⟩ := ih hs' (k := k1) (by simpa using h1) { l with seg := l.seg ++ [c] } hl
      exact ⟨k2, d', h3, by simpa using (eat (l := l) (tl := s ++ tl) hc h2 rfl rfl).trans h4⟩
    · obtain ⟨k2, d', h3, h4⟩ := ih hs' (k := k1) (by simpa using h1) { l with seg := l.seg ++ [c], addr := some { display := trimR l.seg } } rfl
      have g : sacts [.addrUnquotedDisplay] c l = some ({ l with addr := some { display := trimR l.seg } }, []) := by
        simp [sacts, sact, hl]
      exact ⟨k2, d', h3, by simpa using (eat (l := l) (tl := s ++ tl) hc h2 g rfl).trans h4⟩

theorem trimR_words {d : Bytes} (h0 : d ≠ []) (hs : ∀ c ∈ d, token c ∨ c = 32) (hl : d.getLast? ≠ some 32) : trimR (d ++ [32]) = d := by
  have hw : ∀ c : UInt8, token c → whitespacec c = false := by decide +kernel
  unfold trimR
  rw [List.reverse_append, List.reverse_singleton, List.singleton_append, List.dropWhile_cons_of_pos (by decide)]
  cases hr : d.reverse with
  | nil => exact absurd (List.reverse_eq_nil_iff.1 hr) h0
  | cons x r =>
    have e : d = r.reverse ++ [x] := by rw [← List.reverse_reverse d, hr]; simp
    have hx : x ≠ 32 := by
      rintro rfl
      apply hl
      rw [e]
      simp
    have ht : token x := by
      rcases hs x (by rw [e]; simp) with h | h
      · exact h
      · exact absurd h hx
    rw [List.dropWhile_cons_of_neg (by simp [hw x ht]), ← hr, List.reverse_reverse]

/-- What is written for a display name. -/
def displayText (d : Bytes) : Bytes := if d ≠ [] then quoted d ++ b!" " else []

theorem quoted_words {d : Bytes} (h : ∀ c ∈ d, token c ∨ c = 32) : quoted d = d := by
  unfold quoted
  rw [if_neg]
  simp only [List.any_eq_true, not_exists, not_and]
  intro c hc
  rcases h c hc with h | rfl
  · simp [(tokenc_iff c).2 h]
  · simp

/-- Words, a space and the opening bracket. -/
theorem display_words {c : UInt8} {d : Bytes} (hc : token c) (hs' : ∀ x ∈ d, token x ∨ x = 32) {l : Loc} {f : AField}
    (hf : l.addrp = some f) (tl : Bytes) :
    ∃ x : Loc, SRun ⟨256, l, c :: d ++ 32 :: 60 :: tl⟩ [] ⟨190, x, tl⟩ ∧ x.addr = some { display := trimR (c :: d ++ [32]) } ∧
      x.addrp = some f := by
  have tab : rowAt 258 60 = some ([.addrNew, .backtrack], 188) ∧ rowAt 214 60 = some ([.addrUnquotedDisplay], 190) := by decide +kernel
  obtain ⟨t7, t8⟩ := tab
  have tab2 : ∀ c : UInt8, token c → (rowAt 256 c.toNat = some ([.mark], 257) ∨ rowAt 256 c.toNat = some ([.mark], 262)) ∧
      rowAt 188 c.toNat = some ([.mark], 213) := by decide +kernel
  obtain ⟨k0, hk0, hr0⟩ : ∃ k0, (k0 = 257 ∨ k0 = 258 ∨ k0 = 262) ∧ rowAt 256 c.toNat = some ([.mark], k0) := by
    rcases (tab2 c hc).1 with h | h
    · exact ⟨257, .inl rfl, h⟩
    · exact ⟨262, .inr (.inr rfl), h⟩
  have a1 := eat (l := l) (tl := d ++ 32 :: 60 :: tl) (tok_ne hc) hr0 rfl rfl
  obtain ⟨k1, hk1, a2⟩ := look_run hs' hk0 { l with seg := [c] } (32 :: 60 :: tl)
  have a3 : SRun ⟨k1, { l with seg := [c] ++ d }, 32 :: 60 :: tl⟩ [] ⟨258, { l with seg := [c] ++ d ++ [32] }, 60 :: tl⟩ := by
    have r : ∀ k ∈ [257, 258, 262], rowAt k 32 = some ([], 258) := by decide +kernel
    exact eat (c := 32) (by decide) (r k1 (by rcases hk1 with rfl | rfl | rfl <;> decide)) rfl rfl
  have a4 := goBack (l := { l with seg := [c] ++ d ++ [32] }) (c := 60) (tl := tl) (by decide) t7 rfl rfl
  have b1 := eat (l := { l with seg := [], addr := some {} }) (tl := d ++ 32 :: 60 :: tl) (tok_ne hc) (tab2 c hc).2 rfl rfl
  obtain ⟨k2, d', hk2, b2⟩ := word_loop hs' (.inl rfl) { l with seg := [c], addr := some {} } (d := []) rfl (32 :: 60 :: tl)
  obtain ⟨d2, b3⟩ : ∃ d2, SRun ⟨k2, { l with seg := [c] ++ d, addr := some { display := d' } }, 32 :: 60 :: tl⟩ []
      ⟨214, { l with seg := [c] ++ d ++ [32], addr := some { display := d2 } }, 60 :: tl⟩ := by
    have r : rowAt 213 32 = some ([], 214) ∧ rowAt 214 32 = some ([.addrUnquotedDisplay], 214) := by decide +kernel
    rcases hk2 with rfl | rfl
    · exact ⟨_, eat (c := 32) (by decide) r.1 rfl rfl⟩
    · exact ⟨trimR ([c] ++ d), eat (l := { l with seg := [c] ++ d, addr := some { display := d' } })
        (l' := { l with seg := [c] ++ d, addr := some { display := trimR ([c] ++ d) } }) (us := []) (tl := 60 :: tl) (c := 32) (by decide) r.2 rfl rfl⟩
  have b4 := eat (l := { l with seg := [c] ++ d ++ [32], addr := some { display := d2 } }) (c := 60) (tl := tl) (by decide) t8 rfl rfl
  refine ⟨{ l with seg := [c] ++ d ++ [32] ++ [60], addr := some { display := trimR ([c] ++ d ++ [32]) } }, (((a1.trans (by simpa using a2)).trans a3).trans a4).trans (((by simpa using b1 : SRun _ [] _).trans b2).trans (b3.trans b4)) |> fun h => by simpa using h, ?_, hf⟩
  simp

/-- A quoted display name, a space and the opening bracket. -/
theorem display_quoted {d : Bytes} (hq : Quotable d) {l : Loc} {f : AField} (hf : l.addrp = some f) (tl : Bytes) :
    ∃ x : Loc, SRun ⟨256, l, 34 :: (quoteLoop d ++ 34 :: 32 :: 60 :: tl)⟩ [] ⟨190, x, tl⟩ ∧ x.addr = some { display := d } ∧
      x.addrp = some f := by
  have tab : rowAt 256 34 = some ([.addrNew, .hold], 188) ∧ rowAt 188 34 = some ([.start], 218) ∧
      rowAt 220 32 = some ([.addrQuotedDisplay], 189) ∧ rowAt 189 60 = some ([], 190) := by decide +kernel
  obtain ⟨t2, t4, t5, t6⟩ := tab
  obtain ⟨s, hs⟩ := quote_display.all (by decide) hq { l with seg := l.seg ++ [34], addr := some {}, buf := [] } (32 :: 60 :: tl)
  have a1 := stay (l := l) (c := 34) (tl := quoteLoop d ++ 34 :: 32 :: 60 :: tl) (by decide) t2 rfl rfl
  have a2 := eat (l := { l with addr := some {} }) (c := 34) (tl := quoteLoop d ++ 34 :: 32 :: 60 :: tl) (by decide) t4 rfl rfl
  have a3 := eat (l := { l with seg := s, addr := some {}, buf := d }) (c := 32) (tl := 60 :: tl) (by decide) t5 rfl rfl
  have a4 := eat (l := { l with seg := s ++ [32], addr := some { display := d }, buf := d }) (c := 60) (tl := tl) (by decide) t6 rfl rfl
  have := (a1.trans a2).trans (hs.trans (a3.trans a4))
  exact ⟨{ l with seg := s ++ [32] ++ [60], addr := some { display := d }, buf := d }, by simpa using this, rfl, hf⟩

/-- The display name and the opening bracket. -/
theorem display_run {d : Bytes} (hd : DisplayOK d) {l : Loc} {f : AField} (hf : l.addrp = some f) (tl : Bytes) :
    ∃ x : Loc, SRun ⟨256, l, displayText d ++ 60 :: tl⟩ [] ⟨190, x, tl⟩ ∧ x.addr = some { display := d } ∧ x.addrp = some f := by
  have tab : rowAt 256 60 = some ([.addrNew, .hold], 188) ∧ rowAt 188 60 = some ([], 190) := by decide +kernel
  obtain ⟨t1, t3⟩ := tab
  unfold displayText
  by_cases h0 : d = []
  · subst h0
    exact ⟨_, (stay (c := 60) (by decide) t1 rfl rfl).trans (eat (c := 60) (by decide) t3 rfl rfl), rfl, hf⟩
  rw [if_pos h0]
  rcases hd with ⟨hs, hh, hl⟩ | ⟨hq, hn⟩
  · rw [quoted_words hs]
    cases d with
    | nil => exact absurd rfl h0
    | cons c d =>
      have hc : token c := by
        rcases hs c List.mem_cons_self with h | rfl
        · exact h
        · exact absurd rfl hh
      obtain ⟨x, a, b, e⟩ := display_words hc (fun x hx => hs x (List.mem_cons_of_mem _ hx)) hf tl
      rw [trimR_words h0 hs hl] at b
      exact ⟨x, by simpa using a, b, e⟩
  · rw [quoted_needs hn]
    obtain ⟨x, a, b⟩ := display_quoted hq hf tl
    exact ⟨x, by simpa using a, b⟩

/-- What follows the display name of an address. -/
theorem addr_after {a : Addr} {u : URI} (hu : a.uri = some u) (ht : URIText u.text u) (hp : ParamOK a.param) {x : Loc} {f : AField} {d : Bytes}
    (g1 : x.addr = some { display := d }) (g2 : x.addrp = some f) (tl : Bytes) :
    ∃ k x', SRun ⟨190, x, u.text ++ 62 :: (paramText a.param ++ tl)⟩ [] ⟨k, x', tl⟩ ∧
      Ended 154 165 173 (HasAddr { a with display := d } f) (AddrE { a with display := d } f) a.param k x' := by
  obtain ⟨s, s2⟩ := uri_run ht g1 (paramText a.param ++ tl)
  obtain ⟨k', x', s3, g3⟩ := (part_addr { a with display := d } f).list (E := AddrE { a with display := d } f) (addr_semi _ f) hp (k := 194)
    (x := { x with seg := s, addr := some { uri := some u, display := d } }) ⟨rfl, by rw [hu], g2⟩ tl
  exact ⟨k', x', s2.trans s3, g3⟩

/-- One address, up to what follows it. -/
theorem addr_run {a : Addr} (ha : AddrOK a) {l : Loc} {f : AField} (hf : l.addrp = some f) (tl : Bytes) :
    ∃ k x, SRun ⟨256, l, a.text ++ tl⟩ [] ⟨k, x, tl⟩ ∧ Ended 154 165 173 (HasAddr a f) (AddrE a f) a.param k x := by
  obtain ⟨⟨u, hu, ht⟩, hd, hp⟩ := ha
  obtain ⟨x, s1, g1, g2⟩ := display_run hd hf (u.text ++ 62 :: (paramText a.param ++ tl))
  obtain ⟨k', x', s3, g3⟩ := addr_after hu ht hp g1 g2 tl
  refine ⟨k', x', ?_, g3⟩
  have e : a.text ++ tl = displayText a.display ++ 60 :: (u.text ++ 62 :: (paramText a.param ++ tl)) := by
    simp [Addr.text, displayText, hu]
  rw [e]
  exact s1.trans s3

theorem addr_head {a : Addr} (ha : DisplayOK a.display) : ∃ c t, a.text = c :: t ∧ c ≠ 13 ∧ c ≠ 32 ∧ c ≠ 9 := by
  have ht : ∀ c : UInt8, token c → c ≠ 13 ∧ c ≠ 32 ∧ c ≠ 9 := by decide +kernel
  unfold Addr.text
  by_cases h0 : a.display = []
  · rw [if_neg (by simp [h0])]
    exact ⟨60, _, rfl, by decide⟩
  · rw [if_pos h0]
    rcases ha with ⟨hs, hh, hl⟩ | ⟨hq, hn⟩
    · rw [quoted_words hs]
      cases hd : a.display with
      | nil => exact absurd hd h0
      | cons c d =>
        rw [hd] at hs hh
        refine ⟨c, _, rfl, ?_⟩
        rcases hs c List.mem_cons_self with h | rfl
        · exact ht c h
        · exact absurd rfl hh
    · rw [quoted_needs hn]
      exact ⟨34, _, rfl, by decide⟩

/-- A list of addresses, from the first byte on. -/
theorem addrs_acc {as : List Addr} (hs : ∀ a ∈ as, AddrOK a) (h0 : as ≠ []) {l : Loc} {f : AField} (hf : l.addrp = some f) :
    Acc 256 l (addrsText as ++ CRLF) (as.map (Upd.addr f)) := by
  induction as generalizing l with
  | nil => exact absurd rfl h0
  | cons a as ih =>
    cases as with
    | nil =>
      obtain ⟨k, x, s, g⟩ := addr_run (hs a List.mem_cons_self) hf CRLF
      exact (acc_run_nil s).2 (addr_end g)
    | cons b bs =>
      have hs' : ∀ a ∈ b :: bs, AddrOK a := fun a ha => hs a (List.mem_cons_of_mem _ ha)
      obtain ⟨c, t, ec, hc⟩ := addr_head (hs' b List.mem_cons_self).display
      obtain ⟨c', t', ec'⟩ : ∃ c' t', addrsText (b :: bs) ++ CRLF = c' :: t' ∧ c' = c := by
        cases bs with
        | nil => exact ⟨c, t ++ CRLF, by simp [addrsText, ec], rfl⟩
        | cons d ds => exact ⟨c, t ++ b!", " ++ addrsText (d :: ds) ++ CRLF, by simp [addrsText, ec], rfl⟩
      obtain ⟨ec', rfl⟩ := ec'
      obtain ⟨k, x, s, g⟩ := addr_run (hs a List.mem_cons_self) hf (44 :: 32 :: (addrsText (b :: bs) ++ CRLF))
      rw [ec'] at s
      obtain ⟨x', s', g'⟩ := addr_comma t' g hc
      have h2 := ih hs' (by simp) g'
      rw [ec'] at h2
      have e : addrsText (a :: b :: bs) ++ CRLF = a.text ++ 44 :: 32 :: (addrsText (b :: bs) ++ CRLF) := by
        simp [addrsText]
      rw [e, ec', List.map_cons]
      exact (acc_run (s.trans s')).2 ⟨_, rfl, h2⟩

/-- The value of an address header written by the library. -/
theorem addr_acc {as : List Addr} (hs : ∀ a ∈ as, AddrOK a) (h0 : as ≠ []) {l : Loc} {f : AField} (hf : l.addrp = some f) :
    Acc 395 l (32 :: (addrsText as ++ CRLF)) (as.map (Upd.addr f)) := by
  have r1 : rowAt 395 32 = some ([], 395) := by decide +kernel
  have r2 : ∀ c : UInt8, c ≠ 13 ∧ c ≠ 32 ∧ c ≠ 9 → rowAt 395 c.toNat = some ([.valueNil, .hold], 256) := by decide +kernel
  refine (acc_run_nil (eat (c := 32) (by decide) r1 rfl rfl)).2 ?_
  cases as with
  | nil => exact absurd rfl h0
  | cons a as =>
    obtain ⟨c, t, ec, hc⟩ := addr_head (hs a List.mem_cons_self).display
    obtain ⟨t', et⟩ : ∃ t', addrsText (a :: as) ++ CRLF = c :: t' := by
      cases as with
      | nil => exact ⟨t ++ CRLF, by simp [addrsText, ec]⟩
      | cons d ds => exact ⟨t ++ b!", " ++ addrsText (d :: ds) ++ CRLF, by simp [addrsText, ec]⟩
    rw [et]
    refine (acc_run_nil (stay hc.1 (r2 c hc) rfl rfl)).2 ?_
    rw [← et]
    exact addrs_acc hs h0 hf

end Gosip.Sip.MsgM
