import Verif.Sip.ForwardLine

/-!
# Start lines written by the library
-/

namespace Gosip.Sip.MsgM
open Spec

/-- A number, digit by digit. -/
theorem digits_run {k0 k : Nat} {a : MAct} {E : UInt8 → Upd}
    (h0 : ∀ c : UInt8, isDigit c = true → rowAt k0 c.toNat = some ([a], k))
    (h1 : ∀ c : UInt8, isDigit c = true → rowAt k c.toNat = some ([a], k))
    (ha : ∀ c l, sacts [a] c l = some (l, [E c])) (hm : moveOf [a] = .adv) (n : Nat) (l : Loc) (tl : Bytes) :
    ∃ s, SRun ⟨k0, l, natDec n ++ tl⟩ ((natDec n).map E) ⟨k, { l with seg := s }, tl⟩ := by
  have loop : ∀ ds : Bytes, (∀ c ∈ ds, isDigit c = true) → ∀ (l : Loc),
      SRun ⟨k, l, ds ++ tl⟩ (ds.map E) ⟨k, { l with seg := l.seg ++ ds }, tl⟩ := by
    intro ds
    induction ds with
    | nil => intro _ l; simpa using SRun.refl _
    | cons c ds ih =>
      intro h l
      have hc := h c List.mem_cons_self
      have := (eat (l := l) (tl := ds ++ tl) (digits_ne h c List.mem_cons_self) (h1 c hc) (ha c l) hm).trans
        (ih (fun x hx => h x (List.mem_cons_of_mem _ hx)) { l with seg := l.seg ++ [c] })
      simpa using this
  have hd := natDec_isDigit n
  cases e : natDec n with
  | nil => exact absurd e (natDec_ne_nil n)
  | cons d ds =>
    rw [e] at hd
    have b1 := eat (l := l) (tl := ds ++ tl) (digits_ne hd d List.mem_cons_self) (h0 d (hd d List.mem_cons_self)) (ha d l) hm
    have b2 := loop ds (fun x hx => hd x (List.mem_cons_of_mem _ hx)) { l with seg := l.seg ++ [d] }
    exact ⟨_, b1.trans b2⟩

/-- The version in a request line. -/
theorem version_run (j n : Nat) (l : Loc) : ∃ us, us = (natDec j).map Upd.versionMajor ++ (natDec n).map Upd.versionMinor ∧
    Acc 9 l (natDec j ++ 46 :: (natDec n ++ CRLF)) us := by
  have t : rowAt 10 46 = some ([], 11) ∧ wide 12 = true ∧ rowAt 12 269 = some ([], 13) ∧ rowAt 13 10 = some ([], 280) := by
    decide +kernel
  obtain ⟨r1, w, r2, r3⟩ := t
  obtain ⟨s1, g1⟩ := digits_run (k0 := 9) (k := 10) (a := .versionMajor) (E := .versionMajor) (by decide +kernel) (by decide +kernel)
    (fun _ _ => rfl) rfl j l (46 :: (natDec n ++ CRLF))
  have g2 := eat (l := { l with seg := s1 }) (c := 46) (tl := natDec n ++ CRLF) (by decide) r1 rfl rfl
  obtain ⟨s2, g3⟩ := digits_run (k0 := 11) (k := 12) (a := .versionMinor) (E := .versionMinor) (by decide +kernel) (by decide +kernel)
    (fun _ _ => rfl) rfl n { l with seg := s1 ++ [46] } CRLF
  exact ⟨_, rfl, (acc_run (g1.trans (g2.trans g3))).2 ⟨[], by simp, lineEnd (u := []) (v := []) w r2 rfl rfl r3 rfl rfl⟩⟩

/-- The method of a request. -/
theorem method_run {m : Bytes} (hm : IsToken m) (l : Loc) (tl : Bytes) :
    SRun ⟨1, l, m ++ 32 :: tl⟩ [.method m] ⟨3, { l with seg := m ++ [32] }, tl⟩ := by
  have t1 : ∀ c : UInt8, token c → ∃ k' ∈ [2, 14, 15, 16], rowAt 1 c.toNat = some ([.mark], k') := by decide +kernel
  have t2 : ∀ k ∈ [2, 14, 15, 16], ∀ c : UInt8, token c → ∃ k' ∈ [2, 14, 15, 16], rowAt k c.toNat = some ([], k') := by decide +kernel
  have t3 : ∀ k ∈ [2, 14, 15, 16], rowAt k 32 = some ([.method], 3) := by decide +kernel
  have loop : ∀ s : Bytes, (∀ c ∈ s, token c) → ∀ k ∈ [2, 14, 15, 16], ∀ l : Loc, ∃ k' ∈ [2, 14, 15, 16],
      SRun ⟨k, l, s ++ 32 :: tl⟩ [] ⟨k', { l with seg := l.seg ++ s }, 32 :: tl⟩ := by
    intro s
    induction s with
    | nil => intro _ k hk l; exact ⟨k, hk, by simpa using SRun.refl _⟩
    | cons c s ih =>
      intro h k hk l
      have hc := h c List.mem_cons_self
      obtain ⟨k1, hk1, r⟩ := t2 k hk c hc
      obtain ⟨k2, hk2, g⟩ := ih (fun x hx => h x (List.mem_cons_of_mem _ hx)) k1 hk1 { l with seg := l.seg ++ [c] }
      exact ⟨k2, hk2, by simpa using (eat (l := l) (tl := s ++ 32 :: tl) (tok_ne hc) r rfl rfl).trans g⟩
  obtain ⟨hm0, hm⟩ := hm
  cases m with
  | nil => exact absurd rfl hm0
  | cons c m =>
    have hc := hm c List.mem_cons_self
    obtain ⟨k1, hk1, r⟩ := t1 c hc
    obtain ⟨k2, hk2, g⟩ := loop m (fun x hx => hm x (List.mem_cons_of_mem _ hx)) k1 hk1 { l with seg := [c] }
    have a1 := eat (l := l) (tl := m ++ 32 :: tl) (tok_ne hc) r rfl rfl
    have a2 := eat (l := { l with seg := [c] ++ m }) (c := 32) (tl := tl) (by decide) (t3 k2 hk2) rfl rfl
    exact a1.trans (g.trans a2)

/-- A request line. -/
theorem request_acc {m t : Bytes} {u : URI} (hm : IsToken m) (hu : URIText t u) (j n : Nat) (l : Loc) :
    Acc 1 l (m ++ 32 :: (t ++ 32 :: (b!"SIP/" ++ (natDec j ++ 46 :: (natDec n ++ CRLF)))))
      ([.method m, .request u] ++ ((natDec j).map Upd.versionMajor ++ (natDec n).map Upd.versionMinor)) := by
  have t1 : ∀ c : UInt8, uric c → c ≠ 13 ∧ rowAt 3 c.toNat = some ([.mark], 4) ∧ rowAt 4 c.toNat = some ([], 4) := by decide +kernel
  have t2 : rowAt 4 32 = some ([.requestURI], 5) ∧ rowAt 5 83 = some ([], 6) ∧ rowAt 6 73 = some ([], 7) ∧
      rowAt 7 80 = some ([], 8) ∧ rowAt 8 47 = some ([], 9) := by decide +kernel
  obtain ⟨r1, r2, r3, r4, r5⟩ := t2
  obtain ⟨hu0, hu1⟩ := uri_uric hu
  have a1 := method_run hm l (t ++ 32 :: (b!"SIP/" ++ (natDec j ++ 46 :: (natDec n ++ CRLF))))
  have a2 := word_run (k0 := 3) (k1 := 4) (k2 := 5) (d := 32) (as := [.requestURI]) (us := [.request u]) hu0
    (fun c hc => ⟨(t1 c (hu1 c hc)).1, (t1 c (hu1 c hc)).2.1⟩) (fun c hc => ⟨(t1 c (hu1 c hc)).1, (t1 c (hu1 c hc)).2.2⟩) (by decide) r1 rfl
    (l := { l with seg := m ++ [32] }) (l' := { l with seg := t }) (by simp [sacts, sact, uriOf_text hu])
    (b!"SIP/" ++ (natDec j ++ 46 :: (natDec n ++ CRLF)))
  obtain ⟨us, e, g⟩ := version_run j n { l with seg := t ++ [32] ++ [83] ++ [73] ++ [80] ++ [47] }
  have a3 : SRun ⟨5, { l with seg := t ++ [32] }, b!"SIP/" ++ (natDec j ++ 46 :: (natDec n ++ CRLF))⟩ []
      ⟨9, { l with seg := t ++ [32] ++ [83] ++ [73] ++ [80] ++ [47] }, natDec j ++ 46 :: (natDec n ++ CRLF)⟩ :=
    (eat (c := 83) (by decide) r2 rfl rfl).trans ((eat (c := 73) (by decide) r3 rfl rfl).trans
      ((eat (c := 80) (by decide) r4 rfl rfl).trans (eat (c := 47) (by decide) r5 rfl rfl)))
  subst e
  exact (acc_run (a1.trans (a2.trans a3))).2 ⟨_, by simp, g⟩

/-- A reason phrase, after its first character. -/
theorem utf8_run {s : Bytes} (hs : ∀ x ∈ s, utf8Cont x) (hn : s.length ≤ 5) (l : Loc) (tl : Bytes) :
    ∃ sg, SRun ⟨if s.length = 0 then 26 else 28 + s.length, l, s ++ tl⟩ [] ⟨26, { l with seg := sg, buf := l.buf ++ s }, tl⟩ := by
  have t : ∀ c : UInt8, utf8Cont c → c ≠ 13 ∧ rowAt 29 c.toNat = some ([.append], 26) ∧ rowAt 30 c.toNat = some ([.append], 29) := by
    unfold utf8Cont; decide +kernel
  have t' : ∀ c : UInt8, utf8Cont c → rowAt 31 c.toNat = some ([.append], 30) ∧
      rowAt 32 c.toNat = some ([.append], 31) ∧ rowAt 33 c.toNat = some ([.append], 32) := by unfold utf8Cont; decide +kernel
  induction s generalizing l with
  | nil => exact ⟨l.seg, by simpa using SRun.refl _⟩
  | cons c s ih =>
    have hc := hs c List.mem_cons_self
    obtain ⟨c1, c2, c3⟩ := t c hc
    obtain ⟨c4, c5, c6⟩ := t' c hc
    obtain ⟨sg, g⟩ := ih (fun x hx => hs x (List.mem_cons_of_mem _ hx)) (by simp at hn; omega) { l with seg := l.seg ++ [c], buf := l.buf ++ [c] }
    refine ⟨sg, ?_⟩
    have r : rowAt (28 + (s.length + 1)) c.toNat = some ([.append], if s.length = 0 then 26 else 28 + s.length) := by
      simp only [List.length_cons] at hn
      rcases (by omega : s.length = 0 ∨ s.length = 1 ∨ s.length = 2 ∨ s.length = 3 ∨ s.length = 4) with h | h | h | h | h <;>
        rw [h] <;> assumption
    rw [if_neg (by simp), List.length_cons]
    simpa using (eat (l := l) (tl := s ++ tl) c1 r rfl rfl).trans g

theorem utf8Len_row : ∀ c : UInt8, ∀ k, utf8Len c = some k → 0 < k ∧ k ≤ 5 ∧ c ≠ 13 ∧
    rowAt 26 c.toNat = some ([.append], 28 + k) ∧ rowAt 25 c.toNat = some ([.start, .append], 28 + k) := by
  have h : ∀ c : UInt8, ∀ k ∈ (utf8Len c).toList, 0 < k ∧ k ≤ 5 ∧ c ≠ 13 ∧
      rowAt 26 c.toNat = some ([.append], 28 + k) ∧ rowAt 25 c.toNat = some ([.start, .append], 28 + k) := by decide +kernel
  intro c k hk
  exact h c k (by rw [hk]; simp)

theorem reason_row : ∀ c : UInt8, reasonc c → c ≠ 13 ∧ rowAt 26 c.toNat = some ([.append], 26) ∧
    rowAt 25 c.toNat = some ([.start, .append], 26) := by decide +kernel

theorem reason_run {p : Bytes} (hp : ReasonText p) (l : Loc) (tl : Bytes) :
    ∃ sg, SRun ⟨26, l, p ++ tl⟩ [] ⟨26, { l with seg := sg, buf := l.buf ++ p }, tl⟩ := by
  induction hp generalizing l with
  | nil => exact ⟨l.seg, by simpa using SRun.refl _⟩
  | @char c t hc _ ih =>
    obtain ⟨c1, c2, _⟩ := reason_row c hc
    obtain ⟨sg, g⟩ := ih { l with seg := l.seg ++ [c], buf := l.buf ++ [c] }
    exact ⟨sg, by simpa using (eat (l := l) (tl := t ++ tl) c1 c2 rfl rfl).trans g⟩
  | @utf8 c s t hc hs _ ih =>
    obtain ⟨k0, k5, c1, c2, _⟩ := utf8Len_row c _ hc
    obtain ⟨sg, g⟩ := utf8_run hs k5 { l with seg := l.seg ++ [c], buf := l.buf ++ [c] } (t ++ tl)
    rw [if_neg (by omega)] at g
    obtain ⟨sg', g'⟩ := ih { l with seg := sg, buf := l.buf ++ [c] ++ s }
    exact ⟨sg', by simpa using (eat (l := l) (tl := s ++ (t ++ tl)) c1 c2 rfl rfl).trans (g.trans g')⟩

/-- A reason phrase. -/
theorem phrase_acc {p : Bytes} (hp : ReasonText p) (h0 : p ≠ []) (l : Loc) : Acc 25 l (p ++ CRLF) [.phrase p] := by
  have t : wide 26 = true ∧ rowAt 26 269 = some ([.reasonPhrase], 13) ∧ rowAt 13 10 = some ([], 280) := by decide +kernel
  obtain ⟨w, r1, r2⟩ := t
  obtain ⟨sg, g⟩ : ∃ sg, SRun ⟨25, l, p ++ CRLF⟩ [] ⟨26, { l with seg := sg, buf := p }, CRLF⟩ := by
    cases hp with
    | nil => exact absurd rfl h0
    | @char c t hc ht =>
      obtain ⟨c1, _, c2⟩ := reason_row c hc
      obtain ⟨sg, g⟩ := reason_run ht { l with seg := l.seg ++ [c], buf := [c] } CRLF
      exact ⟨sg, by simpa using (eat (l := l) (tl := t ++ CRLF) c1 c2 rfl rfl).trans g⟩
    | @utf8 c s t hc hs ht =>
      obtain ⟨k0, k5, c1, _, c2⟩ := utf8Len_row c _ hc
      obtain ⟨sg, g⟩ := utf8_run hs k5 { l with seg := l.seg ++ [c], buf := [c] } (t ++ CRLF)
      rw [if_neg (by omega)] at g
      obtain ⟨sg', g'⟩ := reason_run ht { l with seg := sg, buf := [c] ++ s } CRLF
      exact ⟨sg', by simpa using (eat (l := l) (tl := s ++ (t ++ CRLF)) c1 c2 rfl rfl).trans (g.trans g')⟩
  exact (acc_run_nil g).2 (lineEnd (u := [.phrase p]) (v := []) w r1 rfl rfl r2 rfl rfl)

/-- A status line. -/
theorem status_acc {p : Bytes} {st : Nat} (hp : ReasonText p) (h0 : p ≠ []) (hs : 100 ≤ st) (hs' : st ≤ 999) (j n : Nat) (l : Loc) :
    Acc 1 l (b!"SIP/" ++ (natDec j ++ 46 :: (natDec n ++ 32 :: (natDec st ++ 32 :: (p ++ CRLF)))))
      ((natDec j).map Upd.versionMajor ++ (natDec n).map Upd.versionMinor ++ (natDec st).map Upd.status ++ [.phrase p]) := by
  have t : rowAt 1 83 = some ([.mark], 14) ∧ rowAt 14 73 = some ([], 15) ∧ rowAt 15 80 = some ([], 16) ∧ rowAt 16 47 = some ([], 17) ∧
      rowAt 18 46 = some ([], 19) ∧ rowAt 20 32 = some ([], 21) ∧ rowAt 24 32 = some ([], 25) := by decide +kernel
  have td : ∀ c : UInt8, isDigit c = true → c ≠ 13 ∧ rowAt 21 c.toNat = some ([.statusCode], 22) ∧
      rowAt 22 c.toNat = some ([.statusCode], 23) ∧ rowAt 23 c.toNat = some ([.statusCode], 24) := by decide +kernel
  have hlen : ∀ k, k < 1000 → 100 ≤ k → (natDec k).length = 3 := by decide +kernel
  obtain ⟨r1, r2, r3, r4, r5, r6, r7⟩ := t
  have a1 : ∀ tl, SRun ⟨1, l, b!"SIP/" ++ tl⟩ [] ⟨17, { l with seg := b!"SIP/" }, tl⟩ := fun tl =>
    (eat (c := 83) (by decide) r1 rfl rfl).trans ((eat (c := 73) (by decide) r2 rfl rfl).trans
      ((eat (c := 80) (by decide) r3 rfl rfl).trans (eat (c := 47) (by decide) r4 rfl rfl)))
  obtain ⟨s1, g1⟩ := digits_run (k0 := 17) (k := 18) (a := .versionMajor) (E := .versionMajor) (by decide +kernel) (by decide +kernel)
    (fun _ _ => rfl) rfl j { l with seg := b!"SIP/" } (46 :: (natDec n ++ 32 :: (natDec st ++ 32 :: (p ++ CRLF))))
  have g2 := eat (l := { l with seg := s1 }) (c := 46) (tl := natDec n ++ 32 :: (natDec st ++ 32 :: (p ++ CRLF))) (by decide) r5 rfl rfl
  obtain ⟨s2, g3⟩ := digits_run (k0 := 19) (k := 20) (a := .versionMinor) (E := .versionMinor) (by decide +kernel) (by decide +kernel)
    (fun _ _ => rfl) rfl n { l with seg := s1 ++ [46] } (32 :: (natDec st ++ 32 :: (p ++ CRLF)))
  have g4 := eat (l := { l with seg := s2 }) (c := 32) (tl := natDec st ++ 32 :: (p ++ CRLF)) (by decide) r6 rfl rfl
  have hd := natDec_isDigit st
  have h3 := hlen st (by omega) hs
  match e : natDec st, h3 with
  | [x, y, z], _ =>
    rw [e] at hd
    have hx := hd x (by simp)
    have hy := hd y (by simp)
    have hz := hd z (by simp)
    have g5 := (eat (l := { l with seg := s2 ++ [32] }) (tl := y :: z :: 32 :: (p ++ CRLF)) (td x hx).1 (td x hx).2.1 rfl rfl).trans
      ((eat (tl := z :: 32 :: (p ++ CRLF)) (td y hy).1 (td y hy).2.2.1 rfl rfl).trans
      ((eat (tl := 32 :: (p ++ CRLF)) (td z hz).1 (td z hz).2.2.2 rfl rfl).trans (eat (c := 32) (tl := p ++ CRLF) (by decide) r7 rfl rfl)))
    rw [e] at g1 g2 g3 g4
    refine (acc_run ((a1 _).trans (g1.trans (g2.trans (g3.trans (g4.trans g5)))))).2 ⟨[.phrase p], ?_, phrase_acc hp h0 _⟩
    simp

end Gosip.Sip.MsgM
