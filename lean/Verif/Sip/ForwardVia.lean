import Verif.Sip.ForwardParam
import Verif.Sdp.StringLemmas

/-!
# The message machine on Via headers written by the library
-/

namespace Gosip.Sip.MsgM
open Spec

/-- The Via being read, with given parameters. -/
def HasVia (v : Via) (r : Pairs) (l : Loc) : Prop := l.via = some { v with param := r }

theorem part_via (v : Via) : ParamPart 68 69 79 80 86 87 88 89 95 96 75 [.viaParam, .hold, .start] (HasVia v) where
  quote := quote_via
  qne := by decide
  name0 := by decide +kernel
  name1 := by decide +kernel
  eq := by decide +kernel
  val0 := by decide +kernel
  val1 := by decide +kernel
  dq := by decide +kernel
  semi1 := by decide +kernel
  semiT := by decide +kernel
  semiQ := by decide +kernel
  next := by decide +kernel
  nextMove := rfl
  nextActs := by
    intro l c r h
    unfold HasVia at h
    refine ⟨{ l with via := some { v with param := (l.name, l.buf) :: r }, buf := [] }, ?_, rfl⟩
    simp [sacts, sact, h]
  frame := by
    intro l l' r h1 _ _ h
    exact h1.trans h

/-- The end of host and port. -/
def ViaE (v : Via) (k : Nat) (l : Loc) : Prop :=
  (k = 119 ∧ HasVia v [] l) ∨ (k = 112 ∧ l.seg = v.host ∧ l.via = some { v with host := [], param := [] })

theorem via_semi (v : Via) (k : Nat) (x : Loc) (c : UInt8) (tl : Bytes) (h : ViaE v k x) (hc : token c) :
    ∃ x', SRun ⟨k, x, 59 :: c :: tl⟩ [] ⟨68, x', c :: tl⟩ ∧ HasVia v [] x' := by
  have r1 : rowAt 119 59 = some ([], 121) ∧ rowAt 112 59 = some ([.viaHost], 121) ∧
      ∀ c : UInt8, token c → rowAt 121 c.toNat = some ([.hold, .start], 68) := by decide +kernel
  obtain ⟨r1, r2, r3⟩ := r1
  rcases h with ⟨rfl, h⟩ | ⟨rfl, h1, h2⟩
  · exact ⟨_, (eat (c := 59) (by decide) r1 rfl rfl).trans (stay (tok_ne hc) (r3 c hc) rfl rfl), h⟩
  · have g : sacts [.viaHost] 59 x = some ({ x with via := some { v with param := [] } }, []) := by
      simp [sacts, sact, h2, h1]
    exact ⟨_, (eat (c := 59) (by decide) r2 g rfl).trans (stay (tok_ne hc) (r3 c hc) rfl rfl), rfl⟩

/-- The end of the line. -/
theorem via_end {v : Via} {k : Nat} {x : Loc} (h : Ended 69 80 88 (HasVia v) (ViaE v) v.param k x) :
    Acc k x CRLF [.via v] := by
  have r : (wide 119 = true ∧ wide 112 = true ∧ wide 69 = true ∧ wide 80 = true ∧ wide 88 = true) ∧
      rowAt 119 269 = some ([], 128) ∧ rowAt 112 269 = some ([.viaHost], 128) ∧ rowAt 69 269 = some ([.name], 85) ∧
      rowAt 80 269 = some ([], 85) ∧ rowAt 88 269 = some ([], 85) ∧ rowAt 128 10 = some ([.via], 280) ∧
      rowAt 85 10 = some ([.viaParam, .via], 280) := by decide +kernel
  obtain ⟨⟨w1, w2, w3, w4, w5⟩, r1, r2, r3, r4, r5, r6, r7⟩ := r
  cases hp : v.param with
  | nil =>
    rw [hp] at h
    have ev : { v with param := [] } = v := by cases v; cases hp; rfl
    rcases h with ⟨rfl, h⟩ | ⟨rfl, h1, h2⟩
    · unfold HasVia at h
      rw [ev] at h
      exact lineEnd (u := []) (v := [.via v]) w1 r1 rfl rfl r6 (by simp [sacts, sact, h]; rfl) rfl
    · refine lineEnd (u := []) (v := [.via v]) (l1 := { x with via := some v }) w2 r2 ?_ rfl r6 (by simp [sacts, sact]; rfl) rfl
      simp [sacts, sact, h2, h1]
      exact ev
  | cons p r =>
    rw [hp] at h
    obtain ⟨h, hh⟩ := h
    unfold HasVia at hh
    obtain ⟨n, y⟩ := p
    have ev : { v with param := (n, y) :: r } = v := by cases v; cases hp; rfl
    rcases h with ⟨rfl, g1, g2, g3⟩ | ⟨rfl | rfl, g1, g2⟩
    · simp only [] at g1 g3
      refine lineEnd (u := []) (v := [.via v]) (l1 := { x with name := x.seg }) w3 r3 rfl rfl r7 (by
        simp [sacts, sact, hh, g1, g2]; rw [g3] at ev; exact ⟨rfl, ev⟩) rfl
    all_goals
      simp only [] at g1 g2
      refine lineEnd (u := []) (v := [.via v]) (l1 := x) (by first | exact w4 | exact w5) (by first | exact r4 | exact r5) rfl rfl r7 (by
        simp [sacts, sact, hh, g1, g2]; exact ⟨rfl, ev⟩) rfl

/-- The digits of the port. -/
theorem port_run {v : Via} {l : Loc} (ds tl : Bytes) (hd : ∀ c ∈ ds, isDigit c = true) (h : l.via = some v) :
    ∃ s, SRun ⟨119, l, ds ++ tl⟩ [] ⟨119, { l with
      seg := s
      via := some { v with port := ds.foldl (fun p c => p * 10 + (c.toUInt16 - 48)) v.port } }, tl⟩ := by
  have r : ∀ c : UInt8, isDigit c = true → c ≠ 13 ∧ rowAt 119 c.toNat = some ([.viaPort], 119) := by decide +kernel
  induction ds generalizing l v with
  | nil => exact ⟨l.seg, by simpa [← h] using SRun.refl _⟩
  | cons c ds ih =>
    obtain ⟨h1, h2⟩ := r c (hd c List.mem_cons_self)
    have g : sacts [.viaPort] c l = some ({ l with via := some { v with port := v.port * 10 + (c.toUInt16 - 48) } }, []) := by
      simp [sacts, sact, h]
    obtain ⟨s, hs⟩ := ih (l := { l with seg := l.seg ++ [c], via := some { v with port := v.port * 10 + (c.toUInt16 - 48) } })
      (fun d hd' => hd d (List.mem_cons_of_mem _ hd')) rfl
    exact ⟨s, (eat (l := l) (tl := ds ++ tl) h1 h2 g rfl).trans hs⟩

theorem port_digits (ds : Bytes) (hd : ∀ c ∈ ds, isDigit c = true) (p : UInt16) (n : Nat) (hp : p = UInt16.ofNat n) :
    ds.foldl (fun p c => p * 10 + (c.toUInt16 - 48)) p =
      UInt16.ofNat (ds.foldl (fun a c => a * 10 + (c.toNat - 48)) n) := by
  induction ds generalizing p n with
  | nil => exact hp
  | cons c ds ih =>
    rw [List.foldl_cons, List.foldl_cons]
    refine ih (fun d hd' => hd d (List.mem_cons_of_mem _ hd')) _ _ ?_
    subst hp
    have hc : ∀ c : UInt8, isDigit c = true → c.toUInt16 - 48 = UInt16.ofNat (c.toNat - 48) := by decide +kernel
    rw [hc c (hd c List.mem_cons_self), UInt16.ofNat_add, UInt16.ofNat_mul]
    rfl

theorem port_value (p : UInt16) :
    (natDec p.toNat).foldl (fun p c => p * 10 + (c.toUInt16 - 48)) 0 = p := by
  rw [port_digits _ (natDec_isDigit _) 0 0 rfl]
  have : (natDec p.toNat).foldl (fun a c => a * 10 + (c.toNat - 48)) 0 = p.toNat := decVal_natDec p.toNat
  rw [this, UInt16.ofNat_toNat]

/-- A word from the mark to a delimiter. -/
theorem word_run {k0 k1 k2 : Nat} {d : UInt8} {as : List MAct} {s : Bytes} (hs : s ≠ [])
    (h0 : ∀ c ∈ s, c ≠ 13 ∧ rowAt k0 c.toNat = some ([.mark], k1))
    (h1 : ∀ c ∈ s, c ≠ 13 ∧ rowAt k1 c.toNat = some ([], k1)) (hd : d ≠ 13)
    (h2 : rowAt k1 d.toNat = some (as, k2)) (hm : moveOf as = .adv) {l l' : Loc} {us : List Upd}
    (g : sacts as d { l with seg := s } = some (l', us)) (tl : Bytes) :
    SRun ⟨k0, l, s ++ d :: tl⟩ us ⟨k2, { l' with seg := l'.seg ++ [d] }, tl⟩ := by
  cases s with
  | nil => exact absurd rfl hs
  | cons c s =>
    have a := eat (l := l) (tl := s ++ d :: tl) (h0 c List.mem_cons_self).1 (h0 c List.mem_cons_self).2 rfl rfl
    have b := loop_run (k := k1) (l := { l with seg := [c] }) (s := s) (tl := d :: tl)
      fun x hx => h1 x (List.mem_cons_of_mem _ hx)
    have e := eat (l := { l with seg := [c] ++ s }) (tl := tl) hd h2 g hm
    exact (a.trans b).trans e

/-- A host as it can stand in a Via: a name or an IPv4 address. -/
theorem via_host_rows : ∀ c : UInt8, viaHostc c → c ≠ 13 ∧ rowAt 111 c.toNat = some ([.mark], 112) ∧
    rowAt 112 c.toNat = some ([], 112) := by decide +kernel

/-- A Via up to the host. -/
theorem via_prefix {v : Via} (h1 : ∀ c ∈ v.protocol, token c) (h2 : ∀ c ∈ v.version, token c) (h3 : ∀ c ∈ v.transport, token c) (l : Loc) :
    SRun ⟨736, l, 32 :: (v.text ++ CRLF)⟩ []
      ⟨111, { l with seg := (viaRead v).transport ++ [32], via := some { protocol := (viaRead v).protocol, version := (viaRead v).version, transport := (viaRead v).transport } },
        (viaRead v).host ++ ((if v.port ≠ 5060 then b!":" ++ natDec v.port.toNat else []) ++ (paramText (viaRead v).param ++ CRLF))⟩ := by
  have tt : (∀ c : UInt8, token c → rowAt 736 c.toNat = some ([.viaNew, .hold], 103) ∧
      rowAt 103 c.toNat = some ([.mark], 104) ∧ rowAt 104 c.toNat = some ([], 104) ∧
      rowAt 106 c.toNat = some ([.mark], 107) ∧ rowAt 107 c.toNat = some ([], 107) ∧
      rowAt 109 c.toNat = some ([.mark], 110) ∧ rowAt 110 c.toNat = some ([], 110)) := by decide +kernel
  have tab : rowAt 104 47 = some ([.viaProtocol], 106) ∧ rowAt 107 47 = some ([.viaVersion], 109) ∧
      rowAt 110 32 = some ([.viaTransport], 111) ∧ rowAt 736 32 = some ([], 736) := by decide +kernel
  obtain ⟨t1, t2, t3, t4⟩ := tab
  have hw : ∀ {x : Bytes}, (∀ c ∈ x, token c) → ∀ {y : Bytes}, IsToken y → IsToken (if x = [] then y else x) := by
    intro x hx y hy
    by_cases e : x = []
    · rw [if_pos e]; exact hy
    · rw [if_neg e]; exact ⟨e, hx⟩
  generalize hwv : viaRead v = w
  have p1 : IsToken w.protocol := hwv ▸ hw h1 (y := b!"SIP") ⟨by decide, by decide +kernel⟩
  have p2 : IsToken w.version := hwv ▸ hw h2 (y := b!"2.0") ⟨by decide, by decide +kernel⟩
  have p3 : IsToken w.transport := hwv ▸ hw h3 (y := b!"UDP") ⟨by decide, by decide +kernel⟩
  have e : v.text ++ CRLF = w.protocol ++ 47 :: (w.version ++ 47 :: (w.transport ++ 32 :: (w.host ++
      ((if v.port ≠ 5060 then b!":" ++ natDec v.port.toNat else []) ++ (paramText w.param ++ CRLF))))) := by
    rw [← hwv]
    simp only [viaRead, Via.text, itoa_nat]
    by_cases e1 : v.protocol = [] <;> by_cases e2 : v.version = [] <;> by_cases e3 : v.transport = [] <;>
      simp [e1, e2, e3]
  rw [e]
  have hp1 : ∃ c t, w.protocol = c :: t ∧ token c := by
    cases hq : w.protocol with
    | nil => exact absurd hq p1.1
    | cons c t => exact ⟨c, t, rfl, p1.2 c (by rw [hq]; exact List.mem_cons_self)⟩
  obtain ⟨c, t, ec, hc⟩ := hp1
  generalize hR : (if v.port ≠ 5060 then b!":" ++ natDec v.port.toNat else []) ++ (paramText w.param ++ CRLF) = R
  have s0 : SRun ⟨736, l, 32 :: (w.protocol ++ 47 :: (w.version ++ 47 :: (w.transport ++ 32 :: (w.host ++ R))))⟩ []
      ⟨103, { l with seg := l.seg ++ [32], via := some {} }, w.protocol ++ 47 :: (w.version ++ 47 :: (w.transport ++ 32 :: (w.host ++ R)))⟩ := by
    refine (eat (c := 32) (by decide) t4 rfl rfl).trans ?_
    rw [ec]
    exact stay (tok_ne hc) (tt c hc).1 rfl rfl
  have s1 := word_run (k0 := 103) (k1 := 104) (d := 47) p1.1 (fun c hc => ⟨tok_ne (p1.2 c hc), (tt c (p1.2 c hc)).2.1⟩)
    (fun c hc => ⟨tok_ne (p1.2 c hc), (tt c (p1.2 c hc)).2.2.1⟩) (by decide) t1 rfl (l := { l with seg := l.seg ++ [32], via := some {} })
    rfl (w.version ++ 47 :: (w.transport ++ 32 :: (w.host ++ R)))
  have s2 := word_run (k0 := 106) (k1 := 107) (d := 47) p2.1 (fun c hc => ⟨tok_ne (p2.2 c hc), (tt c (p2.2 c hc)).2.2.2.1⟩)
    (fun c hc => ⟨tok_ne (p2.2 c hc), (tt c (p2.2 c hc)).2.2.2.2.1⟩) (by decide) t2 rfl (l := { l with seg := w.protocol ++ [47], via := some { protocol := w.protocol } })
    rfl (w.transport ++ 32 :: (w.host ++ R))
  have s3 := word_run (k0 := 109) (k1 := 110) (d := 32) p3.1 (fun c hc => ⟨tok_ne (p3.2 c hc), (tt c (p3.2 c hc)).2.2.2.2.2.1⟩)
    (fun c hc => ⟨tok_ne (p3.2 c hc), (tt c (p3.2 c hc)).2.2.2.2.2.2⟩) (by decide) t3 rfl (l := { l with seg := w.version ++ [47], via := some { protocol := w.protocol, version := w.version } })
    rfl (w.host ++ R)
  have s : SRun _ [] _ := ((s0.trans s1).trans s2).trans s3
  exact s

/-- The step an accepted text takes at a byte that is not CR. -/
theorem acc_next {k : Nat} {l : Loc} {c : UInt8} {tl : Bytes} {us : List Upd} (hc : c ≠ 13) (h : Acc k l (c :: tl) us) :
    ∃ as t, rowAt k c.toNat = some (as, t) ∧ (moveOf as = .adv → ∃ l' b, Acc t l' tl b) := by
  obtain ⟨t, a, b, h1, _, h3⟩ := acc_cons.1 h
  obtain ⟨c', tl', r, l', e1, e2, e3, e4⟩ := sstep_cases h1
  cases e1
  rw [ssymbol_ne hc] at e2
  refine ⟨r.acts, r.tgt, by unfold rowAt; rw [e2]; rfl, ?_⟩
  intro hm
  rw [hm] at e4
  subst e4
  exact ⟨_, _, h3⟩

/-- A host with two colons is refused. -/
theorem host_colons (s : Bytes) (hs : ∀ c ∈ s, ip6c c) :
    (1 ≤ s.count 58 → ∀ k, (k = 118 ∨ k = 119) → ∀ {l tl us}, ¬ Acc k l (s ++ tl) us) ∧
    (2 ≤ s.count 58 → ∀ k, (k = 111 ∨ k = 112) → ∀ {l tl us}, ¬ Acc k l (s ++ tl) us) := by
  have tab : ∀ c : UInt8, ip6c c → c ≠ 13 ∧
      (∀ k ∈ [118, 119], rowAt k c.toNat = none ∨ (c ≠ 58 ∧ rowAt k c.toNat = some ([.viaPort], 119))) := by decide +kernel
  have tab2 : ∀ c : UInt8, ip6c c →
      (∀ k ∈ [111, 112], rowAt k c.toNat = none ∨ (c ≠ 58 ∧ (rowAt k c.toNat = some ([.mark], 112) ∨ rowAt k c.toNat = some ([], 112))) ∨
        (c = 58 ∧ rowAt k c.toNat = some ([.viaHost], 118))) := by decide +kernel
  induction s with
  | nil => constructor <;> intro h <;> simp at h
  | cons c s ih =>
    obtain ⟨ih1, ih2⟩ := ih fun d hd => hs d (List.mem_cons_of_mem _ hd)
    obtain ⟨h13, hr⟩ := tab c (hs c List.mem_cons_self)
    have hr2 := tab2 c (hs c List.mem_cons_self)
    rw [List.count_cons]
    constructor
    · intro hn k hk l tl us h
      obtain ⟨as, t, e, g⟩ := acc_next h13 h
      rcases hr k (by rcases hk with rfl | rfl <;> decide) with e' | ⟨h58, e'⟩
      · rw [e'] at e; cases e
      · rw [e'] at e; cases e
        obtain ⟨l', b, g⟩ := g rfl
        have : (c == 58) = false := by simpa using h58
        rw [this] at hn
        exact ih1 hn 119 (.inr rfl) g
    · intro hn k hk l tl us h
      obtain ⟨as, t, e, g⟩ := acc_next h13 h
      rcases hr2 k (by rcases hk with rfl | rfl <;> decide) with e' | ⟨h58, e'⟩ | ⟨h58, e'⟩
      · rw [e'] at e; cases e
      · have : (c == 58) = false := by simpa using h58
        rw [this] at hn
        rcases e' with e' | e' <;> rw [e'] at e <;> cases e <;> obtain ⟨l', b, g⟩ := g rfl <;>
          exact ih2 hn 112 (.inr rfl) g
      · rw [e'] at e; cases e
        obtain ⟨l', b, g⟩ := g rfl
        have : (c == 58) = true := by simpa using h58
        rw [this] at hn
        exact ih1 (by rw [if_pos rfl] at hn; exact Nat.le_of_succ_le_succ hn) 118 (.inl rfl) g

/-- A Via header written by the library, up to its parameters. -/
theorem via_host {v : Via} (h1 : ∀ c ∈ v.protocol, token c) (h2 : ∀ c ∈ v.version, token c) (h3 : ∀ c ∈ v.transport, token c)
    (h4 : v.host ≠ []) (h5 : ∀ c ∈ v.host, viaHostc c) (l : Loc) :
    ∃ k x, SRun ⟨736, l, 32 :: (v.text ++ CRLF)⟩ [] ⟨k, x, paramText v.param ++ CRLF⟩ ∧ ViaE (viaRead v) k x := by
  have tab : rowAt 112 58 = some ([.viaHost], 118) ∧
      (∀ c : UInt8, isDigit c = true → c ≠ 13 ∧ rowAt 118 c.toNat = some ([.viaPort], 119)) := by decide +kernel
  obtain ⟨t5, t6⟩ := tab
  generalize hwv : viaRead v = w
  have s := via_prefix h1 h2 h3 l
  rw [hwv] at s
  generalize hR : (if v.port ≠ 5060 then b!":" ++ natDec v.port.toNat else []) ++ (paramText w.param ++ CRLF) = R at s
  have hh : w.host = v.host := by rw [← hwv]; rfl
  have hpar : w.param = v.param := by rw [← hwv]; rfl
  rw [← hh] at h4 h5
  rw [← hpar]
  subst hR
  by_cases hport : v.port = 5060
  · have hw0 : w.port = 0 := by rw [← hwv]; simp [viaRead, hport]
    rw [if_neg (by simpa using hport), List.nil_append] at s
    obtain ⟨d, x, ex⟩ : ∃ d x, w.host = d :: x := by
      cases hq : w.host with
      | nil => exact absurd hq h4
      | cons d x => exact ⟨d, x, rfl⟩
    rw [ex] at h5
    have a := eat (l := { l with seg := w.transport ++ [32], via := some { protocol := w.protocol, version := w.version, transport := w.transport } }) (tl := x ++ (paramText w.param ++ CRLF)) (via_host_rows d (h5 d List.mem_cons_self)).1
      (via_host_rows d (h5 d List.mem_cons_self)).2.1 rfl rfl
    have b := loop_run (k := 112) (l := { l with seg := [d], via := some { protocol := w.protocol, version := w.version, transport := w.transport } }) (s := x) (tl := paramText w.param ++ CRLF)
      fun y hy => ⟨(via_host_rows y (h5 y (List.mem_cons_of_mem _ hy))).1, (via_host_rows y (h5 y (List.mem_cons_of_mem _ hy))).2.2⟩
    rw [ex] at s
    refine ⟨112, { l with seg := d :: x, via := some { protocol := w.protocol, version := w.version, transport := w.transport } },
      s.trans (a.trans b), .inr ⟨rfl, ex.symm, ?_⟩⟩
    simp only []; rw [hw0]
  · have hw0 : w.port = v.port := by rw [← hwv]; simp [viaRead, hport]
    rw [if_pos (by simpa using hport), ← hw0] at s
    have s5 := word_run (k0 := 111) (k1 := 112) (d := 58) h4 (fun c hc => ⟨(via_host_rows c (h5 c hc)).1, (via_host_rows c (h5 c hc)).2.1⟩)
      (fun c hc => ⟨(via_host_rows c (h5 c hc)).1, (via_host_rows c (h5 c hc)).2.2⟩) (by decide) t5 rfl (l := { l with seg := w.transport ++ [32], via := some { protocol := w.protocol, version := w.version, transport := w.transport } })
      rfl (natDec w.port.toNat ++ (paramText w.param ++ CRLF))
    obtain ⟨d, x, ex⟩ : ∃ d x, natDec w.port.toNat = d :: x := by
      cases hq : natDec w.port.toNat with
      | nil => exact absurd hq (natDec_ne_nil _)
      | cons d x => exact ⟨d, x, rfl⟩
    have hdig := natDec_isDigit w.port.toNat
    have hval := port_value w.port
    rw [ex] at hdig hval s5
    have s6 := eat (l := { l with seg := w.host ++ [58], via := some { protocol := w.protocol, version := w.version, transport := w.transport, host := w.host } }) (tl := x ++ (paramText w.param ++ CRLF))
      (t6 d (hdig d List.mem_cons_self)).1 (t6 d (hdig d List.mem_cons_self)).2 rfl rfl
    obtain ⟨sg, s7⟩ := port_run (v := { protocol := w.protocol, version := w.version, transport := w.transport, host := w.host, port := 0 * 10 + (d.toUInt16 - 48) })
      (l := { l with seg := w.host ++ [58] ++ [d], via := some { protocol := w.protocol, version := w.version, transport := w.transport, host := w.host, port := 0 * 10 + (d.toUInt16 - 48) } })
      x (paramText w.param ++ CRLF) (fun y hy => hdig y (List.mem_cons_of_mem _ hy)) rfl
    rw [List.foldl_cons] at hval
    simp only [] at s7
    rw [hval] at s7
    rw [ex] at s
    exact ⟨119, { l with seg := sg, via := some { protocol := w.protocol, version := w.version, transport := w.transport, host := w.host, port := w.port } },
      s.trans ((s5.trans s6).trans s7), .inl ⟨rfl, rfl⟩⟩

/-- A Via header written by the library. -/
theorem via_acc {v : Via} (hv : ViaOK v) (l : Loc) :
    Acc 736 l (32 :: (v.text ++ CRLF)) [.via (viaRead v)] := by
  obtain ⟨h1, h2, h3, h4, h5, h6⟩ := hv
  obtain ⟨k, x, s, g⟩ := via_host h1 h2 h3 h4 h5 l
  obtain ⟨k', x', s8, g8⟩ := (part_via (viaRead v)).list (E := ViaE (viaRead v)) (via_semi (viaRead v)) h6 g CRLF
  exact (acc_run_nil (s.trans s8)).2 (via_end g8)

end Gosip.Sip.MsgM
