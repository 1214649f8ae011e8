import Verif.Sip.Heap

/-!
# Lemmas on the heap: frames, and what the copying methods do
-/

namespace Gosip.Sip.Heap
open Sip

/-- Cells that the copying methods share: parameters, headers, payloads, source addresses. -/
def Cell.shared : Cell → Prop
  | .pair .. => True
  | .payload .. => True
  | .source .. => True
  | _ => False

/-! ### A value only depends on the cells it is read from -/

theorem PairsAt.frame {h h2 : Heap} {p : Ptr} {l : Pairs} (H : PairsAt h p l)
    (hs : ∀ (a : Nat) (c : Cell), h[a]? = some c → c.shared → h2[a]? = some c) : PairsAt h2 p l := by
  induction H with
  | nil => exact .nil
  | cons hc _ ih => exact .cons (hs _ _ hc trivial) ih

theorem PairsAt.mono {h h2 : Heap} {p : Ptr} {l : Pairs} (H : PairsAt h p l)
    (hs : ∀ (a : Nat) (c : Cell), h[a]? = some c → h2[a]? = some c) : PairsAt h2 p l :=
  H.frame (fun a c h1 _ => hs a c h1)

theorem UriAt.mono {h h2 : Heap} {p : Ptr} {u : Option URI} (H : UriAt h p u)
    (hs : ∀ (a : Nat) (c : Cell), h[a]? = some c → h2[a]? = some c) : UriAt h2 p u := by
  cases H with
  | nil => exact .nil
  | cell h1 h3 h4 => exact .cell (hs _ _ h1) (h3.mono hs) (h4.mono hs)

theorem AddrsAt.mono {h h2 : Heap} {p : Ptr} {l : List Addr} (H : AddrsAt h p l)
    (hs : ∀ (a : Nat) (c : Cell), h[a]? = some c → h2[a]? = some c) : AddrsAt h2 p l := by
  induction H with
  | nil => exact .nil
  | cons h1 h3 h4 _ ih => exact .cons (hs _ _ h1) (h3.mono hs) (h4.mono hs) ih

theorem ViasAt.mono {h h2 : Heap} {p : Ptr} {l : List Via} (H : ViasAt h p l)
    (hs : ∀ (a : Nat) (c : Cell), h[a]? = some c → h2[a]? = some c) : ViasAt h2 p l := by
  induction H with
  | nil => exact .nil
  | cons h1 h3 _ ih => exact .cons (hs _ _ h1) (h3.mono hs) ih

theorem PayloadAt.mono {h h2 : Heap} {p : Ptr} {x : Option Payload} (H : PayloadAt h p x)
    (hs : ∀ (a : Nat) (c : Cell), h[a]? = some c → h2[a]? = some c) : PayloadAt h2 p x := by
  cases H with
  | nil => exact .nil
  | cell h1 => exact .cell (hs _ _ h1)

theorem SourceAt.mono {h h2 : Heap} {p : Ptr} {x : Option (Bytes × UInt16)} (H : SourceAt h p x)
    (hs : ∀ (a : Nat) (c : Cell), h[a]? = some c → h2[a]? = some c) : SourceAt h2 p x := by
  cases H with
  | nil => exact .nil
  | cell h1 => exact .cell (hs _ _ h1)

theorem MsgAt.mono {h h2 : Heap} {p : Ptr} {x : Option Msg} (H : MsgAt h p x)
    (hs : ∀ (a : Nat) (c : Cell), h[a]? = some c → h2[a]? = some c) : MsgAt h2 p x := by
  cases H with
  | nil => exact .nil
  | cell h1 h3 h4 h5 h6 h7 h8 =>
    exact .cell (hs _ _ h1) (h3.mono hs) (fun f => (h4 f).mono hs) (h5.mono hs) (h6.mono hs)
      (h7.mono hs) (h8.mono hs)

/-! ### A pointer stands for one value -/

theorem PairsAt.det {h : Heap} {p : Ptr} {l m : Pairs} (H : PairsAt h p l) (K : PairsAt h p m) :
    l = m := by
  induction H generalizing m with
  | nil => cases K; rfl
  | cons hc _ ih =>
    cases K with
    | cons hd hl =>
      rw [hc] at hd; cases hd
      rw [ih hl]

theorem UriAt.det {h : Heap} {p : Ptr} {l m : Option URI} (H : UriAt h p l) (K : UriAt h p m) :
    l = m := by
  cases H with
  | nil => cases K; rfl
  | cell h1 h2 h3 =>
    cases K with
    | cell k1 k2 k3 => rw [h1] at k1; cases k1; rw [h2.det k2, h3.det k3]

theorem AddrsAt.det {h : Heap} {p : Ptr} {l m : List Addr} (H : AddrsAt h p l) (K : AddrsAt h p m) :
    l = m := by
  induction H generalizing m with
  | nil => cases K; rfl
  | cons h1 h2 h3 _ ih =>
    cases K with
    | cons k1 k2 k3 k4 => rw [h1] at k1; cases k1; rw [h2.det k2, h3.det k3, ih k4]

theorem ViasAt.det {h : Heap} {p : Ptr} {l m : List Via} (H : ViasAt h p l) (K : ViasAt h p m) :
    l = m := by
  induction H generalizing m with
  | nil => cases K; rfl
  | cons h1 h3 _ ih =>
    cases K with
    | cons k1 k3 k4 => rw [h1] at k1; cases k1; rw [h3.det k3, ih k4]

theorem ViasAt.param {h : Heap} {a : Nat} {c : ViaCell} {v : Via} {l : List Via}
    (H : ViasAt h (some a) (v :: l)) (hc : h[a]? = some (.via c)) : PairsAt h c.param v.param := by
  cases H with
  | cons h1 h2 _ => rw [h1] at hc; cases hc; exact h2

theorem MsgAt.xheader {h : Heap} {a : Nat} {c : MsgCell} {m : Msg}
    (H : MsgAt h (some a) (some m)) (hc : h[a]? = some (.msg c)) : PairsAt h c.xheader m.xheader := by
  cases H with
  | cell h1 _ _ _ _ _ h2 => rw [h1] at hc; cases hc; exact h2

theorem PairsAt.head {h : Heap} {b : Nat} {n x : Bytes} {r : Ptr} {l : Pairs}
    (H : PairsAt h (some b) l) (hb : h[b]? = some (.pair n x r)) : l.head? = some (n, x) := by
  cases H with
  | cons h1 _ => rw [h1] at hb; cases hb; rfl

/-! ### What the copies depend on -/

/-- `h2` keeps the cells of `h'` from address `lo` on, and the shared ones. -/
def Keeps (lo : Nat) (h' h2 : Heap) : Prop :=
  ∀ (a : Nat) (c : Cell), h'[a]? = some c → (lo ≤ a ∨ c.shared) → h2[a]? = some c

theorem Keeps.weaken {lo lo' : Nat} {h1 h' h2 : Heap} (H : Keeps lo h' h2) (hl : lo ≤ lo')
    (he : ∀ (a : Nat) (c : Cell), h1[a]? = some c → h'[a]? = some c) : Keeps lo' h1 h2 :=
  fun a c h3 h4 => H a c (he a c h3) (h4.imp (fun x => Nat.le_trans hl x) id)

/-- `h'` is `h` with further cells. -/
def Ext (h h' : Heap) : Prop := ∃ t, h' = h ++ t

theorem Ext.rfl' (h : Heap) : Ext h h := ⟨[], by simp⟩

theorem Ext.trans {a b c : Heap} (h1 : Ext a b) (h2 : Ext b c) : Ext a c := by
  obtain ⟨t, rfl⟩ := h1; obtain ⟨u, rfl⟩ := h2; exact ⟨t ++ u, by simp⟩

theorem Ext.snoc (h : Heap) (c : Cell) : Ext h (h ++ [c]) := ⟨_, rfl⟩

theorem Ext.get {h h' : Heap} (H : Ext h h') : ∀ (a : Nat) (c : Cell), h[a]? = some c → h'[a]? = some c := by
  obtain ⟨t, rfl⟩ := H
  intro a c h1
  have := (List.getElem?_eq_some_iff.mp h1).1
  rw [List.getElem?_append_left this]; exact h1

theorem Ext.len {h h' : Heap} (H : Ext h h') : h.length ≤ h'.length := by
  obtain ⟨t, rfl⟩ := H; simp

theorem get_last (h : Heap) (c : Cell) : (h ++ [c])[h.length]? = some c := by simp

theorem uriCopy_spec {h : Heap} {p : Ptr} {u : Option URI} (H : UriAt h p u) :
    ∃ h' q, uriCopy h p = some (h', q) ∧ Ext h h' ∧ ∀ h2, Keeps h.length h' h2 → UriAt h2 q u := by
  cases H with
  | nil => exact ⟨h, none, rfl, .rfl' h, fun _ _ => .nil⟩
  | @cell a c ps hs h1 h3 h4 =>
    refine ⟨h ++ [.uri c], some h.length, by simp [uriCopy, h1], .snoc _ _, fun h2 hk => ?_⟩
    refine .cell (hk _ _ (get_last _ _) (.inl (Nat.le_refl _))) (h3.frame ?_) (h4.frame ?_) <;>
      exact fun b d hb hd => hk b d ((Ext.snoc h _).get b d hb) (.inr hd)

theorem viaCopy_spec {h : Heap} {p : Ptr} {l : List Via} (H : ViasAt h p l) {n : Nat}
    (hn : l.length ≤ n) :
    ∃ h' q, viaCopy n h p = some (h', q) ∧ Ext h h' ∧ ∀ h2, Keeps h.length h' h2 → ViasAt h2 q l := by
  induction H generalizing n with
  | nil => exact ⟨h, none, by cases n <;> rfl, .rfl' h, fun _ _ => .nil⟩
  | @cons a c ps l h1 h3 h4 ih =>
    obtain ⟨n, rfl⟩ : ∃ k, n = k + 1 := by cases n <;> simp_all
    obtain ⟨h', q, e, he, hk⟩ := ih (n := n) (by simpa using hn)
    refine ⟨_, _, by simp only [viaCopy, h1, e, Option.bind_some]; rfl, he.trans (.snoc _ _),
      fun h2 k2 => ?_⟩
    refine .cons (c := { c with next := q }) (k2 _ _ (get_last _ _) (.inl he.len)) (h3.frame ?_) (hk h2 ?_)
    · exact fun b d hb hd => k2 b d ((he.trans (.snoc h' _)).get b d hb) (.inr hd)
    · exact k2.weaken (Nat.le_refl _) (Ext.snoc h' _).get

theorem addrCopy_spec {h : Heap} {p : Ptr} {l : List Addr} (H : AddrsAt h p l) {n : Nat}
    (hn : l.length ≤ n) :
    ∃ h' q, addrCopy n h p = some (h', q) ∧ Ext h h' ∧ ∀ h2, Keeps h.length h' h2 →
      AddrsAt h2 q (l.map fun x => { x with display := [] }) := by
  induction l generalizing h p n with
  | nil => cases H; exact ⟨h, none, by cases n <;> rfl, .rfl' h, fun _ _ => .nil⟩
  | cons x l ih =>
    cases H with
    | @cons a c u ps l h1 h3 h4 h5 =>
    obtain ⟨n, rfl⟩ : ∃ k, n = k + 1 := by cases n <;> simp_all
    obtain ⟨hu, qu, eu, xu, ku⟩ := uriCopy_spec h3
    obtain ⟨h', q, e, he, hk⟩ := ih (n := n) (h5.mono xu.get) (by simpa using hn)
    refine ⟨_, _, by simp only [addrCopy, h1, eu, e, Option.bind_some]; rfl,
      (xu.trans he).trans (.snoc _ _), fun h2 k2 => ?_⟩
    refine .cons (c := { uri := qu, display := [], param := c.param, next := q })
      (k2 _ _ (get_last _ _) (.inl (xu.trans he).len)) (ku h2 ?_) (h4.frame ?_) (hk h2 ?_)
    · exact k2.weaken (Nat.le_refl _) (he.trans (.snoc h' _)).get
    · exact fun b d hb hd => k2 b d (((xu.trans he).trans (.snoc h' _)).get b d hb) (.inr hd)
    · exact k2.weaken xu.len (Ext.snoc h' _).get

/-- The copy of a message keeps the pointers to extension headers and payload. -/
theorem msgCopy_cell {h h' : Heap} {a : Nat} {c : MsgCell} {q : Ptr} {n : Nat}
    (hc : h[a]? = some (.msg c)) (e : msgCopy n h (some a) = some (h', q)) :
    ∃ (b : Nat) (d : MsgCell), q = some b ∧ h'[b]? = some (.msg d) ∧ d.xheader = c.xheader ∧
      d.payload = c.payload ∧ d.source = c.source := by
  simp only [msgCopy, hc, Option.bind_eq_some_iff, Option.some.injEq, Prod.mk.injEq] at e
  obtain ⟨_, _, _, _, _, _, _, _, _, _, _, _, _, _, _, _, z, _, rfl, rfl⟩ := e
  exact ⟨_, _, rfl, get_last _ _, rfl, rfl, rfl⟩

/-- A message with the display names of its addresses removed. -/
def plainDisplays (m : Msg) : Msg :=
  { m with addrs := fun f => (m.addrs f).map fun x => { x with display := [] } }

theorem msgCopy_spec {h : Heap} {p : Ptr} {x : Option Msg} (H : MsgAt h p x) {n : Nat}
    (hn : ∀ m, x = some m → m.via.length ≤ n ∧ ∀ f, (m.addrs f).length ≤ n) :
    ∃ h' q, msgCopy n h p = some (h', q) ∧ Ext h h' ∧ ∀ h2, Keeps h.length h' h2 →
      MsgAt h2 q (x.map plainDisplays) := by
  cases H with
  | nil => exact ⟨h, none, rfl, .rfl' h, fun _ _ => .nil⟩
  | @cell a c u as vs pl src xs h1 h3 h4 h5 h6 h7 h8 =>
    obtain ⟨hv, ha⟩ := hn _ rfl
    dsimp only at hv ha
    obtain ⟨r, r2, er, xr, kr⟩ := uriCopy_spec h3
    obtain ⟨t, t2, et, xt, kt⟩ := addrCopy_spec (n := n) ((h4 .to).mono xr.get) (ha _)
    have xt' := xr.trans xt
    obtain ⟨f, f2, ef, xf, kf⟩ := addrCopy_spec (n := n) ((h4 .from).mono xt'.get) (ha _)
    have xf' := xt'.trans xf
    obtain ⟨v, v2, ev, xv, kv⟩ := viaCopy_spec (n := n) (h5.mono xf'.get) hv
    have xv' := xf'.trans xv
    obtain ⟨i, i2, ei, xi, ki⟩ := addrCopy_spec (n := n) ((h4 .pAssertedIdentity).mono xv'.get) (ha _)
    have xi' := xv'.trans xi
    obtain ⟨j, j2, ej, xj, kj⟩ := addrCopy_spec (n := n) ((h4 .remotePartyID).mono xi'.get) (ha _)
    have xj' := xi'.trans xj
    obtain ⟨o, o2, eo, xo, ko⟩ := addrCopy_spec (n := n) ((h4 .route).mono xj'.get) (ha _)
    have xo' := xj'.trans xo
    obtain ⟨k, k2, ek, xk, kk⟩ := addrCopy_spec (n := n) ((h4 .contact).mono xo'.get) (ha _)
    have xk' := xo'.trans xk
    obtain ⟨z, z2, ez, xz, kz⟩ := addrCopy_spec (n := n) ((h4 .recordRoute).mono xk'.get) (ha _)
    have xz' := xk'.trans xz
    refine ⟨_, _, by simp only [msgCopy, h1, er, et, ef, ev, ei, ej, eo, ek, ez, Option.bind_some]; rfl,
      xz'.trans (.snoc _ _), fun h2 w => ?_⟩
    have S : ∀ (b : Nat) (d : Cell), h[b]? = some d → d.shared → h2[b]? = some d :=
      fun b d hb hd => w b d ((xz'.trans (.snoc z _)).get b d hb) (.inr hd)
    have xs9 := Ext.snoc z (.msg { c with request := r2, via := v2, addrs := fun
                | .to => t2 | .from => f2 | .pAssertedIdentity => i2 | .remotePartyID => j2
                | .route => o2 | .contact => k2 | .recordRoute => z2 })
    have xk9 := xz.trans xs9
    have xo9 := xk.trans xk9
    have xj9 := xo.trans xo9
    have xi9 := xj.trans xj9
    have xv9 := xi.trans xi9
    have xf9 := xv.trans xv9
    have xt9 := xf.trans xf9
    have xr9 := xt.trans xt9
    refine .cell (c := { c with request := r2, via := v2, addrs := fun
                | .to => t2 | .from => f2 | .pAssertedIdentity => i2 | .remotePartyID => j2
                | .route => o2 | .contact => k2 | .recordRoute => z2 })
      (as := fun f => (as f).map fun x => { x with display := [] })
      (w _ _ (get_last _ _) (.inl xz'.len)) (kr h2 (w.weaken (Nat.le_refl _) xr9.get)) ?_
      (kv h2 (w.weaken xf'.len xv9.get)) ?_ ?_ (h8.frame S)
    · intro fld
      cases fld with
      | to => exact kt h2 (w.weaken xr.len xt9.get)
      | «from» => exact kf h2 (w.weaken xt'.len xf9.get)
      | pAssertedIdentity => exact ki h2 (w.weaken xv'.len xi9.get)
      | remotePartyID => exact kj h2 (w.weaken xi'.len xj9.get)
      | route => exact ko h2 (w.weaken xj'.len xo9.get)
      | contact => exact kk h2 (w.weaken xo'.len xk9.get)
      | recordRoute => exact kz h2 (w.weaken xk'.len xs9.get)
    · cases hp : c.payload with
      | none => rw [hp] at h6; cases h6; exact .nil
      | some b => rw [hp] at h6; cases h6 with | cell h6 => exact .cell (S _ _ h6 trivial)
    · cases hp : c.source with
      | none => rw [hp] at h7; cases h7; exact .nil
      | some b => rw [hp] at h7; cases h7 with | cell h7 => exact .cell (S _ _ h7 trivial)

end Gosip.Sip.Heap
