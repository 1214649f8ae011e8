import Verif.Sip.HeapNodes

/-!
# Lemmas on routes that are rewritten in memory
-/

namespace Gosip.Sip.Heap
open Sip Spec

theorem keeps_self {lo : Nat} (h : Heap) : Keeps lo h h := fun _ _ x _ => x

theorem strictRoute_eq {h : Heap} {a : Nat} {c : MsgCell} {m : Msg} {r : Addr} {rest : List Addr} {n : Nat}
    (hc : h[a]? = some (.msg c)) (H : MsgAt h (some a) (some m)) (hr : m.addrs .route = r :: rest)
    (hn : (r :: rest).length ≤ n) :
    ∃ h', strictRoute n h a c = some h' ∧
      MsgAt h' (some a) (some { m with
        request := r.uri
        addrs := fun f => if f = .route then (rest.map fun x => { x with display := [] }) ++ [{ uri := m.request }] else m.addrs f }) ∧
      ∀ b, b ≠ a → b < h.length → h'[b]? = h[b]? := by
  obtain ⟨v1, v2, _⟩ := MsgAt.value hc H
  have hroute := v2 .route
  rw [hr] at hroute
  obtain ⟨h1, q, e, he, hk⟩ := addrCopy_spec hroute hn
  have hq := hk h1 (keeps_self _)
  obtain ⟨as, hN, hlo⟩ := addrCopy_new e
  obtain ⟨as', hN', hlen⟩ := hq.nodes
  cases hN.det hN'
  have hl : as.getLast? ≠ none := by
    intro h0
    rw [List.getLast?_eq_none_iff] at h0
    subst h0
    simp at hlen
  obtain ⟨z, hz⟩ := Option.ne_none_iff_exists'.1 hl
  have elast : addrLast n h1 q = some (some z) := by
    rw [addrLast_eq hN (by rw [hlen]; simpa using hn), hz]
  have hzm : z ∈ as := List.mem_of_getLast? hz
  have hzlo := hlo z hzm
  obtain ⟨cz, hcz⟩ := hN.lt z hzm
  have hzl : z < h1.length := (List.getElem?_eq_some_iff.1 hcz).1
  have ha : a < h.length := (List.getElem?_eq_some_iff.1 hc).1
  have xs := Ext.snoc h1 (.addr { uri := c.request })
  let h2 : Heap := (h1 ++ [Cell.addr { uri := c.request }]).set z (.addr { cz with next := some h1.length })
  have g2 : ∀ b, b ≠ z → h2[b]? = (h1 ++ [Cell.addr { uri := c.request }])[b]? := fun b hb => by
    simp only [h2]
    rw [List.getElem?_set_ne (fun x => hb x.symm)]
  have z2 : h2[z]? = some (.addr { cz with next := some h1.length }) := by
    simp only [h2]
    rw [List.getElem?_set_self (by simp only [List.length_append]; omega)]
  have e2 : setNext (h1 ++ [Cell.addr { uri := c.request }]) (some z) (some h1.length) = some h2 := by
    have : addrCell (h1 ++ [Cell.addr { uri := c.request }]) (some z) = some (z, cz) := by
      simp only [addrCell, Option.bind_some, xs.get _ _ hcz]
    simp only [setNext, this, Option.map_some, h2]
  have s12 : ∀ (b : Nat) (d : Cell), h1[b]? = some d → b ≠ z → h2[b]? = some d :=
    fun b d hb hbz => by rw [g2 b hbz]; exact xs.get _ _ hb
  have l12 : ∀ (b : Nat) (d : Cell), h1[b]? = some d → d.leaf → h2[b]? = some d := fun b d hb hd => by
    refine s12 b d hb ?_
    rintro rfl
    have ek := hb.symm.trans hcz
    cases ek
    exact hd
  have s02 : ∀ (b : Nat) (d : Cell), h[b]? = some d → h2[b]? = some d := fun b d hb => by
    have := (List.getElem?_eq_some_iff.1 hb).1
    exact s12 b d (he.get _ _ hb) (by omega)
  have hnew : h2[h1.length]? = some (.addr { uri := c.request }) := by
    rw [g2 _ (by omega)]; exact get_last _ _
  have hlist := AddrsAt.link hq hN hz hcz l12 (fun b d hb hbz => s12 b _ hb hbz) z2
    (.cons (c := { uri := c.request }) hnew (v1.mono s02) .nil .nil)
  generalize hy : List.map (fun x : Addr => { x with display := [] }) (r :: rest) ++ [{ uri := m.request }] = y at hlist
  cases hlist with
  | nil => simp at hy
  | @cons qa d u ps t w1 w2 w3 w4 =>
  have e3 : addrCell h2 (some qa) = some (qa, d) := by simp only [addrCell, Option.bind_some, w1]
  let h3 : Heap := h2.set a (.msg (c.rerouted d.uri d.next))
  have hal : a < h2.length := (List.getElem?_eq_some_iff.1 (s02 a _ hc)).1
  have a3 : h3[a]? = some (.msg (c.rerouted d.uri d.next)) := by
    simp only [h3]
    rw [List.getElem?_set_self hal]
  have s23 : ∀ (b : Nat) (x : Cell), h2[b]? = some x → b ≠ a → h3[b]? = some x := fun b x hb hba => by
    simp only [h3]
    rw [List.getElem?_set_ne (fun x => hba x.symm)]; exact hb
  have hmsg : h2[a]? = some (.msg c) := s02 a _ hc
  have l23 : ∀ (b : Nat) (x : Cell), h2[b]? = some x → x.leaf → h3[b]? = some x := fun b x hb hx => by
    refine s23 b x hb ?_
    rintro rfl
    have ek := hb.symm.trans hmsg
    cases ek
    exact hx
  have a23 : ∀ (b : Nat) (x : AddrCell), h2[b]? = some (.addr x) → h3[b]? = some (.addr x) := fun b x hb => by
    refine s23 b _ hb ?_
    rintro rfl
    have ek := hb.symm.trans hmsg
    cases ek
  have fr : ∀ {p : Ptr} {l : List Addr}, AddrsAt h2 p l → AddrsAt h3 p l := fun {p l} X => by
    obtain ⟨bs, X2, _⟩ := X.nodes
    exact X.frame X2 l23 (fun b x hb _ => a23 b x hb)
  refine ⟨h3, ?_, ?_, ?_⟩
  · simp only [strictRoute, e, Option.bind_some, elast, e2, e3, Option.map_some, h3]
  · simp only [List.map_cons, List.cons_append, List.cons.injEq] at hy
    obtain ⟨hy1, rfl⟩ := hy
    have hu : u = r.uri := (congrArg Addr.uri hy1).symm
    subst hu
    exact MsgAt.rerouted hc H (fun b x hb hx => l23 b x (s02 b x hb) hx) (fun f _ => fr ((v2 f).mono s02)) a3
      (w2.frame l23) (fr w4)
  · intro b hba hbl
    have hb : h[b]? = some h[b] := List.getElem?_eq_getElem hbl
    rw [hb]
    exact s23 b _ (s02 b _ hb) hba

/-- A message whose node and lists stay is the same. -/
theorem MsgAt.other {h h2 : Heap} {b : Nat} {d : MsgCell} {m : Msg} (hd : h[b]? = some (.msg d)) (H : MsgAt h (some b) (some m))
    (hs : ∀ (a : Nat) (c : Cell), h[a]? = some c → c.leaf → h2[a]? = some c) (h2d : h2[b]? = some (.msg d))
    (ho : ∀ f, AddrsAt h2 (d.addrs f) (m.addrs f)) : MsgAt h2 (some b) (some m) := by
  obtain ⟨h3, h4, h5, h6, h7, h8, h9⟩ := MsgAt.value hd H
  rw [h9]
  exact .cell h2d (h3.frame hs) ho (h5.frame hs) (h6.frame hs) (h7.frame hs) (h8.frame' hs)

theorem MsgAt.cell' {h : Heap} {b : Nat} {m : Msg} (H : MsgAt h (some b) (some m)) : ∃ d, h[b]? = some (.msg d) := by
  cases H with
  | cell h1 => exact ⟨_, h1⟩

theorem fixRoute_eq {h : Heap} {a : Nat} {c : MsgCell} {m : Msg} {n : Nat} {as : List Nat}
    (hc : h[a]? = some (.msg c)) (H : MsgAt h (some a) (some m)) (hr : m.addrs .route ≠ [])
    (hn : (m.addrs .route).length ≤ n) (hN : AddrNodes h (c.addrs .route) as) :
    ∃ h', fixRoute n h a c = some h' ∧
      (∀ (b : Nat) (x : Cell), h[b]? = some x → b ≠ a → b ∉ as → h'[b]? = some x) ∧
      (∀ (b : Nat) (x : Cell), h[b]? = some x → x.leaf → h'[b]? = some x) ∧
      ∃ r q, h'[a]? = some (.msg (c.rerouted r q)) ∧ UriAt h' r ((m.addrs .route).getLast?.bind (·.uri)) ∧
        AddrsAt h' q (m.addrs .route).dropLast ∧
        (2 ≤ (m.addrs .route).length → AddrsAt h' (c.addrs .route) (m.addrs .route).dropLast) := by
  obtain ⟨v1, v2, _⟩ := MsgAt.value hc H
  have hroute := v2 .route
  have ha : a < h.length := (List.getElem?_eq_some_iff.1 hc).1
  generalize m.addrs .route = l at hr hn hroute
  cases l with
  | nil => exact absurd rfl hr
  | cons r rest =>
  generalize hp : c.addrs .route = p at hroute hN
  cases hroute' : hroute with
  | @cons b d u ps t g1 g3 g4 g5 =>
  have ed : addrCell h (some b) = some (b, d) := by simp only [addrCell, Option.bind_some, g1]
  by_cases hd : d.next = none
  · have ht : rest = [] := by
      rw [hd] at g5
      cases g5; rfl
    subst ht
    have hleaf : ∀ (b : Nat) (x : Cell), h[b]? = some x → x.leaf →
        (h.set a (.msg (c.rerouted d.uri none)))[b]? = some x := by
      intro b' x hb hx
      have : a ≠ b' := by
        rintro rfl
        have ek := hb.symm.trans hc
        cases ek
        exact hx
      rw [List.getElem?_set_ne this]; exact hb
    refine ⟨h.set a (.msg (c.rerouted d.uri none)), ?_, ?_, hleaf, d.uri, none, ?_, ?_, .nil, ?_⟩
    · simp only [fixRoute, hp, ed, Option.bind_some, if_pos hd]
    · intro b' x hb hba _
      rw [List.getElem?_set_ne (fun e => hba e.symm)]; exact hb
    · rw [List.getElem?_set_self ha]
    · exact g3.frame hleaf
    · intro h2; simp at h2
  · have hl2 : 2 ≤ ({ uri := u, display := d.display, param := ps } :: rest : List Addr).length := by
      cases rest with
      | nil =>
        exfalso
        apply hd
        clear hroute'
        generalize d.next = p at g5
        cases g5; rfl
      | cons x y => simp
    obtain ⟨x, y, e, e1, e2, e3, e4⟩ := secondLast_eq hroute hN hl2 hn
    have hxa : x.1 ≠ a := by
      intro hx
      rw [hx] at e1
      have ek := e1.symm.trans hc
      cases ek
    let h1 : Heap := h.set a (.msg (c.rerouted y.2.uri (some b)))
    let h2 : Heap := h1.set x.1 (.addr { x.2 with next := none })
    have hxl : x.1 < h.length := (List.getElem?_eq_some_iff.1 e1).1
    have s : ∀ (b : Nat) (z : Cell), h[b]? = some z → b ≠ a → b ≠ x.1 → h2[b]? = some z := by
      intro b z hb h5 h6
      simp only [h2, h1]
      rw [List.getElem?_set_ne (fun e => h6 e.symm), List.getElem?_set_ne (fun e => h5 e.symm)]
      exact hb
    have hleaf : ∀ (b : Nat) (x : Cell), h[b]? = some x → x.leaf → h2[b]? = some x := by
      intro b z hb hz
      refine s b z hb ?_ ?_
      · rintro rfl
        have ek := hb.symm.trans hc
        cases ek
        exact hz
      · rintro rfl
        have ek := hb.symm.trans e1
        cases ek
        exact hz
    have haddr : ∀ (b : Nat) (z : AddrCell), h[b]? = some (.addr z) → b ≠ x.1 → h2[b]? = some (.addr z) := by
      intro b z hb hz
      refine s b _ hb ?_ hz
      rintro rfl
      have ek := hb.symm.trans hc
      cases ek
    have hx2 : h2[x.1]? = some (.addr { x.2 with next := none }) := by
      simp only [h2]
      rw [List.getElem?_set_self (by simp [h1]; exact hxl)]
    have hl := e4 h2 hleaf haddr hx2
    refine ⟨h2, ?_, ?_, hleaf, y.2.uri, some b, ?_, ?_, hl, fun _ => hl⟩
    · simp only [fixRoute, hp, ed, Option.bind_some, if_neg hd, e, Option.map_some, h2, h1]
    · intro b' z hb h5 h6
      exact s b' z hb h5 (fun e => h6 (e ▸ e2))
    · simp only [h2, h1]
      rw [List.getElem?_set_ne hxa, List.getElem?_set_self ha]
    · exact e3.frame hleaf

end Gosip.Sip.Heap
