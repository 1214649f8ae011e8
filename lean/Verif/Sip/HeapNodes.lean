import Verif.Sip.HeapLists
import Verif.Sip.HeapLemmas
import Verif.Spec.Memory

/-!
# Lemmas on lists in memory
-/

namespace Gosip.Sip.Heap
open Sip Spec

theorem AddrsAt.nodes {h : Heap} {p : Ptr} {l : List Addr} (H : AddrsAt h p l) :
    ∃ as, AddrNodes h p as ∧ as.length = l.length := by
  induction H with
  | nil => exact ⟨[], .nil, rfl⟩
  | cons h1 _ _ _ ih =>
    obtain ⟨as, h2, h3⟩ := ih
    exact ⟨_, .cons h1 h2, by simp [h3]⟩

theorem ViasAt.nodes {h : Heap} {p : Ptr} {l : List Via} (H : ViasAt h p l) :
    ∃ as, ViaNodes h p as ∧ as.length = l.length := by
  induction H with
  | nil => exact ⟨[], .nil, rfl⟩
  | cons h1 _ _ ih =>
    obtain ⟨as, h2, h3⟩ := ih
    exact ⟨_, .cons h1 h2, by simp [h3]⟩

theorem _root_.Gosip.Spec.AddrNodes.det {h : Heap} {p : Ptr} {l m : List Nat} (H : AddrNodes h p l) (K : AddrNodes h p m) : l = m := by
  induction H generalizing m with
  | nil => cases K; rfl
  | cons h1 _ ih =>
    cases K with
    | cons k1 k2 =>
      rw [h1] at k1
      cases k1
      rw [ih k2]

theorem _root_.Gosip.Spec.AddrNodes.mono {h h2 : Heap} {p : Ptr} {l : List Nat} (H : AddrNodes h p l)
    (hs : ∀ (a : Nat) (c : Cell), h[a]? = some c → h2[a]? = some c) : AddrNodes h2 p l := by
  induction H with
  | nil => exact .nil
  | cons h1 _ ih => exact .cons (hs _ _ h1) ih

theorem _root_.Gosip.Spec.AddrNodes.suffix {h : Heap} {p : Ptr} {l : List Nat} (H : AddrNodes h p l) {a : Nat} (ha : a ∈ l) :
    ∃ m, AddrNodes h (some a) m ∧ m.length ≤ l.length := by
  induction H with
  | nil => cases ha
  | cons h1 h2 ih =>
    rcases List.mem_cons.1 ha with rfl | ha
    · exact ⟨_, .cons h1 h2, Nat.le_refl _⟩
    · obtain ⟨m, h3, h4⟩ := ih ha
      exact ⟨m, h3, by simp only [List.length_cons]; omega⟩

/-- A finite list does not come back to its head. -/
theorem _root_.Gosip.Spec.AddrNodes.head_notin {h : Heap} {a : Nat} {l : List Nat} (H : AddrNodes h (some a) (a :: l)) : a ∉ l := by
  intro ha
  cases H with
  | cons h1 h2 =>
    obtain ⟨m, h3, h4⟩ := h2.suffix ha
    have := (AddrNodes.cons h1 h2).det h3
    rw [← this] at h4
    simp only [List.length_cons] at h4
    omega

theorem _root_.Gosip.Spec.AddrNodes.lt {h : Heap} {p : Ptr} {l : List Nat} (H : AddrNodes h p l) : ∀ a ∈ l, ∃ c, h[a]? = some (.addr c) := by
  induction H with
  | nil => intro a h; cases h
  | cons h1 _ ih =>
    intro a ha
    rcases List.mem_cons.1 ha with rfl | ha
    · exact ⟨_, h1⟩
    · exact ih a ha

theorem addrLen_eq {h : Heap} {p : Ptr} {l : List Nat} (H : AddrNodes h p l) {n : Nat} (hn : l.length ≤ n) (k : Nat) :
    addrLen n h p k = some (k + l.length) := by
  induction H generalizing n k with
  | nil => cases n <;> rfl
  | cons h1 _ ih =>
    obtain ⟨n, rfl⟩ : ∃ k, n = k + 1 := by cases n <;> simp_all
    simp only [addrLen, h1]
    rw [ih (by simpa using hn)]
    simp only [List.length_cons]
    congr 1; omega

theorem addrLast_eq {h : Heap} {p : Ptr} {l : List Nat} (H : AddrNodes h p l) {n : Nat} (hn : l.length ≤ n) :
    addrLast n h p = some l.getLast? := by
  induction H generalizing n with
  | nil => cases n <;> rfl
  | @cons a c l h1 h2 ih =>
    obtain ⟨n, rfl⟩ : ∃ k, n = k + 1 := by cases n <;> simp_all
    simp only [addrLast, h1]
    split
    · rename_i he
      rw [he] at h2
      cases h2
      rfl
    · rename_i he
      rw [ih (by simpa using hn)]
      cases l with
      | nil =>
        exfalso
        apply he
        generalize c.next = p at h2
        cases h2; rfl
      | cons b l => rw [List.getLast?_cons_cons]

theorem viaLast_eq {h : Heap} {p : Ptr} {l : List Nat} (H : ViaNodes h p l) {n : Nat} (hn : l.length ≤ n) :
    viaLast n h p = some l.getLast? := by
  induction H generalizing n with
  | nil => cases n <;> rfl
  | @cons a c l h1 h2 ih =>
    obtain ⟨n, rfl⟩ : ∃ k, n = k + 1 := by cases n <;> simp_all
    simp only [viaLast, h1]
    split
    · rename_i he
      rw [he] at h2
      cases h2
      rfl
    · rename_i he
      rw [ih (by simpa using hn)]
      cases l with
      | nil =>
        exfalso
        apply he
        generalize c.next = p at h2
        cases h2; rfl
      | cons b l => rw [List.getLast?_cons_cons]

theorem addrReversed_eq {p : Ptr} {l : List Addr} : ∀ {h : Heap} {n : Nat} {res : Ptr} {done : List Addr} {ns : List Nat} {lo : Nat},
    AddrsAt h p l → l.length ≤ n → AddrsAt h res done → AddrNodes h res ns → (∀ a ∈ ns, lo ≤ a) → lo ≤ h.length →
    ∃ h' q ms, addrReversed n h p res = some (h', q) ∧ Ext h h' ∧ AddrsAt h' q (l.reverse ++ done) ∧
      AddrNodes h' q ms ∧ ∀ a ∈ ms, lo ≤ a := by
  induction l generalizing p with
  | nil =>
    intro h n res done ns lo H _ hr hm ho _
    cases H
    exact ⟨h, res, ns, by cases n <;> rfl, .rfl' h, by simpa using hr, hm, ho⟩
  | cons x l ih =>
    intro h n res done ns lo H hn hr hm ho hl
    cases H with
    | @cons a c u ps l h1 h3 h4 h5 =>
    obtain ⟨n, rfl⟩ : ∃ k, n = k + 1 := by cases n <;> simp_all
    have xs := Ext.snoc h (.addr { c with next := res })
    obtain ⟨h', q, ms, e, he, hk, hq, hw⟩ := ih (h := h ++ [.addr { c with next := res }]) (n := n) (res := some h.length)
      (done := { uri := u, display := c.display, param := ps } :: done) (ns := h.length :: ns) (lo := lo)
      (h5.mono xs.get) (by simpa using hn)
      (.cons (c := { c with next := res }) (get_last _ _) (h3.mono xs.get) (h4.mono xs.get) (hr.mono xs.get))
      (.cons (c := { c with next := res }) (get_last _ _) (hm.mono xs.get))
      (by
        intro b hb
        rcases List.mem_cons.1 hb with rfl | hb
        · exact hl
        · exact ho b hb)
      (by simp; omega)
    refine ⟨h', q, ms, by simp only [addrReversed, h1]; exact e, xs.trans he, by simpa using hk, hq, hw⟩

/-! ### Changing one node -/

/-- Not a node of an address or a message. -/
def Cell.leaf : Cell → Prop
  | .addr _ => False
  | .msg _ => False
  | _ => True

theorem UriAt.frame {h h2 : Heap} {p : Ptr} {u : Option URI} (H : UriAt h p u)
    (hs : ∀ (a : Nat) (c : Cell), h[a]? = some c → c.leaf → h2[a]? = some c) : UriAt h2 p u := by
  have hp : ∀ (a : Nat) (c : Cell), h[a]? = some c → c.shared → h2[a]? = some c := by
    intro a c h1 h3
    refine hs a c h1 ?_
    cases c <;> simp_all [Cell.shared, Cell.leaf]
  cases H with
  | nil => exact .nil
  | cell h1 h3 h4 => exact .cell (hs _ _ h1 trivial) (h3.frame hp) (h4.frame hp)

/-- Addresses do not depend on messages, nor on nodes of other lists. -/
theorem AddrsAt.frame {h h2 : Heap} {p : Ptr} {l : List Addr} {as : List Nat} (H : AddrsAt h p l) (N : AddrNodes h p as)
    (hs : ∀ (a : Nat) (c : Cell), h[a]? = some c → c.leaf → h2[a]? = some c)
    (hn : ∀ (a : Nat) (c : AddrCell), h[a]? = some (.addr c) → a ∈ as → h2[a]? = some (.addr c)) : AddrsAt h2 p l := by
  induction H generalizing as with
  | nil => exact .nil
  | cons h1 h3 h4 _ ih =>
    cases N with
    | cons k1 k2 =>
      rw [h1] at k1
      cases k1
      refine .cons (hn _ _ h1 List.mem_cons_self) (h3.frame hs) (h4.frame ?_)
        (ih k2 fun a c x y => hn a c x (List.mem_cons_of_mem _ y))
      intro a c x y
      refine hs a c x ?_
      cases c <;> simp_all [Cell.shared, Cell.leaf]

theorem ViasAt.frame {h h2 : Heap} {p : Ptr} {l : List Via} (H : ViasAt h p l)
    (hs : ∀ (a : Nat) (c : Cell), h[a]? = some c → c.leaf → h2[a]? = some c) : ViasAt h2 p l := by
  induction H with
  | nil => exact .nil
  | cons h1 h3 _ ih =>
    refine .cons (hs _ _ h1 trivial) (h3.frame ?_) ih
    intro a c x y
    refine hs a c x ?_
    cases c <;> simp_all [Cell.shared, Cell.leaf]

theorem PairsAt.frame' {h h2 : Heap} {p : Ptr} {l : Pairs} (H : PairsAt h p l)
    (hs : ∀ (a : Nat) (c : Cell), h[a]? = some c → c.leaf → h2[a]? = some c) : PairsAt h2 p l :=
  H.frame fun a c x y => hs a c x (by cases c <;> simp_all [Cell.shared, Cell.leaf])

theorem PayloadAt.frame {h h2 : Heap} {p : Ptr} {x : Option Payload} (H : PayloadAt h p x)
    (hs : ∀ (a : Nat) (c : Cell), h[a]? = some c → c.leaf → h2[a]? = some c) : PayloadAt h2 p x := by
  cases H with
  | nil => exact .nil
  | cell h1 => exact .cell (hs _ _ h1 trivial)

theorem SourceAt.frame {h h2 : Heap} {p : Ptr} {x : Option (Bytes × UInt16)} (H : SourceAt h p x)
    (hs : ∀ (a : Nat) (c : Cell), h[a]? = some c → c.leaf → h2[a]? = some c) : SourceAt h2 p x := by
  cases H with
  | nil => exact .nil
  | cell h1 => exact .cell (hs _ _ h1 trivial)

theorem MsgAt.value {h : Heap} {a : Nat} {c : MsgCell} {m : Msg} (hc : h[a]? = some (.msg c))
    (H : MsgAt h (some a) (some m)) : UriAt h c.request m.request ∧ (∀ f, AddrsAt h (c.addrs f) (m.addrs f)) ∧
      ViasAt h c.via m.via ∧ PayloadAt h c.payload m.payload ∧ SourceAt h c.source m.sourceAddr ∧
      PairsAt h c.xheader m.xheader ∧
      m = { c.plain with request := m.request, addrs := m.addrs, via := m.via, payload := m.payload,
                         sourceAddr := m.sourceAddr, xheader := m.xheader } := by
  cases H with
  | cell h1 h3 h4 h5 h6 h7 h8 =>
    rw [hc] at h1
    cases h1
    exact ⟨h3, h4, h5, h6, h7, h8, rfl⟩

/-- What a message is after its request URI and its routes have been replaced. -/
theorem MsgAt.rerouted {h h2 : Heap} {a : Nat} {c : MsgCell} {m : Msg} (hc : h[a]? = some (.msg c))
    (H : MsgAt h (some a) (some m)) {r q : Ptr} {u : Option URI} {l : List Addr}
    (hs : ∀ (a : Nat) (c : Cell), h[a]? = some c → c.leaf → h2[a]? = some c)
    (ho : ∀ f, f ≠ AField.route → AddrsAt h2 (c.addrs f) (m.addrs f))
    (h2c : h2[a]? = some (.msg (c.rerouted r q))) (hr : UriAt h2 r u) (hq : AddrsAt h2 q l) :
    MsgAt h2 (some a) (some { m with request := u, addrs := fun f => if f = .route then l else m.addrs f }) := by
  obtain ⟨h3, h4, h5, h6, h7, h8, h9⟩ := MsgAt.value hc H
  rw [h9]
  refine .cell (c := c.rerouted r q) h2c hr ?_ (h5.frame hs) (h6.frame hs) (h7.frame hs) (h8.frame' hs)
  intro f
  by_cases hf : f = AField.route
  · subst hf; simpa [MsgCell.rerouted] using hq
  · simpa [MsgCell.rerouted, hf] using ho f hf

theorem secondLast_eq {l : List Addr} : ∀ {h : Heap} {p : Ptr} {as : List Nat} {n : Nat},
    AddrsAt h p l → AddrNodes h p as → 2 ≤ l.length → l.length ≤ n →
    ∃ x y, secondLast n h p = some (x, y) ∧ h[x.1]? = some (.addr x.2) ∧ x.1 ∈ as ∧
      UriAt h y.2.uri (l.getLast?.bind (·.uri)) ∧
      ∀ h2 : Heap, (∀ (a : Nat) (c : Cell), h[a]? = some c → c.leaf → h2[a]? = some c) →
        (∀ (a : Nat) (c : AddrCell), h[a]? = some (.addr c) → a ≠ x.1 → h2[a]? = some (.addr c)) →
        h2[x.1]? = some (.addr { x.2 with next := none }) → AddrsAt h2 p l.dropLast := by
  induction l with
  | nil => intro h p as n _ _ h2; simp at h2
  | cons v l ih =>
    intro h p as n H N h2 hn
    cases H with
    | @cons a c u ps l h1 h3 h4 h5 =>
    cases N with
    | @cons _ c' as k1 k2 =>
    have ek := h1.symm.trans k1
    cases ek
    obtain ⟨n, rfl⟩ : ∃ k, n = k + 1 := by cases n <;> simp_all
    have ec : addrCell h (some a) = some (a, c) := by simp [addrCell, h1]
    have hhead := (AddrNodes.cons h1 k2).head_notin
    generalize hp : c.next = p' at h5 k2
    cases h5 with
    | nil => simp at h2
    | @cons b d w qs t g1 g3 g4 g5 =>
    have ed : addrCell h (some b) = some (b, d) := by simp [addrCell, g1]
    cases t with
    | nil =>
      generalize hd : d.next = p'' at g5
      cases g5
      refine ⟨(a, c), (b, d), ?_, h1, List.mem_cons_self, ?_, ?_⟩
      · simp [secondLast, ec, hp, ed, hd]
      · simpa using g3
      · intro h2 hs _ hx
        exact .cons (c := { c with next := none }) hx (h3.frame hs) (h4.frame' hs) .nil
    | cons z t =>
      obtain ⟨x, y, e, e1, e2, e3, e4⟩ := ih (n := n) (.cons g1 g3 g4 g5) k2 (by simp) (by simpa using hn)
      refine ⟨x, y, ?_, e1, List.mem_cons_of_mem _ e2, ?_, ?_⟩
      · have : d.next ≠ none := by
          intro hd
          rw [hd] at g5
          cases g5
        simp only [secondLast, ec, hp, ed, Option.bind_some, if_neg this]
        exact e
      · rw [List.getLast?_cons_cons]; exact e3
      · intro h2 hs ha hx
        have hne : a ≠ x.1 := fun e => hhead (e ▸ e2)
        rw [List.dropLast_cons_of_ne_nil (by simp)]
        refine .cons (c := c) (ha _ _ h1 hne) (h3.frame hs) (h4.frame' hs) ?_
        rw [hp]
        exact e4 h2 hs ha hx

theorem addrCopy_len {n : Nat} : ∀ {h h' : Heap} {p q : Ptr}, addrCopy n h p = some (h', q) → h.length ≤ h'.length := by
  induction n with
  | zero => intro h h' p q e; cases p <;> cases e; exact Nat.le_refl _
  | succ n ih =>
    intro h h' p q e
    cases p with
    | none => cases e; exact Nat.le_refl _
    | some a =>
      unfold addrCopy at e
      split at e
      · simp only [Option.bind_eq_some_iff, Option.some.injEq, Prod.mk.injEq] at e
        obtain ⟨x, ex, y, ey, rfl, rfl⟩ := e
        have hy := ih ey
        have hx : h.length ≤ x.1.length := by
          unfold uriCopy at ex
          split at ex
          · cases ex; exact Nat.le_refl _
          · split at ex
            · cases ex; simp
            · cases ex
        simp only [List.length_append, List.length_singleton]
        omega
      · cases e

/-- The nodes of a copy are new. -/
theorem addrCopy_new {n : Nat} : ∀ {h h' : Heap} {p q : Ptr}, addrCopy n h p = some (h', q) →
    ∃ as, AddrNodes h' q as ∧ ∀ a ∈ as, h.length ≤ a := by
  induction n with
  | zero =>
    intro h h' p q e
    cases p with
    | none => cases e; exact ⟨[], .nil, by simp⟩
    | some a => cases e
  | succ n ih =>
    intro h h' p q e
    cases p with
    | none => cases e; exact ⟨[], .nil, by simp⟩
    | some a =>
      unfold addrCopy at e
      split at e
      · rename_i c hc
        simp only [Option.bind_eq_some_iff, Option.some.injEq, Prod.mk.injEq] at e
        obtain ⟨x, ex, y, ey, rfl, rfl⟩ := e
        obtain ⟨as, h1, h2⟩ := ih ey
        have hx : h.length ≤ x.1.length := by
          unfold uriCopy at ex
          split at ex
          · cases ex; exact Nat.le_refl _
          · split at ex
            · cases ex; simp
            · cases ex
        have hy : x.1.length ≤ y.1.length := addrCopy_len ey
        refine ⟨y.1.length :: as, .cons (get_last _ _) (h1.mono (Ext.snoc _ _).get), ?_⟩
        intro b hb
        rcases List.mem_cons.1 hb with rfl | hb
        · omega
        · have := h2 b hb; omega
      · cases e

/-- Appending to a list by way of its last node. -/
theorem AddrsAt.link {h h2 : Heap} {p : Ptr} {l t : List Addr} {as : List Nat} {z : Nat} {cz : AddrCell} {nx : Ptr}
    (H : AddrsAt h p l) (N : AddrNodes h p as) (hz : as.getLast? = some z)
    (hc : h[z]? = some (.addr cz))
    (hs : ∀ (a : Nat) (c : Cell), h[a]? = some c → c.leaf → h2[a]? = some c)
    (ha : ∀ (a : Nat) (c : AddrCell), h[a]? = some (.addr c) → a ≠ z → h2[a]? = some (.addr c))
    (h2z : h2[z]? = some (.addr { cz with next := nx })) (ht : AddrsAt h2 nx t) : AddrsAt h2 p (l ++ t) := by
  induction H generalizing as with
  | nil => cases N; cases hz
  | @cons a c u ps l h1 h3 h4 h5 ih =>
    cases N with
    | @cons _ c' as k1 k2 =>
    have ek := h1.symm.trans k1
    cases ek
    have hhead := (AddrNodes.cons h1 k2).head_notin
    cases as with
    | nil =>
      cases hz
      have ek := h1.symm.trans hc
      cases ek
      have hl : l = [] := by
        generalize cz.next = p at h5 k2
        cases k2; cases h5; rfl
      subst hl
      exact .cons (c := { cz with next := nx }) h2z (h3.frame hs) (h4.frame' hs) ht
    | cons b as =>
      rw [List.getLast?_cons_cons] at hz
      have hne : a ≠ z := fun e => hhead (e ▸ List.mem_of_getLast? hz)
      exact .cons (ha _ _ h1 hne) (h3.frame hs) (h4.frame' hs) (ih k2 hz)

end Gosip.Sip.Heap
