import Verif.Sip.HeapRoute
import Verif.Dialog.Route
import Verif.Dialog.Receive
import Verif.Props.Copy

/-!
# Property C92: lists in memory behave as lists, and rewriting a route leaves other messages alone

Elsewhere in the model a linked list is a list. Here it is shown, on the heap of `Verif.Sip.Heap`, that the methods of
linked lists do what the model says of lists, and what they do to the rest of the memory.
-/

namespace Gosip.Props
open Sip Sip.Heap Spec

/-- **C92** (`Len`, `Last`). For every list of addresses in memory, `Len` counts its nodes and `Last` returns the last of
them: the node itself, not a copy; nil for nil. -/
theorem C92_len_last {h : Heap} {p : Ptr} {l : List Addr} (H : AddrsAt h p l) {n : Nat} (hn : l.length ≤ n) :
    ∃ as, AddrNodes h p as ∧ addrLen n h p 0 = some l.length ∧ addrLast n h p = some as.getLast? := by
  obtain ⟨as, h1, h2⟩ := H.nodes
  refine ⟨as, h1, ?_, addrLast_eq h1 (by omega)⟩
  rw [addrLen_eq h1 (by omega), Nat.zero_add, h2]

/-- **C92** (`Last` of a list of Via headers). -/
theorem C92_via_last {h : Heap} {p : Ptr} {l : List Via} (H : ViasAt h p l) {n : Nat} (hn : l.length ≤ n) :
    ∃ as, ViaNodes h p as ∧ as.length = l.length ∧ viaLast n h p = some as.getLast? := by
  obtain ⟨as, h1, h2⟩ := H.nodes
  exact ⟨as, h1, h2, viaLast_eq h1 (by omega)⟩

/-- **C92** (`Reversed`). The result is a list of the same addresses in reverse order. All its nodes are new ones. Whatever
was in memory is as before, the list itself included. -/
theorem C92_reversed {h : Heap} {p : Ptr} {l : List Addr} (H : AddrsAt h p l) {n : Nat} (hn : l.length ≤ n) :
    ∃ h' q, addrReversed n h p none = some (h', q) ∧ AddrsAt h' q l.reverse ∧
      (∃ as, AddrNodes h' q as ∧ ∀ a ∈ as, h[a]? = none) ∧ ∀ (a : Nat) (c : Cell), h[a]? = some c → h'[a]? = some c := by
  obtain ⟨h', q, ms, e, he, hk, hq, hw⟩ :=
    addrReversed_eq (lo := h.length) (ns := []) H hn .nil .nil (by simp) (Nat.le_refl _)
  exact ⟨h', q, e, by simpa using hk, ⟨ms, hq, fun a ha => List.getElem?_eq_none (hw a ha)⟩, he.get⟩

/-- **C92** (`Detach`). The result is a list of one Via, equal to the first of the list. It is a new node. Whatever was in
memory is as before. -/
theorem C92_detach {h : Heap} {p : Ptr} {v : Via} {l : List Via} (H : ViasAt h p (v :: l)) :
    ∃ h' a, viaDetach h p = some (h', some a) ∧ ViasAt h' (some a) [v] ∧ h[a]? = none ∧
      ∀ (a : Nat) (c : Cell), h[a]? = some c → h'[a]? = some c := by
  cases H with
  | @cons a c ps l h1 h3 h4 =>
    have xs := Ext.snoc h (.via { c with next := none })
    exact ⟨_, h.length, by simp only [viaDetach, h1], .cons (c := { c with next := none }) (get_last _ _) (h3.mono xs.get) .nil,
      List.getElem?_eq_none (Nat.le_refl _), xs.get⟩

/-- **C92** (strict routers). A request whose first route is a strict router is sent to it with the rest of the route, the
request URI at the end of it, as the model of `RouteMessage` says. No other message in memory changes, not even one that shares
the route or parts of it. -/
theorem C92_strict_route {h : Heap} {a : Nat} {c : MsgCell} {m : Msg} {r : Addr} {rest : List Addr} {u : URI} {n : Nat}
    (hc : h[a]? = some (.msg c)) (H : MsgAt h (some a) (some m)) (hr : m.addrs .route = r :: rest)
    (hu : r.uri = some u) (hlr : u.param.get b!"lr" = none) (hq : m.isResponse = false) (hm : m.method ≠ b!"REGISTER")
    (hn : (r :: rest).length ≤ n) :
    ∃ h', strictRoute n h a c = some h' ∧
      MsgAt h' (some a) (some (Dialog.routeMessage none none m).1) ∧
      (Dialog.routeMessage none none m).1.request = some u ∧
      (Dialog.routeMessage none none m).1.addrs .route =
        (rest.map fun x => { uri := x.uri, param := x.param }) ++ [{ uri := m.request }] ∧
      ∀ b x, b ≠ a → MsgAt h (some b) x → MsgAt h' (some b) x := by
  obtain ⟨h', e, e1, e2⟩ := strictRoute_eq hc H hr hn
  have hroute : (Dialog.routeMessage none none m).1 = { m with
      request := r.uri
      addrs := fun f => if f = .route then (rest.map fun x => { x with display := [] }) ++ [{ uri := m.request }] else m.addrs f } := by
    unfold Dialog.routeMessage
    rw [if_neg (by rw [hq]; decide)]
    have hp : Dialog.popRoute none (m.addrs .route) = r :: rest := by rw [hr]; rfl
    dsimp only
    rw [hp]
    dsimp only
    rw [if_neg hm, hu]
    dsimp only
    rw [if_neg (by rw [hlr]; decide)]
    dsimp only
    congr 1
    funext f
    by_cases hf : f = AField.route
    · subst hf; simp [Dialog.addrCopy]; intro x _; rfl
    · simp [setAt, hf]
  have keep : ∀ (b : Nat) (x : Cell), b ≠ a → h[b]? = some x → h'[b]? = some x := fun b x hb hx => by
    rw [e2 b hb (List.getElem?_eq_some_iff.1 hx).1]; exact hx
  have leaf : ∀ (b : Nat) (x : Cell), h[b]? = some x → x.leaf → h'[b]? = some x := fun b x hx hl => by
    refine keep b x ?_ hx
    rintro rfl
    have ek := hx.symm.trans hc
    cases ek
    exact hl
  refine ⟨h', e, by rw [hroute]; exact e1, by rw [hroute]; exact hu, by rw [hroute]; simp, ?_⟩
  intro b x hb X
  cases x with
  | none => cases X
  | some x =>
    obtain ⟨d, hd⟩ := X.cell'
    refine MsgAt.other hd X leaf (keep b _ hb hd) fun f => ?_
    have hf := (MsgAt.value hd X).2.1 f
    obtain ⟨bs, N, _⟩ := hf.nodes
    refine hf.frame N leaf fun b x hx _ => keep b _ ?_ hx
    rintro rfl
    have ek := hx.symm.trans hc
    cases ek

/-- **C92** (messages from strict routers). If the routes of a received message are its own, as those of a message that was
just read are, then what `fixMessagesFromStrictRouters` does to them in place is what its model says: the last
route becomes the request URI. No other message in memory changes. -/
theorem C92_fix_route {h : Heap} {a : Nat} {c : MsgCell} {m : Msg} {n : Nat} {as : List Nat} {u : URI}
    (hc : h[a]? = some (.msg c)) (H : MsgAt h (some a) (some m)) (hr : m.addrs .route ≠ [])
    (hn : (m.addrs .route).length ≤ n) (hN : AddrNodes h (c.addrs .route) as) (hown : Apart h as c (· = .route))
    {lhost : Bytes} {lport : UInt16} (hu : m.request = some u) (hhere : Dialog.strictlyHere lhost lport u = true) :
    ∃ h', fixRoute n h a c = some h' ∧
      MsgAt h' (some a) (some (Dialog.fixStrict lhost lport m)) ∧
      (Dialog.fixStrict lhost lport m).request = ((m.addrs .route).getLast hr).uri ∧
      (Dialog.fixStrict lhost lport m).addrs .route = (m.addrs .route).dropLast ∧
      ∀ b d x, b ≠ a → h[b]? = some (.msg d) → Apart h as d (fun _ => False) → MsgAt h (some b) (some x) →
        MsgAt h' (some b) (some x) := by
  obtain ⟨h', e, e1, e2, r, q, e3, e4, e5, _⟩ := fixRoute_eq hc H hr hn hN
  have hl : (m.addrs .route).getLast? = some ((m.addrs .route).getLast hr) := List.getLast?_eq_some_getLast hr
  have hfix : Dialog.fixStrict lhost lport m = { m with
      request := (m.addrs .route).getLast?.bind (·.uri)
      addrs := fun f => if f = .route then (m.addrs .route).dropLast else m.addrs f } := by
    unfold Dialog.fixStrict
    rw [hu, hl]
    simp only [hhere, if_true, Option.bind_some]
    rfl
  have fr : ∀ {d : MsgCell} {f : AField} {l : List Addr}, AddrsAt h (d.addrs f) l →
      (∀ bs, AddrNodes h (d.addrs f) bs → ∀ a ∈ bs, a ∉ as) → AddrsAt h' (d.addrs f) l := by
    intro d f l hf ho
    obtain ⟨bs, N, _⟩ := hf.nodes
    refine hf.frame N e2 fun b x hx hb => e1 b _ hx ?_ (ho bs N b hb)
    rintro rfl
    have ek := hx.symm.trans hc
    cases ek
  refine ⟨h', e, ?_, by rw [hfix]; simp [hl], by rw [hfix]; simp, ?_⟩
  · rw [hfix]
    exact MsgAt.rerouted hc H e2 (fun f hf => fr ((MsgAt.value hc H).2.1 f) (hown f hf)) e3 e4 e5
  · intro b d x hb hd ho X
    refine MsgAt.other hd X e2 (e1 b _ hd hb ?_) fun f => fr ((MsgAt.value hd X).2.1 f) (ho f id)
    intro hm
    obtain ⟨z, hz⟩ := hN.lt b hm
    have ek := hd.symm.trans hz
    cases ek

/-- **C92** (why the routes must be its own). Another message with the same list of two or more routes loses its last route
as well. -/
theorem C92_fix_shared {h : Heap} {a b : Nat} {c d : MsgCell} {m x : Msg} {n : Nat}
    (hc : h[a]? = some (.msg c)) (H : MsgAt h (some a) (some m)) (hl : 2 ≤ (m.addrs .route).length)
    (hn : (m.addrs .route).length ≤ n) (hb : b ≠ a) (hd : h[b]? = some (.msg d)) (X : MsgAt h (some b) (some x))
    (hs : d.addrs .route = c.addrs .route) :
    ∃ h', fixRoute n h a c = some h' ∧ ∀ y, MsgAt h' (some b) (some y) →
      y.addrs .route = (x.addrs .route).dropLast ∧ y.addrs .route ≠ x.addrs .route := by
  have h1 := (MsgAt.value hc H).2.1 .route
  have h2 := (MsgAt.value hd X).2.1 .route
  rw [hs] at h2
  have hx := h1.det h2
  obtain ⟨as, hN, _⟩ := h1.nodes
  have hne : m.addrs .route ≠ [] := by
    intro h0
    rw [h0] at hl
    simp at hl
  obtain ⟨h', e, e1, _, r, q, _, _, _, e6⟩ := fixRoute_eq hc H hne hn hN
  refine ⟨h', e, fun y Y => ?_⟩
  have hd' : h'[b]? = some (.msg d) := by
    refine e1 b _ hd hb fun hm => ?_
    obtain ⟨z, hz⟩ := hN.lt b hm
    have ek := hd.symm.trans hz
    cases ek
  have h3 := (MsgAt.value hd' Y).2.1 .route
  rw [hs] at h3
  have hy := h3.det (e6 hl)
  refine ⟨by rw [hy, hx], fun h0 => ?_⟩
  have := congrArg List.length (h0.symm.trans hy)
  rw [List.length_dropLast, ← hx] at this
  omega

/-! ### Examples -/

/-- A request with the routes `p` (a strict router) and `q`, and another one with the same list. -/
def listDemo : Heap :=
  [ .uri { scheme := b!"sip", host := b!"a" },
    .uri { scheme := b!"sip", host := b!"p" },
    .uri { scheme := b!"sip", host := b!"q" },
    .addr { uri := some 2 },
    .addr { uri := some 1, next := some 3 },
    .msg { plain := { method := b!"BYE" }, request := some 0, addrs := fun | .route => some 4 | _ => none },
    .msg { plain := { method := b!"ACK" }, request := some 0, addrs := fun | .route => some 4 | _ => none } ]

theorem listDemo_route : AddrsAt listDemo (some 4)
    [{ uri := some { scheme := b!"sip", host := b!"p" } }, { uri := some { scheme := b!"sip", host := b!"q" } }] :=
  .cons (c := { uri := some 1, next := some 3 }) rfl (.cell (c := { scheme := b!"sip", host := b!"p" }) rfl .nil .nil) .nil
    (.cons (c := { uri := some 2 }) rfl (.cell (c := { scheme := b!"sip", host := b!"q" }) rfl .nil .nil) .nil .nil)

/-- The value of such a message. -/
def listDemoMsg (method : Bytes) : Msg :=
  { method := method, request := some { scheme := b!"sip", host := b!"a" },
    addrs := fun
      | .route => [{ uri := some { scheme := b!"sip", host := b!"p" } }, { uri := some { scheme := b!"sip", host := b!"q" } }]
      | _ => [] }

theorem listDemo_msg : MsgAt listDemo (some 5) (some (listDemoMsg b!"BYE")) := by
  refine .cell
    (c := { plain := { method := b!"BYE" }, request := some 0, addrs := fun | .route => some 4 | _ => none }) rfl
    (.cell (c := { scheme := b!"sip", host := b!"a" }) rfl .nil .nil) ?_ .nil .nil .nil .nil
  intro f
  cases f <;> first | exact .nil | exact listDemo_route

theorem listDemo_other : MsgAt listDemo (some 6) (some (listDemoMsg b!"ACK")) := by
  refine .cell
    (c := { plain := { method := b!"ACK" }, request := some 0, addrs := fun | .route => some 4 | _ => none }) rfl
    (.cell (c := { scheme := b!"sip", host := b!"a" }) rfl .nil .nil) ?_ .nil .nil .nil .nil
  intro f
  cases f <;> first | exact .nil | exact listDemo_route

/-- The list has two nodes; reversed, it consists of two new ones. -/
example : addrLen 2 listDemo (some 4) 0 = some 2 ∧ addrLast 2 listDemo (some 4) = some (some 3) ∧
    (addrReversed 2 listDemo (some 4) none).map (·.2) = some (some 8) := ⟨rfl, rfl, rfl⟩

/-- The hypotheses of `C92_strict_route` hold for the first message. The second one, which shares the list, stays as it is. -/
example : ∃ c h', listDemo[5]? = some (.msg c) ∧ strictRoute 2 listDemo 5 c = some h' ∧
    MsgAt h' (some 5) (some (Dialog.routeMessage none none (listDemoMsg b!"BYE")).1) ∧
    MsgAt h' (some 6) (some (listDemoMsg b!"ACK")) := by
  obtain ⟨h', e, e1, _, _, e5⟩ := C92_strict_route (n := 2) rfl listDemo_msg rfl rfl rfl rfl (by decide) (by decide)
  exact ⟨_, h', rfl, e, e1, e5 6 _ (by decide) listDemo_other⟩

/-- The hypotheses of `C92_fix_shared` hold for the two. -/
example : ∃ c h', listDemo[5]? = some (.msg c) ∧ fixRoute 2 listDemo 5 c = some h' ∧
    ∀ y, MsgAt h' (some 6) (some y) → y.addrs .route = [{ uri := some { scheme := b!"sip", host := b!"p" } }] := by
  obtain ⟨h', e, e1⟩ := C92_fix_shared (n := 2) (a := 5) (b := 6) rfl listDemo_msg (by decide) (by decide) (by decide) rfl
    listDemo_other (by rfl)
  exact ⟨_, h', rfl, e, fun y Y => (e1 y Y).1⟩

/-- A received request with the routes `q` and `a`, which a strict router has sent to `p;lr`. -/
def fixDemo : Heap :=
  [ .pair b!"lr" [] none,
    .uri { scheme := b!"sip", host := b!"p", param := some 0 },
    .uri { scheme := b!"sip", host := b!"q" },
    .uri { scheme := b!"sip", host := b!"a" },
    .addr { uri := some 3 },
    .addr { uri := some 2, next := some 4 },
    .msg { plain := { method := b!"BYE" }, request := some 1, addrs := fun | .route => some 5 | _ => none } ]

theorem fixDemo_msg : MsgAt fixDemo (some 6) (some
    { method := b!"BYE", request := some { scheme := b!"sip", host := b!"p", param := [(b!"lr", [])] },
      addrs := fun
        | .route => [{ uri := some { scheme := b!"sip", host := b!"q" } }, { uri := some { scheme := b!"sip", host := b!"a" } }]
        | _ => [] }) := by
  refine .cell
    (c := { plain := { method := b!"BYE" }, request := some 1, addrs := fun | .route => some 5 | _ => none }) rfl
    (.cell (c := { scheme := b!"sip", host := b!"p", param := some 0 }) rfl (.cons rfl .nil) .nil) ?_ .nil .nil .nil .nil
  intro f
  cases f <;> first
    | exact .nil
    | exact .cons (c := { uri := some 2, next := some 4 }) rfl (.cell (c := { scheme := b!"sip", host := b!"q" }) rfl .nil .nil) .nil
        (.cons (c := { uri := some 3 }) rfl (.cell (c := { scheme := b!"sip", host := b!"a" }) rfl .nil .nil) .nil .nil)

/-- The hypotheses of `C92_fix_route` hold for it. -/
example : ∃ c h' m, fixDemo[6]? = some (.msg c) ∧ fixRoute 2 fixDemo 6 c = some h' ∧ MsgAt h' (some 6) (some m) ∧
    m.request = some { scheme := b!"sip", host := b!"a" } ∧
    m.addrs .route = [{ uri := some { scheme := b!"sip", host := b!"q" } }] := by
  obtain ⟨h', e, e1, e2, e3, _⟩ := C92_fix_route (n := 2) (as := [5, 4]) (lhost := b!"p") (lport := 5060) rfl fixDemo_msg
    (by simp) (by decide) (.cons rfl (.cons rfl .nil))
    (by
      intro f hf bs N
      cases f <;> first | exact absurd rfl hf | (cases N; simp))
    rfl (by decide)
  exact ⟨_, h', _, rfl, e, e1, e2, e3⟩

end Gosip.Props
