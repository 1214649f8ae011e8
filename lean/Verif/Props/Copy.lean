import Verif.Sip.HeapLemmas
import Verif.Spec.Memory

/-!
# C44 — copies and originals

`Verif.Sip.Heap` says what value a pointer stands for (`UriAt`, `AddrsAt`, `ViasAt`, `MsgAt`) and models
the copying methods on a heap of nodes. C44 asks that a copy equals the original and that changing a
copy through its fields never changes the original. It fails twice: `Addr.Copy` loses display names, and
parameter, header and payload nodes are shared. What holds is that URI, address, Via and message nodes are
new ones.
-/

namespace Gosip.Props
open Sip Sip.Heap Spec

/-- A heap with one message: `INVITE` with a display name in From, one Via with one parameter, an
extension header and a payload. -/
def copyDemo : Heap :=
  [ .pair b!"branch" b!"z9hG4bKa" none,
    .via { host := b!"h", port := 5060, param := some 0 },
    .uri { scheme := b!"sip", host := b!"a" },
    .addr { uri := some 2, display := b!"Bob" },
    .pair b!"X-A" b!"1" none,
    .payload (.misc b!"text/plain" b!"hi"),
    .msg { plain := { method := b!"INVITE" }, via := some 1, payload := some 5, xheader := some 4,
           addrs := fun | .from => some 3 | _ => none } ]

/-- The demonstration Via. -/
theorem copyDemo_via : ViasAt copyDemo (some 1)
    [{ host := b!"h", port := 5060, param := [(b!"branch", b!"z9hG4bKa")] }] :=
  .cons (c := { host := b!"h", port := 5060, param := some 0 }) rfl (.cons rfl .nil) .nil

/-- The demonstration address. -/
theorem copyDemo_addr : AddrsAt copyDemo (some 3)
    [{ uri := some { scheme := b!"sip", host := b!"a" }, display := b!"Bob" }] :=
  .cons (c := { uri := some 2, display := b!"Bob" }) rfl
    (.cell (c := { scheme := b!"sip", host := b!"a" }) rfl .nil .nil) .nil .nil

/-- The demonstration message. -/
theorem copyDemo_msg : MsgAt copyDemo (some 6) (some
    { method := b!"INVITE",
      via := [{ host := b!"h", port := 5060, param := [(b!"branch", b!"z9hG4bKa")] }],
      payload := some (.misc b!"text/plain" b!"hi"), xheader := [(b!"X-A", b!"1")],
      addrs := fun
        | .from => [{ uri := some { scheme := b!"sip", host := b!"a" }, display := b!"Bob" }]
        | _ => [] }) := by
  refine .cell
    (c := { plain := { method := b!"INVITE" }, via := some 1, payload := some 5, xheader := some 4,
            addrs := fun | .from => some 3 | _ => none }) rfl .nil ?_ copyDemo_via
    (.cell rfl) .nil (.cons rfl .nil)
  intro f
  cases f <;> first | exact .nil | exact copyDemo_addr

/-! ### Equality -/

/-- **C44 (URI, Via).** A copy of a URI, and of a list of Via headers, stands for the same value; the
copying methods always return one. -/
theorem C44_uri_copy_equal {h : Heap} {p : Ptr} {u : Option URI} (H : UriAt h p u) :
    ∃ h' q, uriCopy h p = some (h', q) ∧ UriAt h' q u := by
  obtain ⟨h', q, e, _, k⟩ := uriCopy_spec H
  exact ⟨h', q, e, k h' (fun _ _ x _ => x)⟩

@[inherit_doc C44_uri_copy_equal]
theorem C44_via_copy_equal {h : Heap} {p : Ptr} {l : List Via} (H : ViasAt h p l) {n : Nat}
    (hn : l.length ≤ n) : ∃ h' q, viaCopy n h p = some (h', q) ∧ ViasAt h' q l := by
  obtain ⟨h', q, e, _, k⟩ := viaCopy_spec H hn
  exact ⟨h', q, e, k h' (fun _ _ x _ => x)⟩

/-- **C44 (address).** A copy of a list of addresses stands for the same list with every display name
removed. Missing: the display names, see `C44_display_lost`. -/
theorem C44_addr_copy_equal_partial {h : Heap} {p : Ptr} {l : List Addr} (H : AddrsAt h p l) {n : Nat}
    (hn : l.length ≤ n) :
    ∃ h' q, addrCopy n h p = some (h', q) ∧
      AddrsAt h' q (l.map fun x => { x with display := [] }) := by
  obtain ⟨h', q, e, _, k⟩ := addrCopy_spec H hn
  exact ⟨h', q, e, k h' (fun _ _ x _ => x)⟩

/-- **C44 (message).** A copy of a message stands for the same message with the display names of its
addresses removed. Missing: the display names. -/
theorem C44_msg_copy_equal_partial {h : Heap} {p : Ptr} {m : Msg} (H : MsgAt h p (some m)) {n : Nat}
    (hv : m.via.length ≤ n) (ha : ∀ f, (m.addrs f).length ≤ n) :
    ∃ h' q, msgCopy n h p = some (h', q) ∧
      MsgAt h' q (some { m with addrs := fun f => (m.addrs f).map fun x => { x with display := [] } }) := by
  obtain ⟨h', q, e, _, k⟩ := msgCopy_spec (n := n) H (fun _ hm => by cases hm; exact ⟨hv, ha⟩)
  exact ⟨h', q, e, k h' (fun _ _ x _ => x)⟩

example : (viaCopy 1 copyDemo (some 1)).isSome ∧ (addrCopy 1 copyDemo (some 3)).isSome ∧
    (msgCopy 1 copyDemo (some 6)).isSome := by decide +kernel

/-- **C44, violated.** A copy of a list of addresses one of which has a display name never stands for the
same list. -/
theorem C44_display_lost {h h' : Heap} {p q : Ptr} {l : List Addr} {n : Nat} (H : AddrsAt h p l)
    (hn : l.length ≤ n) (hd : ∃ x ∈ l, x.display ≠ []) (hc : addrCopy n h p = some (h', q)) :
    ¬ AddrsAt h' q l := by
  intro K
  obtain ⟨h1, q1, e, _, k⟩ := addrCopy_spec H hn
  rw [hc] at e; cases e
  have := K.det (k h' (fun _ _ x _ => x))
  obtain ⟨x, hx, hne⟩ := hd
  rw [this] at hx
  obtain ⟨y, _, rfl⟩ := List.mem_map.mp hx
  exact hne rfl

example : ∃ h' q, addrCopy 1 copyDemo (some 3) = some (h', q) ∧ ¬ AddrsAt h' q
    [{ uri := some { scheme := b!"sip", host := b!"a" }, display := b!"Bob" }] := by
  obtain ⟨h', q, e, _⟩ := C44_addr_copy_equal_partial copyDemo_addr (n := 1) (by decide)
  exact ⟨h', q, e, C44_display_lost copyDemo_addr (by decide) ⟨_, List.mem_cons_self, by decide⟩ e⟩

/-! ### Independence -/

theorem uriCopy_new {h h' : Heap} {p q : Ptr} (hc : uriCopy h p = some (h', q)) :
    Ext h h' ∧ ∀ b, q = some b → h.length ≤ b := by
  unfold uriCopy at hc
  split at hc
  · cases hc; exact ⟨.rfl' _, (fun b hb => nomatch hb)⟩
  · split at hc
    · cases hc
      exact ⟨.snoc _ _, fun b hb => by cases hb; exact Nat.le_refl _⟩
    · cases hc

theorem viaCopy_new {n : Nat} : ∀ {h h' : Heap} {p q : Ptr}, viaCopy n h p = some (h', q) →
    Ext h h' ∧ ∀ h2, Ext h' h2 → ∀ l, ViaNodes h2 q l → ∀ b ∈ l, h.length ≤ b := by
  induction n with
  | zero =>
    intro h h' p q hc
    cases p with
    | none =>
      simp only [viaCopy, Option.some.injEq, Prod.mk.injEq] at hc
      obtain ⟨rfl, rfl⟩ := hc
      exact ⟨.rfl' _, fun h2 _ l hl => by cases hl; simp⟩
    | some a => simp [viaCopy] at hc
  | succ n ih =>
    intro h h' p q hc
    cases p with
    | none =>
      simp only [viaCopy, Option.some.injEq, Prod.mk.injEq] at hc
      obtain ⟨rfl, rfl⟩ := hc
      exact ⟨.rfl' _, fun h2 _ l hl => by cases hl; simp⟩
    | some a =>
      simp only [viaCopy] at hc
      split at hc
      · rename_i c _
        simp only [Option.bind_eq_some_iff, Option.some.injEq, Prod.mk.injEq] at hc
        obtain ⟨⟨x, r⟩, e, rfl, rfl⟩ := hc
        obtain ⟨k1, k2⟩ := ih e
        refine ⟨k1.trans (.snoc _ _), fun h2 he l hl => ?_⟩
        cases hl with
        | cons g1 g2 =>
          have g0 := he.get _ _ (get_last x _)
          rw [g0] at g1; cases g1
          intro b hb
          rcases List.mem_cons.1 hb with rfl | hb
          · exact k1.len
          · exact k2 h2 ((Ext.snoc _ _).trans he) _ g2 b hb
      · cases hc

theorem addrCopy_new {n : Nat} : ∀ {h h' : Heap} {p q : Ptr}, addrCopy n h p = some (h', q) →
    Ext h h' ∧ ∀ h2, Ext h' h2 → ∀ l, AddrNodes h2 q l → ∀ b ∈ l, h.length ≤ b ∧
      ∀ d, h2[b]? = some (.addr d) → ∀ e, d.uri = some e → h.length ≤ e := by
  induction n with
  | zero =>
    intro h h' p q hc
    cases p with
    | none =>
      simp only [addrCopy, Option.some.injEq, Prod.mk.injEq] at hc
      obtain ⟨rfl, rfl⟩ := hc
      exact ⟨.rfl' _, fun h2 _ l hl => by cases hl; simp⟩
    | some a => simp [addrCopy] at hc
  | succ n ih =>
    intro h h' p q hc
    cases p with
    | none =>
      simp only [addrCopy, Option.some.injEq, Prod.mk.injEq] at hc
      obtain ⟨rfl, rfl⟩ := hc
      exact ⟨.rfl' _, fun h2 _ l hl => by cases hl; simp⟩
    | some a =>
      simp only [addrCopy] at hc
      split at hc
      · rename_i c _
        simp only [Option.bind_eq_some_iff, Option.some.injEq, Prod.mk.injEq] at hc
        obtain ⟨⟨x, u⟩, eu, ⟨y, r⟩, e, rfl, rfl⟩ := hc
        obtain ⟨j1, j2⟩ := uriCopy_new eu
        obtain ⟨k1, k2⟩ := ih e
        refine ⟨(j1.trans k1).trans (.snoc _ _), fun h2 he l hl => ?_⟩
        cases hl with
        | cons g1 g2 =>
          have g0 := he.get _ _ (get_last y _)
          rw [g0] at g1; cases g1
          intro b hb
          rcases List.mem_cons.1 hb with rfl | hb
          · refine ⟨(j1.trans k1).len, fun d hd e he => ?_⟩
            rw [g0] at hd; cases hd
            exact j2 e he
          · obtain ⟨q1, q2⟩ := k2 h2 ((Ext.snoc _ _).trans he) _ g2 b hb
            exact ⟨Nat.le_trans j1.len q1, fun d hd e he => Nat.le_trans j1.len (q2 d hd e he)⟩
      · cases hc

/-- **C44.** The nodes that make up the copy of a message are new ones: none of them is a node of the original, or of
anything else there was before. -/
theorem C44_new_nodes {h h' : Heap} {p q : Ptr} {n : Nat} (hc : msgCopy n h p = some (h', q)) :
    (∃ t, h' = h ++ t) ∧ ∀ a, MadeOf h' q a → h.length ≤ a := by
  show Ext h h' ∧ _
  cases p with
  | none =>
    simp only [msgCopy, Option.some.injEq, Prod.mk.injEq] at hc
    obtain ⟨rfl, rfl⟩ := hc
    exact ⟨.rfl' _, fun a ha => nomatch ha⟩
  | some a =>
    simp only [msgCopy] at hc
    split at hc
    · rename_i c _
      simp only [Option.bind_eq_some_iff, Option.some.injEq, Prod.mk.injEq] at hc
      obtain ⟨⟨r, r2⟩, er, ⟨t, t2⟩, et, ⟨f, f2⟩, ef, ⟨v, v2⟩, ev, ⟨p, p2⟩, ep, ⟨q, q2⟩, eq, ⟨o, o2⟩, eo, ⟨k, k2⟩, ek,
        ⟨z, z2⟩, ez, rfl, rfl⟩ := hc
      obtain ⟨xr, nr⟩ := uriCopy_new er
      obtain ⟨xt, nt⟩ := addrCopy_new et
      obtain ⟨xf, nf⟩ := addrCopy_new ef
      obtain ⟨xv, nv⟩ := viaCopy_new ev
      obtain ⟨xp, np⟩ := addrCopy_new ep
      obtain ⟨xq, nq⟩ := addrCopy_new eq
      obtain ⟨xo, no⟩ := addrCopy_new eo
      obtain ⟨xk, nk⟩ := addrCopy_new ek
      obtain ⟨xz, nz⟩ := addrCopy_new ez
      dsimp only at *
      have yt := xr.trans xt
      have yf := yt.trans xf
      have yv := yf.trans xv
      have yp := yv.trans xp
      have yq := yp.trans xq
      have yo := yq.trans xo
      have yk := yo.trans xk
      have yz := yk.trans xz
      generalize hm : ({ c with request := r2, via := v2, addrs := fun
                | .to => t2 | .from => f2 | .pAssertedIdentity => p2 | .remotePartyID => q2
                | .route => o2 | .contact => k2 | .recordRoute => z2 } : MsgCell) = d
      have ez := Ext.snoc z (.msg d)
      have ek := xz.trans ez
      have eo := xk.trans ek
      have eq := xo.trans eo
      have ep := xq.trans eq
      have ev := xp.trans ep
      have ef := xv.trans ev
      have et := xf.trans ef
      have haddr : ∀ f l, AddrNodes (z ++ [.msg d]) (d.addrs f) l → ∀ b ∈ l, h.length ≤ b ∧
          ∀ x, (z ++ [Cell.msg d])[b]? = some (.addr x) → ∀ e, x.uri = some e → h.length ≤ e := by
        intro fld l hl b hb
        have key : ∀ {h0 : Heap}, Ext h h0 → (h0.length ≤ b ∧ ∀ x, (z ++ [Cell.msg d])[b]? = some (.addr x) →
            ∀ e, x.uri = some e → h0.length ≤ e) → h.length ≤ b ∧ ∀ x, (z ++ [Cell.msg d])[b]? = some (.addr x) →
            ∀ e, x.uri = some e → h.length ≤ e :=
          fun hx hp => ⟨Nat.le_trans hx.len hp.1, fun x h1 e he => Nat.le_trans hx.len (hp.2 x h1 e he)⟩
        subst hm
        cases fld with
        | to => exact key xr (nt _ et _ hl b hb)
        | «from» => exact key yt (nf _ ef _ hl b hb)
        | pAssertedIdentity => exact key yv (np _ ep _ hl b hb)
        | remotePartyID => exact key yp (nq _ eq _ hl b hb)
        | route => exact key yq (no _ eo _ hl b hb)
        | contact => exact key yo (nk _ ek _ hl b hb)
        | recordRoute => exact key yk (nz _ ez _ hl b hb)
      refine ⟨yz.trans ez, fun a ha => ?_⟩
      have g0 := get_last z (.msg d)
      cases ha with
      | msg _ => exact yz.len
      | request h1 h2 =>
        rw [g0] at h1; cases h1
        subst hm
        exact nr _ h2
      | via h1 h2 h3 =>
        rw [g0] at h1; cases h1
        subst hm
        exact Nat.le_trans yf.len (nv _ ev _ h2 _ h3)
      | addr h1 h2 h3 =>
        rw [g0] at h1; cases h1
        exact (haddr _ _ h2 _ h3).1
      | uri h1 h2 h3 h4 h5 =>
        rw [g0] at h1; cases h1
        exact (haddr _ _ h2 _ h3).2 _ h4 _ h5
    · cases hc

/-- **C44.** Whatever is then done to the URI, address, Via and message nodes that make up the copy of a
message — any number of assignments to their fields, including new nodes — every URI, address list, Via
list and message there was before stands for the same value. Missing: parameter, header and payload nodes
belong to the original, see `C44_param_shared` and `C44_xheader_shared`. -/
theorem C44_original_kept_partial {h h' h2 : Heap} {p q : Ptr} {n : Nat}
    (hc : msgCopy n h p = some (h', q)) (hw : OnlyCopy h h' h2 q) :
    (∀ r x, MsgAt h r x → MsgAt h2 r x) ∧ (∀ r x, ViasAt h r x → ViasAt h2 r x) ∧
      (∀ r x, AddrsAt h r x → AddrsAt h2 r x) ∧ (∀ r x, UriAt h r x → UriAt h2 r x) := by
  obtain ⟨he, hnew⟩ := C44_new_nodes hc
  have K : ∀ (a : Nat) (c : Cell), h[a]? = some c → h2[a]? = some c := by
    intro a c hc
    have ha := (List.getElem?_eq_some_iff.mp hc).1
    rw [hw a ha (fun hm => by have := hnew a hm; omega)]
    exact Ext.get he a c hc
  exact ⟨fun r x y => y.mono K, fun r x y => y.mono K, fun r x y => y.mono K, fun r x y => y.mono K⟩

/-- **C44.** The copy of a message is made of new nodes: its value survives any change to the URI, address,
Via and message nodes there were before. Missing: as in `C44_original_kept_partial`. -/
theorem C44_copy_kept_partial {h h' h2 : Heap} {p q : Ptr} {m : Msg} {n : Nat}
    (H : MsgAt h p (some m)) (hv : m.via.length ≤ n) (ha : ∀ f, (m.addrs f).length ≤ n)
    (hc : msgCopy n h p = some (h', q))
    (hnew : ∀ a : Nat, h.length ≤ a → h2[a]? = h'[a]?)
    (hsh : ∀ (a : Nat) (c : Cell), h'[a]? = some c → c.shared → h2[a]? = some c) :
    MsgAt h2 q (some { m with addrs := fun f => (m.addrs f).map fun x => { x with display := [] } }) := by
  obtain ⟨h1, q1, e, _, k⟩ := msgCopy_spec (n := n) H (fun _ hm => by cases hm; exact ⟨hv, ha⟩)
  rw [hc] at e; cases e
  refine k h2 (fun a c h3 h4 => ?_)
  rcases h4 with h4 | h4
  · rw [hnew a h4]; exact h3
  · exact hsh a c h3 h4

/-- The copy of the demonstration message, its Via host and its From URI overwritten: the original is as
it was. -/
example : ∃ h' q a c, msgCopy 1 copyDemo (some 6) = some (h', q) ∧ copyDemo.length ≤ a ∧
    h'[a]? = some (.via c) ∧
    ViasAt (h'.set a (.via { c with host := b!"evil" })) (some 1)
      [{ host := b!"h", port := 5060, param := [(b!"branch", b!"z9hG4bKa")] }] := by
  have hb : ∀ f : AField, ((fun f => match f with
      | AField.from => [({ uri := some { scheme := b!"sip", host := b!"a" }, display := b!"Bob" } : Addr)]
      | _ => []) f).length ≤ 1 := by intro f; cases f <;> decide
  obtain ⟨h', q, e, _⟩ := C44_msg_copy_equal_partial copyDemo_msg (n := 1) (by decide) hb
  refine ⟨h', q, 9, { host := b!"h", port := 5060, param := some 0 }, e, by decide, ?_, ?_⟩
  · have : msgCopy 1 copyDemo (some 6) = some (h', q) := e
    cases this; rfl
  · refine (C44_original_kept_partial e ?_).2.1 _ _ copyDemo_via
    intro a ha _
    rw [List.getElem?_set_ne]
    have : copyDemo.length = 7 := rfl
    omega

/-- **C44.** `via.Copy().Branch()`, as `NewRequest` does with the Via of the transport, gives the copy a
branch and leaves every Via there was alone. -/
theorem C44_branch_keeps_original {h h' h2 : Heap} {p q : Ptr} {v : Via} {l : List Via} {n : Nat}
    {b : Bytes} (H : ViasAt h p (v :: l)) (hn : (v :: l).length ≤ n)
    (hc : viaCopy n h p = some (h', q)) (hb : branch b h' q = some h2) :
    ViasAt h2 q ({ v with param := (b!"branch", b) :: v.param } :: l) ∧
      ∀ r x, ViasAt h r x → ViasAt h2 r x := by
  cases H with
  | @cons a c ps l h1 h3 h4 =>
  obtain ⟨n, rfl⟩ : ∃ k, n = k + 1 := by cases n <;> simp_all
  obtain ⟨g, r, e, hg, kg⟩ := viaCopy_spec h4 (n := n) (by simpa using hn)
  simp only [viaCopy, h1, e, Option.bind_some, Option.some.injEq, Prod.mk.injEq] at hc
  obtain ⟨rfl, rfl⟩ := hc
  simp only [branch, get_last, Option.some.injEq] at hb
  have old : ∀ (a : Nat) (d : Cell), g[a]? = some d → h2[a]? = some d := by
    intro a d hd
    have ha := (List.getElem?_eq_some_iff.mp hd).1
    rw [← hb, List.getElem?_set_ne (by omega), List.append_assoc, List.getElem?_append_left ha]
    exact hd
  have n0 : h2[g.length]? = some (.via { c with param := some (g.length + 1), next := r }) := by
    rw [← hb, List.getElem?_set_self (by simp)]; simp
  have n1 : h2[g.length + 1]? = some (.pair b!"branch" b c.param) := by
    rw [← hb, List.getElem?_set_ne (by omega)]; simp
  refine ⟨.cons (c := { c with param := some (g.length + 1), next := r }) n0 (.cons n1 (h3.mono fun a d x => old a d (hg.get a d x)))
    (kg h2 fun a d x _ => old a d x), fun r x y => y.mono fun a d x => old a d (hg.get a d x)⟩

example : ∃ h' q h2, viaCopy 1 copyDemo (some 1) = some (h', q) ∧
    branch b!"z9hG4bKb" h' q = some h2 ∧
    ViasAt h2 (some 1) [{ host := b!"h", port := 5060, param := [(b!"branch", b!"z9hG4bKa")] }] := by
  obtain ⟨h', q, e, _⟩ := C44_via_copy_equal copyDemo_via (n := 1) (by decide)
  have e' : viaCopy 1 copyDemo (some 1) = some (h', q) := e
  cases e'
  exact ⟨_, _, _, e, rfl, (C44_branch_keeps_original copyDemo_via (by decide) e rfl).2 _ _ copyDemo_via⟩

/-- **C44, violated.** The parameters of a copied Via are those of the original: for every Via with a
parameter, giving the first parameter of the copy another value gives the original another value. -/
theorem C44_param_shared {h h' h2 : Heap} {p q : Ptr} {v : Via} {l : List Via} {n : Nat}
    {x y : Bytes} {ps : Pairs} {name : Bytes} (H : ViasAt h p (v :: l)) (hv : v.param = (name, x) :: ps)
    (hne : y ≠ x) (hn : (v :: l).length ≤ n)
    (hc : viaCopy n h p = some (h', q)) (hs : setValue y h' (viaParam h' q) = some h2) :
    ¬ ViasAt h2 p (v :: l) := by
  cases H with
  | @cons a c ps' l h1 h3 h4 =>
  obtain ⟨n, rfl⟩ : ∃ k, n = k + 1 := by cases n <;> simp_all [viaCopy]
  dsimp only at hv
  subst hv
  cases hcp : c.param with
  | none => rw [hcp] at h3; cases h3
  | some b =>
  rw [hcp] at h3
  cases h3 with
  | @cons _ _ _ r0 _ hb hps =>
  obtain ⟨g, r, e, hg, kg⟩ := viaCopy_spec h4 (n := n) (by simpa using hn)
  simp only [viaCopy, h1, e, Option.bind_some, Option.some.injEq, Prod.mk.injEq] at hc
  obtain ⟨rfl, rfl⟩ := hc
  have hb' := (hg.trans (.snoc g (.via { c with param := some b, next := r }))).get _ _ hb
  simp only [viaParam, get_last, hcp, setValue, hb', Option.some.injEq] at hs
  intro K
  have hlt := (List.getElem?_eq_some_iff.mp hb').1
  have hab : b ≠ a := by rintro rfl; rw [h1] at hb; cases hb
  have n1 : h2[b]? = some (.pair name y r0) := by rw [← hs, List.getElem?_set_self hlt]
  have n2 : h2[a]? = some (.via c) := by
    rw [← hs, List.getElem?_set_ne hab]; exact (hg.trans (.snoc g _)).get _ _ h1
  have := K.param n2
  rw [hcp] at this
  have := this.head n1
  simp at this
  exact hne this.symm

example : ∃ h' q h2, viaCopy 1 copyDemo (some 1) = some (h', q) ∧
    setValue b!"z9hG4bKb" h' (viaParam h' q) = some h2 ∧
    ¬ ViasAt h2 (some 1) [{ host := b!"h", port := 5060, param := [(b!"branch", b!"z9hG4bKa")] }] := by
  obtain ⟨h', q, e, _⟩ := C44_via_copy_equal copyDemo_via (n := 1) (by decide)
  have e' : viaCopy 1 copyDemo (some 1) = some (h', q) := e
  cases e'
  exact ⟨_, _, _, e, rfl, C44_param_shared copyDemo_via rfl (by decide) (by decide) e rfl⟩

/-- **C44, violated.** The extension headers of a copied message are those of the original: giving the
first of the copy another value gives the original another value. -/
theorem C44_xheader_shared {h h' h2 : Heap} {a b : Nat} {c : MsgCell} {m : Msg} {n : Nat}
    {x y : Bytes} {ps : Pairs} {name : Bytes} (H : MsgAt h (some a) (some m))
    (hx : m.xheader = (name, x) :: ps) (hne : y ≠ x) (hv : m.via.length ≤ n)
    (ha : ∀ f, (m.addrs f).length ≤ n) (hc : msgCopy n h (some a) = some (h', some b))
    (hb : h'[b]? = some (.msg c)) (hs : setValue y h' c.xheader = some h2) :
    ¬ MsgAt h2 (some a) (some m) := by
  obtain ⟨h1, q1, e, he, _⟩ := msgCopy_spec (n := n) H (fun _ hm => by cases hm; exact ⟨hv, ha⟩)
  rw [hc] at e; cases e
  obtain ⟨d, hd⟩ : ∃ d, h[a]? = some (.msg d) := by cases H with | cell h1 => exact ⟨_, h1⟩
  have hX := H.xheader hd
  obtain ⟨b', d', hq, hd', e1, -, -⟩ := msgCopy_cell hd hc
  cases hq
  rw [hb] at hd'; cases hd'
  rw [e1] at hs
  rw [hx] at hX
  cases hcp : d.xheader with
  | none => rw [hcp] at hX; cases hX
  | some k =>
  rw [hcp] at hX hs
  cases hX with
  | @cons _ _ _ r _ hk hps =>
  have hk' := he.get _ _ hk
  simp only [setValue, hk', Option.some.injEq] at hs
  intro K
  have hlt := (List.getElem?_eq_some_iff.mp hk').1
  have hka : k ≠ a := by rintro rfl; rw [hd] at hk; cases hk
  have n1 : h2[k]? = some (.pair name y r) := by rw [← hs, List.getElem?_set_self hlt]
  have n2 : h2[a]? = some (.msg d) := by
    rw [← hs, List.getElem?_set_ne hka]; exact he.get _ _ hd
  have := K.xheader n2
  rw [hcp] at this
  have := this.head n1
  rw [hx] at this
  simp at this
  exact hne this.symm

example : ∃ h' q, msgCopy 1 copyDemo (some 6) = some (h', some q) ∧ ∃ c, h'[q]? = some (.msg c) ∧
    c.xheader = some 4 ∧ (setValue b!"2" h' c.xheader).isSome := by
  refine ⟨_, _, rfl, _, rfl, rfl, by decide +kernel⟩

end Gosip.Props
