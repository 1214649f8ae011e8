import Verif.Sip.Heap

/-!
# Specification of lists in memory
-/

namespace Gosip.Spec
open Sip Sip.Heap

/-- The nodes of the list of addresses at `p`. -/
inductive AddrNodes (h : Heap) : Ptr → List Nat → Prop
  | nil : AddrNodes h none []
  | cons {a : Nat} {c : AddrCell} {l : List Nat} :
      h[a]? = some (.addr c) → AddrNodes h c.next l → AddrNodes h (some a) (a :: l)

/-- The nodes of the list of Via headers at `p`. -/
inductive ViaNodes (h : Heap) : Ptr → List Nat → Prop
  | nil : ViaNodes h none []
  | cons {a : Nat} {c : ViaCell} {l : List Nat} :
      h[a]? = some (.via c) → ViaNodes h c.next l → ViaNodes h (some a) (a :: l)

/-- No list of addresses of the message `c` runs through one of the nodes `as`, except the field `but`. -/
def Apart (h : Heap) (as : List Nat) (c : MsgCell) (but : AField → Prop) : Prop :=
  ∀ f, ¬ but f → ∀ bs, AddrNodes h (c.addrs f) bs → ∀ a ∈ bs, a ∉ as

/-- The nodes that make up the message at `p`: its own node, its URI, and the nodes of its Via headers and addresses with
their URIs. Parameter, header and payload nodes are not among them. -/
inductive MadeOf (h : Heap) : Ptr → Nat → Prop
  | msg {a : Nat} {c : MsgCell} : h[a]? = some (.msg c) → MadeOf h (some a) a
  | request {a b : Nat} {c : MsgCell} : h[a]? = some (.msg c) → c.request = some b → MadeOf h (some a) b
  | via {a b : Nat} {c : MsgCell} {l : List Nat} : h[a]? = some (.msg c) → ViaNodes h c.via l → b ∈ l → MadeOf h (some a) b
  | addr {a b : Nat} {c : MsgCell} {f : AField} {l : List Nat} :
      h[a]? = some (.msg c) → AddrNodes h (c.addrs f) l → b ∈ l → MadeOf h (some a) b
  | uri {a b e : Nat} {c : MsgCell} {d : AddrCell} {f : AField} {l : List Nat} :
      h[a]? = some (.msg c) → AddrNodes h (c.addrs f) l → b ∈ l → h[b]? = some (.addr d) → d.uri = some e →
      MadeOf h (some a) e

/-- `h2` differs from `h'` only in nodes that make up the message at `q`, and in nodes that `h` does not have. -/
def OnlyCopy (h h' h2 : Heap) (q : Ptr) : Prop := ∀ a : Nat, a < h.length → ¬ MadeOf h' q a → h2[a]? = h'[a]?

end Gosip.Spec
