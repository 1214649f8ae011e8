import Verif.Sip.Heap

/-!
# Pointers: the methods that walk and rewrite lists

A loop gets a number of turns; `none` as a result: it is not left within them, or a pointer is followed
that does not point to such a node.
-/

namespace Gosip.Sip.Heap
open Sip

/-- `Addr.Len` (`sip/addr.go:120-126`): the loop, `count` being the nodes met so far. A list has less than
`2^63` nodes, so that the count does not overflow. -/
def addrLen : Nat → Heap → Ptr → Nat → Option Nat
  | _, _, none, count => some count
  | 0, _, some _, _ => none
  | n + 1, h, some a, count =>
    match h[a]? with
    | some (.addr c) => addrLen n h c.next (count + 1)
    | _ => none

/-- `Addr.Last` (`sip/addr.go:111-117`). -/
def addrLast : Nat → Heap → Ptr → Option Ptr
  | _, _, none => some none
  | 0, _, some _ => none
  | n + 1, h, some a =>
    match h[a]? with
    | some (.addr c) => if c.next = none then some (some a) else addrLast n h c.next
    | _ => none

/-- `Via.Last` (`sip/via.go:95-101`). -/
def viaLast : Nat → Heap → Ptr → Option Ptr
  | _, _, none => some none
  | 0, _, some _ => none
  | n + 1, h, some a =>
    match h[a]? with
    | some (.via c) => if c.next = none then some (some a) else viaLast n h c.next
    | _ => none

/-- `Addr.Reversed` (`sip/addr.go:129-138`): the loop, `res` being the reversed part. `*a = *addr` copies the
pointers to URI and parameters. -/
def addrReversed : Nat → Heap → Ptr → Ptr → Option (Heap × Ptr)
  | _, h, none, res => some (h, res)
  | 0, _, some _, _ => none
  | n + 1, h, some a, res =>
    match h[a]? with
    | some (.addr c) => addrReversed n (h ++ [.addr { c with next := res }]) c.next (some h.length)
    | _ => none

/-- `Via.Detach` (`sip/via.go:87-92`); `*via` panics on nil. -/
def viaDetach (h : Heap) : Ptr → Option (Heap × Ptr)
  | none => none
  | some a =>
    match h[a]? with
    | some (.via c) => some (h ++ [.via { c with next := none }], some h.length)
    | _ => none

/-- The node at `p`, if it is one of an address. -/
def addrCell (h : Heap) (p : Ptr) : Option (Nat × AddrCell) :=
  p.bind fun a => match h[a]? with
    | some (.addr c) => some (a, c)
    | _ => none

/-- `addr.Next = q`. -/
def setNext (h : Heap) (p q : Ptr) : Option Heap :=
  (addrCell h p).map fun x => h.set x.1 (.addr { x.2 with next := q })

/-- `msg.Request = r; msg.Route = q` (`dialog/route.go:116-117`, `dialog/receiver.go:114-115`). -/
def MsgCell.rerouted (c : MsgCell) (r q : Ptr) : MsgCell :=
  { c with request := r, addrs := fun f => if f = .route then q else c.addrs f }

/-- What `RouteMessage` does to a request whose first route is a strict router (`dialog/route.go:114-117`). The message
is the one at address `a`. -/
def strictRoute (n : Nat) (h : Heap) (a : Nat) (c : MsgCell) : Option Heap :=
  (addrCopy n h (c.addrs .route)).bind fun x =>
  (addrLast n x.1 x.2).bind fun last =>
  (setNext (x.1 ++ [.addr { uri := c.request }]) last (some x.1.length)).bind fun h2 =>
  (addrCell h2 x.2).map fun y => h2.set a (.msg (c.rerouted y.2.uri y.2.next))

/-- `for ; seclast.Next.Next != nil; seclast = seclast.Next` (`dialog/receiver.go:117-119`): the second last node and the
last one. -/
def secondLast : Nat → Heap → Ptr → Option ((Nat × AddrCell) × (Nat × AddrCell))
  | 0, _, _ => none
  | n + 1, h, p =>
    (addrCell h p).bind fun x =>
    (addrCell h x.2.next).bind fun y =>
    if y.2.next = none then some (x, y) else secondLast n h x.2.next

/-- What `fixMessagesFromStrictRouters` does to a message that came from a strict router and has a route
(`dialog/receiver.go:111-124`). -/
def fixRoute (n : Nat) (h : Heap) (a : Nat) (c : MsgCell) : Option Heap :=
  (addrCell h (c.addrs .route)).bind fun r =>
  if r.2.next = none then some (h.set a (.msg (c.rerouted r.2.uri none)))
  else
    (secondLast n h (c.addrs .route)).map fun x =>
      (h.set a (.msg (c.rerouted x.2.2.uri (c.addrs .route)))).set x.1.1 (.addr { x.1.2 with next := none })

end Gosip.Sip.Heap
