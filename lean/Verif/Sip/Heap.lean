import Verif.Sip.Msg

/-!
# Pointers: what `Copy` shares

Everywhere else in the model a pointer is the value it points to. Here the nodes of messages are cells
of a heap, so that it can be said which of them `URI.Copy`, `Addr.Copy`, `Via.Copy` and `Msg.Copy`
duplicate and which stay shared. Cells are never freed; an address is an index.
-/

namespace Gosip.Sip.Heap
open Sip

/-- A pointer; `none` is nil. -/
abbrev Ptr := Option Nat

/-- `URI` (`sip/uri.go:47-55`). -/
structure UriCell where
  scheme : Bytes := []
  user : Bytes := []
  pass : Bytes := []
  host : Bytes := []
  port : UInt16 := 0
  param : Ptr := none
  header : Ptr := none
  deriving DecidableEq

/-- `Addr` (`sip/addr.go:42-47`). -/
structure AddrCell where
  uri : Ptr := none
  display : Bytes := []
  param : Ptr := none
  next : Ptr := none
  deriving DecidableEq

/-- `Via` (`sip/via.go:27-35`). -/
structure ViaCell where
  protocol : Bytes := []
  version : Bytes := []
  transport : Bytes := []
  host : Bytes := []
  port : UInt16 := 0
  param : Ptr := none
  next : Ptr := none
  deriving DecidableEq

/-- `Msg` (`sip/msg.go:27-96`): its pointer fields, and in `plain` all the others. The fields `request`,
`addrs`, `via`, `payload`, `sourceAddr`, `xheader` of `plain` are not used. -/
structure MsgCell where
  plain : Msg := {}
  request : Ptr := none
  addrs : AField → Ptr := fun _ => none
  via : Ptr := none
  payload : Ptr := none
  source : Ptr := none
  xheader : Ptr := none

/-- One cell. `Param`, `URIParam`, `URIHeader` and `XHeader` (`sip/param.go:25-29`,
`sip/uriparam.go:25-29`, `sip/uriheader.go:25-29`, `sip/xheader.go:25-29`) have the same shape. A payload
is one cell. -/
inductive Cell where
  | pair (name value : Bytes) (next : Ptr)
  | uri (c : UriCell)
  | addr (c : AddrCell)
  | via (c : ViaCell)
  | msg (c : MsgCell)
  | payload (p : Payload)
  | source (a : Bytes × UInt16)

abbrev Heap := List Cell

/-! ### The value a pointer stands for -/

/-- The list of parameters or headers at `p`. -/
inductive PairsAt (h : Heap) : Ptr → Pairs → Prop
  | nil : PairsAt h none []
  | cons {a : Nat} {n v : Bytes} {p : Ptr} {l : Pairs} :
      h[a]? = some (.pair n v p) → PairsAt h p l → PairsAt h (some a) ((n, v) :: l)

/-- The URI at `p`. -/
inductive UriAt (h : Heap) : Ptr → Option URI → Prop
  | nil : UriAt h none none
  | cell {a : Nat} {c : UriCell} {ps hs : Pairs} :
      h[a]? = some (.uri c) → PairsAt h c.param ps → PairsAt h c.header hs →
      UriAt h (some a) (some { scheme := c.scheme, user := c.user, pass := c.pass, host := c.host,
                               port := c.port, param := ps, header := hs })

/-- The list of addresses at `p`. -/
inductive AddrsAt (h : Heap) : Ptr → List Addr → Prop
  | nil : AddrsAt h none []
  | cons {a : Nat} {c : AddrCell} {u : Option URI} {ps : Pairs} {l : List Addr} :
      h[a]? = some (.addr c) → UriAt h c.uri u → PairsAt h c.param ps → AddrsAt h c.next l →
      AddrsAt h (some a) ({ uri := u, display := c.display, param := ps } :: l)

/-- The list of Via headers at `p`. -/
inductive ViasAt (h : Heap) : Ptr → List Via → Prop
  | nil : ViasAt h none []
  | cons {a : Nat} {c : ViaCell} {ps : Pairs} {l : List Via} :
      h[a]? = some (.via c) → PairsAt h c.param ps → ViasAt h c.next l →
      ViasAt h (some a) ({ protocol := c.protocol, version := c.version, transport := c.transport,
                           host := c.host, port := c.port, param := ps } :: l)

/-- The payload at `p`. -/
inductive PayloadAt (h : Heap) : Ptr → Option Payload → Prop
  | nil : PayloadAt h none none
  | cell {a : Nat} {x : Payload} : h[a]? = some (.payload x) → PayloadAt h (some a) (some x)

/-- The source address at `p`. -/
inductive SourceAt (h : Heap) : Ptr → Option (Bytes × UInt16) → Prop
  | nil : SourceAt h none none
  | cell {a : Nat} {x : Bytes × UInt16} : h[a]? = some (.source x) → SourceAt h (some a) (some x)

/-- The message at `p`. -/
inductive MsgAt (h : Heap) : Ptr → Option Msg → Prop
  | nil : MsgAt h none none
  | cell {a : Nat} {c : MsgCell} {u : Option URI} {as : AField → List Addr} {vs : List Via}
      {pl : Option Payload} {src : Option (Bytes × UInt16)} {xs : Pairs} :
      h[a]? = some (.msg c) → UriAt h c.request u → (∀ f, AddrsAt h (c.addrs f) (as f)) →
      ViasAt h c.via vs → PayloadAt h c.payload pl → SourceAt h c.source src → PairsAt h c.xheader xs →
      MsgAt h (some a) (some { c.plain with request := u, addrs := as, via := vs, payload := pl,
                                            sourceAddr := src, xheader := xs })

/-! ### The copying methods

`none` as a result: the recursion is deeper than `n`, or the pointer is not one to such a node. A node is
put on the heap after the nodes behind it instead of before; addresses are not observable. -/

/-- `URI.Copy` (`sip/uri.go:60-69`). -/
def uriCopy (h : Heap) : Ptr → Option (Heap × Ptr)
  | none => some (h, none)
  | some a =>
    match h[a]? with
    | some (.uri c) => some (h ++ [.uri c], some h.length)
    | _ => none

/-- `Addr.Copy` (`sip/addr.go:90-99`). -/
def addrCopy : Nat → Heap → Ptr → Option (Heap × Ptr)
  | _, h, none => some (h, none)
  | 0, _, some _ => none
  | n + 1, h, some a =>
    match h[a]? with
    | some (.addr c) =>
      (uriCopy h c.uri).bind fun x =>
      (addrCopy n x.1 c.next).bind fun y =>
      some (y.1 ++ [.addr { uri := x.2, display := [], param := c.param, next := y.2 }],
            some y.1.length)
    | _ => none

/-- `Via.Copy` (`sip/via.go:65-78`). -/
def viaCopy : Nat → Heap → Ptr → Option (Heap × Ptr)
  | _, h, none => some (h, none)
  | 0, _, some _ => none
  | n + 1, h, some a =>
    match h[a]? with
    | some (.via c) =>
      (viaCopy n h c.next).bind fun x =>
      some (x.1 ++ [.via { protocol := c.protocol, version := c.version, transport := c.transport,
                           host := c.host, port := c.port, param := c.param, next := x.2 }],
            some x.1.length)
    | _ => none

/-- `Msg.Copy` (`sip/msg.go:110-127`). -/
def msgCopy (n : Nat) (h : Heap) : Ptr → Option (Heap × Ptr)
  | none => some (h, none)
  | some a =>
    match h[a]? with
    | some (.msg c) =>
      (uriCopy h c.request).bind fun r =>
      (addrCopy n r.1 (c.addrs .to)).bind fun t =>
      (addrCopy n t.1 (c.addrs .from)).bind fun f =>
      (viaCopy n f.1 c.via).bind fun v =>
      (addrCopy n v.1 (c.addrs .pAssertedIdentity)).bind fun p =>
      (addrCopy n p.1 (c.addrs .remotePartyID)).bind fun q =>
      (addrCopy n q.1 (c.addrs .route)).bind fun o =>
      (addrCopy n o.1 (c.addrs .contact)).bind fun k =>
      (addrCopy n k.1 (c.addrs .recordRoute)).bind fun z =>
      some (z.1 ++ [.msg { c with
              request := r.2, via := v.2,
              addrs := fun
                | .to => t.2 | .from => f.2 | .pAssertedIdentity => p.2 | .remotePartyID => q.2
                | .route => o.2 | .contact => k.2 | .recordRoute => z.2 }],
            some z.1.length)
    | _ => none

/-! ### Methods that change nodes -/

/-- `Via.Branch` (`sip/via.go:81-84`): a new parameter node in front of the others. -/
def branch (b : Bytes) (h : Heap) : Ptr → Option Heap
  | none => none
  | some a =>
    match h[a]? with
    | some (.via c) =>
      some ((h ++ [Cell.pair b!"branch" b c.param]).set a (.via { c with param := some h.length }))
    | _ => none

/-- `Addr.Tag` (`sip/addr.go:64-67`). -/
def tag (t : Bytes) (h : Heap) : Ptr → Option Heap
  | none => none
  | some a =>
    match h[a]? with
    | some (.addr c) =>
      some ((h ++ [Cell.pair b!"tag" t c.param]).set a (.addr { c with param := some h.length }))
    | _ => none

/-- `p.Value = v` for a parameter `p`, as in `dialog/receiver.go:78` and `dialog/dialog.go:240`. -/
def setValue (v : Bytes) (h : Heap) : Ptr → Option Heap
  | none => none
  | some a =>
    match h[a]? with
    | some (.pair n _ p) => some (h.set a (.pair n v p))
    | _ => none

/-- `via.Param` (nil if `via` is not a Via). -/
def viaParam (h : Heap) : Ptr → Ptr
  | none => none
  | some a =>
    match h[a]? with
    | some (.via c) => c.param
    | _ => none

end Gosip.Sip.Heap
