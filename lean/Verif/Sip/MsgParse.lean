import Verif.Sip.MsgTable
import Verif.Sip.UriParse

/-!
# `ParseMsg` (`sip/msg_parse.rl`, `sip/sip.rl`, `sip/msg_parse.go`)

The generated machine is modelled state by state: the transition table is in `Verif.Sip.MsgTable`;
the actions, the driver loop and the code after it are here. The position `p`, the mark, the scratch
buffer and the pointers `via`, `addr`, `addrp`, `value` are explicit; an index or slice out of range
and a nil dereference are panics.
-/

namespace Gosip.Sip
namespace MsgM

/-- Errors returned by `ParseMsg` (`sip/msg_parse.rl:55-77` and actions `RequestURI`,
`AddrUri`). -/
inductive MErr where
  | incomplete (data : Bytes)
  | parse (data : Bytes) (offset : Nat)
  | uri (e : Uri.UErr)
  | contentLength (declared : Int) (actual : Nat)
  | sdp (e : Sdp.SErr)
  deriving DecidableEq

/-- Local variables of `ParseMsg` (`sip/msg_parse.rl:33-51`) without `cs`, `pe`, `eof` and `data`.
`viap` always points at the end of the list `msg.Via`, so it is not represented. `addrp` is nil or
points at the end of one of the seven address lists of `msg` (`lastAddr` and the action `Addr` make it
so), hence a selector; likewise `value` is nil or points at a string field of `msg`. -/
structure Ctx where
  p : Nat := 0
  msg : Msg := {}
  buf : Bytes
  amt : Nat := 0
  mark : Nat := 0
  clen : Int := 0
  ctype : Bytes := []
  name : Bytes := []
  hex : UInt8 := 0
  value : Option SField := none
  via : Option Via := none
  addrp : Option AField := none
  addr : Option Addr := none
  deriving DecidableEq

/-- Go slice expression `d[a:b]` on a slice whose length is its capacity. -/
def slice (d : Bytes) (a b : Nat) : Res MErr Bytes :=
  if a ≤ b ∧ b ≤ d.length then .ok ((d.take b).drop a) else .panic

/-- `data[p]`. -/
def cur (d : Bytes) (p : Nat) : Res MErr UInt8 :=
  match d[p]? with
  | some c => .ok c
  | none => .panic

/-- `buf[amt] = c; amt++`. -/
def Ctx.push (x : Ctx) (c : UInt8) : Res MErr Ctx :=
  if x.amt < x.buf.length then .ok { x with buf := x.buf.set x.amt c, amt := x.amt + 1 } else .panic

/-- `n*10 + (int(c) - 0x30)` on Go `int`. -/
def dec64 (n : Int) (c : UInt8) : Int := wrap64 (wrap64 (n * 10) + ((c.toNat : Int) - 48))

/-- `ParseURI` called by an action: the error is returned to the caller of `ParseMsg`. -/
def callParseURI (d : Bytes) : Res MErr URI :=
  match parseURI d with
  | .ok u => .ok u
  | .err e => .err (.uri e)
  | .panic => .panic

/-- Action `AddrUnquotedDisplay` (`sip/sip.rl:197-203`): the loop that drops trailing blanks of
`data[mark:end]`; `n` counts down from `end`. -/
def trimEnd (d : Bytes) (mark : Nat) : Nat → Res MErr Nat
  | 0 => .ok 0
  | n + 1 =>
    if mark < n + 1 then cur d n >>= fun c => if whitespacec c then trimEnd d mark n else .ok (n + 1)
    else .ok (n + 1)

/-- Dereference of a pointer. -/
def deref {α : Type} : Option α → Res MErr α
  | some a => .ok a
  | none => .panic

/-- The actions of `sip/sip.rl:72-250,437-485,493-497,532,534` as inlined in `sip/msg_parse.go`.
`hold` and `backtrack` move `p` back by one more than the position to continue at, because every jump
to a state increments it; a position below 0, which would not be an error in Go, is a panic here and
is proved not to occur. `value` without destination stores the slice itself, not a copy; sharing with
`data` is considered in `Verif.Dialog.Receiver`. -/
def exec (d : Bytes) (a : MAct) (x : Ctx) : Res MErr Ctx :=
  match a with
  | .hold => if x.p = 0 then .panic else .ok { x with p := x.p - 1 }
  | .mark => .ok { x with mark := x.p }
  | .backtrack => if x.mark = 0 then .panic else .ok { x with p := x.mark - 1 }
  | .start => .ok { x with amt := 0 }
  | .append => cur d x.p >>= fun c => x.push c
  | .hexHi => cur d x.p >>= fun c => .ok { x with hex := unhex c * 16 }
  | .hexLo => cur d x.p >>= fun c => ({ x with hex := x.hex + unhex c } : Ctx).push (x.hex + unhex c)
  | .method => slice d x.mark x.p >>= fun s => .ok { x with msg.method := s }
  | .versionMajor => cur d x.p >>= fun c =>
      .ok { x with msg.versionMajor := x.msg.versionMajor * 10 + (c - 48) }
  | .versionMinor => cur d x.p >>= fun c =>
      .ok { x with msg.versionMinor := x.msg.versionMinor * 10 + (c - 48) }
  | .requestURI => slice d x.mark x.p >>= fun s => callParseURI s >>= fun u =>
      .ok { x with msg.request := some u }
  | .statusCode => cur d x.p >>= fun c => .ok { x with msg.status := dec64 x.msg.status c }
  | .reasonPhrase => slice x.buf 0 x.amt >>= fun s => .ok { x with msg.phrase := s }
  | .viaNew => .ok { x with via := some {} }
  | .via => deref x.via >>= fun v => .ok { x with msg.via := x.msg.via ++ [v], via := none }
  | .viaProtocol => slice d x.mark x.p >>= fun s => deref x.via >>= fun v =>
      .ok { x with via := some { v with protocol := s } }
  | .viaVersion => slice d x.mark x.p >>= fun s => deref x.via >>= fun v =>
      .ok { x with via := some { v with version := s } }
  | .viaTransport => slice d x.mark x.p >>= fun s => deref x.via >>= fun v =>
      .ok { x with via := some { v with transport := s } }
  | .viaHost => slice d x.mark x.p >>= fun s => deref x.via >>= fun v =>
      .ok { x with via := some { v with host := s } }
  | .viaPort => cur d x.p >>= fun c => deref x.via >>= fun v =>
      .ok { x with via := some { v with port := v.port * 10 + (c.toUInt16 - 48) } }
  | .viaParam => slice x.buf 0 x.amt >>= fun s => deref x.via >>= fun v =>
      .ok { x with via := some { v with param := (x.name, s) :: v.param } }
  | .name => slice d x.mark x.p >>= fun s => .ok { x with name := s }
  | .value =>
    if x.p = 0 then .panic else
    slice d x.mark (x.p - 1) >>= fun s =>
      match x.value with
      | some f => .ok { x with msg.hdr := setAt x.msg.hdr f s }
      | none => .ok { x with msg.xheader := (x.name, s) :: x.msg.xheader }
  | .addrNew => .ok { x with addr := some {} }
  | .addrQuotedDisplay => slice x.buf 0 x.amt >>= fun s => deref x.addr >>= fun a =>
      .ok { x with addr := some { a with display := s } }
  | .addrUnquotedDisplay => trimEnd d x.mark x.p >>= fun e => slice d x.mark e >>= fun s =>
      deref x.addr >>= fun a => .ok { x with addr := some { a with display := s } }
  | .addrUri => slice d x.mark x.p >>= fun s => callParseURI s >>= fun u => deref x.addr >>= fun a =>
      .ok { x with addr := some { a with uri := some u } }
  | .addrParam => slice x.buf 0 x.amt >>= fun s => deref x.addr >>= fun a =>
      .ok { x with addr := some { a with param := (x.name, s) :: a.param } }
  | .addr => deref x.addrp >>= fun f => deref x.addr >>= fun a =>
      .ok { x with msg.addrs := setAt x.msg.addrs f (x.msg.addrs f ++ [a]), addr := none }
  | .callID => slice d x.mark x.p >>= fun s => .ok { x with msg.callID := s }
  | .contentLength => cur d x.p >>= fun c => .ok { x with clen := dec64 x.clen c }
  | .contentType => slice d x.mark x.p >>= fun s => .ok { x with ctype := s }
  | .cseq => cur d x.p >>= fun c => .ok { x with msg.cseq := dec64 x.msg.cseq c }
  | .cseqMethod => slice d x.mark x.p >>= fun s => .ok { x with msg.cseqMethod := s }
  | .expires => cur d x.p >>= fun c => .ok { x with msg.expires := dec64 x.msg.expires c }
  | .maxForwards => cur d x.p >>= fun c =>
      .ok { x with msg.maxForwards := dec64 x.msg.maxForwards c }
  | .minExpires => cur d x.p >>= fun c => .ok { x with msg.minExpires := dec64 x.msg.minExpires c }
  | .clen0 => .ok { x with clen := 0 }
  | .expires0 => .ok { x with msg.expires := 0 }
  | .maxForwards0 => .ok { x with msg.maxForwards := 0 }
  | .minExpires0 => .ok { x with msg.minExpires := 0 }
  | .valueNil => .ok { x with value := none }
  | .lastAddr f => .ok { x with addrp := some f }
  | .setValue f => .ok { x with value := some f }

/-- The actions of one transition, in order. -/
def execs (d : Bytes) : List MAct → Ctx → Res MErr Ctx
  | [], x => .ok x
  | a :: l, x => exec d a x >>= fun y => execs d l y

/-- The transition of the machine on a symbol. -/
def lookup : List Row → Nat → Option Row
  | [], _ => none
  | r :: l, c => bif Nat.ble r.lo c && Nat.ble c r.hi then some r else lookup l c

/-- `lookAheadWSP(data, p, pe)` (`sip/msg_parse.rl:80-82`); `p + 2 < pe` guards the index. -/
def lookAheadWSP (d : Bytes) (p : Nat) : Bool :=
  match d[p + 2]? with
  | some c => c == 32 || c == 9
  | none => false

/-- The symbol a state reads: the byte, or for CR in a state with a look-ahead condition 269 or 525
(`_widec` in `sip/msg_parse.go`). -/
def symbol (d : Bytes) (k p : Nat) (c : UInt8) : Nat :=
  bif wide k && c == 13 then (bif lookAheadWSP d p then 525 else 269) else c.toNat

/-- What one pass through `st_case_k` leads to. -/
inductive Next where
  /-- the next state, with `p` already incremented -/
  | cont (k : Nat) (x : Ctx)
  /-- `fbreak`: the blank line has been read, `p` is the position of the body -/
  | brk (x : Ctx)
  | stop (e : MErr)
  | panic
  deriving DecidableEq

/-- After the actions of a row: `fbreak` (target 781), or `goto stN`, which increments `p`. -/
def after (r : Row) : Res MErr Ctx → Next
  | .panic => .panic
  | .err e => .stop e
  | .ok y => if r.tgt = 781 then .brk { y with p := y.p + 1 } else .cont r.tgt { y with p := y.p + 1 }

/-- One pass through `st_case_k` at position `x.p` (`sip/msg_parse.go:1540-17830`). At the end of the
input (`_test_eof`) the machine stops with `cs = k`, or with `cs = 273` for states whose end-of-file
action is `gxh`; both are below `msg_first_final` = 765 and `p = pe`, so the result is
`MsgIncompleteError`. Without a transition the machine stops with `cs = 0` and `p` unchanged. -/
def step (d : Bytes) (k : Nat) (x : Ctx) : Next :=
  match d[x.p]? with
  | none => .stop (.incomplete d)
  | some c =>
    match lookup (rows k) (symbol d k x.p c) with
    | none => .stop (.parse d x.p)
    | some r => after r (execs d r.acts x)

/-- Outcome of the loop with a bounded number of passes. -/
inductive Out where
  | done (x : Ctx)
  | stop (e : MErr)
  | panic
  | outOfFuel
  deriving DecidableEq

/-- The loop. -/
def run (d : Bytes) : Nat → Nat → Ctx → Out
  | 0, _, _ => .outOfFuel
  | n + 1, k, x =>
    match step d k x with
    | .cont k' x' => run d n k' x'
    | .brk x' => .done x'
    | .stop e => .stop e
    | .panic => .panic

/-- Initial values (`sip/msg_parse.rl:33-51`); `msg_start` is 1. -/
def initCtx (d : Bytes) : Ctx := { buf := List.replicate d.length 0 }

/-- The code after the loop (`sip/msg_parse.rl:63-77`). -/
def finish (d : Bytes) (x : Ctx) : Res MErr Msg :=
  if x.clen > 0 then
    if x.clen ≠ (d.length : Int) - x.p then .err (.contentLength x.clen (d.length - x.p))
    else
      slice d x.p d.length >>= fun body =>
        if x.ctype = b!"application/sdp" then
          match Sdp.parse body with
          | .ok ms => .ok { x.msg with payload := some (.sdp ms) }
          | .err e => .err (.sdp e)
          | .panic => .panic
        else .ok { x.msg with payload := some (.misc x.ctype body) }
  else .ok x.msg

/-- `ParseMsg` on a non-nil slice, with at most `n` passes of the loop; `none` if that is too few. -/
def parseWith (n : Nat) (d : Bytes) : Option (Res MErr Msg) :=
  match run d n 1 (initCtx d) with
  | .done x => some (finish d x)
  | .stop e => some (.err e)
  | .panic => some .panic
  | .outOfFuel => none

/-- A number of passes that is proved to be always enough. -/
def fuel (d : Bytes) : Nat := 8 * (d.length + 2) * (d.length + 2)

end MsgM

/-- `ParseMsg` (`sip/msg_parse.rl:29-78`) on a non-nil slice (a nil slice gives a nil message). The
default of the missing-fuel case is `panic`, so that a proof that the result is not `panic` also shows
that the fuel suffices. -/
def parseMsg (d : Bytes) : Res MsgM.MErr Msg := (MsgM.parseWith (MsgM.fuel d) d).getD .panic

end Gosip.Sip
