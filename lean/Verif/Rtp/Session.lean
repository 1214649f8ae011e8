import Verif.Rtp.Header
import Verif.Dsp.Ulaw

/-!
# RTP sessions: sending, receiving frames, binding ports (`rtp/session.go`)
-/

namespace Gosip.Rtp

/-- `rtp/session.go:44`: `Frame`, 160 signed 16-bit samples. -/
abbrev Frame := Vector Int16 160

/-- `rtp/session.go:49-67`: `Session` as seen by the sender: the header, whether the receiver and
`Sock` are non-nil, whether `Peer` is non-nil, and (ghost) the log of attempted writes with their
outcome. `obuf` always has length 0 and capacity 1500 (line 91), so `Header.Write(obuf)` yields a
fresh 12-byte slice and line 101 stays within the capacity; only sessions made by `NewSession` are
modelled. -/
structure Sess where
  hdr : Header
  live : Bool := true
  peer : Bool := true
  log : List (Bytes × Bool) := []

/-- `sdp/codecs.go:36,37`: payload types of `ULAWCodec` and `DTMFCodec`. -/
def ulawPT : UInt8 := 0
@[inherit_doc ulawPT] def dtmfPT : UInt8 := 101

/-- The environment: does the k-th attempted write of the session succeed. -/
abbrev Writes := Nat → Bool

/-- `Sock.WriteTo(buf, peer)`: the attempt is logged; the result is whether it succeeded. -/
def Sess.writeTo (w : Writes) (s : Sess) (p : Bytes) : Bool × Sess :=
  (w s.log.length, { s with log := s.log ++ [(p, w s.log.length)] })

/-- `byte(dsp.LinearToUlaw(int64(x)))` (`rtp/session.go:105`). -/
def ulawByte (x : Int16) : UInt8 :=
  UInt8.ofNat (Dsp.linearToUlaw (BitVec.ofInt 64 x.toInt)).toNat

/-- `rtp/session.go:95-109`: `Send`. The result is "no error". -/
def Sess.send (w : Writes) (s : Sess) (frame : Frame) : Bool × Sess :=
  if ¬ s.live ∨ ¬ s.peer then (true, s)
  else
    let h := { s.hdr with pt := ulawPT }
    let buf := h.write []
    let h' := { h with ts := h.ts + 160, seq := h.seq + 1 }
    let buf := buf ++ frame.toList.map ulawByte
    { s with hdr := h' }.writeTo w buf

/-- `rtp/session.go:111-121`: `SendRaw`. -/
def Sess.sendRaw (w : Writes) (s : Sess) (pt : UInt8) (data : Bytes) (samps : UInt32) :
    Bool × Sess :=
  if ¬ s.live ∨ ¬ s.peer then (true, s)
  else
    let h := { s.hdr with pt := pt }
    let buf := h.write []
    let h' := { h with ts := h.ts + samps, seq := h.seq + 1 }
    { s with hdr := h' }.writeTo w (buf ++ data)

/-- `rtp/session.go:35-37`: DTMF constants. -/
def dtmfVolume : UInt8 := 6
@[inherit_doc dtmfVolume] def dtmfDuration : UInt16 := 400
@[inherit_doc dtmfVolume] def dtmfInterval : UInt16 := 100

/-- `rtp/session.go:137-150`: the start-packet loop. `none` would mean the fuel ran out; the
loop runs four times, fewer when a write fails, so the fuel of 8 given below is never used up. `some true`: loop left by `break`; `some false`: a write failed. -/
def dtmfStart (w : Writes) (code vol : UInt8) : Nat → UInt16 → Sess → Option Bool × Sess
  | 0, _, s => (none, s)
  | fuel + 1, dur, s =>
    let (ok, s) := s.writeTo w
      (s.hdr.write [] ++ [code, vol, (dur >>> 8).toUInt8, (dur &&& 0xff).toUInt8])
    if ¬ ok then (some false, s)
    else
      let s := { s with hdr := { s.hdr with seq := s.hdr.seq + 1, mark := false } }
      let dur := dur + dtmfInterval
      if dur ≥ dtmfDuration then (some true, s) else dtmfStart w code vol fuel dur s

/-- `rtp/session.go:154-161`: the end-packet loop, `n` packets to go. -/
def dtmfEnd (w : Writes) (ev : Bytes) : Nat → Sess → Bool × Sess
  | 0, s => (true, s)
  | n + 1, s =>
    let (ok, s) := s.writeTo w (s.hdr.write [] ++ ev)
    if ¬ ok then (false, s)
    else dtmfEnd w ev n { s with hdr := { s.hdr with seq := s.hdr.seq + 1 } }

/-- `rtp/session.go:123-163`: `SendDTMF`. -/
def Sess.sendDTMF (w : Writes) (s : Sess) (digit : UInt8) : Bool × Sess :=
  let code := dtmfCodes digit
  if code = 0 ∧ digit ≠ 48 then (false, s)
  else if ¬ s.live ∨ ¬ s.peer then (true, s)
  else
    let s := { s with hdr := { s.hdr with pt := dtmfPT, mark := true } }
    let vol := dtmfVolume &&& 0x3f
    match dtmfStart w code vol 8 1 s with
    | (some true, s) =>
      let vol := vol ||| 0x80
      dtmfEnd w [code, vol, (dtmfDuration >>> 8).toUInt8, (dtmfDuration &&& 0xff).toUInt8] 3 s
    | (_, s) => (false, s)

/-- What an application can do to the sending side of a session. -/
inductive Op where
  | send (frame : Frame)
  | sendRaw (pt : UInt8) (data : Bytes) (samps : UInt32)
  | sendDTMF (digit : UInt8)
  | setPeer (known : Bool)   -- assignment to the exported field `Peer`
  | close                    -- `Close` or `CloseAfterError`: `Sock` becomes nil

/-- One application step. -/
def Op.run (w : Writes) : Op → Sess → Sess
  | .send f, s => (s.send w f).2
  | .sendRaw pt d n, s => (s.sendRaw w pt d n).2
  | .sendDTMF d, s => (s.sendDTMF w d).2
  | .setPeer b, s => { s with peer := b }
  | .close, s => { s with live := false }

/-- A history of application steps. -/
def runOps (w : Writes) (ops : List Op) (s : Sess) : Sess := ops.foldl (fun s o => o.run w s) s

/-! ### Receiver -/

/-- `ReadFrom(buf)`: the packet overwrites the beginning of the 2048-byte buffer (longer datagrams
are truncated by the system call); the rest keeps its old contents. -/
def recvInto (buf pkt : Bytes) : Bytes := pkt.take 2048 ++ buf.drop (pkt.take 2048).length

/-- `int16(dsp.UlawToLinear(int64(b)))` (`rtp/session.go:214`). -/
def ulawSampleOf (b : UInt8) : Int16 :=
  Int16.ofInt (Dsp.ulawToLinear (BitVec.ofNat 64 b.toNat)).toInt

/-- `rtp/session.go:201-216`: processing one packet, `buf` being the buffer before the read:
`none` = dropped (`continue`), `some samples` = sent on the channel. `panic` if an index is out of
range. The hand-back `frame = <-r` is modelled in `Verif.Rtp.Close`. -/
def recvPacket (buf pkt : Bytes) : Res Unit (Option (List Int16)) × Bytes :=
  let amt := (pkt.take 2048).length
  let buf := recvInto buf pkt
  match ({} : Header).read buf with
  | (.ok (), phdr) =>
    if phdr.pt ≠ ulawPT then (.ok none, buf)
    else if amt ≠ headerSize + 160 then (.ok none, buf)
    else
      if headerSize + 160 ≤ buf.length then
        (.ok (some (((buf.drop headerSize).take 160).map ulawSampleOf)), buf)
      else (.panic, buf)
  | (.err _, _) => (.ok none, buf)
  | (.panic, _) => (.panic, buf)

/-- `rtp/session.go:189-217`: the frames delivered for a sequence of packets, in order. -/
def receive : Bytes → List Bytes → Res Unit (List (List Int16))
  | _, [] => .ok []
  | buf, p :: ps =>
    match recvPacket buf p with
    | (.ok none, buf) => receive buf ps
    | (.ok (some f), buf) => (receive buf ps).bind fun fs => .ok (f :: fs)
    | (.err _, _) => .err ()
    | (.panic, _) => .panic

/-- `rtp/session.go:188-219`: `receiver` on the datagrams that arrive at its socket, each with the host and port it came
from. The address is thrown away (`amt, _, err := sock.ReadFrom(buf)`, line 192), and nothing of a packet is remembered when
the next one is looked at, except what remains in the buffer. -/
def receiver (buf : Bytes) (arrived : List ((Bytes × UInt16) × Bytes)) : Res Unit (List (List Int16)) :=
  receive buf (arrived.map fun a => a.2)

/-! ### Listen -/

/-- Outcome of `net.ListenPacket`. -/
inductive Bind where
  | ok
  | inUse       -- an error whose text contains "address already in use"
  | other       -- any other error
  deriving DecidableEq

/-- `rtp/session.go:227-230`: the port tried for the value `r` of `rand.Int63()`. -/
def listenPort (r : Nat) : Nat :=
  let port := 16384 + r % (32768 - 16384 + 1)
  if port % 2 = 1 then port - 1 else port

/-- `rtp/session.go:226-238`: the loop of `Listen` for a host without a port, `n` attempts to go:
the ports tried and the last outcome (`none` before any attempt). -/
def listenLoop (rnd : Nat → Nat) (bind : Nat → Nat → Bind) :
    Nat → Nat → List Nat × Option Bind → List Nat × Option Bind
  | 0, _, acc => acc
  | n + 1, i, (tried, _) =>
    let port := listenPort (rnd i)
    let r := bind i port
    let acc := (tried ++ [port], some r)
    if r = .inUse then listenLoop rnd bind n (i + 1) acc else acc

/-- `rtp/session.go:222-239`: `Listen` for a host without a port; `rnd i` is the i-th random
number, `bind i p` the outcome of the i-th attempt. -/
def listen (rnd : Nat → Nat) (bind : Nat → Nat → Bind) : List Nat × Option Bind :=
  listenLoop rnd bind 10 0 ([], none)

end Gosip.Rtp
