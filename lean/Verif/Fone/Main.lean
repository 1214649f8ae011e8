import Verif.Dialog.Machine
import Verif.Rtp.Session
import Verif.Sdp.New

/-!
# The phone

`fone/main.go`: the loop of the program, as a function of what its `select` statement chooses. PulseAudio, ncurses, flags,
log lines and the web service that tells the public address are not modelled: reading the microphone succeeds or fails,
the speaker plays what it is given. The channel `Hangup` of the dialog has room for four commands
(`dialog/dialog.go:88`); a fifth that the dialog has not taken yet would block the program, which is not modelled.
-/

namespace Gosip.Fone
open Sip Dialog

/-- The INVITE (`fone/main.go:115-134`). `Request` and `To` share the URI, which the dialog only reads. -/
def invite (request : URI) (publicIP user : Bytes) (rtpPort : UInt16) (origin : Bytes) : Msg :=
  { method := b!"INVITE", request := some request, via := [{ host := publicIP }],
    addrs := fun
      | .to => [{ uri := some request }]
      | .from => [{ uri := some { host := publicIP, user := user } }]
      | .contact => [{ uri := some { host := publicIP } }]
      | _ => [],
    payload := some (.sdp
      { addr := publicIP, origin := { id := origin, addr := publicIP },
        audio := some { port := rtpPort, codecs := [Sdp.ulawCodec, Sdp.dtmfCodec] } }),
    hdr := fun
      | .warning => b!"dark lord funk you up"
      | _ => [] }

/-- What the `select` statement (`fone/main.go:177-239`) chooses. -/
inductive Input where
  | tick (frame : Option Rtp.Frame)  -- the ticker; `none` if the microphone fails, a frame read or made of noise otherwise
  | key (ch : UInt8)                 -- from the keyboard
  | audio (frame : Option Rtp.Frame) -- from `rs.C`; `none` (a nil frame) once that is closed
  | peer (ip : Bytes) (port : UInt16) -- from `dl.OnPeer`
  | state (c : CallState)            -- from `dl.OnState`
  | err (e : DErr)                   -- from `dl.OnErr`
  | noPeer                           -- `nil` from `dl.OnPeer`, once that is closed
  | noState                          -- 0 from `dl.OnState`, once that is closed
  | noErr                            -- `nil` from `dl.OnErr`, once that is closed
  | rtpErr                           -- from `rs.E`
  | noRtpErr                         -- `nil` from `rs.E`, once that is closed
  | death                            -- a signal

/-- How the program is doing: `exited` with a status, `crashed` by a panic. -/
inductive Status where
  | running
  | exited (code : Nat)
  | crashed
  deriving DecidableEq, Repr

/-- The program: the variable `answered` (`fone/main.go:174`), how many goroutines read the keyboard, the RTP session with
its peer, how often the dialog was told to hang up, and (ghosts) the frames played and the packets sent, with their
destinations. -/
structure Phone where
  answered : Bool := false
  readers : Nat := 0
  sess : Rtp.Sess
  peer : Option (Bytes × UInt16) := none
  hangups : Nat := 0
  played : List Rtp.Frame := []
  sent : List (Bytes × Option (Bytes × UInt16)) := []
  status : Status := .running

/-- Use the session: the packets that it writes go to the peer. -/
def Phone.using (p : Phone) (s : Rtp.Sess) : Phone :=
  { p with sess := s, sent := p.sent ++ (s.log.drop p.sess.log.length).map fun x => (x.1, p.peer) }

/-- One turn of the loop (`fone/main.go:177-239`). -/
def Phone.step (w : Rtp.Writes) (p : Phone) : Input → Phone
  | .tick none => p
  | .tick (some f) => p.using (p.sess.send w f).2
  | .key ch => p.using (p.sess.sendDTMF w ch).2
  | .audio none => { p with status := .crashed } -- `&frame[0]`, line 208
  | .audio (some f) => { p with played := p.played ++ [f] }
  | .peer ip port => { p with peer := some (ip, port), sess := { p.sess with peer := true } }
  | .state .answered => { p with answered := true, readers := p.readers + 1 }
  | .state .hangup => { p with status := .exited (if p.answered then 0 else 1) }
  | .state _ => p
  | .err _ => { p with status := .exited 1 } -- `log.Fatalf`
  | .noPeer => { p with peer := none, sess := { p.sess with peer := false } }
  | .noState => p
  | .noErr => { p with status := .crashed } -- `err.Error()`, line 231
  | .rtpErr => { p with sess := { p.sess with live := false }, hangups := p.hangups + 1 }
  | .noRtpErr => { p with status := .crashed } -- `err.Error()`, line 233
  | .death => { p with hangups := p.hangups + 1 }

/-- The loop, until the program ends. -/
def Phone.run (w : Rtp.Writes) : List Input → Phone → Phone
  | [], p => p
  | x :: l, p => if p.status = .running then Phone.run w l (p.step w x) else p

/-- The program at line 176, with the session of `rtp.NewSession` (`rtp/session.go:71-94`), whose peer is nil. -/
def phone (w : Rtp.Writes) (ssrc : UInt32) (ins : List Input) : Phone :=
  Phone.run w ins { sess := { hdr := { seq := 666, ts := 0, ssrc := ssrc }, peer := false } }

end Gosip.Fone
