import Verif.Spec.Schedule

/-!
# Closing an RTP session

Two goroutines share a socket and three unbuffered channels: the application, which takes a frame from `C`, gives it back
on `R`, and takes the error from `E`; and the receiver. Audio does not matter here. A send and the receive that takes it are
one step.
-/

namespace Gosip.Rtp

/-- Where `receiver` (`rtp/session.go:188-220`) is. -/
inductive Recv where
  | reading                  -- in `ReadFrom`, line 192
  | parsing (deliver : Bool) -- lines 200-215, with a packet that will be dropped, or delivered
  | offering                 -- at `c <- frame`, line 216
  | awaiting                 -- at `frame = <-r`, line 217
  | stopping                 -- at `close(c)`, line 194
  | failing                  -- at `e <- err`, line 195
  | leaving                  -- at `close(e)`, line 219
  | ended
  deriving DecidableEq, Repr

/-- What the application is doing. -/
inductive App where
  | idle       -- it holds no frame, and has not received an error
  | holding    -- it has taken a frame and not given it back
  | failed     -- it holds no frame, and has received the error
  -- in `Close` (`rtp/session.go:165-176`), after `Sock.Close()`:
  | takingC    -- at `<-rs.C`, line 170
  | returning  -- at `rs.R <- frame`, line 171
  | takingE    -- at `<-rs.E`, line 173
  | closingR   -- at `close(rs.R)`, line 175
  -- in `CloseAfterError` (`rtp/session.go:178-186`), after `Sock.Close()`:
  | closingR2  -- at `close(rs.R)`, line 184
  | takingE2   -- at `<-rs.E`, line 185
  | returned   -- `Close` or `CloseAfterError` has returned
  deriving DecidableEq, Repr

/-- The two goroutines, and whether the socket is open and the channels are closed. -/
structure Pair where
  recv : Recv
  app : App
  isOpen : Bool := true
  cClosed : Bool := false
  eClosed : Bool := false
  rClosed : Bool := false
  deriving DecidableEq, Repr

/-- After `NewSession` (`rtp/session.go:71-94`). -/
def Pair.start : Pair := ⟨.reading, .idle, true, false, false, false⟩

/-- The steps. Reading from a closed socket fails; from an open one, a packet arrives or reading fails. -/
inductive PairStep : Pair → Pair → Prop
  -- the receiver (`rtp/session.go:191-219`)
  | packet (a c e r b) : PairStep ⟨.reading, a, true, c, e, r⟩ ⟨.parsing b, a, true, c, e, r⟩
  | error (a i c e r) : PairStep ⟨.reading, a, i, c, e, r⟩ ⟨.stopping, a, i, c, e, r⟩
  | drop (a i c e r) : PairStep ⟨.parsing false, a, i, c, e, r⟩ ⟨.reading, a, i, c, e, r⟩
  | parsed (a i c e r) : PairStep ⟨.parsing true, a, i, c, e, r⟩ ⟨.offering, a, i, c, e, r⟩
  | closeC (a i c e r) : PairStep ⟨.stopping, a, i, c, e, r⟩ ⟨.failing, a, i, true, e, r⟩
  | closeE (a i c e r) : PairStep ⟨.leaving, a, i, c, e, r⟩ ⟨.ended, a, i, c, true, r⟩
  | noFrame (a i c e) : PairStep ⟨.awaiting, a, i, c, e, true⟩ ⟨.reading, a, i, c, e, true⟩
  -- the application uses the session
  | take (i c e r) : PairStep ⟨.offering, .idle, i, c, e, r⟩ ⟨.awaiting, .holding, i, c, e, r⟩
  | give (i c e r) : PairStep ⟨.awaiting, .holding, i, c, e, r⟩ ⟨.reading, .idle, i, c, e, r⟩
  | fail (i c e r) : PairStep ⟨.failing, .idle, i, c, e, r⟩ ⟨.leaving, .failed, i, c, e, r⟩
  -- `Close`
  | lastFrame (i c e r) : PairStep ⟨.offering, .takingC, i, c, e, r⟩ ⟨.awaiting, .returning, i, c, e, r⟩
  | noC (p i e r) : PairStep ⟨p, .takingC, i, true, e, r⟩ ⟨p, .takingE, i, true, e, r⟩
  | giveLast (i c e r) : PairStep ⟨.awaiting, .returning, i, c, e, r⟩ ⟨.reading, .takingE, i, c, e, r⟩
  | lastErr (i c e r) : PairStep ⟨.failing, .takingE, i, c, e, r⟩ ⟨.leaving, .closingR, i, c, e, r⟩
  | noE (p i c r) : PairStep ⟨p, .takingE, i, c, true, r⟩ ⟨p, .closingR, i, c, true, r⟩
  | closeR (p i c e r) : PairStep ⟨p, .closingR, i, c, e, r⟩ ⟨p, .returned, i, c, e, true⟩
  -- `CloseAfterError`
  | closeR2 (p i c e r) : PairStep ⟨p, .closingR2, i, c, e, r⟩ ⟨p, .takingE2, i, c, e, true⟩
  | lastErr2 (i c e r) : PairStep ⟨.failing, .takingE2, i, c, e, r⟩ ⟨.leaving, .returned, i, c, e, r⟩
  | noE2 (p i c r) : PairStep ⟨p, .takingE2, i, c, true, r⟩ ⟨p, .returned, i, c, true, r⟩

/-- `Close` is called: `rs.Sock.Close()` (`rtp/session.go:169`). -/
def Pair.close (s : Pair) : Pair := { s with app := .takingC, isOpen := false }

/-- `CloseAfterError` is called: `rs.Sock.Close()` (`rtp/session.go:182`). -/
def Pair.closeAfterError (s : Pair) : Pair := { s with app := .closingR2, isOpen := false }

end Gosip.Rtp
