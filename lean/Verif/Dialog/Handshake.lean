import Verif.Spec.Schedule

/-!
# Closing the socket of a dialog

Two goroutines share a socket and two unbuffered channels: the dialog and the goroutine that receives for it. The
contents of messages and errors do not matter here. A send and the receive that takes it are one step.

A socket stands for both sockets of a dialog: `cleanupSock` and `cleanupCSock` (`dialog/dialog.go:501-517`) are the same
code, run one after the other.
-/

namespace Gosip.Dialog

/-- Where `ReceiveMessages` (`dialog/receiver.go:26-57`) is. -/
inductive Recv where
  | reading                  -- in `ReadFromUDP`, line 32
  | parsing (deliver : Bool) -- lines 37-52, with a packet that will be dropped, or delivered
  | offering                 -- at `c <- msg`, line 53
  | failing                  -- at `e <- err`, line 34
  | leaving                  -- at `close(c)`, line 55
  | leaving2                 -- at `close(e)`, line 56
  | ended
  deriving DecidableEq, Repr

/-- Where the dialog is, as far as this socket is concerned. -/
inductive Owner where
  | looping    -- in the loop of `run` (`dialog/dialog.go:109-149`): the socket is in use
  | dropped    -- an error was received from the socket, which was closed and set to nil (`dialog/dialog.go:111-113`)
  | takingMsg  -- in `cleanupSock`, after closing the socket, at `<-dls.sockMsgs` (`dialog/dialog.go:505`)
  | takingErr  -- at `<-dls.sockErrs` (`dialog/dialog.go:506`)
  | returned   -- `cleanupSock` has returned
  deriving DecidableEq, Repr

/-- The two goroutines, and whether the socket is open and the channels are closed. -/
structure Pair where
  recv : Recv
  owner : Owner
  isOpen : Bool
  msgsClosed : Bool
  errsClosed : Bool
  deriving DecidableEq, Repr

/-- After `go ReceiveMessages(…)` (`dialog/dialog.go:207,223`). -/
def Pair.start : Pair := ⟨.reading, .looping, true, false, false⟩

/-- The steps. Reading from a closed socket fails; from an open one, a packet arrives or reading fails. -/
inductive PairStep : Pair → Pair → Prop
  -- the receiver (`dialog/receiver.go:31-56`)
  | packet (o m e b) : PairStep ⟨.reading, o, true, m, e⟩ ⟨.parsing b, o, true, m, e⟩
  | error (o i m e) : PairStep ⟨.reading, o, i, m, e⟩ ⟨.failing, o, i, m, e⟩
  | drop (o i m e) : PairStep ⟨.parsing false, o, i, m, e⟩ ⟨.reading, o, i, m, e⟩
  | parsed (o i m e) : PairStep ⟨.parsing true, o, i, m, e⟩ ⟨.offering, o, i, m, e⟩
  | closeMsgs (o i m e) : PairStep ⟨.leaving, o, i, m, e⟩ ⟨.leaving2, o, i, true, e⟩
  | closeErrs (o i m e) : PairStep ⟨.leaving2, o, i, m, e⟩ ⟨.ended, o, i, m, true⟩
  -- the loop of the dialog (`dialog/dialog.go:110-149`)
  | takeMsg (i m e) : PairStep ⟨.offering, .looping, i, m, e⟩ ⟨.reading, .looping, i, m, e⟩
  | takeErr (i m e) : PairStep ⟨.failing, .looping, i, m, e⟩ ⟨.leaving, .dropped, false, m, e⟩
  -- `cleanupSock` (`dialog/dialog.go:501-508`)
  | close (r i m e) : PairStep ⟨r, .looping, i, m, e⟩ ⟨r, .takingMsg, false, m, e⟩
  | lastMsg (i m e) : PairStep ⟨.offering, .takingMsg, i, m, e⟩ ⟨.reading, .takingErr, i, m, e⟩
  | noMsg (r i e) : PairStep ⟨r, .takingMsg, i, true, e⟩ ⟨r, .takingErr, i, true, e⟩
  | lastErr (i m e) : PairStep ⟨.failing, .takingErr, i, m, e⟩ ⟨.leaving, .returned, i, m, e⟩
  | noErr (r i m) : PairStep ⟨r, .takingErr, i, m, true⟩ ⟨r, .returned, i, m, true⟩

end Gosip.Dialog
