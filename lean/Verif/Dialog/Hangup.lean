import Verif.Spec.Schedule

/-!
# Hanging up

Two goroutines: the dialog, and an application that waits for its news in a `select` statement and asks it to hang up
(`fone/main.go:176-239`). They share three unbuffered channels for news (`OnErr`, `OnState`, `OnPeer`) and one for requests
to hang up, which holds four (`dialog/dialog.go:84-87`). What is said over the channels does not matter here, and neither
does what the dialog does in between, for which `Dialog/Machine.lean` is the model. A send over an unbuffered channel and
the receive that takes it are one step.
-/

namespace Gosip.Dialog

/-- The channels for news: `OnErr`, `OnState` and `OnPeer` (`dialog/dialog.go:84-86`). -/
inductive News where
  | err | state | peer
  deriving DecidableEq, Repr

/-- Where the dialog is. -/
inductive Talker where
  | looping          -- at the `select` of `run` (`dialog/dialog.go:110`), or on its way there
  | news (k : News)  -- at `dls.errChan <- …`, `dls.stateChan <- …` (line 490) or `dls.peerChan <- …` (line 397)
  | gone             -- in `cleanup` (lines 493-499) or after it
  deriving DecidableEq, Repr

/-- Where the application is. -/
inductive Asker where
  | selecting  -- at its `select`, or on its way there
  | hanging    -- at `dl.Hangup <- true` (`fone/main.go:235,237`)
  deriving DecidableEq, Repr

/-- The two goroutines and how many requests to hang up are in the channel. Two counters that the program does not have
tell how often the application wanted to hang up, and how often the dialog took such a request. -/
structure Phone where
  talker : Talker
  asker : Asker
  queued : Nat
  asked : Nat
  taken : Nat
  deriving DecidableEq, Repr

/-- What `make(chan bool, 4)` holds (`dialog/dialog.go:87`). -/
def hangupRoom : Nat := 4

/-- After `NewDialog` (`dialog/dialog.go:83-102`). -/
def Phone.start : Phone := ⟨.looping, .selecting, 0, 0, 0⟩

/-- The steps, with an application that reads those channels for which `reads` is true. Closing of the news channels by
`cleanup` is left out: receiving from a closed channel does not block. -/
inductive PhoneStep (reads : News → Bool) : Phone → Phone → Prop
  -- the dialog handles another event, or a request to hang up; it goes on, has news, or ends (`dialog/dialog.go:109-149`)
  | event (next a q n t) : PhoneStep reads ⟨.looping, a, q, n, t⟩ ⟨next, a, q, n, t⟩
  | serve (next a q n t) : PhoneStep reads ⟨.looping, a, q + 1, n, t⟩ ⟨next, a, q, n, t + 1⟩
  -- the application takes the news (`fone/main.go:214-229`); the dialog goes on, has more news, or ends
  | hear (k next q n t) : reads k = true → PhoneStep reads ⟨.news k, .selecting, q, n, t⟩ ⟨next, .selecting, q, n, t⟩
  -- the application wants to hang up (`fone/main.go:230-237`)
  | ask (d q n t) : PhoneStep reads ⟨d, .selecting, q, n, t⟩ ⟨d, .hanging, q, n + 1, t⟩
  | put (d q n t) : q < hangupRoom → PhoneStep reads ⟨d, .hanging, q, n, t⟩ ⟨d, .selecting, q + 1, n, t⟩

end Gosip.Dialog
