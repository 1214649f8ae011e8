import Verif.Basic

/-!
# Model of `sip/charsets.go`, `sip/util.go`, `sip/escape.go`, `sip/quote.go`
-/

namespace Gosip.Sip

/-- `[2]uint64` mask (`sip/charsets.go:19-26`). -/
structure Mask where
  w0 : UInt64
  w1 : UInt64
  deriving DecidableEq, Repr

/-- Zero value of the package level masks (`sip/charsets.go:19-26`). -/
def Mask.zero : Mask := ⟨0, 0⟩

/-- `charsetContains` (`sip/charsets.go:87-89`).
`mask[i/64]` is the first word for `i < 64` and the second for `64 ≤ i < 128`. -/
def charsetContains (m : Mask) (i : UInt8) : Bool :=
  i < 128 &&
    ((if i / 64 = 0 then m.w0 else m.w1) &&& ((1 : UInt64) <<< (i % 64).toUInt64)) != 0

/-- One step of the loop in `charsetAdd` (`sip/charsets.go:91-95`).
Every call in the code passes `i < 128`; a larger `i` would panic in Go and is left as a no-op. -/
def charsetAdd1 (m : Mask) (i : UInt8) : Mask :=
  if i / 64 = 0 then { m with w0 := m.w0 ||| ((1 : UInt64) <<< (i % 64).toUInt64) }
  else if i / 64 = 1 then { m with w1 := m.w1 ||| ((1 : UInt64) <<< (i % 64).toUInt64) }
  else m

/-- `charsetAdd` (`sip/charsets.go:91-95`). -/
def charsetAdd (m : Mask) (vi : List UInt8) : Mask := vi.foldl charsetAdd1 m

/-- `charsetAddRange` (`sip/charsets.go:97-101`); every call in the code has `b < 255`, so the
Go loop terminates. -/
def charsetAddRange (m : Mask) (a b : UInt8) : Mask :=
  charsetAdd m ((List.range (b.toNat + 1 - a.toNat)).map fun k => UInt8.ofNat (a.toNat + k))

/-- `charsetAddMark` (`sip/charsets.go:103-105`). -/
def charsetAddMark (m : Mask) : Mask := charsetAdd m b!"-_.!~*'()"

/-- `charsetAddAlphaNumeric` (`sip/charsets.go:107-111`). -/
def charsetAddAlphaNumeric (m : Mask) : Mask :=
  charsetAddRange (charsetAddRange (charsetAddRange m 97 122) 65 90) 48 57

/-- `tokencMask` after `init` (`sip/charsets.go:63-64`). -/
def tokencMask : Mask := charsetAdd (charsetAddAlphaNumeric Mask.zero) b!"-.!%*_+`'~"

/-- `qdtextcMask` after `init` (`sip/charsets.go:66-68`). -/
def qdtextcMask : Mask :=
  charsetAdd (charsetAddRange (charsetAddRange Mask.zero 0x23 0x5B) 0x5D 0x7E) b!"\r\n\t !"

/-- `usercMask` after `init` (`sip/charsets.go:70-72`). -/
def usercMask : Mask := charsetAdd (charsetAddMark (charsetAddAlphaNumeric Mask.zero)) b!"&=+$,;?/"

/-- `passcMask` after `init` (`sip/charsets.go:74-76`). -/
def passcMask : Mask := charsetAdd (charsetAddMark (charsetAddAlphaNumeric Mask.zero)) b!"&=+$,"

/-- `paramcMask` after `init` (`sip/charsets.go:78-80`). -/
def paramcMask : Mask := charsetAdd (charsetAddMark (charsetAddAlphaNumeric Mask.zero)) b!"[]/:&+$"

/-- `headercMask` after `init` (`sip/charsets.go:82-84`). -/
def headercMask : Mask := charsetAdd (charsetAddMark (charsetAddAlphaNumeric Mask.zero)) b!"[]/?:+$"

/-- `tokenc` (`sip/charsets.go:28-30`). -/
def tokenc (c : UInt8) : Bool := charsetContains tokencMask c
/-- `qdtextc` (`sip/charsets.go:32-34`). -/
def qdtextc (c : UInt8) : Bool := charsetContains qdtextcMask c
/-- `userc` (`sip/charsets.go:36-38`). -/
def userc (c : UInt8) : Bool := charsetContains usercMask c
/-- `passc` (`sip/charsets.go:40-42`). -/
def passc (c : UInt8) : Bool := charsetContains passcMask c
/-- `paramc` (`sip/charsets.go:44-46`). -/
def paramc (c : UInt8) : Bool := charsetContains paramcMask c
/-- `headerc` (`sip/charsets.go:48-50`); not used by any other function of the package. -/
def headerc (c : UInt8) : Bool := charsetContains headercMask c

/-- `qdtextesc` (`sip/charsets.go:52-56`). -/
def qdtextesc (c : UInt8) : Bool :=
  (0x00 ≤ c && c ≤ 0x09) || (0x0B ≤ c && c ≤ 0x0C) || (0x0E ≤ c && c ≤ 0x7F)

/-- `whitespacec` (`sip/charsets.go:58-60`). -/
def whitespacec (c : UInt8) : Bool := c == 32 || c == 9 || c == 13 || c == 10

/-- `unhex` (`sip/util.go:17-27`). -/
def unhex (b : UInt8) : UInt8 :=
  if 48 ≤ b && b ≤ 57 then b - 48
  else if 97 ≤ b && b ≤ 102 then b - 97 + 10
  else if 65 ≤ b && b ≤ 70 then b - 65 + 10
  else 0

/-- `hexChars[i]` (`sip/escape.go:21-23`); the callers pass `i < 16`. -/
def hexChar (i : UInt8) : UInt8 := b!"0123456789abcdef".getD i.toNat 0

/-- `appendEscaped` (`sip/escape.go:26-37`): the bytes written to the buffer. -/
def escaped (p : UInt8 → Bool) : Bytes → Bytes
  | [] => []
  | c :: s =>
    if p c then c :: escaped p s
    else 37 :: hexChar (c >>> 4) :: hexChar (c % 16) :: escaped p s

/-- `appendSanitized` (`sip/quote.go:22-28`): the bytes written to the buffer. -/
def sanitized (p : UInt8 → Bool) (s : Bytes) : Bytes := s.filter p

/-- The look-ahead at `i+1`, `i+2` in `appendQuoteQuoted` (`sip/quote.go:52-53`), on the bytes
after position `i`: LF followed by space or tab. -/
def foldAhead : Bytes → Bool
  | c :: w :: _ => c == 10 && (w == 32 || w == 9)
  | _ => false

/-- Loop of `appendQuoteQuoted` (`sip/quote.go:49-64`). The two `break`s leave the `for` loop
(Go's `break` refers to the innermost `for`), that is, they truncate. -/
def quoteLoop : Bytes → Bytes
  | [] => []
  | c :: s =>
    if qdtextc c then
      if c = 13 ∧ foldAhead s = false then [] else c :: quoteLoop s
    else if !qdtextesc c then []
    else 92 :: c :: quoteLoop s

/-- `appendQuoteQuoted` (`sip/quote.go:47-66`): the bytes written to the buffer. -/
def quoteQuoted (s : Bytes) : Bytes := 34 :: (quoteLoop s ++ [34])

/-- `appendQuoted` (`sip/quote.go:34-42`): the bytes written to the buffer. -/
def quoted (s : Bytes) : Bytes :=
  if s.any (fun c => !tokenc c && c != 32) then quoteQuoted s else s

end Gosip.Sip
