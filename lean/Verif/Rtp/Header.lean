import Verif.Basic

/-!
# RTP header, telephone-event header and DTMF tables (`rtp/rtp.go`, `rtp/dtmf.go`)
-/

namespace Gosip.Rtp

/-- `b[i]`: run-time panic when out of range (Go index expression). -/
def idx {ε : Type} (b : Bytes) (i : Nat) : Res ε UInt8 :=
  match b[i]? with
  | some c => .ok c
  | none => .panic

/-- `rtp/rtp.go:45-49`: the three errors of the package. -/
inductive RtpErr where
  | badVersion
  | truncated
  | extension
  deriving DecidableEq, Repr

/-- `rtp/rtp.go:52-59`: `Header`. -/
structure Header where
  pad : Bool := false
  mark : Bool := false
  pt : UInt8 := 0
  seq : UInt16 := 0
  ts : UInt32 := 0
  ssrc : UInt32 := 0
  deriving DecidableEq, Repr

/-- `rtp/rtp.go:62-109`: `EventHeader`. -/
structure EventHeader where
  event : UInt8 := 0
  e : Bool := false
  r : Bool := false
  volume : UInt8 := 0
  duration : UInt16 := 0
  deriving DecidableEq, Repr

/-- `rtp/rtp.go:22-24`: `HeaderSize`, `Version`. -/
abbrev headerSize : Nat := 12
@[inherit_doc headerSize] def version : UInt8 := 2

/-- `rtp/rtp.go:35-42`: the masks used below. -/
def mask1 : UInt8 := ((1 : UInt8) <<< 1) - 1
@[inherit_doc mask1] def mask2 : UInt8 := ((1 : UInt8) <<< 2) - 1
@[inherit_doc mask1] def mask7 : UInt8 := ((1 : UInt8) <<< 7) - 1

/-- `rtp/rtp.go:112-135`: `(*Header).Write`. -/
def Header.write (h : Header) (b : Bytes) : Bytes :=
  let b0 : UInt8 := (version &&& mask2) <<< 6
  let b0 := if h.pad then b0 ||| ((1 &&& mask1) <<< 5) else b0
  let b1 : UInt8 := (h.pt &&& mask7) <<< 0
  let b1 := if h.mark then b1 ||| ((1 &&& mask1) <<< 7) else b1
  b ++ [b0, b1, (h.seq >>> 8).toUInt8, h.seq.toUInt8,
    (h.ts >>> 24).toUInt8, (h.ts >>> 16).toUInt8, (h.ts >>> 8).toUInt8, h.ts.toUInt8,
    (h.ssrc >>> 24).toUInt8, (h.ssrc >>> 16).toUInt8, (h.ssrc >>> 8).toUInt8, h.ssrc.toUInt8]

/-- `rtp/rtp.go:150,150`: big-endian 16 bits. -/
def u16 (a b : UInt8) : UInt16 := (a.toUInt16 <<< 8) ||| b.toUInt16

/-- `rtp/rtp.go:151,152`: big-endian 32 bits. -/
def u32 (a b c d : UInt8) : UInt32 :=
  (a.toUInt32 <<< 24) ||| (b.toUInt32 <<< 16) ||| (c.toUInt32 <<< 8) ||| d.toUInt32

/-- `rtp/rtp.go:138-154`: `(*Header).Read`. The result is the outcome together with the receiver
after the call; the assignments of lines 147-152 all happen after the last `return` of an error,
so they are modelled as one update (an index panic in between is still an explicit outcome). -/
def Header.read (h : Header) (b : Bytes) : Res RtpErr Unit × Header :=
  if b.length < 12 then (.err .truncated, h)
  else
    match (idx b 0 : Res RtpErr UInt8) with
    | .ok b0 =>
      if b0 >>> 6 ≠ version then (.err .badVersion, h)
      else if (b0 >>> 4) &&& 1 ≠ 0 then (.err .extension, h)
      else
        let fields : Res RtpErr Header := do
          let b1 ← idx b 1
          let b2 ← idx b 2
          let b3 ← idx b 3
          let b4 ← idx b 4
          let b5 ← idx b 5
          let b6 ← idx b 6
          let b7 ← idx b 7
          let b8 ← idx b 8
          let b9 ← idx b 9
          let b10 ← idx b 10
          let b11 ← idx b 11
          pure { pad := (b0 >>> 5) &&& mask1 == 1
                 mark := (b1 >>> 7) &&& mask1 == 1
                 pt := b1 &&& mask7
                 seq := u16 b2 b3
                 ts := u32 b4 b5 b6 b7
                 ssrc := u32 b8 b9 b10 b11 }
        match fields with
        | .ok h' => (.ok (), h')
        | .err e => (.err e, h)
        | .panic => (.panic, h)
    | .err e => (.err e, h)
    | .panic => (.panic, h)

/-- `b[i] = v`: run-time panic when out of range. -/
def setIdx {ε : Type} (b : Bytes) (i : Nat) (v : UInt8) : Res ε Bytes :=
  if i < b.length then .ok (b.set i v) else .panic

/-- `rtp/rtp.go:157-168`: `(*EventHeader).Write`, overwriting the first four bytes. -/
def EventHeader.write (h : EventHeader) (b : Bytes) : Res Unit Bytes := do
  let b ← setIdx b 0 h.event
  let v : UInt8 := h.volume &&& 63
  let v := if h.r then v ||| ((1 : UInt8) <<< 6) else v
  let v := if h.e then v ||| ((1 : UInt8) <<< 7) else v
  let b ← setIdx b 1 v
  let b ← setIdx b 2 (h.duration >>> 8).toUInt8
  setIdx b 3 h.duration.toUInt8

/-- `rtp/rtp.go:171-177`: `(*EventHeader).Read`. -/
def EventHeader.read (b : Bytes) : Res Unit EventHeader := do
  let b0 ← idx b 0
  let b1 ← idx b 1
  let b2 ← idx b 2
  let b3 ← idx b 3
  pure { event := b0
         e := b1 >>> 7 == 1
         r := (b1 >>> 6) &&& 1 == 1
         volume := b1 &&& 63
         duration := u16 b2 b3 }

/-- `rtp/dtmf.go:25-64`: `DtmfToChar`; `none` is the error. -/
def dtmfToChar (event : UInt8) : Option UInt8 :=
  match event with
  | 0 => some 48 | 1 => some 49 | 2 => some 50 | 3 => some 51 | 4 => some 52
  | 5 => some 53 | 6 => some 54 | 7 => some 55 | 8 => some 56 | 9 => some 57
  | 10 => some 42 | 11 => some 35 | 12 => some 65 | 13 => some 66 | 14 => some 67
  | 15 => some 68 | 16 => some 33
  | _ => none

/-- `rtp/dtmf.go:67-107`: `CharToDtmf`; `none` is the error. -/
def charToDtmf (ch : UInt8) : Option UInt8 :=
  match ch with
  | 48 => some 0 | 49 => some 1 | 50 => some 2 | 51 => some 3 | 52 => some 4
  | 53 => some 5 | 54 => some 6 | 55 => some 7 | 56 => some 8 | 57 => some 9
  | 42 => some 10 | 35 => some 11
  | 97 => some 12 | 65 => some 12 | 98 => some 13 | 66 => some 13
  | 99 => some 14 | 67 => some 14 | 100 => some 15 | 68 => some 15
  | 33 => some 16
  | _ => none

/-- `rtp/session.go:41`: `dtmfCodes`, an array of 256 bytes, zero where not given. -/
def dtmfCodes (digit : UInt8) : UInt8 :=
  match digit with
  | 48 => 0 | 49 => 1 | 50 => 2 | 51 => 3 | 52 => 4
  | 53 => 5 | 54 => 6 | 55 => 7 | 56 => 8 | 57 => 9
  | 42 => 10 | 35 => 11
  | 97 => 12 | 65 => 12 | 98 => 13 | 66 => 13
  | 99 => 14 | 67 => 14 | 100 => 15 | 68 => 15
  | 33 => 16
  | _ => 0

end Gosip.Rtp
