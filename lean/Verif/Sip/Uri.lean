import Verif.Sip.Charsets

/-!
# SIP URIs, URI parameters and URI headers: data types, lookup and serialisation

`sip/uri.go`, `sip/uriparam.go`, `sip/uriheader.go`, `sip/param.go`, `sip/xheader.go`.
A Go linked list is a `List` whose head is the node pointed to (the entry added last); `nil` is `[]`.
-/

namespace Gosip.Sip

/-- Nodes of a linked list of name/value pairs: `URIParam` (`sip/uriparam.go:25-29`), `URIHeader`
(`sip/uriheader.go:25-29`), `Param` (`sip/param.go:25-29`), `XHeader` (`sip/xheader.go:25-29`). -/
abbrev Pairs := List (Bytes × Bytes)

/-- ASCII lower case of one byte. -/
def lowerByte (c : UInt8) : UInt8 := if 65 ≤ c && c ≤ 90 then c + 32 else c

/-- `strings.EqualFold`. Simplification: bytes above 127 are compared as they are, whereas Go folds
the Unicode characters they encode (the names this is applied to are ASCII when they come from the
parser). -/
def equalFold (a b : Bytes) : Bool := a.map lowerByte == b.map lowerByte

/-- `URIParam.Get` (`sip/uriparam.go:32-40`), `URIHeader.Get` (`sip/uriheader.go:32-40`),
`Param.Get` (`sip/param.go:32-40`) and `XHeader.Get` (`sip/xheader.go:32-40`); the result is the
list starting with the node found (a node pointer gives access to the rest of the list). -/
def Pairs.get (name : Bytes) : Pairs → Option Pairs
  | [] => none
  | p :: l => if equalFold p.1 name then some (p :: l) else Pairs.get name l

/-- `URI` (`sip/uri.go:47-55`). -/
structure URI where
  scheme : Bytes := []
  user : Bytes := []
  pass : Bytes := []
  host : Bytes := []
  port : UInt16 := 0
  param : Pairs := []
  header : Pairs := []
  deriving DecidableEq, Repr

/-- `URIParam.Append` (`sip/uriparam.go:43-54`). -/
def uriParamText : Pairs → Bytes
  | [] => []
  | (n, v) :: l =>
    uriParamText l ++ b!";" ++ escaped paramc n ++ (if v ≠ [] then b!"=" ++ escaped paramc v else [])

/-- `URIHeader.Append` (`sip/uriheader.go:43-58`); it escapes with `paramc`, not `headerc`. -/
def uriHeaderText : Pairs → Bytes
  | [] => []
  | (n, v) :: l =>
    (if l ≠ [] then uriHeaderText l ++ b!"&" else b!"?") ++
      escaped paramc n ++ (if v ≠ [] then b!"=" ++ escaped paramc v else [])

/-- `util.IsIPv6` (`util/util.go:40-42`): contains a colon. -/
def isIPv6 (h : Bytes) : Bool := h.contains 58

/-- `util.Portstr` (`util/util.go:109-111`): `strconv.FormatInt(int64(port), 10)`. -/
def portstr (p : UInt16) : Bytes := natDec p.toNat

/-- Host part of `URI.Append` (`sip/uri.go:99-105`). -/
def hostText (h : Bytes) : Bytes := if isIPv6 h then b!"[" ++ h ++ b!"]" else h

/-- User part of `URI.Append` (`sip/uri.go:89-98`). -/
def userText (u : URI) : Bytes :=
  if u.user ≠ [] then
    (if u.pass ≠ [] then escaped userc u.user ++ b!":" ++ escaped passc u.pass
     else escaped userc u.user) ++ b!"@"
  else []

/-- `URI.Append` / `URI.String` (`sip/uri.go:73-112`): the bytes written. -/
def URI.text (u : URI) : Bytes :=
  (if u.scheme = [] then b!"sip:" else u.scheme ++ b!":") ++ userText u ++ hostText u.host ++
    (if u.port > 0 then b!":" ++ portstr u.port else []) ++ uriParamText u.param ++
    uriHeaderText u.header

/-- `URI.GetPort` (`sip/uri.go:123-133`). -/
def URI.getPort (u : URI) : UInt16 :=
  if u.port = 0 then (if u.scheme = b!"sips" then 5061 else 5060) else u.port

/-- `URI.CompareHostPort` (`sip/uri.go:114-121`) on pointers. -/
def compareHostPort : Option URI → Option URI → Bool
  | some a, some b => a.host = b.host && a.getPort = b.getPort
  | _, _ => false

/-- `Param.Append` (`sip/param.go:43-54`). -/
def paramText : Pairs → Bytes
  | [] => []
  | (n, v) :: l =>
    paramText l ++ b!";" ++ sanitized tokenc n ++ (if v ≠ [] then b!"=" ++ quoted v else [])

/-- `XHeader.Append` / `XHeader.String` (`sip/xheader.go:43-59`). -/
def xheaderText : Pairs → Bytes
  | [] => []
  | (n, v) :: l => xheaderText l ++ sanitized tokenc n ++ b!": " ++ v ++ b!"\r\n"

end Gosip.Sip
