import Verif.Sip.MsgSafe

/-!
# The message machine without positions

An equivalent presentation of `ParseMsg` (`Verif.Sip.MsgParse`) for reasoning: instead of the position
`p`, the mark and the scratch buffer it has the input that is left, the bytes since the mark and the bytes
in the buffer; and instead of assigning to the message it emits the assignments. What it does therefore
depends on the input that is left only. `parse_stream` is the equivalence.
-/

namespace Gosip.Sip.MsgM

/-- Local variables: `seg` is `data[mark:p]`, `buf` is `buf[0:amt]`. -/
structure Loc where
  seg : Bytes := []
  buf : Bytes := []
  name : Bytes := []
  hex : UInt8 := 0
  value : Option SField := none
  via : Option Via := none
  addrp : Option AField := none
  addr : Option Addr := none
  deriving DecidableEq

/-- Assignments to the message, to `clen` and to `ctype`; those with a byte append a decimal digit. -/
inductive Upd where
  | method (s : Bytes) | versionMajor (c : UInt8) | versionMinor (c : UInt8) | request (u : URI)
  | status (c : UInt8) | phrase (s : Bytes) | via (v : Via) | hdr (f : SField) (s : Bytes)
  | xheader (n s : Bytes) | addr (f : AField) (a : Addr) | callID (s : Bytes) | clen (c : UInt8)
  | ctype (s : Bytes) | cseq (c : UInt8) | cseqMethod (s : Bytes) | expires (c : UInt8)
  | maxForwards (c : UInt8) | minExpires (c : UInt8) | clen0 | expires0 | maxForwards0 | minExpires0
  deriving DecidableEq

/-- The message being built and the two variables used after the loop. -/
structure Core where
  msg : Msg := {}
  clen : Int := 0
  ctype : Bytes := []
  deriving DecidableEq

/-- Effect of an assignment. -/
def Upd.app (x : Core) : Upd → Core
  | .method s => { x with msg.method := s }
  | .versionMajor c => { x with msg.versionMajor := x.msg.versionMajor * 10 + (c - 48) }
  | .versionMinor c => { x with msg.versionMinor := x.msg.versionMinor * 10 + (c - 48) }
  | .request u => { x with msg.request := some u }
  | .status c => { x with msg.status := dec64 x.msg.status c }
  | .phrase s => { x with msg.phrase := s }
  | .via v => { x with msg.via := x.msg.via ++ [v] }
  | .hdr f s => { x with msg.hdr := setAt x.msg.hdr f s }
  | .xheader n s => { x with msg.xheader := (n, s) :: x.msg.xheader }
  | .addr f a => { x with msg.addrs := setAt x.msg.addrs f (x.msg.addrs f ++ [a]) }
  | .callID s => { x with msg.callID := s }
  | .clen c => { x with clen := dec64 x.clen c }
  | .ctype s => { x with ctype := s }
  | .cseq c => { x with msg.cseq := dec64 x.msg.cseq c }
  | .cseqMethod s => { x with msg.cseqMethod := s }
  | .expires c => { x with msg.expires := dec64 x.msg.expires c }
  | .maxForwards c => { x with msg.maxForwards := dec64 x.msg.maxForwards c }
  | .minExpires c => { x with msg.minExpires := dec64 x.msg.minExpires c }
  | .clen0 => { x with clen := 0 }
  | .expires0 => { x with msg.expires := 0 }
  | .maxForwards0 => { x with msg.maxForwards := 0 }
  | .minExpires0 => { x with msg.minExpires := 0 }

/-- Effect of several assignments. -/
def apps (x : Core) (us : List Upd) : Core := us.foldl Upd.app x

theorem apps_nil (x : Core) : apps x [] = x := rfl
theorem apps_append (x : Core) (a b : List Upd) : apps x (a ++ b) = apps (apps x a) b := by
  simp [apps, List.foldl_append]
theorem apps_cons (x : Core) (a : Upd) (b : List Upd) : apps x (a :: b) = apps (a.app x) b := rfl

/-- Text without the blanks at its end. -/
def trimR (s : Bytes) : Bytes := (s.reverse.dropWhile whitespacec).reverse

/-- One action at the byte `c`; `none` if it fails. -/
def sact (a : MAct) (c : UInt8) (l : Loc) : Option (Loc × List Upd) :=
  match a with
  | .hold => some (l, [])
  | .backtrack => some (l, [])
  | .mark => some ({ l with seg := [] }, [])
  | .start => some ({ l with buf := [] }, [])
  | .append => some ({ l with buf := l.buf ++ [c] }, [])
  | .hexHi => some ({ l with hex := unhex c * 16 }, [])
  | .hexLo => some ({ l with hex := l.hex + unhex c, buf := l.buf ++ [l.hex + unhex c] }, [])
  | .method => some (l, [.method l.seg])
  | .versionMajor => some (l, [.versionMajor c])
  | .versionMinor => some (l, [.versionMinor c])
  | .requestURI => (uriOf l.seg).map fun u => (l, [.request u])
  | .statusCode => some (l, [.status c])
  | .reasonPhrase => some (l, [.phrase l.buf])
  | .viaNew => some ({ l with via := some {} }, [])
  | .via => l.via.map fun v => ({ l with via := none }, [.via v])
  | .viaProtocol => l.via.map fun v => ({ l with via := some { v with protocol := l.seg } }, [])
  | .viaVersion => l.via.map fun v => ({ l with via := some { v with version := l.seg } }, [])
  | .viaTransport => l.via.map fun v => ({ l with via := some { v with transport := l.seg } }, [])
  | .viaHost => l.via.map fun v => ({ l with via := some { v with host := l.seg } }, [])
  | .viaPort => l.via.map fun v =>
      ({ l with via := some { v with port := v.port * 10 + (c.toUInt16 - 48) } }, [])
  | .viaParam => l.via.map fun v =>
      ({ l with via := some { v with param := (l.name, l.buf) :: v.param } }, [])
  | .name => some ({ l with name := l.seg }, [])
  | .value =>
    match l.value with
    | some f => some (l, [.hdr f l.seg.dropLast])
    | none => some (l, [.xheader l.name l.seg.dropLast])
  | .addrNew => some ({ l with addr := some {} }, [])
  | .addrQuotedDisplay => l.addr.map fun a => ({ l with addr := some { a with display := l.buf } }, [])
  | .addrUnquotedDisplay =>
      l.addr.map fun a => ({ l with addr := some { a with display := trimR l.seg } }, [])
  | .addrUri => (uriOf l.seg).bind fun u =>
      l.addr.map fun a => ({ l with addr := some { a with uri := some u } }, [])
  | .addrParam => l.addr.map fun a =>
      ({ l with addr := some { a with param := (l.name, l.buf) :: a.param } }, [])
  | .addr => l.addrp.bind fun f => l.addr.map fun a => ({ l with addr := none }, [.addr f a])
  | .callID => some (l, [.callID l.seg])
  | .contentLength => some (l, [.clen c])
  | .contentType => some (l, [.ctype l.seg])
  | .cseq => some (l, [.cseq c])
  | .cseqMethod => some (l, [.cseqMethod l.seg])
  | .expires => some (l, [.expires c])
  | .maxForwards => some (l, [.maxForwards c])
  | .minExpires => some (l, [.minExpires c])
  | .clen0 => some (l, [.clen0])
  | .expires0 => some (l, [.expires0])
  | .maxForwards0 => some (l, [.maxForwards0])
  | .minExpires0 => some (l, [.minExpires0])
  | .valueNil => some ({ l with value := none }, [])
  | .lastAddr f => some ({ l with addrp := some f }, [])
  | .setValue f => some ({ l with value := some f }, [])

/-- The actions of a transition. -/
def sacts : List MAct → UInt8 → Loc → Option (Loc × List Upd)
  | [], _, l => some (l, [])
  | a :: as, c, l =>
    (sact a c l).bind fun y => (sacts as c y.1).map fun z => (z.1, y.2 ++ z.2)

/-- Where a transition continues: at the next byte, at the same byte, at the mark. -/
inductive Move where
  | adv | stay | back
  deriving DecidableEq

/-- The move made by the actions of a transition. -/
def moveOf (as : List MAct) : Move :=
  bif as.any (fun a => decide (a = .backtrack)) then .back
  else bif as.any (fun a => decide (a = .hold)) then .stay else .adv

/-- `lookAheadWSP`. -/
def lookWSP : Bytes → Bool
  | _ :: _ :: w :: _ => w == 32 || w == 9
  | _ => false

/-- The symbol a state reads, see `symbol`. -/
def ssymbol (k : Nat) (inp : Bytes) (c : UInt8) : Nat :=
  bif wide k && c == 13 then (bif lookWSP inp then 525 else 269) else c.toNat

/-- A configuration: state, variables, input that is left. -/
structure Conf where
  k : Nat
  l : Loc
  inp : Bytes
  deriving DecidableEq

/-- Continue after a transition. -/
def proceed (m : Move) (k : Nat) (l : Loc) (inp tl : Bytes) (c : UInt8) : Conf :=
  match m with
  | .adv => ⟨k, { l with seg := l.seg ++ [c] }, tl⟩
  | .stay => ⟨k, l, inp⟩
  | .back => ⟨k, { l with seg := [] }, l.seg ++ inp⟩

/-- The row a configuration takes. -/
def rowOf (k : Nat) (inp : Bytes) : Option (UInt8 × Bytes × Row) :=
  match inp with
  | [] => none
  | c :: tl => (lookup (rows k) (ssymbol k inp c)).map fun r => (c, tl, r)

/-- One pass; `none` if the machine stops here. The final state is 781. -/
def sstep (s : Conf) : Option (Conf × List Upd) :=
  (rowOf s.k s.inp).bind fun x =>
    (sacts x.2.2.acts x.1 s.l).map fun y =>
      (proceed (moveOf x.2.2.acts) x.2.2.tgt y.1 s.inp x.2.1 x.1, y.2)

/-- Several passes, with what is emitted. -/
inductive SRun : Conf → List Upd → Conf → Prop
  | refl (s : Conf) : SRun s [] s
  | step {s t u : Conf} {a b : List Upd} : sstep s = some (t, a) → SRun t b u → SRun s (a ++ b) u

theorem SRun.one {s t : Conf} {a : List Upd} (h : sstep s = some (t, a)) : SRun s a t := by
  simpa using SRun.step h (.refl t)

theorem SRun.trans {s t u : Conf} {a b : List Upd} (h : SRun s a t) (g : SRun t b u) :
    SRun s (a ++ b) u := by
  induction h with
  | refl => simpa using g
  | step h1 _ ih => rw [List.append_assoc]; exact .step h1 (ih g)

theorem SRun.snoc {s t u : Conf} {a b : List Upd} (h : SRun s a t) (g : sstep t = some (u, b)) :
    SRun s (a ++ b) u := h.trans (.one g)

/-! ### Simulation -/

/-- The variables correspond. -/
structure Rel (d : Bytes) (x : Ctx) (l : Loc) : Prop where
  mark : x.mark ≤ x.p
  pos : x.p ≤ d.length
  seg : l.seg = seg d x.mark x.p
  amt : x.amt ≤ x.buf.length
  buf : l.buf = x.buf.take x.amt
  name : l.name = x.name
  hex : l.hex = x.hex
  value : l.value = x.value
  via : l.via = x.via
  addrp : l.addrp = x.addrp
  addr : l.addr = x.addr

/-- The message part of the state. -/
def coreOf (x : Ctx) : Core := ⟨x.msg, x.clen, x.ctype⟩

/-- Actions that move the position. -/
def isMove : MAct → Bool
  | .hold | .backtrack => true
  | _ => false

theorem seg_self (d : Bytes) (a : Nat) : seg d a a = [] := by
  simp [seg]

theorem seg_dropLast {d : Bytes} {a b : Nat} (h : b ≤ d.length) :
    (seg d a b).dropLast = seg d a (b - 1) := by
  unfold seg
  rw [List.dropLast_eq_take, List.length_drop, List.length_take, List.drop_take, List.drop_take,
    List.take_take]
  congr 1; omega

theorem seg_snoc {d : Bytes} {a b : Nat} {c : UInt8} (h : a ≤ b) (hc : d[b]? = some c) :
    seg d a (b + 1) = seg d a b ++ [c] := by
  unfold seg
  have hb : b < d.length := by rw [List.getElem?_eq_some_iff] at hc; exact hc.1
  rw [List.take_add_one, hc, List.drop_append_of_le_length]
  · rfl
  · rw [List.length_take]; omega

theorem take_set_snoc {b : Bytes} {n : Nat} {c : UInt8} (h : n < b.length) :
    (b.set n c).take (n + 1) = b.take n ++ [c] := by
  rw [List.take_add_one, List.getElem?_set_self h, List.take_set_of_le (Nat.le_refl _)]
  rfl

theorem trimR_snoc_ws {s : Bytes} {c : UInt8} (h : whitespacec c = true) : trimR (s ++ [c]) = trimR s := by
  simp [trimR, h]

theorem trimR_snoc {s : Bytes} {c : UInt8} (h : whitespacec c = false) : trimR (s ++ [c]) = s ++ [c] := by
  simp [trimR, h]

theorem seg_trimTo {d : Bytes} {mark n : Nat} (h : n ≤ d.length) (hm : mark ≤ n) :
    seg d mark (trimTo d mark n) = trimR (seg d mark n) := by
  induction n with
  | zero => simp [trimTo, seg, trimR]
  | succ n ih =>
    unfold trimTo
    by_cases hlt : mark < n + 1
    · rw [if_pos hlt]
      have hn : n < d.length := by omega
      have hg : d[n]? = some (d[n]'hn) := List.getElem?_eq_getElem hn
      have hD : d.getD n 0 = d[n]'hn := by simp [List.getD, hg]
      rw [seg_snoc (by omega) hg]
      cases hw : whitespacec (d.getD n 0) with
      | true =>
        rw [if_pos rfl, ih (by omega) (by omega), trimR_snoc_ws (by rw [← hD]; exact hw)]
      | false =>
        rw [if_neg (by simp), seg_snoc (by omega) hg, trimR_snoc (by rw [← hD]; exact hw)]
    · rw [if_neg hlt]
      obtain rfl : mark = n + 1 := by omega
      rw [seg_self]; rfl

theorem exec_sim {d : Bytes} {a : MAct} {x y : Ctx} {l : Loc} {c : UInt8} (hr : Rel d x l)
    (hc : d[x.p]? = some c) (hm : isMove a = false) (h : exec d a x = .ok y) :
    ∃ l' us, sact a c l = some (l', us) ∧ Rel d y l' ∧ y.p = x.p ∧ coreOf y = apps (coreOf x) us := by
  obtain ⟨h1, h2, h3, h4, h5, h6, h7, h8, h9, h10, h11⟩ := hr
  have hcur : ∀ e, cur d x.p = .ok e → e = c := by
    intro e he; unfold cur at he; rw [hc] at he; cases he; rfl
  cases a <;> simp only [exec, Res.bind_eq] at h
  case hold | backtrack => cases hm
  case append | hexLo =>
    obtain ⟨e, he, h⟩ := Res.bind_ok_iff.1 h
    obtain rfl := hcur e he
    obtain ⟨rfl, hlt⟩ := push_eq_ok h
    exact ⟨_, _, rfl, ⟨h1, h2, h3, by simp only [List.length_set]; exact hlt,
      by simp only [h5, h7]; exact (take_set_snoc hlt).symm, h6, by simp [h7], h8, h9, h10, h11⟩, rfl, rfl⟩
  case hexHi | versionMajor | versionMinor | statusCode | contentLength | cseq | expires | maxForwards
      | minExpires =>
    obtain ⟨e, he, h⟩ := Res.bind_ok_iff.1 h
    obtain rfl := hcur e he
    cases h
    exact ⟨_, _, rfl, ⟨h1, h2, h3, h4, h5, h6, by first | exact h7 | rfl, h8, h9, h10, h11⟩, rfl, rfl⟩
  case method | callID | contentType | cseqMethod =>
    obtain ⟨s, hs, h⟩ := Res.bind_ok_iff.1 h
    obtain ⟨rfl, _⟩ := slice_eq_ok hs
    cases h
    exact ⟨_, _, rfl, ⟨h1, h2, h3, h4, h5, h6, h7, h8, h9, h10, h11⟩, rfl, by rw [h3]; rfl⟩
  case reasonPhrase =>
    obtain ⟨s, hs, h⟩ := Res.bind_ok_iff.1 h
    obtain ⟨rfl, _⟩ := slice_eq_ok hs
    cases h
    exact ⟨_, _, rfl, ⟨h1, h2, h3, h4, h5, h6, h7, h8, h9, h10, h11⟩, rfl, by rw [h5]; rfl⟩
  case name =>
    obtain ⟨s, hs, h⟩ := Res.bind_ok_iff.1 h
    obtain ⟨rfl, _⟩ := slice_eq_ok hs
    cases h
    exact ⟨_, _, rfl, ⟨h1, h2, h3, h4, h5, h3, h7, h8, h9, h10, h11⟩, rfl, rfl⟩
  case requestURI =>
    obtain ⟨s, hs, h⟩ := Res.bind_ok_iff.1 h
    obtain ⟨rfl, _⟩ := slice_eq_ok hs
    obtain ⟨u, hu, h⟩ := Res.bind_ok_iff.1 h
    have hu := callParseURI_eq_ok hu
    cases h
    exact ⟨l, [.request u], by rw [sact, h3, hu]; rfl, ⟨h1, h2, h3, h4, h5, h6, h7, h8, h9, h10, h11⟩, rfl,
      rfl⟩
  case via =>
    obtain ⟨v, hv, h⟩ := Res.bind_ok_iff.1 h
    have hv := deref_eq_ok hv
    cases h
    exact ⟨{ l with via := none }, [.via v], by rw [sact, h9, hv]; rfl,
      ⟨h1, h2, h3, h4, h5, h6, h7, h8, rfl, h10, h11⟩, rfl, rfl⟩
  case viaProtocol =>
    obtain ⟨s, hs, h⟩ := Res.bind_ok_iff.1 h
    obtain ⟨rfl, _⟩ := slice_eq_ok hs
    obtain ⟨v, hv, h⟩ := Res.bind_ok_iff.1 h
    have hv := deref_eq_ok hv
    cases h
    exact ⟨{ l with via := some { v with protocol := l.seg } }, [], by rw [sact, h9, hv]; rfl,
      ⟨h1, h2, h3, h4, h5, h6, h7, h8, by rw [h3], h10, h11⟩, rfl, rfl⟩
  case viaVersion =>
    obtain ⟨s, hs, h⟩ := Res.bind_ok_iff.1 h
    obtain ⟨rfl, _⟩ := slice_eq_ok hs
    obtain ⟨v, hv, h⟩ := Res.bind_ok_iff.1 h
    have hv := deref_eq_ok hv
    cases h
    exact ⟨{ l with via := some { v with version := l.seg } }, [], by rw [sact, h9, hv]; rfl,
      ⟨h1, h2, h3, h4, h5, h6, h7, h8, by rw [h3], h10, h11⟩, rfl, rfl⟩
  case viaTransport =>
    obtain ⟨s, hs, h⟩ := Res.bind_ok_iff.1 h
    obtain ⟨rfl, _⟩ := slice_eq_ok hs
    obtain ⟨v, hv, h⟩ := Res.bind_ok_iff.1 h
    have hv := deref_eq_ok hv
    cases h
    exact ⟨{ l with via := some { v with transport := l.seg } }, [], by rw [sact, h9, hv]; rfl,
      ⟨h1, h2, h3, h4, h5, h6, h7, h8, by rw [h3], h10, h11⟩, rfl, rfl⟩
  case viaHost =>
    obtain ⟨s, hs, h⟩ := Res.bind_ok_iff.1 h
    obtain ⟨rfl, _⟩ := slice_eq_ok hs
    obtain ⟨v, hv, h⟩ := Res.bind_ok_iff.1 h
    have hv := deref_eq_ok hv
    cases h
    exact ⟨{ l with via := some { v with host := l.seg } }, [], by rw [sact, h9, hv]; rfl,
      ⟨h1, h2, h3, h4, h5, h6, h7, h8, by rw [h3], h10, h11⟩, rfl, rfl⟩
  case viaParam =>
    obtain ⟨s, hs, h⟩ := Res.bind_ok_iff.1 h
    obtain ⟨rfl, _⟩ := slice_eq_ok hs
    obtain ⟨v, hv, h⟩ := Res.bind_ok_iff.1 h
    have hv := deref_eq_ok hv
    cases h
    exact ⟨{ l with via := some { v with param := (l.name, l.buf) :: v.param } }, [],
      by rw [sact, h9, hv]; rfl,
      ⟨h1, h2, h3, h4, h5, h6, h7, h8, by rw [h5, h6]; rfl, h10, h11⟩, rfl, rfl⟩
  case viaPort =>
    obtain ⟨e, he, h⟩ := Res.bind_ok_iff.1 h
    obtain rfl := hcur e he
    obtain ⟨v, hv, h⟩ := Res.bind_ok_iff.1 h
    have hv := deref_eq_ok hv
    cases h
    exact ⟨{ l with via := some { v with port := v.port * 10 + (e.toUInt16 - 48) } }, [],
      by rw [sact, h9, hv]; rfl, ⟨h1, h2, h3, h4, h5, h6, h7, h8, rfl, h10, h11⟩, rfl, rfl⟩
  case value =>
    split at h
    · cases h
    · obtain ⟨s, hs, h⟩ := Res.bind_ok_iff.1 h
      obtain ⟨rfl, _⟩ := slice_eq_ok hs
      cases hv : x.value with
      | some f =>
        rw [hv] at h; cases h
        exact ⟨l, [.hdr f l.seg.dropLast], by rw [sact, h8, hv],
          ⟨h1, h2, h3, h4, h5, h6, h7, h8.trans hv ▸ by simp [h8], h9, h10, h11⟩, rfl,
          by rw [h3, seg_dropLast h2]; rfl⟩
      | none =>
        rw [hv] at h; cases h
        exact ⟨l, [.xheader l.name l.seg.dropLast], by rw [sact, h8, hv],
          ⟨h1, h2, h3, h4, h5, h6, h7, h8.trans hv ▸ by simp [h8], h9, h10, h11⟩, rfl,
          by rw [h3, h6, seg_dropLast h2]; rfl⟩
  case addrQuotedDisplay =>
    obtain ⟨s, hs, h⟩ := Res.bind_ok_iff.1 h
    obtain ⟨rfl, _⟩ := slice_eq_ok hs
    obtain ⟨v, hv, h⟩ := Res.bind_ok_iff.1 h
    have hv := deref_eq_ok hv
    cases h
    exact ⟨{ l with addr := some { v with display := l.buf } }, [], by rw [sact, h11, hv]; rfl,
      ⟨h1, h2, h3, h4, h5, h6, h7, h8, h9, h10, by rw [h5]; rfl⟩, rfl, rfl⟩
  case addrParam =>
    obtain ⟨s, hs, h⟩ := Res.bind_ok_iff.1 h
    obtain ⟨rfl, _⟩ := slice_eq_ok hs
    obtain ⟨v, hv, h⟩ := Res.bind_ok_iff.1 h
    have hv := deref_eq_ok hv
    cases h
    exact ⟨{ l with addr := some { v with param := (l.name, l.buf) :: v.param } }, [],
      by rw [sact, h11, hv]; rfl,
      ⟨h1, h2, h3, h4, h5, h6, h7, h8, h9, h10, by rw [h5, h6]; rfl⟩, rfl, rfl⟩
  case addrUnquotedDisplay =>
    obtain ⟨e, he, h⟩ := Res.bind_ok_iff.1 h
    obtain rfl := trimEnd_eq_ok he
    obtain ⟨s, hs, h⟩ := Res.bind_ok_iff.1 h
    obtain ⟨rfl, _⟩ := slice_eq_ok hs
    obtain ⟨v, hv, h⟩ := Res.bind_ok_iff.1 h
    have hv := deref_eq_ok hv
    cases h
    exact ⟨{ l with addr := some { v with display := trimR l.seg } }, [], by rw [sact, h11, hv]; rfl,
      ⟨h1, h2, h3, h4, h5, h6, h7, h8, h9, h10, by rw [h3, seg_trimTo h2 h1]⟩, rfl, rfl⟩
  case addrUri =>
    obtain ⟨s, hs, h⟩ := Res.bind_ok_iff.1 h
    obtain ⟨rfl, _⟩ := slice_eq_ok hs
    obtain ⟨u, hu, h⟩ := Res.bind_ok_iff.1 h
    have hu := callParseURI_eq_ok hu
    obtain ⟨v, hv, h⟩ := Res.bind_ok_iff.1 h
    have hv := deref_eq_ok hv
    cases h
    exact ⟨{ l with addr := some { v with uri := some u } }, [], by rw [sact, h3, hu, h11, hv]; rfl,
      ⟨h1, h2, h3, h4, h5, h6, h7, h8, h9, h10, rfl⟩, rfl, rfl⟩
  case addr =>
    obtain ⟨f, hf, h⟩ := Res.bind_ok_iff.1 h
    obtain ⟨v, hv, h⟩ := Res.bind_ok_iff.1 h
    have hf := deref_eq_ok hf
    have hv := deref_eq_ok hv
    cases h
    exact ⟨{ l with addr := none }, [.addr f v], by rw [sact, h10, hf, h11, hv]; rfl,
      ⟨h1, h2, h3, h4, h5, h6, h7, h8, h9, h10, rfl⟩, rfl, rfl⟩
  case mark =>
    cases h
    exact ⟨{ l with seg := [] }, [], rfl,
      ⟨Nat.le_refl _, h2, (seg_self _ _).symm, h4, h5, h6, h7, h8, h9, h10, h11⟩, rfl, rfl⟩
  case start =>
    cases h
    exact ⟨{ l with buf := [] }, [], rfl, ⟨h1, h2, h3, Nat.zero_le _, by simp, h6, h7, h8, h9, h10, h11⟩, rfl, rfl⟩
  all_goals
    cases h
    first
    | exact ⟨_, _, rfl, ⟨h1, h2, h3, h4, h5, h6, h7, h8, h9, h10, h11⟩, rfl, rfl⟩
    | exact ⟨_, _, rfl, ⟨h1, h2, h3, h4, h5, h6, h7, rfl, h9, h10, h11⟩, rfl, rfl⟩
    | exact ⟨_, _, rfl, ⟨h1, h2, h3, h4, h5, h6, h7, h8, rfl, h10, h11⟩, rfl, rfl⟩
    | exact ⟨_, _, rfl, ⟨h1, h2, h3, h4, h5, h6, h7, h8, h9, rfl, h11⟩, rfl, rfl⟩
    | exact ⟨_, _, rfl, ⟨h1, h2, h3, h4, h5, h6, h7, h8, h9, h10, rfl⟩, rfl, rfl⟩

/-- An action that returns an error fails here too. -/
theorem exec_sim_err {d : Bytes} {a : MAct} {x : Ctx} {l : Loc} {c : UInt8} {e : MErr} (hr : Rel d x l)
    (h : exec d a x = .err e) : sact a c l = none := by
  have huri : ∀ s e, callParseURI s = .err e → uriOf s = none := by
    intro s e h; unfold callParseURI at h; unfold uriOf; cases hp : parseURI s <;> simp_all
  have hsl : ∀ a b e, slice d a b ≠ .err e := by intro a b e h; unfold slice at h; split at h <;> cases h
  have hslb : ∀ a b e, slice x.buf a b ≠ .err e := by
    intro a b e h; unfold slice at h; split at h <;> cases h
  have hcur : ∀ p e, cur d p ≠ .err e := by intro p e h; unfold cur at h; split at h <;> cases h
  have hder : ∀ {α : Type} (o : Option α) e, deref o ≠ .err e := by intro α o e h; cases o <;> cases h
  have hpush : ∀ (x : Ctx) c e, x.push c ≠ .err e := by
    intro x c e h; unfold Ctx.push at h; split at h <;> cases h
  have htrim : ∀ m n e, trimEnd d m n ≠ .err e := by
    intro m n e h
    induction n with
    | zero => cases h
    | succ n ih =>
      unfold trimEnd at h
      split at h
      · cases hcu : cur d n with
        | ok c => simp only [hcu, Res.bind_eq, Res.bind] at h; split at h; exact ih h; cases h
        | err e => exact hcur _ _ hcu
        | panic => simp [hcu] at h
      · cases h
  have bindErr : ∀ {α β : Type} (r : Res MErr α) (f : α → Res MErr β) e, r.bind f = .err e →
      r = .err e ∨ ∃ a, r = .ok a ∧ f a = .err e := by
    intro α β r f e h; cases r with
    | ok a => exact .inr ⟨a, rfl, h⟩
    | err e' => left; simpa using h
    | panic => cases h
  cases a <;> simp only [exec, Res.bind_eq] at h
  case requestURI =>
    rcases bindErr _ _ _ h with h | ⟨s, hs, h⟩
    · exact absurd h (hsl _ _ _)
    rcases bindErr _ _ _ h with h | ⟨u, _, h⟩
    · obtain ⟨rfl, _⟩ := slice_eq_ok hs
      rw [sact, hr.seg, huri _ _ h]; rfl
    · cases h
  case addrUri =>
    rcases bindErr _ _ _ h with h | ⟨s, hs, h⟩
    · exact absurd h (hsl _ _ _)
    rcases bindErr _ _ _ h with h | ⟨u, _, h⟩
    · obtain ⟨rfl, _⟩ := slice_eq_ok hs
      rw [sact, hr.seg, huri _ _ h]; rfl
    · rcases bindErr _ _ _ h with h | ⟨_, _, h⟩
      · exact absurd h (hder _ _)
      · cases h
  case value =>
    split at h
    · cases h
    · rcases bindErr _ _ _ h with h | ⟨s, hs, h⟩
      · exact absurd h (hsl _ _ _)
      · split at h <;> cases h
  case append =>
    rcases bindErr _ _ _ h with h | ⟨s, hs, h⟩
    · exact absurd h (hcur _ _)
    · exact absurd h (hpush _ _ _)
  case hexLo =>
    rcases bindErr _ _ _ h with h | ⟨s, hs, h⟩
    · exact absurd h (hcur _ _)
    · exact absurd h (hpush _ _ _)
  case hold | backtrack => split at h <;> cases h
  case addrUnquotedDisplay =>
    rcases bindErr _ _ _ h with h | ⟨s, hs, h⟩
    · exact absurd h (htrim _ _ _)
    rcases bindErr _ _ _ h with h | ⟨s, hs, h⟩
    · exact absurd h (hsl _ _ _)
    rcases bindErr _ _ _ h with h | ⟨s, hs, h⟩
    · exact absurd h (hder _ _)
    · cases h
  case hexHi | versionMajor | versionMinor | statusCode | contentLength | cseq | expires | maxForwards
      | minExpires =>
    rcases bindErr _ _ _ h with h | ⟨s, hs, h⟩
    · exact absurd h (hcur _ _)
    · cases h
  case method | callID | contentType | cseqMethod | name =>
    rcases bindErr _ _ _ h with h | ⟨s, hs, h⟩
    · exact absurd h (hsl _ _ _)
    · cases h
  case reasonPhrase =>
    rcases bindErr _ _ _ h with h | ⟨s, hs, h⟩
    · exact absurd h (hslb _ _ _)
    · cases h
  case via =>
    rcases bindErr _ _ _ h with h | ⟨s, hs, h⟩
    · exact absurd h (hder _ _)
    · cases h
  case addr =>
    rcases bindErr _ _ _ h with h | ⟨s, hs, h⟩
    · exact absurd h (hder _ _)
    rcases bindErr _ _ _ h with h | ⟨s, hs, h⟩
    · exact absurd h (hder _ _)
    · cases h
  case viaPort =>
    rcases bindErr _ _ _ h with h | ⟨s, hs, h⟩
    · exact absurd h (hcur _ _)
    rcases bindErr _ _ _ h with h | ⟨s, hs, h⟩
    · exact absurd h (hder _ _)
    · cases h
  case viaProtocol | viaVersion | viaTransport | viaHost =>
    rcases bindErr _ _ _ h with h | ⟨s, hs, h⟩
    · exact absurd h (hsl _ _ _)
    rcases bindErr _ _ _ h with h | ⟨s, hs, h⟩
    · exact absurd h (hder _ _)
    · cases h
  case viaParam | addrQuotedDisplay | addrParam =>
    rcases bindErr _ _ _ h with h | ⟨s, hs, h⟩
    · exact absurd h (hslb _ _ _)
    rcases bindErr _ _ _ h with h | ⟨s, hs, h⟩
    · exact absurd h (hder _ _)
    · cases h
  all_goals cases h

/-- Moves come last, up to an action that does not read the position. -/
def okMoves : List MAct → Bool
  | [] => true
  | [.hold] => true
  | [.hold, .start] => true
  | [.backtrack] => true
  | a :: l => !isMove a && okMoves l

/-- True of every row; and the last row of a message moves on. -/
theorem moves_check : ∀ k, k < 765 → ∀ r ∈ rows k, okMoves r.acts = true := by decide +kernel

theorem moveOf_cons {a : MAct} (l : List MAct) (h : isMove a = false) : moveOf (a :: l) = moveOf l := by
  cases a <;> first | rfl | cases h

theorem execs_sim {d : Bytes} {c : UInt8} {acts : List MAct} {x : Ctx} {l : Loc} (k : Nat)
    (ho : okMoves acts = true) (hr : Rel d x l) (hc : d[x.p]? = some c) :
    match execs d acts x with
    | .ok y => ∃ l' us, sacts acts c l = some (l', us) ∧
        Rel d { y with p := y.p + 1 }
          (proceed (moveOf acts) k l' (d.drop x.p) (d.drop (x.p + 1)) c).l ∧
        (proceed (moveOf acts) k l' (d.drop x.p) (d.drop (x.p + 1)) c).inp = d.drop (y.p + 1) ∧
        coreOf y = apps (coreOf x) us
    | .err _ => sacts acts c l = none
    | .panic => True := by
  induction acts generalizing x l with
  | nil =>
    have hlt : x.p < d.length := (List.getElem?_eq_some_iff.1 hc).1
    obtain ⟨h1, h2, h3, h4, h5, h6, h7, h8, h9, h10, h11⟩ := hr
    refine ⟨l, [], rfl, ⟨?_, hlt, ?_, h4, h5, h6, h7, h8, h9, h10, h11⟩, rfl, rfl⟩
    · exact Nat.le_succ_of_le h1
    · show l.seg ++ [c] = _
      rw [h3]; exact (seg_snoc h1 hc).symm
  | cons a acts ih =>
    by_cases hm : isMove a = true
    · obtain ⟨h1, h2, h3, h4, h5, h6, h7, h8, h9, h10, h11⟩ := hr
      have hhold : a = .hold ∨ a = .backtrack := by
        cases a <;> first | exact .inl rfl | exact .inr rfl | cases hm
      rcases hhold with rfl | rfl
      · by_cases hp : x.p = 0
        · simp [execs, exec, hp]
        · have hpp : x.p - 1 + 1 = x.p := by omega
          match acts, ho with
          | [], _ =>
            simp only [execs, exec, if_neg hp, Res.bind_eq, Res.bind]
            refine ⟨l, [], rfl, ?_, ?_, rfl⟩
            · exact ⟨by simp only [hpp]; exact h1, by simp only [hpp]; exact h2,
                by simp only [hpp]; exact h3, h4, h5, h6, h7, h8, h9, h10, h11⟩
            · show d.drop x.p = _; rw [hpp]
          | [.start], _ =>
            simp only [execs, exec, if_neg hp, Res.bind_eq, Res.bind]
            refine ⟨{ l with buf := [] }, [], rfl, ?_, ?_, rfl⟩
            · exact ⟨by simp only [hpp]; exact h1, by simp only [hpp]; exact h2,
                by simp only [hpp]; exact h3, Nat.zero_le _, by simp [proceed, moveOf], h6, h7, h8, h9, h10,
                h11⟩
            · show d.drop x.p = _; rw [hpp]
      · by_cases hp : x.mark = 0
        · simp [execs, exec, hp]
        · have hpp : x.mark - 1 + 1 = x.mark := by omega
          match acts, ho with
          | [], _ =>
            simp only [execs, exec, if_neg hp, Res.bind_eq, Res.bind]
            refine ⟨l, [], rfl, ?_, ?_, rfl⟩
            · exact ⟨by simp only [hpp]; exact Nat.le_refl _,
                by simp only [hpp]; omega, by simp only [hpp]; rw [seg_self]; rfl, h4, h5, h6, h7, h8, h9,
                h10, h11⟩
            · show l.seg ++ d.drop x.p = _
              rw [hpp, h3]
              unfold seg
              conv => rhs; rw [← List.take_append_drop x.p d]
              rw [List.drop_append_of_le_length (by rw [List.length_take]; omega)]
    · have hm : isMove a = false := by simpa using hm
      have ho' : okMoves acts = true := by
        revert ho
        cases a <;> simp_all [okMoves, isMove]
      have hx := fun y => exec_sim (a := a) (y := y) hr hc hm
      have he := fun e => exec_sim_err (a := a) (c := c) (e := e) hr
      simp only [execs, Res.bind_eq]
      cases hex : exec d a x with
      | panic => simp
      | err e => show sacts _ c l = none; rw [sacts, he e hex]; rfl
      | ok y =>
        obtain ⟨l1, us, g1, g2, g3, g4⟩ := hx y hex
        have ih := ih (x := y) (l := l1) ho' g2 (by rw [g3]; exact hc)
        simp only [Res.ok_bind, moveOf_cons acts hm, sacts, g1, Option.bind_some]
        cases hes : execs d acts y with
        | panic => trivial
        | err e => rw [hes] at ih; simp only [] at ih ⊢; rw [ih]; rfl
        | ok z =>
          rw [hes] at ih
          obtain ⟨l2, us2, i1, i2, i3, i4⟩ := ih
          refine ⟨l2, us ++ us2, by rw [i1]; rfl, ?_, ?_, ?_⟩
          · rw [← g3]; exact i2
          · rw [← g3]; exact i3
          · rw [i4, g4, apps_append]

theorem ssymbol_eq {d : Bytes} {k p : Nat} {c : UInt8} : ssymbol k (d.drop p) c = symbol d k p c := by
  unfold ssymbol symbol
  have : lookWSP (d.drop p) = lookAheadWSP d p := by
    unfold lookAheadWSP
    have h2 : d[p + 2]? = (d.drop p)[2]? := by rw [List.getElem?_drop]
    rw [h2]
    match d.drop p with
    | [] => rfl
    | [_] => rfl
    | [_, _] => rfl
    | _ :: _ :: w :: _ => rfl
  rw [this]

theorem drop_eq_cons {d : Bytes} {p : Nat} {c : UInt8} (h : d[p]? = some c) :
    d.drop p = c :: d.drop (p + 1) := by
  obtain ⟨h1, rfl⟩ := List.getElem?_eq_some_iff.1 h
  exact List.drop_eq_getElem_cons h1

/-- One pass of the two machines. -/
theorem step_sim {d : Bytes} {k : Nat} {x : Ctx} {l : Loc} (h : Inv d k x) (hr : Rel d x l) :
    match step d k x with
    | .cont k' x' => k' ≠ 781 ∧ ∃ l' us, sstep ⟨k, l, d.drop x.p⟩ = some (⟨k', l', d.drop x'.p⟩, us) ∧
        Rel d x' l' ∧ coreOf x' = apps (coreOf x) us
    | .brk x' => ∃ l' us, sstep ⟨k, l, d.drop x.p⟩ = some (⟨781, l', d.drop x'.p⟩, us) ∧
        Rel d x' l' ∧ coreOf x' = apps (coreOf x) us
    | .stop _ => sstep ⟨k, l, d.drop x.p⟩ = none
    | .panic => False := by
  have hg := step_good h
  rcases step_cases (d := d) (k := k) (x := x) with ⟨hp, h1⟩ | ⟨c, hc, hl, h1⟩ | ⟨c, r, hc, hl, h1⟩
  · rw [h1, List.drop_eq_nil_of_le hp]; rfl
  · rw [h1, drop_eq_cons hc]
    simp only [sstep, rowOf]
    rw [← drop_eq_cons hc, ssymbol_eq, hl]; rfl
  · have hs := execs_sim r.tgt (moves_check k h.state r (lookup_mem hl).1) hr hc
    have hrow : rowOf k (d.drop x.p) = some (c, d.drop (x.p + 1), r) := by
      rw [drop_eq_cons hc, rowOf, ← drop_eq_cons hc, ssymbol_eq, hl]; rfl
    rw [h1] at hg ⊢
    simp only [sstep, hrow, Option.bind_some]
    cases he : execs d r.acts x with
    | panic => rw [he] at hg; exact hg
    | err e => rw [he] at hs; simp only [after]; rw [hs]; rfl
    | ok y =>
      rw [he] at hs
      obtain ⟨l', us, i1, i2, i3, i4⟩ := hs
      have hk : (proceed (moveOf r.acts) r.tgt l' (d.drop x.p) (d.drop (x.p + 1)) c).k = r.tgt := by
        cases moveOf r.acts <;> rfl
      rw [i1]
      simp only [after, Option.map_some, Option.some.injEq]
      generalize proceed (moveOf r.acts) r.tgt l' (d.drop x.p) (d.drop (x.p + 1)) c = q at i2 i3 hk ⊢
      obtain ⟨qk, ql, qi⟩ := q
      simp only [] at hk i3 i2
      by_cases ht : r.tgt = 781
      · rw [if_pos ht]
        exact ⟨ql, us, by rw [i3, hk, ht], i2, i4⟩
      · rw [if_neg ht]
        exact ⟨ht, ql, us, by rw [i3, hk], i2, i4⟩

/-- Initial variables. -/
def Loc.init : Loc := {}

theorem rel_init (d : Bytes) : Rel d (initCtx d) Loc.init :=
  ⟨Nat.le_refl _, Nat.zero_le _, (seg_self _ _).symm, Nat.zero_le _, by simp [Loc.init, initCtx], rfl, rfl,
    rfl, rfl, rfl, rfl⟩

theorem sstep_781 (l : Loc) (inp : Bytes) : sstep ⟨781, l, inp⟩ = none := by
  cases inp with
  | nil => rfl
  | cons c t =>
    simp only [sstep, rowOf]
    rw [show rows 781 = [] by decide]
    rfl

/-- The machines run alike. -/
theorem run_sim {d : Bytes} {n k : Nat} {x : Ctx} {l : Loc} (h : Inv d k x) (hr : Rel d x l) :
    match run d n k x with
    | .done y => y.p ≤ d.length ∧ ∃ l' us, SRun ⟨k, l, d.drop x.p⟩ us ⟨781, l', d.drop y.p⟩ ∧
        coreOf y = apps (coreOf x) us
    | .stop _ => ∀ us l' b, ¬ SRun ⟨k, l, d.drop x.p⟩ us ⟨781, l', b⟩
    | .panic => False
    | .outOfFuel => True := by
  induction n generalizing k x l with
  | zero => simp [run]
  | succ n ih =>
    have hs := step_sim h hr
    have hg := step_good h
    have hk : k ≠ 781 := by have := h.state; omega
    unfold run
    cases hst : step d k x with
    | panic => rw [hst] at hs; exact hs
    | stop e =>
      rw [hst] at hs
      intro us l' b hrun
      cases hrun with
      | refl => exact hk rfl
      | step h1 _ => rw [hs] at h1; cases h1
    | brk y =>
      rw [hst] at hs
      obtain ⟨l', us, i1, i2, i3⟩ := hs
      exact ⟨i2.pos, l', us, .one i1, i3⟩
    | cont k' x' =>
      rw [hst] at hs hg
      obtain ⟨_, l', us, i1, i2, i3⟩ := hs
      have ih := ih (k := k') hg i2
      simp only []
      cases hrn : run d n k' x' with
      | panic => rw [hrn] at ih; exact ih
      | outOfFuel => trivial
      | stop e =>
        rw [hrn] at ih
        intro us' l'' b hrun
        cases hrun with
        | refl => exact hk rfl
        | step h1 h2 =>
          rw [i1] at h1; cases h1
          exact ih _ _ _ h2
      | done y =>
        rw [hrn] at ih
        obtain ⟨j0, l'', us', j1, j2⟩ := ih
        exact ⟨j0, l'', us ++ us', .step i1 j1, by rw [j2, i3, apps_append]⟩

/-! ### The equivalence -/

/-- The code after the loop, on the body. -/
def sfinish (x : Core) (body : Bytes) : Res MErr Msg :=
  if x.clen > 0 then
    if x.clen ≠ (body.length : Int) then .err (.contentLength x.clen body.length)
    else
      if x.ctype = b!"application/sdp" then
        match Sdp.parse body with
        | .ok ms => .ok { x.msg with payload := some (.sdp ms) }
        | .err e => .err (.sdp e)
        | .panic => .panic
      else .ok { x.msg with payload := some (.misc x.ctype body) }
  else .ok x.msg

theorem finish_eq {d : Bytes} {y : Ctx} (h : y.p ≤ d.length) : finish d y = sfinish (coreOf y) (d.drop y.p) := by
  unfold finish sfinish
  have h1 : ((d.length - y.p : Nat) : Int) = (d.length : Int) - y.p := by omega
  rw [slice_ok h (Nat.le_refl _), List.take_length]
  simp only [coreOf, Res.bind_eq, Res.ok_bind, List.length_drop, h1]
  rfl

/-- The input up to the body is accepted, with these assignments and this body. -/
def Accepts (d : Bytes) (us : List Upd) (body : Bytes) : Prop :=
  ∃ l, SRun ⟨1, Loc.init, d⟩ us ⟨781, l, body⟩

theorem SRun.det {s : Conf} {a b : List Upd} {l l' : Loc} {x y : Bytes} (h : SRun s a ⟨781, l, x⟩)
    (g : SRun s b ⟨781, l', y⟩) : a = b ∧ l = l' ∧ x = y := by
  generalize ht : (⟨781, l, x⟩ : Conf) = t at h
  induction h generalizing b with
  | refl s =>
    subst ht
    cases g with
    | refl => simp
    | step h1 _ => rw [sstep_781] at h1; cases h1
  | step h1 _ ih =>
    cases g with
    | refl => rw [sstep_781] at h1; cases h1
    | step g1 g2 =>
      rw [h1] at g1; cases g1
      obtain ⟨rfl, h⟩ := ih g2 ht
      exact ⟨rfl, h⟩

theorem Accepts.det {d : Bytes} {us vs : List Upd} {a b : Bytes} (h : Accepts d us a) (g : Accepts d vs b) :
    us = vs ∧ a = b := by
  obtain ⟨l, h⟩ := h
  obtain ⟨l', g⟩ := g
  obtain ⟨h1, _, h2⟩ := h.det g
  exact ⟨h1, h2⟩

/-- `ParseMsg` accepts exactly what the machine without positions accepts, with the same result. -/
theorem parse_stream (d : Bytes) (m : Msg) : parseMsg d = .ok m ↔
    ∃ us body, Accepts d us body ∧ sfinish (apps {} us) body = .ok m := by
  have h1 := run_ends (inv_init d) (measure_le (d := d))
  have h2 := run_sim (n := fuel d) (inv_init d) (rel_init d)
  have hd : d.drop (initCtx d).p = d := rfl
  rw [hd] at h2
  unfold parseMsg parseWith
  cases hr : run d (fuel d) 1 (initCtx d) with
  | outOfFuel => exact absurd hr h1
  | panic => rw [hr] at h2; exact absurd h2 id
  | stop e =>
    rw [hr] at h2
    constructor
    · intro h; cases h
    · rintro ⟨us, body, ⟨l, hs⟩, _⟩
      exact absurd hs (h2 us l body)
  | done y =>
    rw [hr] at h2
    obtain ⟨hp, l, us, hs, hc⟩ := h2
    have hc : coreOf y = apps {} us := hc
    simp only [Option.getD_some, finish_eq hp, hc]
    constructor
    · intro h; exact ⟨us, _, ⟨l, hs⟩, h⟩
    · rintro ⟨vs, body, ha, h⟩
      obtain ⟨rfl, rfl⟩ := ha.det ⟨l, hs⟩
      exact h

/-- The errors: nothing accepted, or a failure after the loop. -/
theorem parse_stream_err (d : Bytes) : (∃ e, parseMsg d = .err e) ↔
    (∀ us body, ¬ Accepts d us body) ∨
    ∃ us body e, Accepts d us body ∧ sfinish (apps {} us) body = .err e := by
  have h1 := run_ends (inv_init d) (measure_le (d := d))
  have h2 := run_sim (n := fuel d) (inv_init d) (rel_init d)
  have hd : d.drop (initCtx d).p = d := rfl
  rw [hd] at h2
  unfold parseMsg parseWith
  cases hr : run d (fuel d) 1 (initCtx d) with
  | outOfFuel => exact absurd hr h1
  | panic => rw [hr] at h2; exact absurd h2 id
  | stop e =>
    rw [hr] at h2
    exact ⟨fun _ => .inl fun us body ⟨l, hs⟩ => h2 us l body hs, fun _ => ⟨e, rfl⟩⟩
  | done y =>
    rw [hr] at h2
    obtain ⟨hp, l, us, hs, hc⟩ := h2
    have hc : coreOf y = apps {} us := hc
    simp only [Option.getD_some, finish_eq hp, hc]
    constructor
    · rintro ⟨e, h⟩; exact .inr ⟨us, _, e, ⟨l, hs⟩, h⟩
    · rintro (h | ⟨vs, body, e, ha, h⟩)
      · exact absurd ⟨l, hs⟩ (h us _)
      · obtain ⟨rfl, rfl⟩ := ha.det ⟨l, hs⟩
        exact ⟨e, h⟩

end Gosip.Sip.MsgM
