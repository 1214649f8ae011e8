import Verif.Sip.MsgParse
import Verif.Sdp.StringLemmas

/-!
# The actions of the message machine as total functions

`eff d a x` is the state an action leads to when it neither panics nor stops (`exec_ok`); facts about
fields an action does not touch then hold by computation.
-/

namespace Gosip.Sip.MsgM

/-- `d[a:b]` in range. -/
def seg (d : Bytes) (a b : Nat) : Bytes := (d.take b).drop a

/-- The URI an accepted text stands for. -/
def uriOf (d : Bytes) : Option URI :=
  match parseURI d with
  | .ok u => some u
  | _ => none

/-- End of the unquoted display name. -/
def trimTo (d : Bytes) (mark : Nat) : Nat → Nat
  | 0 => 0
  | n + 1 => if mark < n + 1 then (if whitespacec (d.getD n 0) then trimTo d mark n else n + 1) else n + 1

/-- Result of an action that does not fail. -/
def eff (d : Bytes) (a : MAct) (x : Ctx) : Ctx :=
  match a with
  | .hold => { x with p := x.p - 1 }
  | .mark => { x with mark := x.p }
  | .backtrack => { x with p := x.mark - 1 }
  | .start => { x with amt := 0 }
  | .append => { x with buf := x.buf.set x.amt (d.getD x.p 0), amt := x.amt + 1 }
  | .hexHi => { x with hex := unhex (d.getD x.p 0) * 16 }
  | .hexLo => { x with hex := x.hex + unhex (d.getD x.p 0),
                       buf := x.buf.set x.amt (x.hex + unhex (d.getD x.p 0)), amt := x.amt + 1 }
  | .method => { x with msg.method := seg d x.mark x.p }
  | .versionMajor => { x with msg.versionMajor := x.msg.versionMajor * 10 + (d.getD x.p 0 - 48) }
  | .versionMinor => { x with msg.versionMinor := x.msg.versionMinor * 10 + (d.getD x.p 0 - 48) }
  | .requestURI => { x with msg.request := uriOf (seg d x.mark x.p) }
  | .statusCode => { x with msg.status := dec64 x.msg.status (d.getD x.p 0) }
  | .reasonPhrase => { x with msg.phrase := x.buf.take x.amt }
  | .viaNew => { x with via := some {} }
  | .via => { x with msg.via := x.msg.via ++ x.via.toList, via := none }
  | .viaProtocol => { x with via := x.via.map fun v => { v with protocol := seg d x.mark x.p } }
  | .viaVersion => { x with via := x.via.map fun v => { v with version := seg d x.mark x.p } }
  | .viaTransport => { x with via := x.via.map fun v => { v with transport := seg d x.mark x.p } }
  | .viaHost => { x with via := x.via.map fun v => { v with host := seg d x.mark x.p } }
  | .viaPort => { x with via := x.via.map fun v =>
                    { v with port := v.port * 10 + ((d.getD x.p 0).toUInt16 - 48) } }
  | .viaParam => { x with via := x.via.map fun v =>
                    { v with param := (x.name, x.buf.take x.amt) :: v.param } }
  | .name => { x with name := seg d x.mark x.p }
  | .value =>
    { x with msg := match x.value with
              | some f => { x.msg with hdr := setAt x.msg.hdr f (seg d x.mark (x.p - 1)) }
              | none => { x.msg with xheader := (x.name, seg d x.mark (x.p - 1)) :: x.msg.xheader } }
  | .addrNew => { x with addr := some {} }
  | .addrQuotedDisplay => { x with addr := x.addr.map fun a => { a with display := x.buf.take x.amt } }
  | .addrUnquotedDisplay => { x with addr := x.addr.map fun a =>
                                { a with display := seg d x.mark (trimTo d x.mark x.p) } }
  | .addrUri => { x with addr := x.addr.map fun a => { a with uri := uriOf (seg d x.mark x.p) } }
  | .addrParam => { x with addr := x.addr.map fun a =>
                    { a with param := (x.name, x.buf.take x.amt) :: a.param } }
  | .addr => { x with
      msg := match x.addrp with
        | some f => { x.msg with addrs := setAt x.msg.addrs f (x.msg.addrs f ++ x.addr.toList) }
        | none => x.msg
      addr := none }
  | .callID => { x with msg.callID := seg d x.mark x.p }
  | .contentLength => { x with clen := dec64 x.clen (d.getD x.p 0) }
  | .contentType => { x with ctype := seg d x.mark x.p }
  | .cseq => { x with msg.cseq := dec64 x.msg.cseq (d.getD x.p 0) }
  | .cseqMethod => { x with msg.cseqMethod := seg d x.mark x.p }
  | .expires => { x with msg.expires := dec64 x.msg.expires (d.getD x.p 0) }
  | .maxForwards => { x with msg.maxForwards := dec64 x.msg.maxForwards (d.getD x.p 0) }
  | .minExpires => { x with msg.minExpires := dec64 x.msg.minExpires (d.getD x.p 0) }
  | .clen0 => { x with clen := 0 }
  | .expires0 => { x with msg.expires := 0 }
  | .maxForwards0 => { x with msg.maxForwards := 0 }
  | .minExpires0 => { x with msg.minExpires := 0 }
  | .valueNil => { x with value := none }
  | .lastAddr f => { x with addrp := some f }
  | .setValue f => { x with value := some f }

theorem slice_eq_ok {d s : Bytes} {a b : Nat} (h : slice d a b = .ok s) :
    s = seg d a b ∧ a ≤ b ∧ b ≤ d.length := by
  unfold slice at h; split at h
  · rename_i hab; cases h; exact ⟨rfl, hab⟩
  · cases h

theorem cur_eq_ok {d : Bytes} {p : Nat} {c : UInt8} (h : cur d p = .ok c) :
    c = d.getD p 0 ∧ p < d.length := by
  unfold cur at h
  cases hd : d[p]? with
  | none => simp [hd] at h
  | some e =>
    simp only [hd] at h; cases h
    refine ⟨by simp [List.getD, hd], ?_⟩
    rw [List.getElem?_eq_some_iff] at hd; exact hd.1

theorem deref_eq_ok {α : Type} {o : Option α} {a : α} (h : deref o = .ok a) : o = some a := by
  cases o with
  | none => cases h
  | some b => cases h; rfl

theorem push_eq_ok {x y : Ctx} {c : UInt8} (h : x.push c = .ok y) :
    y = { x with buf := x.buf.set x.amt c, amt := x.amt + 1 } ∧ x.amt < x.buf.length := by
  unfold Ctx.push at h; split at h
  · rename_i hl; cases h; exact ⟨rfl, hl⟩
  · cases h

theorem callParseURI_eq_ok {d : Bytes} {u : URI} (h : callParseURI d = .ok u) : uriOf d = some u := by
  unfold callParseURI at h; unfold uriOf
  cases hp : parseURI d <;> simp [hp] at h ⊢; exact h

theorem trimEnd_eq_ok {d : Bytes} {mark n e : Nat} (h : trimEnd d mark n = .ok e) :
    e = trimTo d mark n := by
  induction n with
  | zero => cases h; rfl
  | succ n ih =>
    unfold trimEnd at h; unfold trimTo
    split at h
    · rename_i hm
      rw [Res.bind_eq] at h
      obtain ⟨c, hc, h⟩ := Res.bind_ok_iff.1 h
      rw [if_pos hm, ← (cur_eq_ok hc).1]
      split at h
      · rename_i hw; rw [if_pos hw]; exact ih h
      · rename_i hw; rw [if_neg hw]; cases h; rfl
    · rename_i hm; rw [if_neg hm]; cases h; rfl

theorem seg_zero (d : Bytes) (n : Nat) : seg d 0 n = d.take n := rfl

theorem exec_ok {d : Bytes} {a : MAct} {x y : Ctx} (h : exec d a x = .ok y) : y = eff d a x := by
  cases a <;> simp only [exec, Res.bind_eq] at h
  case hold | backtrack => split at h <;> cases h; rfl
  case append | hexLo =>
    obtain ⟨c, hc, h⟩ := Res.bind_ok_iff.1 h
    obtain ⟨rfl, _⟩ := cur_eq_ok hc
    obtain ⟨rfl, _⟩ := push_eq_ok h
    rfl
  case hexHi | versionMajor | versionMinor | statusCode | contentLength | cseq | expires | maxForwards
      | minExpires =>
    obtain ⟨c, hc, h⟩ := Res.bind_ok_iff.1 h
    obtain ⟨rfl, _⟩ := cur_eq_ok hc
    cases h; rfl
  case method | name | callID | contentType | cseqMethod | reasonPhrase =>
    obtain ⟨s, hs, h⟩ := Res.bind_ok_iff.1 h
    obtain ⟨rfl, _⟩ := slice_eq_ok hs
    cases h; rfl
  case requestURI =>
    obtain ⟨s, hs, h⟩ := Res.bind_ok_iff.1 h
    obtain ⟨rfl, _⟩ := slice_eq_ok hs
    obtain ⟨u, hu, h⟩ := Res.bind_ok_iff.1 h
    cases h
    simp only [eff, callParseURI_eq_ok hu]
  case via =>
    obtain ⟨v, hv, h⟩ := Res.bind_ok_iff.1 h
    have := deref_eq_ok hv
    cases h
    simp only [eff, this, Option.toList_some]
  case viaProtocol | viaVersion | viaTransport | viaHost | viaParam | addrQuotedDisplay | addrParam =>
    obtain ⟨s, hs, h⟩ := Res.bind_ok_iff.1 h
    obtain ⟨rfl, _⟩ := slice_eq_ok hs
    obtain ⟨v, hv, h⟩ := Res.bind_ok_iff.1 h
    have := deref_eq_ok hv
    cases h
    simp only [eff, this, Option.map_some, seg_zero]
  case viaPort =>
    obtain ⟨s, hs, h⟩ := Res.bind_ok_iff.1 h
    obtain ⟨rfl, _⟩ := cur_eq_ok hs
    obtain ⟨v, hv, h⟩ := Res.bind_ok_iff.1 h
    have := deref_eq_ok hv
    cases h
    simp only [eff, this, Option.map_some]
  case value =>
    split at h
    · cases h
    · obtain ⟨s, hs, h⟩ := Res.bind_ok_iff.1 h
      obtain ⟨rfl, _⟩ := slice_eq_ok hs
      split at h <;> rename_i hv <;> cases h <;> simp only [eff, hv]
  case addrUnquotedDisplay =>
    obtain ⟨e, he, h⟩ := Res.bind_ok_iff.1 h
    obtain rfl := trimEnd_eq_ok he
    obtain ⟨s, hs, h⟩ := Res.bind_ok_iff.1 h
    obtain ⟨rfl, _⟩ := slice_eq_ok hs
    obtain ⟨v, hv, h⟩ := Res.bind_ok_iff.1 h
    have := deref_eq_ok hv
    cases h
    simp only [eff, this, Option.map_some]
  case addrUri =>
    obtain ⟨s, hs, h⟩ := Res.bind_ok_iff.1 h
    obtain ⟨rfl, _⟩ := slice_eq_ok hs
    obtain ⟨u, hu, h⟩ := Res.bind_ok_iff.1 h
    obtain ⟨v, hv, h⟩ := Res.bind_ok_iff.1 h
    have := deref_eq_ok hv
    cases h
    simp only [eff, this, Option.map_some, callParseURI_eq_ok hu]
  case addr =>
    obtain ⟨f, hf, h⟩ := Res.bind_ok_iff.1 h
    obtain ⟨a, ha, h⟩ := Res.bind_ok_iff.1 h
    have h1 := deref_eq_ok hf
    have h2 := deref_eq_ok ha
    cases h
    simp only [eff, h1, h2, Option.toList_some]
  all_goals cases h; rfl

/-- The effect of a list of actions. -/
def effs (d : Bytes) : List MAct → Ctx → Ctx
  | [], x => x
  | a :: l, x => effs d l (eff d a x)

theorem execs_ok {d : Bytes} {l : List MAct} {x y : Ctx} (h : execs d l x = .ok y) :
    y = effs d l x := by
  induction l generalizing x with
  | nil => cases h; rfl
  | cons a l ih =>
    simp only [execs, Res.bind_eq] at h
    obtain ⟨z, hz, h⟩ := Res.bind_ok_iff.1 h
    rw [effs, ← exec_ok hz]; exact ih h

end Gosip.Sip.MsgM
