import Verif.Sip.MsgEff
import Verif.Sip.MsgInvTable
import Verif.Sip.UriSafe

/-!
# The message machine: reachable configurations, safety, termination

One abstract interpretation: the invariant `inv k` of each state is checked by the kernel against all
rows of the table, and lifted to all executions by induction.
-/

namespace Gosip.Sip.MsgM

/-- Configurations reached by the loop on input `d`. -/
inductive Reach (d : Bytes) : Nat → Ctx → Prop
  | init : Reach d 1 (initCtx d)
  | step {k x k' x'} : Reach d k x → step d k x = .cont k' x' → Reach d k' x'

theorem lookup_mem {l : List Row} {c : Nat} {r : Row} (h : lookup l c = some r) :
    r ∈ l ∧ r.lo ≤ c ∧ c ≤ r.hi := by
  induction l with
  | nil => simp [lookup] at h
  | cons a l ih =>
    rw [lookup] at h
    cases hb : Nat.ble a.lo c && Nat.ble c a.hi <;> rw [hb] at h <;> simp at h hb
    · simp [ih h]
    · subst h; simp [hb]

/-- Inversion of a step. -/
theorem step_cases {d : Bytes} {k : Nat} {x : Ctx} :
    (d.length ≤ x.p ∧ step d k x = .stop (.incomplete d)) ∨
    (∃ c, d[x.p]? = some c ∧ lookup (rows k) (symbol d k x.p c) = none ∧
      step d k x = .stop (.parse d x.p)) ∨
    (∃ c r, d[x.p]? = some c ∧ lookup (rows k) (symbol d k x.p c) = some r ∧
      step d k x = after r (execs d r.acts x)) := by
  unfold step
  cases h : d[x.p]? with
  | none => exact .inl ⟨by simpa using h, rfl⟩
  | some c =>
    cases h2 : lookup (rows k) (symbol d k x.p c) with
    | none => exact .inr (.inl ⟨c, rfl, by simp [h2]⟩)
    | some r => exact .inr (.inr ⟨c, r, rfl, by simp [h2]⟩)

/-! ### Abstract execution -/

/-- Meaning of an abstract value while the actions of a transition run. -/
structure Sat (d : Bytes) (v : AV) (x : Ctx) : Prop where
  buf : x.buf.length = d.length
  amt : x.amt + v.a ≤ x.p + 1
  mkd : v.mkd = 0 ∨ x.mark + (v.mkd - 1) ≤ x.p + 1
  am : v.am = true → x.amt ≤ x.mark
  pos : v.pos = true → 1 ≤ x.p
  mp : v.mp = true → 1 ≤ x.mark
  via : v.via = true → x.via ≠ none
  addr : v.addr = true → x.addr ≠ none
  adu : v.adu = true → ∃ a u, x.addr = some a ∧ a.uri = some u
  addrp : v.addrp = true → x.addrp ≠ none
  uris : ∀ f, ∀ a ∈ x.msg.addrs f, a.uri ≠ none

/-- Guard. -/
def req (b : Bool) (v : AV) : Option AV := bif b then some v else none

theorem req_some {b : Bool} {v w : AV} (h : req b v = some w) : b = true ∧ w = v := by
  cases b <;> simp [req] at h; exact ⟨rfl, h.symm⟩

/-- Effect of an action on abstract values; `none` if it might panic. -/
def aexec (a : MAct) (v : AV) : Option AV :=
  match a with
  | .hold => req (v.pos && Nat.ble 1 v.a)
      { v with a := v.a - 1, mkd := v.mkd - 1, pos := false }
  | .mark => some { v with mkd := 2, am := Nat.ble 1 v.a, mp := v.pos }
  | .backtrack => req (Nat.ble 1 v.mkd && v.am && v.mp) { v with a := 0, mkd := 1, pos := false }
  | .start => some { v with a := 1, am := true }
  | .append | .hexLo => req (Nat.ble 1 v.a) { v with a := v.a - 1, am := false }
  | .method | .requestURI | .name | .callID | .contentType | .cseqMethod => req (Nat.ble 2 v.mkd) v
  | .viaProtocol | .viaVersion | .viaTransport | .viaHost => req (Nat.ble 2 v.mkd && v.via) v
  | .viaPort | .viaParam => req v.via v
  | .viaNew => some { v with via := true }
  | .via => req v.via { v with via := false }
  | .value => req (Nat.ble 3 v.mkd) v
  | .addrNew => some { v with addr := true, adu := false }
  | .addrQuotedDisplay | .addrParam => req v.addr v
  | .addrUnquotedDisplay => req (Nat.ble 2 v.mkd && v.addr) v
  | .addrUri => req (Nat.ble 2 v.mkd && v.addr) { v with adu := true }
  | .addr => req (v.adu && v.addrp) { v with addr := false, adu := false }
  | .lastAddr _ => some { v with addrp := true }
  | .hexHi | .versionMajor | .versionMinor | .statusCode | .reasonPhrase | .contentLength | .cseq
  | .expires | .maxForwards | .minExpires | .clen0 | .expires0 | .maxForwards0 | .minExpires0
  | .valueNil | .setValue _ => some v

/-- Effect of a list of actions. -/
def aexecs : List MAct → AV → Option AV
  | [], v => some v
  | a :: l, v => (aexec a v).bind (aexecs l)

/-- `p++`. -/
def AV.adv (v : AV) : AV :=
  { v with a := bif Nat.ble 1 v.a then 1 else v.a + 1,
           mkd := bif Nat.beq v.mkd 0 then 0 else bif Nat.ble 2 v.mkd then 3 else v.mkd + 1, pos := true }

/-- `v` implies `w`. -/
def AV.le (v w : AV) : Bool :=
  Nat.ble w.a v.a && Nat.ble w.mkd v.mkd && (!w.am || v.am) && (!w.pos || v.pos) && (!w.mp || v.mp) &&
  (!w.via || v.via) && (!w.addr || v.addr) && (!w.adu || v.adu) && (!w.addrp || v.addrp)

theorem Sat.adv {d v x} (h : Sat d v x) : Sat d v.adv { x with p := x.p + 1 } := by
  have h1 := h.amt
  have h2 := h.mkd
  constructor
  case buf => exact h.buf
  case amt => simp only [AV.adv]; cases hb : Nat.ble 1 v.a <;> simp at hb ⊢ <;> omega
  case mkd =>
    simp only [AV.adv]
    cases hb : Nat.beq v.mkd 0
    · have hb' : v.mkd ≠ 0 := by intro e; rw [e] at hb; cases hb
      cases hc : Nat.ble 2 v.mkd
      · simp only [cond_false]; omega
      · have := Nat.le_of_ble_eq_true hc
        simp only [cond_true, cond_false]; omega
    · simp
  case am => exact h.am
  case pos => simp
  case mp => exact h.mp
  case via => exact h.via
  case addr => exact h.addr
  case adu => exact h.adu
  case addrp => exact h.addrp
  case uris => exact h.uris

theorem Sat.weaken {d v w x} (h : Sat d v x) (hw : v.le w = true) : Sat d w x := by
  simp only [AV.le, Bool.and_eq_true, Bool.or_eq_true, Bool.not_eq_true', Nat.ble_eq] at hw
  obtain ⟨⟨⟨⟨⟨⟨⟨⟨a1, a2⟩, a3⟩, a4⟩, a5⟩, a6⟩, a7⟩, a8⟩, a9⟩ := hw
  have h1 := h.amt
  have h2 := h.mkd
  constructor
  case buf => exact h.buf
  case amt => omega
  case mkd => omega
  case am => intro e; exact h.am (by simpa [e] using a3)
  case pos => intro e; exact h.pos (by simpa [e] using a4)
  case mp => intro e; exact h.mp (by simpa [e] using a5)
  case via => intro e; exact h.via (by simpa [e] using a6)
  case addr => intro e; exact h.addr (by simpa [e] using a7)
  case adu => intro e; exact h.adu (by simpa [e] using a8)
  case addrp => intro e; exact h.addrp (by simpa [e] using a9)
  case uris => exact h.uris

theorem cur_ok {d : Bytes} {p : Nat} (h : p < d.length) : cur d p = .ok d[p] := by
  simp [cur, h]

theorem slice_ok {d : Bytes} {a b : Nat} (h : a ≤ b) (h2 : b ≤ d.length) :
    slice d a b = .ok ((d.take b).drop a) := by simp [slice, h, h2]

theorem deref_ok {α : Type} {o : Option α} (h : o ≠ none) : ∃ a, o = some a ∧ deref o = .ok a := by
  cases o with
  | none => exact absurd rfl h
  | some a => exact ⟨a, rfl, rfl⟩

theorem callParseURI_safe (s : Bytes) : callParseURI s ≠ .panic := by
  unfold callParseURI
  have := Uri.arun_safe s (Uri.entry s) Uri.initA 0 s
  rw [← Uri.parseURI_abs] at this
  cases h : parseURI s <;> simp_all

theorem trimEnd_ok {d : Bytes} {mark n : Nat} (h : n ≤ d.length) (h2 : mark ≤ n) :
    ∃ e, trimEnd d mark n = .ok e ∧ mark ≤ e ∧ e ≤ n := by
  induction n with
  | zero => exact ⟨0, rfl, h2, Nat.le_refl _⟩
  | succ n ih =>
    unfold trimEnd
    by_cases hm : mark < n + 1
    · rw [if_pos hm, cur_ok (by omega)]
      simp only [Res.bind_eq, Res.bind]
      split
      · obtain ⟨e, h1, h3, h4⟩ := ih (by omega) (by omega)
        exact ⟨e, h1, h3, by omega⟩
      · exact ⟨n + 1, rfl, by omega, Nat.le_refl _⟩
    · rw [if_neg hm]; exact ⟨n + 1, rfl, by omega, Nat.le_refl _⟩

/-- What the abstract execution of an action promises about the concrete one. -/
def Good (d : Bytes) (v' : AV) (x : Ctx) : Res MErr Ctx → Prop
  | .ok y => Sat d v' y ∧ y.p ≤ x.p
  | .err e => ∃ u, e = .uri u
  | .panic => False

theorem push_ok {x : Ctx} {c : UInt8} (h : x.amt < x.buf.length) :
    x.push c = .ok { x with buf := x.buf.set x.amt c, amt := x.amt + 1 } := by simp [Ctx.push, h]

theorem callParseURI_err {s : Bytes} {e : MErr} (h : callParseURI s = .err e) : ∃ u, e = .uri u := by
  unfold callParseURI at h
  cases hp : parseURI s <;> simp [hp] at h
  exact ⟨_, h.symm⟩

theorem exec_good {d : Bytes} {a : MAct} {v v' : AV} {x : Ctx} (hx : Sat d v x) (hp : x.p < d.length)
    (h : aexec a v = some v') : Good d v' x (exec d a x) := by
  have hamt := hx.amt
  have hmk := hx.mkd
  have hbuf := hx.buf
  cases a
  case hold =>
    obtain ⟨h1, rfl⟩ := req_some h
    simp only [Bool.and_eq_true, Nat.ble_eq] at h1
    have := hx.pos h1.1
    simp only [exec, if_neg (show ¬ x.p = 0 by omega), Good]
    refine ⟨?_, by simp⟩
    constructor
    case buf => exact hx.buf
    case amt => simp only []; omega
    case mkd => simp only []; omega
    case am => exact hx.am
    case pos => simp
    case mp => exact hx.mp
    case via => exact hx.via
    case addr => exact hx.addr
    case adu => exact hx.adu
    case addrp => exact hx.addrp
    case uris => exact hx.uris
  case mark =>
    cases h
    simp only [exec, Good]
    refine ⟨?_, Nat.le_refl _⟩
    constructor
    case buf => exact hx.buf
    case amt => exact hx.amt
    case mkd => simp
    case am => intro e; simp only [Nat.ble_eq] at e; simp only []; omega
    case pos => exact hx.pos
    case mp => intro e; exact hx.pos e
    case via => exact hx.via
    case addr => exact hx.addr
    case adu => exact hx.adu
    case addrp => exact hx.addrp
    case uris => exact hx.uris
  case backtrack =>
    obtain ⟨h1, rfl⟩ := req_some h
    simp only [Bool.and_eq_true, Nat.ble_eq] at h1
    have h3 := hx.mp h1.2
    have h4 := hx.am h1.1.2
    simp only [exec, if_neg (show ¬ x.mark = 0 by omega), Good]
    refine ⟨?_, by show x.mark - 1 ≤ x.p; omega⟩
    constructor
    case buf => exact hx.buf
    case amt => simp only []; omega
    case mkd => simp only []; omega
    case am => exact hx.am
    case pos => simp
    case mp => exact hx.mp
    case via => exact hx.via
    case addr => exact hx.addr
    case adu => exact hx.adu
    case addrp => exact hx.addrp
    case uris => exact hx.uris
  case start =>
    cases h
    simp only [exec, Good]
    refine ⟨?_, Nat.le_refl _⟩
    constructor
    case buf => exact hx.buf
    case amt => simp
    case mkd => exact hx.mkd
    case am => simp
    case pos => exact hx.pos
    case mp => exact hx.mp
    case via => exact hx.via
    case addr => exact hx.addr
    case adu => exact hx.adu
    case addrp => exact hx.addrp
    case uris => exact hx.uris
  case append =>
    obtain ⟨h1, rfl⟩ := req_some h
    simp only [Nat.ble_eq] at h1
    simp only [exec, cur_ok hp, Res.bind_eq, Res.bind]
    rw [push_ok (by omega)]
    refine ⟨?_, Nat.le_refl _⟩
    constructor
    case buf => simpa using hx.buf
    case amt => simp only []; omega
    case mkd => exact hx.mkd
    case am => simp
    case pos => exact hx.pos
    case mp => exact hx.mp
    case via => exact hx.via
    case addr => exact hx.addr
    case adu => exact hx.adu
    case addrp => exact hx.addrp
    case uris => exact hx.uris
  case hexLo =>
    obtain ⟨h1, rfl⟩ := req_some h
    simp only [Nat.ble_eq] at h1
    simp only [exec, cur_ok hp, Res.bind_eq, Res.bind]
    rw [push_ok (by show x.amt < x.buf.length; omega)]
    refine ⟨?_, Nat.le_refl _⟩
    constructor
    case buf => simpa using hx.buf
    case amt => simp only []; omega
    case mkd => exact hx.mkd
    case am => simp
    case pos => exact hx.pos
    case mp => exact hx.mp
    case via => exact hx.via
    case addr => exact hx.addr
    case adu => exact hx.adu
    case addrp => exact hx.addrp
    case uris => exact hx.uris
  case method | callID | contentType | cseqMethod | name =>
    obtain ⟨h1, rfl⟩ := req_some h
    simp only [Nat.ble_eq] at h1
    simp only [exec, slice_ok (d := d) (show x.mark ≤ x.p by omega) (by omega), Res.bind_eq, Res.bind]
    exact ⟨⟨hx.buf, hx.amt, hx.mkd, hx.am, hx.pos, hx.mp, hx.via, hx.addr, hx.adu, hx.addrp, hx.uris⟩,
      Nat.le_refl _⟩
  case requestURI =>
    obtain ⟨h1, rfl⟩ := req_some h
    simp only [Nat.ble_eq] at h1
    simp only [exec, slice_ok (d := d) (show x.mark ≤ x.p by omega) (by omega), Res.bind_eq, Res.bind]
    cases hu : callParseURI ((d.take x.p).drop x.mark) with
    | panic => exact absurd hu (callParseURI_safe _)
    | err e => exact callParseURI_err hu
    | ok u =>
      exact ⟨⟨hx.buf, hx.amt, hx.mkd, hx.am, hx.pos, hx.mp, hx.via, hx.addr, hx.adu, hx.addrp, hx.uris⟩,
        Nat.le_refl _⟩
  case reasonPhrase =>
    cases h
    simp only [exec, slice_ok (d := x.buf) (Nat.zero_le _) (show x.amt ≤ x.buf.length by omega),
      Res.bind_eq, Res.bind]
    exact ⟨⟨hx.buf, hx.amt, hx.mkd, hx.am, hx.pos, hx.mp, hx.via, hx.addr, hx.adu, hx.addrp, hx.uris⟩,
      Nat.le_refl _⟩
  case viaProtocol | viaVersion | viaTransport | viaHost =>
    obtain ⟨h1, rfl⟩ := req_some h
    simp only [Bool.and_eq_true, Nat.ble_eq] at h1
    obtain ⟨w, _, hw⟩ := deref_ok (hx.via h1.2)
    simp only [exec, slice_ok (d := d) (show x.mark ≤ x.p by omega) (by omega), hw, Res.bind_eq, Res.bind]
    exact ⟨⟨hx.buf, hx.amt, hx.mkd, hx.am, hx.pos, hx.mp, by simp, hx.addr, hx.adu, hx.addrp, hx.uris⟩,
      Nat.le_refl _⟩
  case viaPort =>
    obtain ⟨h1, rfl⟩ := req_some h
    obtain ⟨w, _, hw⟩ := deref_ok (hx.via h1)
    simp only [exec, cur_ok hp, hw, Res.bind_eq, Res.bind]
    exact ⟨⟨hx.buf, hx.amt, hx.mkd, hx.am, hx.pos, hx.mp, by simp, hx.addr, hx.adu, hx.addrp, hx.uris⟩,
      Nat.le_refl _⟩
  case viaParam =>
    obtain ⟨h1, rfl⟩ := req_some h
    obtain ⟨w, _, hw⟩ := deref_ok (hx.via h1)
    simp only [exec, slice_ok (d := x.buf) (Nat.zero_le _) (show x.amt ≤ x.buf.length by omega), hw,
      Res.bind_eq, Res.bind]
    exact ⟨⟨hx.buf, hx.amt, hx.mkd, hx.am, hx.pos, hx.mp, by simp, hx.addr, hx.adu, hx.addrp, hx.uris⟩,
      Nat.le_refl _⟩
  case viaNew =>
    cases h
    exact ⟨⟨hx.buf, hx.amt, hx.mkd, hx.am, hx.pos, hx.mp, by simp, hx.addr, hx.adu, hx.addrp, hx.uris⟩,
      Nat.le_refl _⟩
  case via =>
    obtain ⟨h1, rfl⟩ := req_some h
    obtain ⟨w, _, hw⟩ := deref_ok (hx.via h1)
    simp only [exec, hw, Res.bind_eq, Res.bind]
    exact ⟨⟨hx.buf, hx.amt, hx.mkd, hx.am, hx.pos, hx.mp, by simp, hx.addr, hx.adu, hx.addrp, hx.uris⟩,
      Nat.le_refl _⟩
  case value =>
    obtain ⟨h1, rfl⟩ := req_some h
    simp only [Nat.ble_eq] at h1
    simp only [exec, if_neg (show ¬ x.p = 0 by omega),
      slice_ok (d := d) (show x.mark ≤ x.p - 1 by omega) (by omega), Res.bind_eq, Res.bind]
    cases x.value with
    | none =>
      exact ⟨⟨hx.buf, hx.amt, hx.mkd, hx.am, hx.pos, hx.mp, hx.via, hx.addr, hx.adu, hx.addrp, hx.uris⟩,
        Nat.le_refl _⟩
    | some f =>
      exact ⟨⟨hx.buf, hx.amt, hx.mkd, hx.am, hx.pos, hx.mp, hx.via, hx.addr, hx.adu, hx.addrp, hx.uris⟩,
        Nat.le_refl _⟩
  case addrNew =>
    cases h
    exact ⟨⟨hx.buf, hx.amt, hx.mkd, hx.am, hx.pos, hx.mp, hx.via, by simp, by simp, hx.addrp, hx.uris⟩,
      Nat.le_refl _⟩
  case addrQuotedDisplay | addrParam =>
    obtain ⟨h1, rfl⟩ := req_some h
    obtain ⟨w, ho, hw⟩ := deref_ok (hx.addr h1)
    simp only [exec, slice_ok (d := x.buf) (Nat.zero_le _) (show x.amt ≤ x.buf.length by omega), hw,
      Res.bind_eq, Res.bind]
    refine ⟨⟨hx.buf, hx.amt, hx.mkd, hx.am, hx.pos, hx.mp, hx.via, by simp, ?_, hx.addrp, hx.uris⟩,
      Nat.le_refl _⟩
    intro e
    obtain ⟨a, u, e1, e2⟩ := hx.adu e
    rw [ho] at e1; cases e1
    exact ⟨_, u, rfl, e2⟩
  case addrUnquotedDisplay =>
    obtain ⟨h1, rfl⟩ := req_some h
    simp only [Bool.and_eq_true, Nat.ble_eq] at h1
    obtain ⟨w, ho, hw⟩ := deref_ok (hx.addr h1.2)
    obtain ⟨e, t1, t2, t3⟩ := trimEnd_ok (d := d) (mark := x.mark) (n := x.p) (by omega) (by omega)
    simp only [exec, t1, slice_ok (d := d) t2 (by omega), hw, Res.bind_eq, Res.bind]
    refine ⟨⟨hx.buf, hx.amt, hx.mkd, hx.am, hx.pos, hx.mp, hx.via, by simp, ?_, hx.addrp, hx.uris⟩,
      Nat.le_refl _⟩
    intro e
    obtain ⟨a, u, e1, e2⟩ := hx.adu e
    rw [ho] at e1; cases e1
    exact ⟨_, u, rfl, e2⟩
  case addrUri =>
    obtain ⟨h1, rfl⟩ := req_some h
    simp only [Bool.and_eq_true, Nat.ble_eq] at h1
    obtain ⟨w, ho, hw⟩ := deref_ok (hx.addr h1.2)
    simp only [exec, slice_ok (d := d) (show x.mark ≤ x.p by omega) (by omega), hw, Res.bind_eq, Res.bind]
    cases hu : callParseURI ((d.take x.p).drop x.mark) with
    | panic => exact absurd hu (callParseURI_safe _)
    | err e => exact callParseURI_err hu
    | ok u =>
      exact ⟨⟨hx.buf, hx.amt, hx.mkd, hx.am, hx.pos, hx.mp, hx.via, by simp,
        fun _ => ⟨_, u, rfl, rfl⟩, hx.addrp, hx.uris⟩, Nat.le_refl _⟩
  case addr =>
    obtain ⟨h1, rfl⟩ := req_some h
    simp only [Bool.and_eq_true] at h1
    obtain ⟨f, _, hf⟩ := deref_ok (hx.addrp h1.2)
    obtain ⟨a, u, e1, e2⟩ := hx.adu h1.1
    have hd : deref x.addr = .ok a := by rw [e1]; rfl
    simp only [exec, hf, hd, Res.bind_eq, Res.bind]
    refine ⟨⟨hx.buf, hx.amt, hx.mkd, hx.am, hx.pos, hx.mp, hx.via, by simp, by simp, hx.addrp, ?_⟩,
      Nat.le_refl _⟩
    intro g b hb
    simp only [setAt] at hb
    split at hb
    · rw [List.mem_append] at hb
      rcases hb with hb | hb
      · exact hx.uris f b hb
      · simp only [List.mem_singleton] at hb; subst hb; simp [e2]
    · exact hx.uris g b hb
  case lastAddr f =>
    cases h
    exact ⟨⟨hx.buf, hx.amt, hx.mkd, hx.am, hx.pos, hx.mp, hx.via, hx.addr, hx.adu, by simp, hx.uris⟩,
      Nat.le_refl _⟩
  case clen0 | expires0 | maxForwards0 | minExpires0 | valueNil | setValue =>
    cases h
    exact ⟨⟨hx.buf, hx.amt, hx.mkd, hx.am, hx.pos, hx.mp, hx.via, hx.addr, hx.adu, hx.addrp, hx.uris⟩,
      Nat.le_refl _⟩
  all_goals
    cases h
    simp only [exec, cur_ok hp, Res.bind_eq, Res.bind]
    exact ⟨⟨hx.buf, hx.amt, hx.mkd, hx.am, hx.pos, hx.mp, hx.via, hx.addr, hx.adu, hx.addrp, hx.uris⟩,
      Nat.le_refl _⟩

theorem execs_good {d : Bytes} {l : List MAct} {v v' : AV} {x : Ctx} (hx : Sat d v x)
    (hp : x.p < d.length) (h : aexecs l v = some v') : Good d v' x (execs d l x) := by
  induction l generalizing v x with
  | nil => cases h; exact ⟨hx, Nat.le_refl _⟩
  | cons a l ih =>
    simp only [aexecs] at h
    cases ha : aexec a v with
    | none => simp [ha] at h
    | some w =>
      rw [ha] at h
      have h1 := exec_good hx hp ha
      simp only [execs, Res.bind_eq]
      cases he : exec d a x with
      | panic => rw [he] at h1; exact h1
      | err e => rw [he] at h1; exact h1
      | ok y =>
        rw [he] at h1
        have h2 := ih h1.1 (by have := h1.2; omega) h
        simp only [Res.bind]
        cases hl : execs d l y with
        | panic => rw [hl] at h2; exact h2
        | err e => rw [hl] at h2; exact h2
        | ok z => rw [hl] at h2; exact ⟨h2.1, Nat.le_trans h2.2 h1.2⟩

/-- The check of one row. -/
def checkRow (k : Nat) (r : Row) : Bool :=
  match aexecs r.acts (inv k) with
  | none => false
  | some v => Nat.beq r.tgt 781 || (v.adv.le (inv r.tgt) && Nat.blt r.tgt 765)

/-- All rows of all states are consistent with the invariants. -/
theorem check_all : ∀ k, k < 765 → ∀ r ∈ rows k, checkRow k r = true := by decide +kernel

/-- What holds of every reachable configuration. -/
structure Inv (d : Bytes) (k : Nat) (x : Ctx) : Prop where
  state : k < 765
  pos : x.p ≤ d.length
  sat : Sat d (inv k) x

theorem inv_init (d : Bytes) : Inv d 1 (initCtx d) where
  state := by decide
  pos := by simp [initCtx]
  sat := by
    rw [show inv 1 = ⟨1, 2, true, false, false, false, false, false, false⟩ by decide]
    constructor <;> simp [initCtx]

/-- What a step from a configuration satisfying the invariant can do. -/
def GoodNext (d : Bytes) : Next → Prop
  | .cont k' x' => Inv d k' x'
  | .brk x' => x'.p ≤ d.length ∧ 1 ≤ x'.p ∧ ∀ f, ∀ a ∈ x'.msg.addrs f, a.uri ≠ none
  | .stop e => e = .incomplete d ∨ (∃ p, p < d.length ∧ e = .parse d p) ∨ ∃ u, e = .uri u
  | .panic => False

theorem step_good {d : Bytes} {k : Nat} {x : Ctx} (h : Inv d k x) : GoodNext d (step d k x) := by
  rcases step_cases (d := d) (k := k) (x := x) with ⟨_, h1⟩ | ⟨c, hc, _, h1⟩ | ⟨c, r, hc, hl, h1⟩
  · rw [h1]; exact .inl rfl
  · rw [h1]
    have : x.p < d.length := by
      rw [List.getElem?_eq_some_iff] at hc; exact hc.1
    exact .inr (.inl ⟨_, this, rfl⟩)
  · rw [h1]
    have hp : x.p < d.length := by
      rw [List.getElem?_eq_some_iff] at hc; exact hc.1
    have hr := check_all k h.state r (lookup_mem hl).1
    unfold checkRow at hr
    cases ha : aexecs r.acts (inv k) with
    | none => simp [ha] at hr
    | some v =>
      simp only [ha] at hr
      have hg := execs_good h.sat hp ha
      cases he : execs d r.acts x with
      | panic => rw [he] at hg; exact hg
      | err e => rw [he] at hg; exact .inr (.inr hg)
      | ok y =>
        rw [he] at hg
        simp only [after]
        split
        · refine ⟨?_, ?_, hg.1.uris⟩
          · have := hg.2; simp only []; omega
          · simp
        · rename_i ht
          have ht' : Nat.beq r.tgt 781 = false := by
            cases hb : Nat.beq r.tgt 781
            · rfl
            · exact absurd (Nat.eq_of_beq_eq_true hb) ht
          rw [ht'] at hr
          simp only [Bool.false_or, Bool.and_eq_true, Nat.blt_eq] at hr
          exact ⟨hr.2, by have := hg.2; simp only []; omega, hg.1.adv.weaken hr.1⟩

theorem reach_inv {d : Bytes} {k : Nat} {x : Ctx} (h : Reach d k x) : Inv d k x := by
  induction h with
  | init => exact inv_init d
  | step _ hs ih =>
    have := step_good ih
    rw [hs] at this; exact this

/-! ### Termination -/

/-- The states in which `addr` looks ahead for `<` or `:` before it backtracks. -/
def looking (k : Nat) : Bool := Nat.ble 257 k && Nat.ble k 262

/-- The measure: lexicographic in (bytes left, rank), with the bytes scanned by the look-ahead counted
below the rank of the state that starts it. -/
def measure (d : Bytes) (k : Nat) (x : Ctx) : Nat :=
  if looking k then (d.length - x.mark) * (d.length + 20) + (4 + (d.length - x.p))
  else (d.length - x.p) * (d.length + 20) + (if rank k < 4 then rank k else d.length + rank k)

/-- Number of `hold`s. -/
def holds : List MAct → Nat
  | [] => 0
  | .hold :: l => holds l + 1
  | _ :: l => holds l

def isBack : MAct → Bool
  | .backtrack => true
  | _ => false

def isMark : MAct → Bool
  | .mark => true
  | _ => false

def isHold : MAct → Bool
  | .hold => true
  | _ => false

theorem exec_p {d : Bytes} {a : MAct} {x y : Ctx} (h : exec d a x = .ok y) (hb : isBack a = false)
    (hh : isHold a = false) : y.p = x.p := by
  rw [exec_ok h]
  cases a <;> first | rfl | (simp [isBack, isHold] at hb hh)

theorem exec_mark {d : Bytes} {a : MAct} {x y : Ctx} (h : exec d a x = .ok y) (hb : isMark a = false) :
    y.mark = x.mark := by
  rw [exec_ok h]
  cases a <;> first | rfl | (simp [isMark] at hb)

theorem execs_p {d : Bytes} {l : List MAct} {x y : Ctx} (h : execs d l x = .ok y)
    (hb : l.all (fun a => !isBack a) = true) : y.p + holds l = x.p := by
  induction l generalizing x with
  | nil => cases h; rfl
  | cons a l ih =>
    simp only [execs, Res.bind_eq] at h
    obtain ⟨z, hz, h⟩ := Res.bind_ok_iff.1 h
    simp only [List.all_cons, Bool.and_eq_true, Bool.not_eq_true'] at hb
    have := ih h hb.2
    cases ha : isHold a
    · have h2 := exec_p hz hb.1 ha
      have h3 : holds (a :: l) = holds l := by cases a <;> first | rfl | simp [isHold] at ha
      omega
    · cases a <;> simp [isHold] at ha
      simp only [exec] at hz
      split at hz <;> cases hz
      simp only [holds] at *
      omega

theorem execs_mark {d : Bytes} {l : List MAct} {x y : Ctx} (h : execs d l x = .ok y)
    (hb : l.all (fun a => !isMark a) = true) : y.mark = x.mark := by
  induction l generalizing x with
  | nil => cases h; rfl
  | cons a l ih =>
    simp only [execs, Res.bind_eq] at h
    obtain ⟨z, hz, h⟩ := Res.bind_ok_iff.1 h
    simp only [List.all_cons, Bool.and_eq_true, Bool.not_eq_true'] at hb
    rw [ih h hb.2, exec_mark hz hb.1]

/-- The shape of the rows with respect to the measure. -/
def checkMove (k : Nat) (r : Row) : Bool :=
  Nat.beq r.tgt 781 ||
  (match looking k, looking r.tgt with
   | true, true => r.acts == []
   | true, false => r.acts == [.addrNew, .backtrack] && Nat.blt (rank r.tgt) 4
   | false, true => r.acts == [.mark] && Nat.ble 5 (rank k)
   | false, false => r.acts.all (fun a => !isBack a) &&
      (Nat.beq (holds r.acts) 0 || (Nat.beq (holds r.acts) 1 && Nat.blt (rank r.tgt) (rank k)))) &&
  Nat.ble (rank k) 6 && Nat.ble (rank r.tgt) 6

theorem move_all : ∀ k, k < 765 → ∀ r ∈ rows k, checkMove k r = true := by decide +kernel

theorem measure_lt {d : Bytes} {k k' : Nat} {x x' : Ctx} (h : Inv d k x)
    (hs : step d k x = .cont k' x') : measure d k' x' < measure d k x := by
  rcases step_cases (d := d) (k := k) (x := x) with ⟨_, h1⟩ | ⟨c, hc, _, h1⟩ | ⟨c, r, hc, hl, h1⟩
  · rw [h1] at hs; cases hs
  · rw [h1] at hs; cases hs
  · rw [h1] at hs
    have hp : x.p < d.length := by
      rw [List.getElem?_eq_some_iff] at hc; exact hc.1
    have hr := move_all k h.state r (lookup_mem hl).1
    cases he : execs d r.acts x with
    | panic => simp [he, after] at hs
    | err e => simp [he, after] at hs
    | ok y =>
      rw [he] at hs
      simp only [after] at hs
      split at hs
      · cases hs
      · rename_i ht
        cases hs
        have ht' : Nat.beq r.tgt 781 = false := by
          cases hb : Nat.beq r.tgt 781
          · rfl
          · exact absurd (Nat.eq_of_beq_eq_true hb) ht
        simp only [checkMove, ht', Bool.false_or, Bool.and_eq_true, Nat.ble_eq] at hr
        obtain ⟨⟨hr, hk6⟩, ht6⟩ := hr
        unfold measure
        cases hlk : looking k <;> cases hlt : looking r.tgt <;> rw [hlk, hlt] at hr <;>
          simp only [Bool.and_eq_true, Bool.or_eq_true, beq_iff_eq, Nat.beq_eq, Nat.ble_eq, Nat.blt_eq] at hr
        · -- ordinary
          have hpy := execs_p he hr.1
          simp only [Bool.false_eq_true, if_false]
          rcases hr.2 with h0 | ⟨h1', h2'⟩
          · have hy : y.p = x.p := by omega
            rw [hy]
            have : (d.length - x.p) = (d.length - (x.p + 1)) + 1 := by omega
            rw [this, Nat.add_mul]
            split <;> split <;> omega
          · have hy : y.p + 1 = x.p := by omega
            rw [hy]
            split <;> split <;> omega
        · -- start of the look-ahead
          simp only [if_true, Bool.false_eq_true, if_false]
          rw [hr.1] at he
          simp only [execs, exec, Res.bind_eq, Res.bind] at he
          cases he
          simp only []
          rw [if_neg (by omega)]
          omega
        · -- backtrack
          have hy := execs_ok he
          have hm : x.mark ≠ 0 := by
            intro h0
            rw [hr.1] at he
            simp [execs, exec, h0, Res.bind_eq, Res.bind] at he
          rw [hr.1] at hy
          have hyp : y.p = x.mark - 1 := by rw [hy]; rfl
          simp only [if_true, Bool.false_eq_true, if_false]
          rw [if_pos hr.2, hyp, show x.mark - 1 + 1 = x.mark by omega]
          omega
        · -- inside the look-ahead
          rw [hr] at he
          cases he
          simp only [if_true]
          omega

theorem rank_le (k : Nat) : rank k ≤ 6 := by
  unfold rank
  simp only [cond_eq_ite]
  repeat' split
  all_goals decide

theorem measure_le {d : Bytes} {k : Nat} {x : Ctx} : measure d k x < fuel d := by
  have h6 := rank_le k
  have key : ∀ a b n : Nat, a ≤ n → b ≤ n + 6 → a * (n + 20) + b < 8 * (n + 2) * (n + 2) := by
    intro a b n ha hb
    have h1 : a * (n + 20) ≤ n * (n + 20) := Nat.mul_le_mul_right _ ha
    have h2 : n * (n + 20) = n * n + 20 * n := by rw [Nat.mul_add, Nat.mul_comm n 20]
    have h3 : 8 * (n + 2) * (n + 2) = 8 * (n * n) + 32 * n + 32 := by
      simp only [Nat.mul_add, Nat.add_mul]
      rw [Nat.mul_assoc 8 n n]; omega
    omega
  unfold measure fuel
  split
  · exact key _ _ _ (Nat.sub_le _ _) (by omega)
  · exact key _ _ _ (Nat.sub_le _ _) (by split <;> omega)

/-- With more fuel than the measure the loop ends. -/
theorem run_ends {d : Bytes} {n k : Nat} {x : Ctx} (h : Inv d k x) (hm : measure d k x < n) :
    run d n k x ≠ .outOfFuel := by
  induction n generalizing k x with
  | zero => omega
  | succ n ih =>
    unfold run
    have hg := step_good h
    cases hs : step d k x with
    | cont k' x' =>
      rw [hs] at hg
      have := measure_lt h hs
      exact ih hg (by omega)
    | brk x' => simp
    | stop e => simp
    | panic => simp

/-- More fuel does not change a result. -/
theorem run_mono {d : Bytes} {n m k : Nat} {x : Ctx} (h : run d n k x ≠ .outOfFuel) (hm : n ≤ m) :
    run d m k x = run d n k x := by
  induction n generalizing k x m with
  | zero => exact absurd rfl h
  | succ n ih =>
    obtain ⟨m, rfl⟩ : ∃ m', m = m' + 1 := ⟨m - 1, by omega⟩
    unfold run at h ⊢
    cases hs : step d k x with
    | cont k' x' =>
      simp only [hs] at h ⊢
      exact ih h (by omega)
    | brk x' => simp
    | stop e => simp
    | panic => simp

/-- How the loop ends. -/
theorem run_cases {d : Bytes} {n k : Nat} {x : Ctx} (h : Reach d k x) :
    match run d n k x with
    | .done y => ∃ k' x', Reach d k' x' ∧ step d k' x' = .brk y
    | .stop e => ∃ k' x', Reach d k' x' ∧ step d k' x' = .stop e
    | .panic => ∃ k' x', Reach d k' x' ∧ step d k' x' = .panic
    | .outOfFuel => True := by
  induction n generalizing k x with
  | zero => simp [run]
  | succ n ih =>
    unfold run
    cases hs : step d k x with
    | cont k' x' => exact ih (h.step hs)
    | brk y => exact ⟨k, x, h, hs⟩
    | stop e => exact ⟨k, x, h, hs⟩
    | panic => exact ⟨k, x, h, hs⟩

end Gosip.Sip.MsgM
