import Verif.Sip.LineValues
import Verif.Spec.Fields

/-!
# Assignments to different fields are independent
-/

namespace Gosip.Sip.MsgM
open Spec

/-- Two intermediate results differ at most in the field of a header. -/
structure CoreSame (h : Option Header) (x y : Core) : Prop where
  msg : SameExcept h x.msg y.msg
  payload : x.msg.payload = y.msg.payload
  clen : h ≠ some .contentLength → x.clen = y.clen
  ctype : h ≠ some .contentType → x.ctype = y.ctype

theorem CoreSame.refl (h : Option Header) (x : Core) : CoreSame h x x := by
  constructor
  case msg => constructor <;> simp
  all_goals simp

theorem CoreSame.trans {h : Option Header} {x y z : Core} (a : CoreSame h x y) (b : CoreSame h y z) : CoreSame h x z := by
  obtain ⟨⟨a1, a2, a3, a4, a5, a6, a7, a8, a9, a10, a11, a12, a13, a14, a15, a16, a17⟩, a18, a19, a20⟩ := a
  obtain ⟨⟨b1, b2, b3, b4, b5, b6, b7, b8, b9, b10, b11, b12, b13, b14, b15, b16, b17⟩, b18, b19, b20⟩ := b
  constructor
  case msg =>
    constructor
    case cseq => exact fun h => ⟨(a12 h).1.trans (b12 h).1, (a12 h).2.trans (b12 h).2⟩
    all_goals grind
  all_goals grind

/-- The same assignment on both sides. -/
theorem CoreSame.app {h : Option Header} {x y : Core} (a : CoreSame h x y) (u : Upd) : CoreSame h (u.app x) (u.app y) := by
  obtain ⟨⟨a1, a2, a3, a4, a5, a6, a7, a8, a9, a10, a11, a12, a13, a14, a15, a16, a17⟩, a18, a19, a20⟩ := a
  cases u <;> (constructor <;> first | (constructor <;> simp only [Upd.app, setAt] <;> grind) | (simp only [Upd.app] <;> grind))

theorem CoreSame.apps {h : Option Header} {x y : Core} (a : CoreSame h x y) (us : List Upd) :
    CoreSame h (apps x us) (apps y us) := by
  induction us generalizing x y with
  | nil => exact a
  | cons u us ih => exact ih (a.app u)

/-- Assignments of a header line other than `l` change its field only. -/
theorem app_own {n : Bytes} {u : Upd} (x : Core) (hn : n.map lower ≠ b!"l") (hu : HeaderUpd n (headerOf n) u) :
    CoreSame (headerOf n) (u.app x) x := by
  cases hh : headerOf n with
  | none =>
    rw [hh] at hu
    obtain ⟨v, rfl⟩ := hu
    constructor
    case msg => constructor <;> simp [Upd.app]
    all_goals simp [Upd.app]
  | some h =>
    rw [hh] at hu
    cases h <;> simp only [HeaderUpd, hreg, nameLoc, if_neg hn] at hu <;> cases u <;> simp [RegUpd] at hu <;>
      (constructor <;> first | (constructor <;> simp only [Upd.app, setAt] <;> grind) | (simp only [Upd.app] <;> grind))

theorem apps_own {n : Bytes} {us : List Upd} (x : Core) (hn : n.map lower ≠ b!"l")
    (hu : ∀ u ∈ us, HeaderUpd n (headerOf n) u) : CoreSame (headerOf n) (apps x us) x := by
  induction us generalizing x with
  | nil => exact .refl _ _
  | cons u us ih =>
    exact (ih (u.app x) fun v hv => hu v (List.mem_cons_of_mem _ hv)).trans (app_own x hn (hu u List.mem_cons_self))

end Gosip.Sip.MsgM
