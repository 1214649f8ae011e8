import Verif.Sip.HeadFields

/-!
# Messages that differ in one header line
-/

namespace Gosip.Sip.MsgM
open Spec

/-- A header under another of its names. -/
theorem line_rename {n n' w v : Bytes} {us : List Upd} (hn : IsName n) (hn' : IsName n') (hw : Blanks w)
    (hk : headerOf n ≠ none) (hh : headerOf n = headerOf n')
    (hl : n.map lower = n'.map lower ∨ (n.map lower ≠ b!"l" ∧ n'.map lower ≠ b!"l")) :
    Line (headerLine n w v) us ↔ Line (headerLine n' w v) us := by
  cases hh' : headerOf n with
  | none => exact absurd hh' hk
  | some h =>
    rw [line_known hn hw hh', line_known hn' hw (hh ▸ hh')]
    have : entry h (n.map lower) = entry h (n'.map lower) := by
      rcases hl with e | ⟨e1, e2⟩
      · rw [e]
      · cases h <;> simp [entry, e1, e2]
    rw [this]

theorem Reads.det {ls : List Bytes} {us vs : List Upd} (h : Reads ls us) (g : Reads ls vs) : us = vs := by
  induction h generalizing vs with
  | nil => exact (reads_nil.1 g).symm
  | cons h1 _ ih =>
    obtain ⟨u, v, rfl, g1, g2⟩ := reads_cons.1 g
    rw [Line.det h1 g1, ih g2]

theorem Start.det {s : Bytes} {us vs : List Upd} (h : Start s us) (g : Start s vs) : us = vs := by
  rw [start_acc] at h g
  obtain ⟨_, h⟩ := h
  obtain ⟨_, g⟩ := g
  exact (SRun.det280 h g).1

theorem reads_rel {R : Bytes → Bytes → Prop} (hR : ∀ L M us, R L M → (Line L us ↔ Line M us)) {ls ms : List Bytes}
    {us : List Upd} (h : LinesRel R ls ms) : Reads ls us ↔ Reads ms us := by
  induction h generalizing us with
  | nil => rfl
  | @cons L M ls ms h _ ih =>
    rw [reads_cons, reads_cons]
    simp only [hR L M _ h, ih]

theorem lines_rel {R : Bytes → Bytes → Prop} (hR : ∀ L M, R L M → HeaderLine L → HeaderLine M) {ls ms : List Bytes}
    (h : LinesRel R ls ms) (hl : ∀ L ∈ ls, HeaderLine L) : ∀ M ∈ ms, HeaderLine M := by
  induction h with
  | nil => exact hl
  | @cons L M ls ms h _ ih =>
    intro N hN
    rcases List.mem_cons.1 hN with rfl | hN
    · exact hR _ _ h (hl L List.mem_cons_self)
    · exact ih (fun L hL => hl L (List.mem_cons_of_mem _ hL)) N hN

/-- Replacing the extension headers. -/
def setX (x : Core) (l : List (Bytes × Bytes)) : Core := { x with msg.xheader := l }

/-- The extension headers assigned, the last one first. -/
def exts : List Upd → List (Bytes × Bytes)
  | [] => []
  | .xheader n v :: us => exts us ++ [(n, v)]
  | _ :: us => exts us

theorem apps_setX (x : Core) (l : List (Bytes × Bytes)) (us : List Upd) :
    apps (setX x l) us = setX (apps x us) (exts us ++ l) := by
  induction us generalizing x l with
  | nil => rfl
  | cons u us ih =>
    rw [apps_cons, apps_cons]
    cases u
    case xheader n v =>
      have : Upd.app (setX x l) (.xheader n v) = setX (Upd.app x (.xheader n v)) ((n, v) :: l) := rfl
      rw [this, ih]
      simp [exts]
    all_goals
      simp only [exts]
      rw [← ih]
      rfl

theorem setX_self (x : Core) : setX x x.msg.xheader = x := rfl

theorem apps_exts (x : Core) (us : List Upd) : (apps x us).msg.xheader = exts us ++ x.msg.xheader := by
  conv => lhs; rw [← setX_self x, apps_setX]
  rfl

/-- The epilogue looks at the length, the type and the body only. -/
theorem sfinish_same {x y : Core} {body : Bytes} {m : Msg} (h1 : x.clen = y.clen) (h2 : x.ctype = y.ctype)
    (h3 : x.msg.payload = y.msg.payload) (h : sfinish x body = .ok m) :
    m = { x.msg with payload := m.payload } ∧ sfinish y body = .ok { y.msg with payload := m.payload } := by
  unfold sfinish at h ⊢
  rw [← h1, ← h2]
  by_cases h0 : x.clen > 0
  · rw [if_pos h0] at h ⊢
    by_cases hne : x.clen ≠ (body.length : Int)
    · rw [if_pos hne] at h; cases h
    rw [if_neg hne] at h ⊢
    by_cases hs : x.ctype = b!"application/sdp"
    · rw [if_pos hs] at h ⊢
      cases hp : Sdp.parse body <;> rw [hp] at h <;> cases h
      exact ⟨rfl, rfl⟩
    · rw [if_neg hs] at h ⊢
      cases h
      exact ⟨rfl, rfl⟩
  · rw [if_neg h0] at h ⊢
    cases h
    refine ⟨rfl, ?_⟩
    rw [h3]

/-- The message returned is the one built, with a payload. -/
theorem sfinish_msg {x : Core} {body : Bytes} {m : Msg} (h : sfinish x body = .ok m) :
    m = { x.msg with payload := m.payload } := (sfinish_same rfl rfl rfl h).1

theorem sameExcept_payloads {h : Option Header} {a b : Msg} {p q : Option Payload} (hab : SameExcept h a b)
    (hp : h ≠ some .contentLength → h ≠ some .contentType → p = q) :
    SameExcept h { a with payload := p } { b with payload := q } := by
  obtain ⟨a1, a2, a3, a4, a5, a6, a7, a8, a9, a10, a11, a12, a13, a14, a15, a16, a17⟩ := hab
  exact ⟨a1, a2, a3, a4, a5, a6, a7, a8, a9, a10, a11, a12, a13, a14, a15, a16, hp⟩

end Gosip.Sip.MsgM
