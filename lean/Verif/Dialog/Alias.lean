import Verif.Dialog.Receive
import Verif.Sip.MsgSafe

/-!
# The receive buffer is shared with delivered messages

`ReceiveMessages` reads every datagram into the same array `buf` (`dialog/receiver.go:27,33,39`), and
`ParseMsg` keeps slices of it: the values of extension headers (`sip/sip.rl:180-187`, `b := data[mark:p-1]`
stored without conversion) and the data of a payload that is not SDP (`sip/msg_parse.rl:74`). All other
texts of a message are Go strings, which are copies. Here the positions of those slices are recorded
beside the run of the parser, so that it can be said what a delivered message looks like when `buf` has
been overwritten.
-/

namespace Gosip.Dialog
open Sip MsgM

/-- Positions `[lo, hi)` in the receive buffer. -/
abbrev Span := Nat × Nat

/-- The slice an action stores in a message (`sip/sip.rl:180-187`). -/
def spanOf (a : MAct) (x : Ctx) : List Span :=
  match a with
  | .value => if x.value = none then [(x.mark, x.p - 1)] else []
  | _ => []

/-- The slices stored by the actions of one transition, added in front of `s`. -/
def actSpans (d : Bytes) : List MAct → Ctx → List Span → List Span
  | [], _, s => s
  | a :: l, x, s =>
    match exec d a x with
    | .ok y => actSpans d l y (spanOf a x ++ s)
    | _ => s

/-- The slices stored by one pass through the loop (`Sip.MsgM.step`). -/
def stepSpans (d : Bytes) (k : Nat) (x : Ctx) (s : List Span) : List Span :=
  match d[x.p]? with
  | none => s
  | some c =>
    match lookup (rows k) (symbol d k x.p c) with
    | none => s
    | some r => actSpans d r.acts x s

/-- The slices stored by the loop (`Sip.MsgM.run`). -/
def runSpans (d : Bytes) : Nat → Nat → Ctx → List Span → List Span
  | 0, _, _, s => s
  | n + 1, k, x, s =>
    match step d k x with
    | .cont k' x' => runSpans d n k' x' (stepSpans d k x s)
    | _ => stepSpans d k x s

/-- Where in the packet the values of the extension headers are, latest first. -/
def xspans (d : Bytes) : List Span := runSpans d (fuel d) 1 (initCtx d) []

/-- Where the body is (`sip/msg_parse.rl:68-74`, `data[p:len(data)]`). -/
def bodySpan (d : Bytes) : Span :=
  match run d (fuel d) 1 (initCtx d) with
  | .done x => (x.p, d.length)
  | _ => (0, 0)

/-- A message sent on the channel: its value at that moment and the parts of the buffer it refers to. -/
structure Delivered where
  msg : Msg
  xs : List Span
  body : Span

/-- The payload, its data being the slice `t` of the buffer unless it is SDP (a structure of its own). -/
def viewPayload (buf : Bytes) (t : Span) : Option Payload → Option Payload
  | some (.misc ty _) => some (.misc ty (seg buf t.1 t.2))
  | p => p

/-- What a delivered message is when the buffer holds `buf`. -/
def Delivered.view (m : Delivered) (buf : Bytes) : Msg :=
  { m.msg with
    xheader := List.zipWith (fun p s => (p.1, seg buf s.1 s.2)) m.msg.xheader m.xs
    payload := viewPayload buf m.body m.msg.payload }

/-- `sock.ReadFromUDP(buf)` (`dialog/receiver.go:32`): the datagram overwrites the start of the buffer;
bytes beyond 2048 are lost. -/
def fill (buf datagram : Bytes) : Bytes :=
  datagram.take 2048 ++ buf.drop (datagram.take 2048).length

/-- One turn of `ReceiveMessages` (`dialog/receiver.go:31-54`): the buffer afterwards and what is sent on
the channel. -/
def deliver (lhost : Bytes) (lport : UInt16) (ts : Option Int) (buf datagram : Bytes) (addr : UDPAddr) :
    Res Err (Bytes × Option Delivered) := do
  let m ← receiveOne lhost lport ts datagram addr
  pure (fill buf datagram, m.map fun m =>
    { msg := m, xs := xspans (datagram.take 2048), body := bodySpan (datagram.take 2048) })

/-- The buffer after further datagrams, whether or not they are messages. -/
def fills (buf : Bytes) (l : List Bytes) : Bytes := l.foldl fill buf

/-! ### The recorded positions are right -/

/-- The positions `s` are those of the values of `l` in `d`. -/
structure SpansOK (d : Bytes) (l : Pairs) (s : List Span) : Prop where
  vals : l.map Prod.snd = s.map fun t => seg d t.1 t.2
  le : ∀ t ∈ s, t.1 ≤ t.2 ∧ t.2 ≤ d.length

theorem exec_spans {d : Bytes} {a : MAct} {x y : Ctx} {s : List Span} (h : exec d a x = .ok y)
    (hs : SpansOK d x.msg.xheader s) : SpansOK d y.msg.xheader (spanOf a x ++ s) := by
  have hy := exec_ok h
  by_cases hv : a = .value
  · subst hv
    simp only [exec, Res.bind_eq] at h
    split at h
    · cases h
    · obtain ⟨t, ht, h⟩ := Res.bind_ok_iff.1 h
      obtain ⟨rfl, hle⟩ := slice_eq_ok ht
      cases hval : x.value with
      | some f =>
        rw [hval] at h; cases h
        simpa [spanOf, hval] using hs
      | none =>
        rw [hval] at h; cases h
        simp only [spanOf, hval, if_true, List.cons_append, List.nil_append]
        refine ⟨by simp [hs.vals], ?_⟩
        intro t ht
        rcases List.mem_cons.mp ht with rfl | ht
        · exact hle
        · exact hs.le t ht
  · have h1 : y.msg.xheader = x.msg.xheader := by
      subst hy
      cases a <;> first | rfl | (exact absurd rfl hv) | (simp only [eff]; split <;> rfl)
    have h2 : spanOf a x = [] := by cases a <;> first | rfl | exact absurd rfl hv
    rw [h1, h2]; exact hs

theorem execs_spans {d : Bytes} {l : List MAct} {x y : Ctx} {s : List Span} (h : execs d l x = .ok y)
    (hs : SpansOK d x.msg.xheader s) : SpansOK d y.msg.xheader (actSpans d l x s) := by
  induction l generalizing x s with
  | nil => cases h; exact hs
  | cons a l ih =>
    simp only [execs, Res.bind_eq] at h
    obtain ⟨z, hz, h⟩ := Res.bind_ok_iff.1 h
    simp only [actSpans, hz]
    exact ih h (exec_spans hz hs)

theorem step_spans {d : Bytes} {k : Nat} {x y : Ctx} {s : List Span}
    (h : (∃ k', step d k x = .cont k' y) ∨ step d k x = .brk y)
    (hs : SpansOK d x.msg.xheader s) : SpansOK d y.msg.xheader (stepSpans d k x s) := by
  rcases step_cases (d := d) (k := k) (x := x) with ⟨_, e⟩ | ⟨c, _, _, e⟩ | ⟨c, r, hc, hr, e⟩
  · rw [e] at h; rcases h with ⟨_, h⟩ | h <;> cases h
  · rw [e] at h; rcases h with ⟨_, h⟩ | h <;> cases h
  · rw [e] at h
    simp only [stepSpans, hc, hr]
    cases he : execs d r.acts x with
    | panic => rw [he] at h; rcases h with ⟨_, h⟩ | h <;> cases h
    | err e => rw [he] at h; rcases h with ⟨_, h⟩ | h <;> cases h
    | ok z =>
      have := execs_spans he hs
      rw [he] at h
      unfold after at h
      dsimp only at h
      split at h
      · rcases h with ⟨_, h⟩ | h
        · cases h
        · cases h; exact this
      · rcases h with ⟨_, h⟩ | h
        · cases h; exact this
        · cases h

theorem run_spans {d : Bytes} {n k : Nat} {x y : Ctx} {s : List Span} (h : run d n k x = .done y)
    (hs : SpansOK d x.msg.xheader s) : SpansOK d y.msg.xheader (runSpans d n k x s) := by
  induction n generalizing k x s with
  | zero => cases h
  | succ n ih =>
    unfold run at h
    unfold runSpans
    cases hst : step d k x with
    | cont k' x' =>
      simp only [hst] at h ⊢
      exact ih h (step_spans (.inl ⟨k', hst⟩) hs)
    | brk x' =>
      simp only [hst] at h ⊢
      cases h
      exact step_spans (.inr hst) hs
    | stop e => simp [hst] at h
    | panic => simp [hst] at h

/-! ### The buffer -/

theorem seg_append {a b : Bytes} {i j : Nat} (h : j ≤ a.length) : seg (a ++ b) i j = seg a i j := by
  unfold seg; rw [List.take_append_of_le_length h]

theorem seg_fill {buf d : Bytes} {i j : Nat} (h : j ≤ (d.take 2048).length) :
    seg (fill buf d) i j = seg (d.take 2048) i j := seg_append h

theorem fill_length {buf d : Bytes} (h : buf.length = 2048) : (fill buf d).length = 2048 := by
  simp [fill]; omega

/-- A datagram leaves the part of the buffer behind it alone. -/
theorem seg_fill_short {buf d : Bytes} {i j : Nat} (h : (d.take 2048).length ≤ i) :
    seg (fill buf d) i j = seg buf i j := by
  unfold seg fill
  generalize d.take 2048 = e at h
  rw [List.drop_take, List.drop_take, List.drop_append, List.drop_eq_nil_of_le h, List.nil_append,
    List.drop_drop]
  congr 2; omega

end Gosip.Dialog
