import Verif.Dialog.Alias
import Verif.Props.Msg

/-!
# C42 — delivered messages and later datagrams

C42 asks that a message handed to the user does not change when later datagrams arrive. It fails for the
values of extension headers and for payloads other than SDP: they are slices of the receive buffer. It
holds for everything else. `Delivered.view m buf` is the message as its holder sees it when the buffer
holds `buf`; `fill` and `fills` are what arriving datagrams do to the buffer.
-/

namespace Gosip.Props
open Sip MsgM Dialog

theorem receiveOne_parsed {lhost : Bytes} {lport : UInt16} {ts : Option Int} {d : Bytes} {addr : UDPAddr}
    {m : Msg} (h : receiveOne lhost lport ts d addr = .ok (some m)) :
    ∃ m0, parseMsg (d.take 2048) = .ok m0 ∧ m.xheader = m0.xheader ∧ m.payload = m0.payload := by
  unfold receiveOne at h
  cases hp : parseMsg (d.take 2048) with
  | err e => rw [hp] at h; cases h
  | panic => rw [hp] at h; cases h
  | ok m0 =>
    rw [hp] at h
    simp only [Res.bind_eq] at h
    obtain ⟨m1, h1, h⟩ := Res.bind_ok_iff.1 h
    obtain ⟨m2, h2, h⟩ := Res.bind_ok_iff.1 h
    obtain ⟨m3, h3, h⟩ := Res.bind_ok_iff.1 h
    have e1 : m1.xheader = m0.xheader ∧ m1.payload = m0.payload := by
      unfold addReceived at h1
      split at h1
      · cases h1; exact ⟨rfl, rfl⟩
      · split at h1
        · cases h1
        · cases h1; exact ⟨rfl, rfl⟩
    have e2 : m2.xheader = m1.xheader ∧ m2.payload = m1.payload := by
      unfold addTimestamp at h2
      split at h2
      · cases h2; exact ⟨rfl, rfl⟩
      · split at h2
        · cases h2
        · cases h2; exact ⟨rfl, rfl⟩
    have e3 : m3.xheader = m2.xheader ∧ m3.payload = m2.payload := by
      unfold popSelf at h3
      split at h3
      · cases h3; exact ⟨rfl, rfl⟩
      · simp only [Res.bind_eq] at h3
        obtain ⟨b, _, h3⟩ := Res.bind_ok_iff.1 h3
        cases h3; cases b <;> exact ⟨rfl, rfl⟩
    have e4 : m.xheader = m3.xheader ∧ m.payload = m3.payload := by
      have : m = fixStrict lhost lport m3 := by
        have : (Res.ok (some (fixStrict lhost lport m3)) : Res Err (Option Msg)) = .ok (some m) := h
        cases this; rfl
      rw [this]
      unfold fixStrict
      split
      · split <;> exact ⟨rfl, rfl⟩
      · exact ⟨rfl, rfl⟩
    exact ⟨m0, rfl, by rw [e4.1, e3.1, e2.1, e1.1], by rw [e4.2, e3.2, e2.2, e1.2]⟩

/-- What a delivered message refers to. -/
structure Refers (m : Delivered) (d : Bytes) : Prop where
  spans : SpansOK d m.msg.xheader m.xs
  body : ∀ t b, m.msg.payload = some (.misc t b) →
    b = seg d m.body.1 m.body.2 ∧ m.body.1 ≤ m.body.2 ∧ m.body.2 = d.length

theorem deliver_refers {lhost : Bytes} {lport : UInt16} {ts : Option Int} {buf buf' d : Bytes}
    {addr : UDPAddr} {m : Delivered} (h : deliver lhost lport ts buf d addr = .ok (buf', some m)) :
    buf' = fill buf d ∧ Refers m (d.take 2048) := by
  simp only [deliver, Res.bind_eq] at h
  obtain ⟨o, ho, h⟩ := Res.bind_ok_iff.1 h
  cases o with
  | none => cases h
  | some m1 =>
    have h : (Res.ok (fill buf d, some (⟨m1, xspans (d.take 2048), bodySpan (d.take 2048)⟩ : Delivered)) :
      Res Err _) = .ok (buf', some m) := h
    cases h
    refine ⟨rfl, ?_⟩
    obtain ⟨m0, hm0, e1, e2⟩ := receiveOne_parsed ho
    obtain ⟨y, hy, hf⟩ := parse_ok hm0
    obtain ⟨_, _, _, _, hp, _⟩ := done_facts hy
    obtain ⟨p, rfl, _⟩ := finish_msg hf
    constructor
    · rw [e1]
      exact run_spans hy ⟨rfl, fun _ h => by cases h⟩
    · intro t b hb
      rw [e2] at hb
      have hbs : bodySpan (d.take 2048) = (y.p, (d.take 2048).length) := by simp only [bodySpan, hy]
      dsimp only
      rw [hbs]
      refine ⟨?_, hp, rfl⟩
      obtain ⟨k, x, hr, hs, _⟩ := done_facts hy
      have hnone := (brk_stored hr hs).payload
      unfold finish at hf
      split at hf
      · split at hf
        · cases hf
        · rw [slice_ok hp (Nat.le_refl _), Res.bind_eq, Res.ok_bind] at hf
          split at hf
          · cases hsd : Sdp.parse (((d.take 2048).take (d.take 2048).length).drop y.p) with
            | ok s => rw [hsd] at hf; cases hf; cases hb
            | err e => rw [hsd] at hf; cases hf
            | panic => rw [hsd] at hf; cases hf
          · have hq : p = some (.misc y.ctype (((d.take 2048).take (d.take 2048).length).drop y.p)) := by
              have := congrArg (fun r => match r with | Res.ok m => Msg.payload m | _ => none) hf
              exact this.symm
            rw [hq] at hb; cases hb; rfl
      · have := congrArg (fun r => match r with | Res.ok m => Msg.payload m | _ => none) hf
        have hq : p = none := by rw [← hnone]; exact this.symm
        rw [hq] at hb; cases hb

theorem zip_spans {l : Pairs} {s : List Span} {d : Bytes} (f : Span → Bytes)
    (h : l.map Prod.snd = s.map fun t => seg d t.1 t.2)
    (hf : ∀ t ∈ s, f t = seg d t.1 t.2) : List.zipWith (fun p t => (p.1, f t)) l s = l := by
  induction l generalizing s with
  | nil => simp
  | cons p l ih =>
    cases s with
    | nil => simp at h
    | cons t s =>
      simp only [List.map_cons, List.cons.injEq] at h
      simp only [List.zipWith_cons_cons, List.cons.injEq]
      refine ⟨?_, ih h.2 (fun u hu => hf u (by simp [hu]))⟩
      rw [hf t (by simp), ← h.1]

/-- A view through a buffer that has the right bytes is the message itself. -/
theorem view_same {m : Delivered} {d buf : Bytes} (h : Refers m d)
    (hx : ∀ t ∈ m.xs, seg buf t.1 t.2 = seg d t.1 t.2)
    (hb : ∀ t b, m.msg.payload = some (.misc t b) →
      seg buf m.body.1 m.body.2 = seg d m.body.1 m.body.2) : m.view buf = m.msg := by
  unfold Delivered.view
  have h1 : List.zipWith (fun p s => (p.1, seg buf s.1 s.2)) m.msg.xheader m.xs = m.msg.xheader :=
    zip_spans (fun t => seg buf t.1 t.2) h.spans.vals hx
  rw [h1]
  have h2 : viewPayload buf m.body m.msg.payload = m.msg.payload := by
    unfold viewPayload
    split
    · rename_i t b hp
      rw [hp, hb t b hp, ← (h.body t b hp).1]
    · rfl
  rw [h2]

/-- **C42 (at delivery).** When a message is handed over it is what was parsed: its view through the
buffer is its value. -/
theorem C42_at_delivery {lhost : Bytes} {lport : UInt16} {ts : Option Int} {buf buf' d : Bytes}
    {addr : UDPAddr} {m : Delivered} (h : deliver lhost lport ts buf d addr = .ok (buf', some m)) :
    m.view buf' = m.msg := by
  obtain ⟨rfl, hr⟩ := deliver_refers h
  refine view_same hr ?_ ?_
  · exact fun t ht => seg_fill (hr.spans.le t ht).2
  · exact fun t b hb => seg_fill (Nat.le_of_eq (hr.body t b hb).2.2)

/-- **C42.** Whatever datagrams arrive later, messages or not, everything in a delivered message stays as
it was except the values of extension headers and the data of a payload that is not SDP; without those
the message does not change at all. Missing: exactly those, see `C42_overwritten`. -/
theorem C42_kept_partial (m : Delivered) (buf : Bytes) (later : List Bytes) :
    let v := m.view (fills buf later)
    (∀ x pl, { v with xheader := x, payload := pl } = { m.msg with xheader := x, payload := pl }) ∧
    (∀ s, m.msg.payload = some (.sdp s) → v.payload = some (.sdp s)) ∧
    (m.msg.payload = none → v.payload = none) ∧
    (m.msg.xheader = [] → (∀ t b, m.msg.payload ≠ some (.misc t b)) → v = m.msg) := by
  refine ⟨fun _ _ => rfl, fun s hs => ?_, fun hs => ?_, fun hx hp => ?_⟩
  · simp only [Delivered.view, hs, viewPayload]
  · simp only [Delivered.view, hs, viewPayload]
  · unfold Delivered.view
    rw [hx]
    have : viewPayload (fills buf later) m.body m.msg.payload = m.msg.payload := by
      unfold viewPayload
      split
      · rename_i t b hb; exact absurd hb (hp t b)
      · rfl
    rw [this, List.zipWith_nil_left]
    show ({ m.msg with xheader := [] } : Msg) = m.msg
    rw [← hx]

/-- **C42.** A delivered message survives a datagram that ends before the first byte it refers to.
Missing: longer datagrams, see `C42_overwritten`. -/
theorem C42_short_kept_partial {m : Delivered} {buf : Bytes} {later : List Bytes}
    (hv : m.view buf = m.msg)
    (hx : ∀ t ∈ m.xs, ∀ e ∈ later, (e.take 2048).length ≤ t.1)
    (hb : ∀ e ∈ later, (e.take 2048).length ≤ m.body.1) : m.view (fills buf later) = m.msg := by
  have key : ∀ i j, (∀ e ∈ later, (e.take 2048).length ≤ i) → seg (fills buf later) i j = seg buf i j := by
    intro i j
    unfold fills
    clear hx hb hv
    induction later generalizing buf with
    | nil => simp
    | cons e l ih =>
      intro h
      rw [List.foldl_cons, ih (fun e' he' => h e' (by simp [he']))]
      exact seg_fill_short (h e (by simp))
  rw [← hv]
  unfold Delivered.view
  have h1 : List.zipWith (fun p s => (p.1, seg (fills buf later) s.1 s.2)) m.msg.xheader m.xs =
      List.zipWith (fun p s => (p.1, seg buf s.1 s.2)) m.msg.xheader m.xs := by
    revert hx
    generalize m.xs = xs
    generalize m.msg.xheader = l
    intro hx
    induction l generalizing xs with
    | nil => rfl
    | cons p l ih =>
      cases xs with
      | nil => rfl
      | cons t xs =>
        simp only [List.zipWith_cons_cons]
        rw [key _ _ (hx t (by simp)), ih xs (fun u hu => hx u (by simp [hu]))]
  have h2 : viewPayload (fills buf later) m.body m.msg.payload =
      viewPayload buf m.body m.msg.payload := by
    unfold viewPayload
    split
    · rw [key _ _ hb]
    · rfl
  rw [h1, h2]

/-- **C42, violated.** Take any delivered message with an extension header, at the place `t` of the packet,
and any later datagram `e` that is at least as long as that place and has other bytes there. Afterwards
the holder of the message sees another value of that header, although nobody touched the message; `e`
need not even be a SIP message. -/
theorem C42_overwritten {lhost : Bytes} {lport : UInt16} {ts : Option Int} {buf buf' d e : Bytes}
    {addr : UDPAddr} {m : Delivered} {t : Span}
    (h : deliver lhost lport ts buf d addr = .ok (buf', some m)) (ht : t ∈ m.xs)
    (he : t.2 ≤ (e.take 2048).length) (hne : seg e t.1 t.2 ≠ seg d t.1 t.2) :
    m.view (fill buf' e) ≠ m.msg := by
  obtain ⟨rfl, hr⟩ := deliver_refers h
  intro hv
  have hx : List.zipWith (fun p s => (p.1, seg (fill (fill buf d) e) s.1 s.2)) m.msg.xheader m.xs
      = m.msg.xheader := congrArg Msg.xheader hv
  have hl : m.msg.xheader.length = m.xs.length := by
    have := congrArg List.length hr.spans.vals; simpa using this
  have h2 : m.xs.map (fun s => seg (fill (fill buf d) e) s.1 s.2) =
      m.xs.map fun s => seg (d.take 2048) s.1 s.2 := by
    rw [← hr.spans.vals]
    conv => rhs; rw [← hx]
    clear hx hr hv ht
    revert hl
    generalize m.msg.xheader = l
    generalize m.xs = xs
    intro hl
    induction l generalizing xs with
    | nil => cases xs <;> simp_all
    | cons p l ih =>
      cases xs with
      | nil => simp at hl
      | cons u xs => simp only [List.map_cons, List.zipWith_cons_cons]; rw [ih xs (by simpa using hl)]
  have h3 := List.map_inj_left.mp h2 t ht
  rw [seg_fill he] at h3
  have hd := (hr.spans.le t ht).2
  have cut : ∀ x : Bytes, t.2 ≤ (x.take 2048).length → seg (x.take 2048) t.1 t.2 = seg x t.1 t.2 := by
    intro x hx
    unfold seg
    rw [List.take_take, Nat.min_eq_left]
    simp at hx; omega
  rw [cut e he, cut d hd] at h3
  exact hne h3

/-- A packet with an extension header, and the next one. -/
def xPacket : Bytes := b!"SIP/2.0 200 OK\r\nX: secret\r\nContent-Length: 2\r\n\r\nhi"
@[inherit_doc xPacket] def xNext : Bytes := b!"SIP/2.0 200 OK\r\nX: public\r\nContent-Length: 2\r\n\r\nyo"

/-- The first message changes when the second arrives: both the header value and the payload. -/
example : ∃ m buf', deliver b!"h" 5060 none (List.replicate 2048 0) xPacket ⟨b!"1.2.3.4", 9⟩ =
      .ok (buf', some m) ∧
    m.msg.xheader = [(b!"X", b!"secret")] ∧ m.msg.payload = some (.misc [] b!"hi") ∧
    (m.view (fill buf' xNext)).xheader = [(b!"X", b!"public")] ∧
    (m.view (fill buf' xNext)).payload = some (.misc [] b!"yo") := by
  refine ⟨{ msg := { versionMajor := 2, status := 200, phrase := b!"OK",
                     xheader := [(b!"X", b!"secret")], payload := some (.misc [] b!"hi") },
            xs := [(19, 25)], body := (48, 50) }, fill (List.replicate 2048 0) xPacket, ?_, ?_⟩
  · have h1 : receiveOne b!"h" 5060 none xPacket ⟨b!"1.2.3.4", 9⟩ =
        .ok (some { versionMajor := 2, status := 200, phrase := b!"OK",
                     xheader := [(b!"X", b!"secret")], payload := some (.misc [] b!"hi") }) := by
      decide +kernel
    have h2 : xspans (xPacket.take 2048) = [(19, 25)] := by decide +kernel
    have h3 : bodySpan (xPacket.take 2048) = (48, 50) := by decide +kernel
    simp only [deliver, h1, h2, h3]; rfl
  · decide +kernel

end Gosip.Props
