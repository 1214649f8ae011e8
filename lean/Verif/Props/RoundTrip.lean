import Verif.Sip.ForwardAll
import Verif.Props.Lists

/-!
# Properties C14 and C15: messages written and read back
-/

namespace Gosip.Props
open Sip Spec MsgM

/-! ## C14: the whole message -/

/-- **C14.** What is read from the text of a message: `readBack m`, whatever the fields, lists, parameters and
body of the message. -/
theorem C14_read_back (gen : Bytes) {m : Msg} (h : MsgOK gen m) : parseMsg (m.text gen) = .ok (readBack m) :=
  read_message h

theorem viaRead_eq {v : Via} : viaRead v = v ↔ v.protocol ≠ [] ∧ v.version ≠ [] ∧ v.transport ≠ [] ∧ v.port ≠ 5060 := by
  obtain ⟨p, w, t, h, q, l⟩ := v
  simp only [viaRead, Via.mk.injEq, ite_eq_right_iff, true_and, and_true, ne_eq]
  have h1 : ∀ {x y : Bytes}, y ≠ [] → ((x = [] → y = x) ↔ ¬ x = []) := fun hy =>
    ⟨fun f e => hy ((f e).trans e), fun f e => absurd e f⟩
  rw [h1 (by decide), h1 (by decide), h1 (by decide)]
  have h2 : (q = 5060 → 0 = q) ↔ ¬ q = 5060 := ⟨fun f e => absurd ((f e).trans e) (by decide), fun f e => absurd e f⟩
  rw [h2]

theorem viaRead_map {l : List Via} : l.map viaRead = l ↔ ∀ v ∈ l, viaRead v = v := by
  induction l with
  | nil => simp
  | cons v l ih => simp [ih]

theorem hdr_eq {h : SField → Bytes} :
    (fun f => if f = .acceptContact ∨ f = .retryAfter then [] else h f) = h ↔ h .acceptContact = [] ∧ h .retryAfter = [] := by
  constructor
  · intro e
    constructor
    · rw [← e]; simp
    · rw [← e]; simp
  · rintro ⟨h1, h2⟩
    funext f
    split
    · next g => rcases g with rfl | rfl <;> simp [h1, h2]
    · rfl

theorem payload_eq {p : Option Payload} : (if ∃ t, p = some (.misc t []) then none else p) = p ↔ ∀ t, p ≠ some (.misc t []) := by
  constructor
  · intro e t ht
    rw [if_pos ⟨t, ht⟩, ht] at e
    cases e
  · intro h
    rw [if_neg (by rintro ⟨t, ht⟩; exact h t ht)]

theorem readBack_eq {m : Msg} : readBack m = m.appended ↔ Complete m := by
  have key : m.appended = { m with phrase := if m.status > 0 ∧ m.phrase = [] then phraseOf m.status else m.phrase } := by
    unfold Msg.appended Msg.isResponse
    by_cases h : m.status > 0 ∧ m.phrase = []
    · rw [if_pos (by simpa using h), if_pos h]
    · rw [if_neg (by simpa using h), if_neg h]
  rw [key]
  constructor
  · intro e
    have hv := congrArg Msg.via e
    have hh := congrArg Msg.hdr e
    have hp := congrArg Msg.payload e
    have h1 := congrArg Msg.versionMajor e
    have h2 := congrArg Msg.method e
    have h3 := congrArg Msg.request e
    have h4 := congrArg Msg.status e
    have h5 := congrArg Msg.phrase e
    have h6 := congrArg Msg.maxForwards e
    have h7 := congrArg Msg.sourceAddr e
    simp only [readBack] at hv hh hp h1 h2 h3 h4 h5 h6 h7
    have hh' := hdr_eq.1 hh
    refine ⟨?_, ?_, ?_, ?_, hh'.1, hh'.2, payload_eq.1 hp, h7.symm⟩
    · intro e; rw [if_pos e, e] at h1; cases h1
    · intro hs
      have hs : ¬ m.status > 0 := by omega
      rw [if_neg hs] at h2 h3 h4 h5 h6
      rw [if_neg (fun h => hs h.1)] at h5
      refine ⟨?_, ?_, ?_, h4.symm, h5.symm⟩
      · intro e; rw [if_pos e, e] at h2; cases h2
      · intro e; rw [e] at h3; cases h3
      · intro e; rw [if_pos e, e] at h6; cases h6
    · intro hs
      rw [if_pos hs] at h2 h3 h6
      exact ⟨h2.symm, h3.symm, h6.symm⟩
    · intro v hv'
      exact viaRead_eq.1 (viaRead_map.1 hv v hv')
  · intro c
    have hv : m.via.map viaRead = m.via := viaRead_map.2 fun v hv => viaRead_eq.2 (c.via v hv)
    have hh := hdr_eq.2 ⟨c.acceptContact, c.retryAfter⟩
    have hp := payload_eq.2 c.payload
    unfold readBack
    rw [hv, hh, hp, if_neg c.version, if_neg c.version, if_pos c.retryAfter, List.append_nil, ← c.sourceAddr]
    by_cases hs : m.status > 0
    · obtain ⟨h2, h3, h6⟩ := c.response hs
      simp only [hs, true_and, h2, h3, h6, if_true]
    · obtain ⟨h2, h3, h6, h4, h5⟩ := c.request (by omega)
      have h3' : some (m.request.getD { scheme := b!"sip", host := b!"www.nasa.gov", port := 80 }) = m.request := by
        cases hr : m.request with
        | none => exact absurd hr h3
        | some u => rfl
      simp only [if_neg h2, if_neg h6, h3', h4, h5]
      simp

/-- **C14.** The message is read back, with the reason phrase that writing a response fills in, exactly if it
is complete. -/
theorem C14_round_trip_iff (gen : Bytes) {m : Msg} (h : MsgOK gen m) : parseMsg (m.text gen) = .ok m.appended ↔ Complete m := by
  rw [C14_read_back gen h, Res.ok.injEq, readBack_eq]

/-- **C14, the part that holds.** Messages with nothing left out are read back as they were written. -/
theorem C14_message_round_trip_partial (gen : Bytes) {m : Msg} (h : MsgOK gen m) (c : Complete m) :
    parseMsg (m.text gen) = .ok m.appended := (C14_round_trip_iff gen h).2 c

/-! ### What is changed -/

/-- **C14 does not hold as stated.** A Via with the port 5060 is read without a port; a request without
`Max-Forwards` is read with 70; a `Retry-After` is read as an extension header, an `Accept-Contact` is lost;
an empty body is lost with its type. -/
theorem C14_changed (gen : Bytes) {m : Msg} (h : MsgOK gen m) :
    ∃ m', parseMsg (m.text gen) = .ok m' ∧
      (∀ v ∈ m.via, v.port = 5060 → m' ≠ m) ∧
      m'.hdr .retryAfter = [] ∧ m'.hdr .acceptContact = [] ∧
      (m.hdr .retryAfter ≠ [] → (b!"RetryAfter", m.hdr .retryAfter) ∈ m'.xheader) ∧
      (m.status ≤ 0 → m.maxForwards = 0 → m'.maxForwards = 70) ∧
      (∀ t, m.payload = some (.misc t []) → m'.payload = none) := by
  refine ⟨_, C14_read_back gen h, ?_, by simp [readBack], by simp [readBack], ?_, ?_, ?_⟩
  · intro v hv hp e
    have := viaRead_eq.1 (viaRead_map.1 (congrArg Msg.via e) v hv)
    exact this.2.2.2 hp
  · intro hr; simp [readBack, hr]
  · intro hs hm
    simp only [readBack]
    rw [if_neg (by omega), if_pos hm]
  · intro t ht; simp [readBack, ht]

/-! ### What cannot be read -/

/-- A text of header lines. -/
def HLines (t : Bytes) (ls : List Bytes) : Prop := t = ls.flatMap (· ++ CRLF) ∧ ∀ L ∈ ls, HeaderLine L

theorem HLines.append {a b : Bytes} {l l' : List Bytes} (h : HLines a l) (g : HLines b l') : HLines (a ++ b) (l ++ l') := by
  refine ⟨by rw [h.1, g.1, List.flatMap_append], ?_⟩
  intro L hL
  rcases List.mem_append.1 hL with hL | hL
  · exact h.2 L hL
  · exact g.2 L hL

theorem hlines_flatten {ts : List Bytes} (h : ∀ t ∈ ts, ∃ ls, HLines t ls) : ∃ ls, HLines ts.flatten ls := by
  induction ts with
  | nil => exact ⟨[], rfl, by simp⟩
  | cons t ts ih =>
    obtain ⟨l, h1⟩ := h t List.mem_cons_self
    obtain ⟨ls, h2⟩ := ih fun x hx => h x (List.mem_cons_of_mem _ hx)
    exact ⟨l ++ ls, h1.append h2⟩

theorem hlines_piece {t : Bytes} {us : List Upd} (h : Piece t us) : ∃ ls, HLines t ls := by
  obtain ⟨ls, h1, h2, _⟩ := h
  exact ⟨ls, h1, h2⟩

theorem pieces_mem {ts : List Bytes} {l : List (List Upd)} (h : Pieces ts l) : ∀ t ∈ ts, ∃ us, Piece t us := by
  induction h with
  | nil => simp
  | cons h1 _ ih =>
    intro t ht
    rcases List.mem_cons.1 ht with rfl | ht
    · exact ⟨_, h1⟩
    · exact ih t ht

theorem reads_mem {ls : List Bytes} {us : List Upd} (h : Reads ls us) : ∀ L ∈ ls, ∃ u, Line L u := by
  induction h with
  | nil => simp
  | cons h1 _ ih =>
    intro L hL
    rcases List.mem_cons.1 hL with rfl | hL
    · exact ⟨_, h1⟩
    · exact ih L hL

theorem payload_lines {gen : Bytes} {m : Msg} (h : MsgOK gen m) :
    ∃ t ls body, payloadText gen m.payload = t ++ CRLF ++ body ∧ HLines t ls := by
  obtain ⟨S, h0⟩ : ∃ S, S = m.payload := ⟨_, rfl⟩
  have len : ∀ n : Nat, ∃ ls, HLines (b!"Content-Length: " ++ natDec n ++ b!"\r\n") ls := fun n =>
    hlines_piece (piece_num (n := b!"Content-Length") (h := .contentLength) (by decide +kernel) (by decide +kernel) rfl rfl)
  cases e : m.payload with
  | none =>
    obtain ⟨ls, hl⟩ := len 0
    refine ⟨_, ls, [], ?_, hl⟩
    show b!"Content-Length: 0\r\n\r\n" = _
    decide +kernel
  | some q =>
    obtain ⟨hlen, hq⟩ := h.payload q e
    obtain ⟨l1, h1⟩ : ∃ ls, HLines (b!"Content-Type: " ++ q.contentType ++ b!"\r\n") ls := by
      refine hlines_piece (.line (n := b!"Content-Type") rfl (line_contentType (by decide +kernel) (by decide +kernel) ?_))
      cases q with
      | sdp d => exact ⟨b!"application", b!"sdp", rfl, ⟨by decide, by decide +kernel⟩, ⟨by decide, by decide +kernel⟩⟩
      | misc t d => exact hq.1
    obtain ⟨l2, h2⟩ := len (q.data gen).length
    refine ⟨_, _, q.data gen, ?_, h1.append h2⟩
    simp [payloadText, itoa_nat, CRLF]

/-- A message that differs in one piece of the header, in which there is a line that cannot be read. -/
theorem bad_line {gen : Bytes} {m m' : Msg} (h : MsgOK gen m) (e1 : startLine m' = startLine m) (e2 : m'.payload = m.payload)
    {i : Nat} {t : Bytes} (hi : i < (headerLines m).length) (e3 : headerLines m' = (headerLines m).set i t) {a b : List Bytes} {L : Bytes}
    (ht : HLines t (a ++ L :: b)) (hL : ∀ u, ¬ Line L u) (x : Msg) : parseMsg (m'.text gen) ≠ .ok x := by
  intro hx
  obtain ⟨S, u0, g1, g2, _⟩ := start_ok h
  have hp : ∀ y ∈ headerLines m, ∃ ls, HLines y ls := fun y hy => by
    obtain ⟨us, hu⟩ := pieces_mem (pieces_head h) y hy
    exact hlines_piece hu
  obtain ⟨l1, k1⟩ := hlines_flatten (ts := (headerLines m).take i) fun y hy => hp y (List.mem_of_mem_take hy)
  obtain ⟨l2, k2⟩ := hlines_flatten (ts := (headerLines m).drop (i + 1)) fun y hy => hp y (List.mem_of_mem_drop hy)
  obtain ⟨pt, l3, body, e4, k3⟩ := payload_lines h
  have k := ((k1.append ht).append k2).append k3
  have e : m'.text gen = headText S (l1 ++ (a ++ L :: b) ++ l2 ++ l3) ++ body := by
    unfold Msg.text headText
    rw [← k.1, e1, e2, e3, g1, e4, List.set_eq_take_append_cons_drop, if_pos hi]
    simp
  rw [e] at hx
  obtain ⟨hb, v0, vs, _, hr, _⟩ := (parse_head g2 k.2).1 hx
  obtain ⟨u, hu⟩ := reads_mem hr L (by simp)
  exact hL u hu

/-- A header line that can be read can be read alone. -/
theorem line_alone {n v : Bytes} {h : Header} {us : List Upd} (hn : IsName n) (hL : HeaderLine (headerLine n [] v))
    (hh : headerOf n = some h) (hc : h ≠ .contentLength) (hc2 : h ≠ .contentType) (hu : Line (headerLine n [] v) us) :
    ∃ m, parseMsg (headText b!"SIP/2.0 200 OK" [headerLine n [] v]) = .ok m := by
  obtain ⟨u0, h1, _, _, h4, h5⟩ := ok_start
  have hs : LogicalLine b!"SIP/2.0 200 OK" := plain_ok (by decide +kernel)
  have e1 : headerOf n ≠ some .contentLength := by rw [hh]; simpa using hc
  have e2 : headerOf n ≠ some .contentType := by rw [hh]; simpa using hc2
  have hown := apps_own (apps {} u0) (ne_l e1) (line_reg hn no_blanks hL.one hu)
  have hf := sfinish_same (hown.clen e1).symm (hown.ctype e2).symm hown.payload.symm h5
  have hp := (parse_head (body := []) hs (ls := [headerLine n [] v]) (by simpa using hL)).2
      ⟨(by rintro ⟨_, _, e, _⟩; cases e), u0, us ++ [], h1, .cons hu .nil, by
        rw [List.append_nil, apps_append]; exact hf.2⟩
  rw [List.append_nil] at hp
  exact ⟨_, hp⟩

/-- The outcome is not a message. -/
def refused : Res MErr Msg → Bool
  | .ok _ => false
  | _ => true

/-- A line that is refused alone cannot be read. -/
theorem no_line {n v : Bytes} {h : Header} (hn : IsName n) (hL : HeaderLine (headerLine n [] v)) (hh : headerOf n = some h)
    (hc : h ≠ .contentLength) (hc2 : h ≠ .contentType)
    (hp : refused (parseMsg (headText b!"SIP/2.0 200 OK" [headerLine n [] v])) = true) (us : List Upd) : ¬ Line (headerLine n [] v) us := by
  intro hu
  obtain ⟨m, hm⟩ := line_alone hn hL hh hc hc2 hu
  rw [hm] at hp
  cases hp

/-- **C14 does not hold as stated.** Whatever else the message has: without an address in From or To, or
without a Call-ID, its text cannot be read. -/
theorem C14_unreadable (gen : Bytes) {m : Msg} (h : MsgOK gen m) (x : Msg) :
    parseMsg (({ m with addrs := setAt m.addrs .from [] } : Msg).text gen) ≠ .ok x ∧
    parseMsg (({ m with addrs := setAt m.addrs .to [] } : Msg).text gen) ≠ .ok x ∧
    parseMsg (({ m with callID := [] } : Msg).text gen) ≠ .ok x := by
  have one : ∀ {n : Bytes} {t : Bytes}, IsName n → t = n ++ b!": \r\n" → HLines t ([] ++ headerLine n [] [32] :: []) := by
    intro n t hn e
    refine ⟨by rw [e]; simp [headerLine, CRLF], ?_⟩
    intro L hL
    rw [List.nil_append, List.mem_singleton] at hL
    rw [hL]
    exact line_ok hn .nil
  have len : (headerLines m).length = 49 := rfl
  refine ⟨?_, ?_, ?_⟩
  · refine bad_line h (m' := { m with addrs := setAt m.addrs .from [] }) rfl rfl (i := 0) (t := b!"From: \r\n") (by rw [len]; decide) rfl
      (one (n := b!"From") (by decide +kernel) rfl) (no_line (h := .address .from) (by decide +kernel) (line_ok (by decide +kernel) .nil)
        (by decide +kernel) (by decide) (by decide) (by decide +kernel)) x
  · refine bad_line h (m' := { m with addrs := setAt m.addrs .to [] }) rfl rfl (i := 1) (t := b!"To: \r\n") (by rw [len]; decide) rfl
      (one (n := b!"To") (by decide +kernel) rfl) (no_line (h := .address .to) (by decide +kernel) (line_ok (by decide +kernel) .nil)
        (by decide +kernel) (by decide) (by decide) (by decide +kernel)) x
  · refine bad_line h (m' := { m with callID := [] }) rfl rfl (i := 6) (t := b!"Call-ID: \r\n") (by rw [len]; decide) rfl
      (one (n := b!"Call-ID") (by decide +kernel) rfl) (no_line (h := .callID) (by decide +kernel) (line_ok (by decide +kernel) .nil)
        (by decide +kernel) (by decide) (by decide) (by decide +kernel)) x

/-- **C14 does not hold as stated.** A Via whose host is an IPv6 address — as the parser stores
it, without brackets — makes the text unreadable. -/
theorem C14_ipv6_via_unreadable (gen : Bytes) {m : Msg} (h : MsgOK gen m) {v : Via} (hv : ViaOK { v with host := b!"h" })
    (h6 : ∀ c ∈ v.host, ip6c c) (h2 : 2 ≤ v.host.count 58) (x : Msg) :
    parseMsg (({ m with via := v :: m.via } : Msg).text gen) ≠ .ok x := by
  obtain ⟨ls, hl⟩ := hlines_piece (piece_vias h.via)
  have hf : Flat v.text := by
    refine .viaParts hv.protocol hv.version hv.transport ?_ (.params hv.param)
    have : ∀ c : UInt8, ip6c c → c ≠ 13 := by decide +kernel
    exact fun c hc => this c (h6 c hc)
  have hn : IsName b!"Via" := by decide +kernel
  refine bad_line h (m' := { m with via := v :: m.via }) rfl rfl (i := 2) (t := viaLines (v :: m.via))
    (by rw [show (headerLines m).length = 49 from rfl]; decide) rfl (a := []) (b := ls) (L := headerLine b!"Via" [] (32 :: v.text))
    ⟨?_, ?_⟩ (line_via_colons hn (by decide +kernel) hv.protocol hv.version hv.transport h6 h2) x
  · have e : viaLines (v :: m.via) = b!"Via: " ++ v.text ++ b!"\r\n" ++ viaLines m.via := rfl
    rw [e, hl.1]
    simp [headerLine, CRLF]
  · intro L hL
    rcases List.mem_cons.1 hL with rfl | hL
    · exact line_ok hn hf
    · exact hl.2 L hL

/-- An address for the examples. -/
def exAddr (user : Bytes) : Addr :=
  { uri := some { scheme := b!"sip", user := user, host := b!"example.com" }
    display := b!"Bob \"the \\builder\""
    param := [(b!"tag", b!"a;b"), (b!"lr", [])] }

theorem ok_exAddr : AddrOK (exAddr b!"bob") := by
  refine ⟨⟨_, rfl, (Uri.parseURI_grammar _ _).1 (by decide +kernel)⟩, .inr ⟨?_, ?_⟩, ?_⟩
  · repeat (first | exact .nil | refine .char (by decide) (by decide) (by decide) ?_)
  · exact ⟨34, by decide +kernel, by decide +kernel, by decide⟩
  · intro p hp
    rcases List.mem_cons.1 hp with rfl | hp
    · refine ⟨⟨by decide, by decide +kernel⟩, .inr ⟨?_, 59, by decide +kernel, by decide +kernel, by decide⟩⟩
      repeat (first | exact .nil | refine .char (by decide) (by decide) (by decide) ?_)
    · rcases List.mem_cons.1 hp with rfl | hp
      · exact ⟨⟨by decide, by decide +kernel⟩, .inl (by decide +kernel)⟩
      · cases hp

theorem text_plain {v : Bytes} (h : ∀ c ∈ v, (32 ≤ c.toNat ∧ c.toNat < 127)) (h0 : skipWs v = v) : TextOK v := by
  refine ⟨?_, h0⟩
  clear h0
  induction v with
  | nil => exact .nil
  | cons c v ih => exact .char (.inr (by have := h c List.mem_cons_self; omega)) (ih fun x hx => h x (List.mem_cons_of_mem _ hx))

/-- A request with a bit of everything. -/
def exMsg : Msg :=
  { versionMajor := 2
    method := b!"INVITE"
    request := some { scheme := b!"sip", user := b!"bob", host := b!"example.com", port := 5062, param := [(b!"transport", b!"tcp")] }
    addrs := fun f => if f = .from ∨ f = .to ∨ f = .route then [exAddr b!"bob", exAddr b!"bob"] else []
    via := [{ protocol := b!"SIP", version := b!"2.0", transport := b!"UDP", host := b!"10.0.0.1", port := 5070, param := [(b!"branch", b!"z9hG4bK\"1")] },
            { protocol := b!"SIP", version := b!"2.0", transport := b!"TLS", host := b!"a-b.example.com" }]
    callID := b!"a84b4c76e66710@10.0.0.1"
    cseq := 314159
    cseqMethod := b!"INVITE"
    maxForwards := 69
    expires := 3600
    hdr := fun f => if f = .subject then b!"hello, world: \"ok\"" else []
    xheader := [(b!"X-B", b!"2"), (b!"X-A", b!"1, 2"), (b!"X-B", [])]
    payload := some (.misc b!"text/plain" b!"\r\n\r\nINVITE ") }

theorem quotable_of {s : Bytes} (h : ∀ c ∈ s, c.toNat < 128 ∧ c ≠ 13 ∧ c ≠ 10) : Quotable s := by
  induction s with
  | nil => exact .nil
  | cons c s ih =>
    have := h c List.mem_cons_self
    exact .char this.1 this.2.1 this.2.2 (ih fun x hx => h x (List.mem_cons_of_mem _ hx))

theorem ok_exMsg : MsgOK [] exMsg ∧ Complete exMsg := by
  constructor
  · refine ⟨.inl ⟨by decide, .inr ⟨by decide, by decide +kernel⟩, ?_, by decide⟩, ?_, ?_, by decide, by decide, ?_, by decide,
      ⟨by decide, by decide +kernel⟩, by decide, by decide, ?_, ?_, ?_⟩
    · intro u hu; cases hu; exact (Uri.parseURI_grammar _ _).1 (by decide +kernel)
    · have h1 : ∀ v ∈ exMsg.via, (∀ c ∈ v.protocol, token c) ∧ (∀ c ∈ v.version, token c) ∧ (∀ c ∈ v.transport, token c) := by decide +kernel
      have h2 : ∀ v ∈ exMsg.via, v.host ≠ [] ∧ (∀ c ∈ v.host, viaHostc c) := by decide +kernel
      have h3 : ∀ v ∈ exMsg.via, ∀ p ∈ v.param, (p.1 ≠ [] ∧ (∀ c ∈ p.1, token c)) ∧ (∀ c ∈ p.2, c.toNat < 128 ∧ c ≠ 13 ∧ c ≠ 10) ∧ ∃ c ∈ p.2, ¬ token c ∧ c ≠ 32 := by
        decide +kernel
      intro v hv
      exact ⟨(h1 v hv).1, (h1 v hv).2.1, (h1 v hv).2.2, (h2 v hv).1, (h2 v hv).2, fun p hp =>
        ⟨(h3 v hv p hp).1, .inr ⟨quotable_of (h3 v hv p hp).2.1, (h3 v hv p hp).2.2⟩⟩⟩
    · intro f a ha
      have : a = exAddr b!"bob" := by
        cases f <;> simp [exMsg] at ha <;> exact ha
      rw [this]
      exact ok_exAddr
    · exact ⟨b!"a84b4c76e66710", b!"10.0.0.1", by decide, by decide +kernel, .inr ⟨by decide +kernel, by decide, by decide +kernel⟩⟩
    · intro f hf
      by_cases e : f = .subject
      · subst e; exact text_plain (by decide +kernel) (by decide +kernel)
      · have : exMsg.hdr f = [] := if_neg e
        rw [this]; exact text_plain (fun _ h => nomatch h) rfl
    · have h1 : ∀ p ∈ exMsg.xheader, (p.1 ≠ [] ∧ ∀ c ∈ p.1, token c) ∧ headerOf p.1 = none := by decide +kernel
      have h2 : ∀ p ∈ exMsg.xheader, ¬ ∃ q ∈ headerNames, p.1.map lower <+: q.1 := by decide +kernel
      have h3 : ∀ p ∈ exMsg.xheader, (∀ c ∈ p.2, (32 ≤ c.toNat ∧ c.toNat < 127)) ∧ skipWs p.2 = p.2 := by decide +kernel
      intro p hp
      exact ⟨(h1 p hp).1, (h1 p hp).2, fun h => h2 p hp h.2, text_plain (h3 p hp).1 (h3 p hp).2⟩
    · intro p hp
      cases hp
      refine ⟨by decide, ⟨b!"text", b!"plain", by decide +kernel, ⟨by decide, by decide +kernel⟩, ⟨by decide, by decide +kernel⟩⟩, by decide, ?_⟩
      rintro ⟨w, r, e, h⟩
      cases e
      revert h; decide
  · refine ⟨by decide, fun _ => ⟨by decide, (fun e => by cases e), by decide, rfl, rfl⟩, fun h => absurd h (by decide), by decide +kernel, by decide, by decide, ?_, rfl⟩
    intro t h; cases h

example : parseMsg (exMsg.text []) = .ok exMsg := C14_message_round_trip_partial [] ok_exMsg.1 ok_exMsg.2

example (x : Msg) : parseMsg (({ exMsg with callID := [] } : Msg).text []) ≠ .ok x := (C14_unreadable [] ok_exMsg.1 x).2.2

example (x : Msg) : parseMsg (({ exMsg with via := { host := b!"fe80::1", port := 5062 } :: exMsg.via } : Msg).text []) ≠ .ok x :=
  C14_ipv6_via_unreadable [] ok_exMsg.1 ⟨(by intro c h; cases h), (by intro c h; cases h), (by intro c h; cases h), by decide,
    by decide +kernel, (by intro c h; cases h)⟩ (by decide +kernel) (by decide) x

end Gosip.Props
