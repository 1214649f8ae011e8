import Verif.Sip.ForwardMsg
import Verif.Sdp.RoundTrip

/-!
# The text of a whole message, read: the fields
-/

namespace Gosip.Sip.MsgM
open Spec

theorem apps_maxForwards {gen : Bytes} {m : Msg} (h : MsgOK gen m) (x : Core) (hx : x.msg.maxForwards = 0) :
    apps x (maxForwardsUs m) = { x with msg.maxForwards := (readBack m).maxForwards } := by
  unfold maxForwardsUs readBack
  rcases h.start with r | r
  · have hs := r.status
    have e : m.isResponse = false := by simp [Msg.isResponse]; omega
    have h1 := r.maxForwards
    simp only [e, Bool.not_false, if_true]
    rw [if_neg (show ¬ m.status > 0 by omega), apps_number (set := fun x n => { x with msg.maxForwards := n }) (fun _ _ => rfl) (fun _ _ _ => rfl)]
    by_cases h0 : m.maxForwards = 0
    · rw [if_pos h0, if_pos h0]; rfl
    · rw [if_neg h0, if_neg h0, wrap_nat (by omega) (by omega)]
  · have hs := r.status
    have e : m.isResponse = true := by simp [Msg.isResponse]; omega
    simp only [e, Bool.not_true, if_pos (show m.status > 0 by omega)]
    rw [← hx]
    rfl

theorem apps_expires {gen : Bytes} {m : Msg} (h : MsgOK gen m) (x : Core) (hx : x.msg.expires = 0) :
    apps x (expiresUs m) = { x with msg.expires := m.expires } := by
  have h1 := h.expires
  unfold expiresUs
  split
  · rw [apps_number (set := fun x n => { x with msg.expires := n }) (fun _ _ => rfl) (fun _ _ _ => rfl), wrap_nat (by omega) (by omega)]
  · next g =>
    have : m.expires = 0 := by
      have : ¬ m.expires > 0 := fun e => g (.inl e)
      omega
    rw [this, ← hx]; rfl

theorem apps_minExpires {gen : Bytes} {m : Msg} (h : MsgOK gen m) (x : Core) (hx : x.msg.minExpires = 0) :
    apps x (minExpiresUs m) = { x with msg.minExpires := m.minExpires } := by
  have h1 := h.minExpires
  unfold minExpiresUs
  split
  · rw [apps_number (set := fun x n => { x with msg.minExpires := n }) (fun _ _ => rfl) (fun _ _ _ => rfl), wrap_nat (by omega) (by omega)]
  · next g =>
    have : m.minExpires = 0 := by omega
    rw [this, ← hx]; rfl

theorem apps_cseq {gen : Bytes} {m : Msg} (h : MsgOK gen m) (x : Core) (hx : x.msg.cseq = 0) :
    apps x ((natDec m.cseq.toNat).map .cseq ++ [.cseqMethod m.cseqMethod]) =
      { x with msg.cseq := m.cseq, msg.cseqMethod := m.cseqMethod } := by
  have h1 := h.cseq
  have loop : ∀ (ds : Bytes) (z : Int), apps { x with msg.cseq := z } (ds.map .cseq) = { x with msg.cseq := ds.foldl dec64 z } := by
    intro ds
    induction ds with
    | nil => intro z; rfl
    | cons d ds ih => intro z; rw [List.map_cons, apps_cons]; exact ih (dec64 z d)
  have : apps x ((natDec m.cseq.toNat).map .cseq) = { x with msg.cseq := m.cseq } := by
    cases e : natDec m.cseq.toNat with
    | nil => exact absurd e (natDec_ne_nil _)
    | cons d ds =>
      have := loop (d :: ds) 0
      rw [List.foldl_cons, dec64_natDec e, wrap_nat h1.1 h1.2] at this
      rw [← this, ← hx]
  rw [apps_append, this]
  rfl

theorem apps_flatten (x : Core) (l : List (List Upd)) : apps x l.flatten = l.foldl apps x := by
  induction l generalizing x with
  | nil => rfl
  | cons u l ih => rw [List.flatten_cons, apps_append, ih]; rfl

/-- The message without its start line and body. -/
theorem apps_head {gen : Bytes} {m : Msg} (h : MsgOK gen m) (a b : UInt8) (me : Bytes) (rq : Option URI) (st : Int) (ph : Bytes) :
    apps { msg := { versionMajor := a, versionMinor := b, method := me, request := rq, status := st, phrase := ph } } (headUs m).flatten =
      { msg := { readBack m with
          versionMajor := a
          versionMinor := b
          method := me
          request := rq
          status := st
          phrase := ph
          payload := none } } := by
  rw [apps_flatten]
  unfold headUs
  simp only [List.foldl_cons, List.foldl_nil, apps_str, apps_addr, apps_vias, apps_xheaders, apps_retry, apps_cseq h, apps_maxForwards h,
    apps_expires h, apps_minExpires h, apps_cons, apps_nil, Upd.app]
  simp only [Core.mk.injEq, Msg.mk.injEq, and_true, true_and]
  refine ⟨rfl, ?_, ?_, rfl, rfl, rfl, rfl, rfl, ?_, ?_⟩
  · funext f; cases f <;> simp [setAt, readBack]
  · simp [readBack]
  · funext f; cases f <;> simp [strSet, readBack] <;> exact fun e => e.symm
  · simp [readBack]

/-! ### The start line -/

theorem apps_major (x : Core) (ds : Bytes) :
    apps x (ds.map .versionMajor) = { x with msg.versionMajor := ds.foldl (fun v c => v * 10 + (c - 48)) x.msg.versionMajor } := by
  induction ds generalizing x with
  | nil => rfl
  | cons d ds ih => rw [List.map_cons, apps_cons, ih]; rfl

theorem apps_minor (x : Core) (ds : Bytes) :
    apps x (ds.map .versionMinor) = { x with msg.versionMinor := ds.foldl (fun v c => v * 10 + (c - 48)) x.msg.versionMinor } := by
  induction ds generalizing x with
  | nil => rfl
  | cons d ds ih => rw [List.map_cons, apps_cons, ih]; rfl

theorem apps_status (x : Core) (ds : Bytes) :
    apps x (ds.map .status) = { x with msg.status := ds.foldl dec64 x.msg.status } := by
  induction ds generalizing x with
  | nil => rfl
  | cons d ds ih => rw [List.map_cons, apps_cons, ih]; rfl

theorem version_value : ∀ v : UInt8, (natDec v.toNat).foldl (fun v c => v * 10 + (c - 48)) (0 : UInt8) = v := by
  decide +kernel

/-- Characters of the phrases of the library. -/
def plainc (c : UInt8) : Bool :=
  (Nat.ble 97 c.toNat && Nat.ble c.toNat 122) || (Nat.ble 65 c.toNat && Nat.ble c.toNat 90) || Nat.beq c.toNat 32 ||
    Nat.beq c.toNat 45 || Nat.beq c.toNat 47

theorem phrase_ok (st : Int) : ReasonText (phraseOf st) ∧ phraseOf st ≠ [] := by
  have ascii : ∀ p : Bytes, (∀ c ∈ p, reasonc c) → ReasonText p := by
    intro p
    induction p with
    | nil => intro _; exact .nil
    | cons c p ih => intro h; exact .char (h c List.mem_cons_self) (ih fun x hx => h x (List.mem_cons_of_mem _ hx))
  have all : ∀ q ∈ phrases.map (·.2), (∀ c ∈ q, reasonc c) ∧ q ≠ [] := by
    have h1 : (phrases.map (·.2)).all (fun q => !q.isEmpty && q.all fun c => plainc c) = true := by decide +kernel
    have h2 : ∀ c : UInt8, plainc c = true → reasonc c := by decide +kernel
    intro q hq
    have := List.all_eq_true.1 h1 q hq
    rw [Bool.and_eq_true] at this
    exact ⟨fun c hc => h2 c (List.all_eq_true.1 this.2 c hc), by rintro rfl; simp at this⟩
  have dflt : (∀ c ∈ b!"Unknown Status Code", reasonc c) ∧ b!"Unknown Status Code" ≠ [] := by decide +kernel
  have key : ∀ l : List (Int × Bytes), (∀ q ∈ l.map (·.2), (∀ c ∈ q, reasonc c) ∧ q ≠ []) →
      (∀ c ∈ (l.lookup st).getD b!"Unknown Status Code", reasonc c) ∧ (l.lookup st).getD b!"Unknown Status Code" ≠ [] := by
    intro l
    induction l with
    | nil => intro _; exact dflt
    | cons q l ih =>
      obtain ⟨a, b⟩ := q
      intro h
      rw [List.lookup_cons]
      split
      · exact h b (by simp)
      · exact ih fun q hq => h q (by simp only [List.map_cons]; exact List.mem_cons_of_mem _ hq)
  exact ⟨ascii _ (key phrases all).1, (key phrases all).2⟩

theorem Flat.reason {p : Bytes} (h : ReasonText p) : Flat p := by
  induction h with
  | nil => exact .nil
  | @char c t hc _ ih => exact .char (reason_row c hc).1 ih
  | @utf8 c s t hc hs _ ih =>
    refine Flat.append (.plain ?_) ih
    intro d hd
    rcases List.mem_cons.1 hd with rfl | hd
    · exact (utf8Len_row d _ hc).2.2.1
    · rintro rfl
      exact absurd (hs 13 hd) (by unfold utf8Cont; decide)

/-- The URI written for a request without one. -/
theorem default_uri : URIText b!"sip:www.nasa.gov:80" { scheme := b!"sip", host := b!"www.nasa.gov", port := 80 } :=
  (Uri.parseURI_grammar _ _).1 (by decide +kernel)

theorem version_text (m : Msg) : versionText m =
    b!"SIP/" ++ (natDec (readBack m).versionMajor.toNat ++ 46 :: natDec (readBack m).versionMinor.toNat) := by
  unfold versionText readBack
  by_cases h : m.versionMajor = 0
  · simp only [h, if_true]; decide +kernel
  · simp [h]

theorem start_request {m : Msg} (r : RequestOK m) :
    ∃ S u0, startLine m = S ++ CRLF ∧ LogicalLine S ∧ Start S u0 ∧
      apps {} u0 = { msg := { versionMajor := (readBack m).versionMajor, versionMinor := (readBack m).versionMinor,
                              method := (readBack m).method, request := (readBack m).request } } := by
  have hst := r.status
  have e : m.isResponse = false := by simp [Msg.isResponse]; omega
  have hm : IsToken (readBack m).method ∧ startLine m = (readBack m).method ++ b!" " ++
      (match m.request with | some u => u.text | none => b!"sip:www.nasa.gov:80") ++ b!" " ++ versionText m ++ b!"\r\n" := by
    simp only [startLine, readBack, e, if_neg (show ¬ m.status > 0 by omega), Bool.not_false, if_true]
    by_cases h0 : m.method = []
    · simp only [h0, if_true]
      exact ⟨⟨by decide, by decide +kernel⟩, rfl⟩
    · simp only [h0, if_false]
      refine ⟨r.method.resolve_left h0, ?_⟩
      cases m.request <;> simp
  obtain ⟨t, u, hu, ht, es⟩ : ∃ t u, (readBack m).request = some u ∧ URIText t u ∧
      startLine m = (readBack m).method ++ b!" " ++ t ++ b!" " ++ versionText m ++ b!"\r\n" := by
    cases hr : m.request with
    | none => exact ⟨_, _, by simp [readBack, hr, if_neg (show ¬ m.status > 0 by omega)], default_uri, by rw [hm.2, hr]⟩
    | some u => exact ⟨u.text, u, by simp [readBack, hr, if_neg (show ¬ m.status > 0 by omega)], r.request u hr, by rw [hm.2, hr]⟩
  have acc := request_acc hm.1 ht (readBack m).versionMajor.toNat (readBack m).versionMinor.toNat Loc.init
  refine ⟨(readBack m).method ++ 32 :: (t ++ 32 :: (b!"SIP/" ++ (natDec (readBack m).versionMajor.toNat ++ 46 :: natDec (readBack m).versionMinor.toNat))),
    _, ?_, ?_, start_acc.2 (by simpa only [List.append_assoc, List.cons_append] using acc), ?_⟩
  rotate_left 2
  · simp only [apps_append, apps_cons, apps_nil, Upd.app, apps_major, apps_minor, version_value, hu]
  · rw [es, version_text]; simp [CRLF]
  · exact ((Flat.tokens hm.1.2).append (.char (by decide) ((Flat.uri ht).append (.char (by decide)
      ((Flat.lit (by decide)).append ((Flat.natDec _).append (.char (by decide) (.natDec _)))))))).logical

theorem start_response {m : Msg} (r : ResponseOK m) :
    ∃ S u0, startLine m = S ++ CRLF ∧ LogicalLine S ∧ Start S u0 ∧
      apps {} u0 = { msg := { versionMajor := (readBack m).versionMajor, versionMinor := (readBack m).versionMinor,
                              status := m.status, phrase := if m.phrase = [] then phraseOf m.status else m.phrase } } := by
  have hst := r.status
  have e : m.isResponse = true := by simp [Msg.isResponse]; omega
  have hp : ReasonText (if m.phrase = [] then phraseOf m.status else m.phrase) ∧
      (if m.phrase = [] then phraseOf m.status else m.phrase) ≠ [] := by
    split
    · exact phrase_ok _
    · next g => exact ⟨r.phrase, g⟩
  have es : startLine m = versionText m ++ b!" " ++ itoa m.status ++ b!" " ++
      (if m.phrase = [] then phraseOf m.status else m.phrase) ++ b!"\r\n" := by
    unfold startLine; rw [e]; rfl
  rw [es]
  generalize (if m.phrase = [] then phraseOf m.status else m.phrase) = p at hp
  have acc := status_acc (st := m.status.toNat) hp.1 hp.2 (by omega) (by omega) (readBack m).versionMajor.toNat (readBack m).versionMinor.toNat Loc.init
  refine ⟨b!"SIP/" ++ (natDec (readBack m).versionMajor.toNat ++ 46 :: (natDec (readBack m).versionMinor.toNat ++ 32 :: (natDec m.status.toNat ++ 32 :: p))),
    _, ?_, ?_, start_acc.2 (by simpa only [List.append_assoc, List.cons_append] using acc), ?_⟩
  rotate_left 2
  · have hs : (natDec m.status.toNat).foldl dec64 0 = m.status := by
      cases e : natDec m.status.toNat with
      | nil => exact absurd e (natDec_ne_nil _)
      | cons d ds => rw [List.foldl_cons, dec64_natDec e, wrap_nat (by omega) (by omega)]
    simp only [apps_append, apps_cons, apps_nil, Upd.app, apps_major, apps_minor, apps_status, version_value, hs]
  · rw [version_text, itoa_toNat (by omega : 0 ≤ m.status)]; simp [CRLF]
  · exact ((Flat.lit (by decide)).append ((Flat.natDec _).append (.char (by decide) ((Flat.natDec _).append
      (.char (by decide) ((Flat.natDec _).append (.char (by decide) (.reason hp.1)))))))).logical

/-- The start line and the header. -/
theorem start_ok {gen : Bytes} {m : Msg} (h : MsgOK gen m) :
    ∃ S u0, startLine m = S ++ CRLF ∧ LogicalLine S ∧ Start S u0 ∧
      apps {} (u0 ++ (headUs m).flatten) = { msg := { readBack m with payload := none } } := by
  rcases h.start with r | r
  · obtain ⟨S, u0, h1, h2, h3, h4⟩ := start_request r
    refine ⟨S, u0, h1, h2, h3, ?_⟩
    rw [apps_append, h4, apps_head h]
    have h5 : (readBack m).status = 0 := if_neg (by have := r.status; omega)
    have h6 : (readBack m).phrase = [] := if_neg (by have := r.status; omega)
    simp only [h5, h6]
  · obtain ⟨S, u0, h1, h2, h3, h4⟩ := start_response r
    refine ⟨S, u0, h1, h2, h3, ?_⟩
    have h5 : m.status > 0 := by have := r.status; omega
    have h6 : (readBack m).method = [] := if_pos h5
    have h7 : (readBack m).request = none := if_pos h5
    have h8 : (readBack m).status = m.status := if_pos h5
    have h9 : (readBack m).phrase = _ := if_pos h5
    rw [apps_append, h4, apps_head h]
    simp only [h6, h7, h8, h9]

/-! ### The body -/

theorem text_notBlank (gen : Bytes) (d : Sdp.SDP) : ¬ Blank (d.text gen) := by
  have : ∃ r, d.text gen = 118 :: r := ⟨_, rfl⟩
  obtain ⟨r, e⟩ := this
  rw [e]
  rintro ⟨w, r', e', hw⟩
  cases e'
  revert hw
  decide

theorem sfinish_misc {x : Core} {d : Bytes} (h1 : x.clen = d.length) (h2 : x.ctype ≠ b!"application/sdp") (h3 : d ≠ []) :
    sfinish x d = .ok { x.msg with payload := some (.misc x.ctype d) } := by
  have : 0 < d.length := List.length_pos_iff.2 h3
  unfold sfinish
  rw [if_pos (by omega), if_neg (by simpa using h1), if_neg h2]

theorem sfinish_sdp {x : Core} {d : Bytes} {s : Sdp.SDP} (h1 : x.clen = d.length) (h2 : x.ctype = b!"application/sdp")
    (h3 : Sdp.parse d = .ok s) : sfinish x d = .ok { x.msg with payload := some (.sdp s) } := by
  have : 0 < d.length := by
    cases d with
    | nil => cases h3
    | cons _ _ => simp
  unfold sfinish
  rw [if_pos (by omega), if_neg (by simpa using h1), if_pos h2, h3]

/-- The message read from the text of a message. -/
theorem read_message {gen : Bytes} {m : Msg} (h : MsgOK gen m) : parseMsg (m.text gen) = .ok (readBack m) := by
  obtain ⟨S, u0, h1, h2, h3, h4⟩ := start_ok h
  have hp := (pieces_head h).flatten
  have fin : ∀ {t body : Bytes} {us : List Upd}, payloadText gen m.payload = t ++ CRLF ++ body → Piece t us →
      ¬ Blank body → sfinish (apps { msg := { readBack m with payload := none } } us) body = .ok (readBack m) →
      parseMsg (m.text gen) = .ok (readBack m) := by
    intro t body us e p hb hf
    obtain ⟨ls, g1, g2, g3⟩ := hp.append p
    have := (parse_head (body := body) (m := readBack m) h2 g2).2 ⟨hb, u0, _, h3, g3, by
      rw [← List.append_assoc, apps_append, h4]; exact hf⟩
    rw [← this]
    congr 1
    unfold Msg.text headText
    rw [← g1, e, h1]
    simp
  have len : ∀ n : Nat, Piece (b!"Content-Length: " ++ natDec n ++ b!"\r\n") (numUs (fun c => [.clen0, .clen c]) (fun c => [.clen c]) n) :=
    fun n => piece_num (n := b!"Content-Length") (h := .contentLength) (by decide +kernel) (by decide +kernel) rfl rfl
  have alen : ∀ (x : Core) (n : Nat), n < 2 ^ 63 → apps x (numUs (fun c => [.clen0, .clen c]) (fun c => [.clen c]) n) = { x with clen := n } := by
    intro x n hn
    rw [apps_number (set := fun x n => { x with clen := n }) (fun _ _ => rfl) (fun _ _ _ => rfl)]
    have := wrap_nat (n := n) (by omega) (by omega)
    rw [Int.toNat_natCast] at this
    rw [this]
  cases e : m.payload with
  | none =>
    have ep : (readBack m).payload = none := by simp [readBack, e]
    refine fin (t := b!"Content-Length: " ++ natDec 0 ++ b!"\r\n") (body := []) (us := _) ?_ (len 0) (by rintro ⟨_, _, e, _⟩; cases e) ?_
    · rw [e]
      have : ∀ g, payloadText g none = b!"Content-Length: " ++ natDec 0 ++ b!"\r\n" ++ CRLF ++ [] := fun g => by
        show b!"Content-Length: 0\r\n\r\n" = _
        decide +kernel
      exact this gen
    · rw [alen _ _ (by decide)]
      unfold sfinish
      rw [if_neg (by simp), ← ep]
  | some q =>
    obtain ⟨hlen, hq⟩ := h.payload q e
    have pt : Piece (b!"Content-Type: " ++ q.contentType ++ b!"\r\n") [.ctype q.contentType] := by
      refine .line (n := b!"Content-Type") rfl (line_contentType (by decide +kernel) (by decide +kernel) ?_)
      cases q with
      | sdp d => exact ⟨b!"application", b!"sdp", rfl, ⟨by decide, by decide +kernel⟩, ⟨by decide, by decide +kernel⟩⟩
      | misc t d => exact hq.1
    refine fin (body := q.data gen) ?_ (pt.append (len (q.data gen).length)) ?_ ?_
    · rw [e]
      simp [payloadText, itoa_nat, CRLF]
    · cases q with
      | sdp d => exact text_notBlank gen d
      | misc t d => exact hq.2.2
    · rw [apps_append, alen _ _ hlen]
      cases q with
      | sdp d =>
        have ep : (readBack m).payload = some (.sdp d) := by simp [readBack, e]
        refine (sfinish_sdp (x := { msg := { readBack m with payload := none }, clen := _, ctype := _ }) rfl rfl (Sdp.parse_text gen d hq)).trans ?_
        rw [← ep]
      | misc t d =>
        cases d with
        | nil =>
          have ep : (readBack m).payload = none := by simp [readBack, e]
          unfold sfinish
          rw [if_neg (by simp [Payload.data])]
          show Res.ok { readBack m with payload := none } = _
          rw [← ep]
        | cons c d =>
          have ep : (readBack m).payload = some (.misc t (c :: d)) := by simp [readBack, e]
          refine (sfinish_misc (x := { msg := { readBack m with payload := none }, clen := _, ctype := _ }) rfl hq.2.1 (List.cons_ne_nil c d)).trans ?_
          show Res.ok { readBack m with payload := some (.misc t (c :: d)) } = _
          rw [← ep]

end Gosip.Sip.MsgM
