import Verif.Spec.Transport
import Verif.Dialog.Lemmas
import Verif.Props.Msg

/-!
# Properties C40, C41, C43, C45, C58: the stateless transport
-/

namespace Gosip.Props
open Sip Spec Dialog

/-! ## C40 -/

theorem popSelf_ok {lhost : Bytes} {lport : UInt16} {m : Msg} (h : ∀ a ∈ m.addrs .route, a.uri ≠ none) :
    ∃ m', popSelf lhost lport m = .ok m' ∧ m'.via = m.via ∧ m'.status = m.status := by
  unfold popSelf
  split
  · exact ⟨m, rfl, rfl, rfl⟩
  · rename_i a l hl
    cases ha : a.uri with
    | none => exact absurd ha (h a (by simp [hl]))
    | some u =>
      simp only [routeIsSelf, ha, Res.bind_eq, Res.bind, Res.pure_eq]
      refine ⟨_, rfl, ?_, ?_⟩ <;> split <;> rfl

theorem fixStrict_frame (lhost : Bytes) (lport : UInt16) (m : Msg) :
    (fixStrict lhost lport m).via = m.via ∧ (fixStrict lhost lport m).status = m.status := by
  unfold fixStrict
  split
  · split <;> exact ⟨rfl, rfl⟩
  · exact ⟨rfl, rfl⟩

theorem addReceived_ok {addr : UDPAddr} {m : Msg} (h : m.isResponse = true ∨ m.via ≠ []) :
    ∃ m', addReceived addr m = .ok m' ∧ m'.addrs = m.addrs ∧ m'.status = m.status ∧
      (m.via ≠ [] → m'.via ≠ []) := by
  unfold addReceived
  split
  · exact ⟨m, rfl, rfl, rfl, id⟩
  · rename_i hr
    cases hv : m.via with
    | nil => simp_all
    | cons v l => exact ⟨_, rfl, rfl, rfl, by simp⟩

theorem addTimestamp_ok {ts : Option Int} {m : Msg} (h : ts = none ∨ m.via ≠ []) :
    ∃ m', addTimestamp ts m = .ok m' ∧ m'.addrs = m.addrs ∧ m'.status = m.status ∧
      (m.via ≠ [] → m'.via ≠ []) := by
  unfold addTimestamp
  cases ts with
  | none => exact ⟨m, rfl, rfl, rfl, id⟩
  | some t =>
    cases hv : m.via with
    | nil => simp_all
    | cons v l => exact ⟨_, rfl, rfl, rfl, by simp⟩

/-- **C40** (what is missing: the statement itself is false, see `C40_no_via_crashes`). A datagram makes
the receive loop panic exactly when it holds a well-formed message without a Via that is a request, or,
with time stamps switched on, any message. -/
theorem C40_receive_panics_iff_partial (lhost : Bytes) (lport : UInt16) (ts : Option Int) (d : Bytes)
    (addr : UDPAddr) :
    receiveOne lhost lport ts d addr = .panic ↔
      ∃ m, parseMsg (d.take 2048) = .ok m ∧ m.via = [] ∧ (m.isResponse = false ∨ ts ≠ none) := by
  unfold receiveOne
  rcases C07_parseMsg_never_panics (d.take 2048) with ⟨m, hm⟩ | ⟨e, he⟩
  · rw [hm]
    have hu := (C10_request_or_response_partial _ m hm).2 .route
    simp only [Res.bind_eq]
    constructor
    · intro h
      refine ⟨m, rfl, ?_⟩
      apply Classical.byContradiction
      intro hc
      have h1 : m.isResponse = true ∨ m.via ≠ [] := by
        cases hr : m.isResponse
        · right; intro hv; exact hc ⟨hv, .inl hr⟩
        · exact .inl rfl
      have h2 : ts = none ∨ m.via ≠ [] := by
        by_cases ht : ts = none
        · exact .inl ht
        · right; intro hv; exact hc ⟨hv, .inr ht⟩
      obtain ⟨m1, e1, a1, s1, v1⟩ := addReceived_ok (addr := addr) h1
      rw [e1] at h
      obtain ⟨m2, e2, a2, s2, v2⟩ := addTimestamp_ok (ts := ts) (m := m1) (h2.imp id v1)
      simp only [Res.bind, e2] at h
      obtain ⟨m3, e3, _⟩ := popSelf_ok (lhost := lhost) (lport := lport) (m := m2) (by rw [a2, a1]; exact hu)
      rw [e3] at h
      simp at h
    · rintro ⟨m', hm', hv, hc⟩
      cases hm'
      unfold addReceived
      split
      · rename_i hr
        simp only [Res.bind]
        have ht : ts ≠ none := by rcases hc with hc | hc <;> simp_all
        cases ts with
        | none => exact absurd rfl ht
        | some t => simp [addTimestamp, hv]
      · simp [hv, Res.bind]
  · rw [he]; simp

/-- **C40 is false**: this datagram crashes the process. -/
theorem C40_no_via_crashes (lhost : Bytes) (lport : UInt16) (addr : UDPAddr) :
    receiveOne lhost lport none b!"OPTIONS sip:a SIP/2.0\r\n\r\n" addr = .panic := by
  rw [C40_receive_panics_iff_partial]
  refine ⟨{ versionMajor := 2, method := b!"OPTIONS", request := some { scheme := b!"sip", host := b!"a" } },
    by decide +kernel, rfl, .inl rfl⟩

/-- A request with a Via is delivered, a response without one too, other bytes are dropped. -/
example :
    (∃ m, receiveOne b!"h" 5060 none b!"OPTIONS sip:a SIP/2.0\r\nVia: SIP/2.0/UDP b\r\n\r\n" ⟨b!"1.2.3.4", 9⟩ = .ok (some m) ∧
      m.via = [{ protocol := b!"SIP", version := b!"2.0", transport := b!"UDP", host := b!"b", port := 0,
                 param := [(b!"received", b!"1.2.3.4"), (b!"rport", b!"9")] }]) ∧
    receiveOne b!"h" 5060 none b!"nonsense" ⟨b!"1.2.3.4", 9⟩ = .ok none := by
  refine ⟨⟨{ versionMajor := 2, method := b!"OPTIONS", request := some { scheme := b!"sip", host := b!"a" },
             via := [{ protocol := b!"SIP", version := b!"2.0", transport := b!"UDP", host := b!"b", port := 0,
                       param := [(b!"received", b!"1.2.3.4"), (b!"rport", b!"9")] }] }, ?_, rfl⟩, ?_⟩ <;>
    decide +kernel

/-! ## C41 -/

theorem atoi_natDec (n : Nat) (h : n < 2 ^ 63) : atoi (natDec n) = some (n : Int) := by
  rw [atoi_iff]
  have h1 := IntText.plain (natDec_ne_nil n) (fun c hc => (isDigit_iff c).1 (natDec_isDigit n c hc))
  rw [decVal_natDec] at h1
  exact ⟨h1, by omega, by omega⟩

theorem ofInt_toNat (p : UInt16) : UInt16.ofInt (p.toNat : Int) = p := by
  apply UInt16.toNat_inj.1
  have := p.toNat_lt
  simp [UInt16.ofInt]
  omega

/-- Where a stamped Via leads. -/
theorem stamped_hop (addr : UDPAddr) (v : Via) (pre : Pairs) (l : List Via)
    (hpre : ∀ q ∈ pre, ¬ SameName q.1 b!"received" ∧ ¬ SameName q.1 b!"rport")
    (hnr : NoParam v.param b!"received")
    (hrp : NoParam v.param b!"rport" ∨ ParamIs v.param b!"rport" []) :
    responseHop ({ stampReceived addr (stampRport addr v) with
      param := pre ++ (stampReceived addr (stampRport addr v)).param } :: l) = .ok (addr.ip, addr.port) := by
  have key : ∀ name (q : Pairs), (∀ x ∈ pre, ¬ SameName x.1 name) → paramVal (pre ++ q) name = paramVal q name := by
    intro name q
    induction pre with
    | nil => simp
    | cons x pre ih =>
      intro hx
      have : equalFold x.1 name = false := by
        rw [← Bool.not_eq_true, equalFold_iff]; exact hx x (by simp)
      have := ih (fun y hy => hpre y (by simp [hy])) (fun y hy => hx y (by simp [hy]))
      rw [← this]
      simp only [List.cons_append, paramVal, Pairs.get]
      simp [*]
  have hne1 : ¬ SameName b!"received" b!"rport" := by decide
  have hne2 : ¬ SameName b!"rport" b!"received" := by decide
  -- the first stamp
  have h1 : (stampRport addr v).host = v.host ∧ NoParam (stampRport addr v).param b!"received" ∧
      rportOf (stampRport addr v) = .ok addr.port := by
    unfold stampRport
    by_cases hp : v.port ≠ addr.port
    · rw [if_pos hp]
      have hat : rportOf { v with param := (b!"rport", itoa addr.port.toNat) :: v.param } = .ok addr.port := by
        have e : paramVal ((b!"rport", itoa addr.port.toNat) :: v.param) b!"rport" = some (itoa addr.port.toNat) :=
          paramVal_eq_some.2 (paramIs_cons rfl)
        simp only [rportOf, e]
        have hi : itoa (addr.port.toNat : Int) = natDec addr.port.toNat := by
          unfold itoa; rw [if_neg (by omega)]; simp
        rw [hi, if_neg (natDec_ne_nil _), atoi_natDec _ (by have := addr.port.toNat_lt; omega)]
        simp [ofInt_toNat]
      rcases hrp with hrp | hrp
      · rw [paramVal_eq_none.2 hrp]
        exact ⟨rfl, (noParam_cons_ne hne2).2 hnr, hat⟩
      · rw [paramVal_eq_some.2 hrp]
        simp only [if_true]
        refine ⟨trivial, noParam_setParam.2 hnr, ?_⟩
        have e := paramVal_eq_some.2 (paramIs_setParam (v := itoa addr.port.toNat) hrp)
        simp only [rportOf, e]
        have hi : itoa (addr.port.toNat : Int) = natDec addr.port.toNat := by
          unfold itoa; rw [if_neg (by omega)]; simp
        rw [hi, if_neg (natDec_ne_nil _), atoi_natDec _ (by have := addr.port.toNat_lt; omega)]
        simp [ofInt_toNat]
    · rw [if_neg hp]
      refine ⟨rfl, hnr, ?_⟩
      have hp : v.port = addr.port := Classical.byContradiction hp
      rcases hrp with hrp | hrp
      · simp [rportOf, paramVal_eq_none.2 hrp, hp]
      · simp [rportOf, paramVal_eq_some.2 hrp, hp]
  obtain ⟨e1, e2, e3⟩ := h1
  have h2 : paramVal (stampReceived addr (stampRport addr v)).param b!"rport" =
      paramVal (stampRport addr v).param b!"rport" ∧
      (stampReceived addr (stampRport addr v)).port = (stampRport addr v).port ∧
      (paramVal (stampReceived addr (stampRport addr v)).param b!"received").getD
        (stampReceived addr (stampRport addr v)).host = addr.ip := by
    unfold stampReceived
    by_cases hh : (stampRport addr v).host ≠ addr.ip
    · rw [if_pos hh, if_pos (get_isNone.2 e2)]
      refine ⟨?_, rfl, ?_⟩
      · have : equalFold b!"received" b!"rport" = false := by decide
        simp [paramVal, Pairs.get, this]
      · rw [paramVal_eq_some.2 (paramIs_cons rfl)]; rfl
    · rw [if_neg hh]
      refine ⟨rfl, rfl, ?_⟩
      rw [paramVal_eq_none.2 e2]
      simpa using hh
  simp only [responseHop, Res.bind_eq]
  have e4 : rportOf { stampReceived addr (stampRport addr v) with
      param := pre ++ (stampReceived addr (stampRport addr v)).param } = .ok addr.port := by
    rw [← e3]
    unfold rportOf
    simp only [key _ _ (fun x hx => (hpre x hx).2), h2.1, h2.2.1]
  rw [e4]
  simp only [Res.bind, key _ _ (fun x hx => (hpre x hx).1), Res.pure_eq, h2.2.2]

/-- **C41.** A request with a Via whose sender supplied neither `received` nor a value for `rport` is
delivered so that a response to it goes back to the address the datagram came from, whatever host and
port the Via names (unless the Via is our own, which a response drops). -/
theorem C41_response_returns (lhost : Bytes) (lport : UInt16) (ts : Option Int) (d : Bytes) (addr : UDPAddr)
    (m : Msg) (v : Via) (l : List Via) (hm : parseMsg (d.take 2048) = .ok m) (hreq : m.isResponse = false)
    (hv : m.via = v :: l) (hnr : NoParam v.param b!"received")
    (hrp : NoParam v.param b!"rport" ∨ ParamIs v.param b!"rport" []) :
    ∃ m', receiveOne lhost lport ts d addr = .ok (some m') ∧
      ∀ via contact status, 0 < status → ¬ OwnVia via v →
        (routeMessage via contact (newResponse m' status)).2 = .ok (addr.ip, addr.port) := by
  have hu := (C10_request_or_response_partial _ m hm).2 .route
  have hhost : (stampReceived addr (stampRport addr v)).host = v.host ∧
      (stampReceived addr (stampRport addr v)).port = v.port := by
    unfold stampReceived stampRport
    constructor <;> (repeat' (first | rfl | split))
  have fin : ∀ m3 : Msg, ∀ pre : Pairs,
      (∀ q ∈ pre, ¬ SameName q.1 b!"received" ∧ ¬ SameName q.1 b!"rport") →
      m3.via = { stampReceived addr (stampRport addr v) with
        param := pre ++ (stampReceived addr (stampRport addr v)).param } :: l →
      ∀ via contact status, 0 < status → ¬ OwnVia via v →
        (routeMessage via contact (newResponse m3 status)).2 = .ok (addr.ip, addr.port) := by
    intro m3 pre hpre h3 via contact status hs hown
    have hr : (newResponse m3 status).isResponse = true := by simp [newResponse, Msg.isResponse, hs]
    have hp : popVia via m3.via = m3.via := by
      rcases popVia_spec' via m3.via with h | h
      · obtain ⟨w, h1, h2⟩ := h
        rw [h3] at h2; simp only [List.cons.injEq] at h2
        obtain ⟨x, hx, a, b⟩ := h1
        rw [← h2.1] at a b
        exact absurd ⟨x, hx, by rw [a]; exact hhost.1, by rw [b]; exact hhost.2⟩ hown
      · exact h
    simp only [routeMessage, hr, if_true]
    show responseHop (popVia via m3.via) = _
    rw [hp, h3]
    exact stamped_hop addr v pre l hpre hnr hrp
  simp only [receiveOne, hm, Res.bind_eq]
  have e1 : addReceived addr m = .ok { m with via := stampReceived addr (stampRport addr v) :: l } := by
    simp [addReceived, hreq, hv]
  rw [e1]
  simp only [Res.bind]
  cases ts with
  | none =>
    simp only [addTimestamp]
    obtain ⟨m3, e3, v3, s3⟩ := popSelf_ok (lhost := lhost) (lport := lport)
      (m := { m with via := stampReceived addr (stampRport addr v) :: l }) hu
    rw [e3]
    refine ⟨_, rfl, fin _ [] (by simp) ?_⟩
    rw [(fixStrict_frame lhost lport m3).1, v3]; simp
  | some t =>
    simp only [addTimestamp]
    obtain ⟨m3, e3, v3, s3⟩ := popSelf_ok (lhost := lhost) (lport := lport)
      (m := { m with via := { stampReceived addr (stampRport addr v) with
        param := (b!"usi", itoa t) :: (stampReceived addr (stampRport addr v)).param } :: l }) hu
    rw [e3]
    refine ⟨_, rfl, fin _ [(b!"usi", itoa t)] ?_ ?_⟩
    · intro q hq
      simp only [List.mem_cons, List.not_mem_nil, or_false] at hq
      subst hq
      exact ⟨show ¬ SameName b!"usi" _ by decide, show ¬ SameName b!"usi" _ by decide⟩
    · rw [(fixStrict_frame lhost lport m3).1, v3]; simp

/-- A sender that supplies `received` itself (which RFC 3261 section 18.2.1 would overwrite) redirects the
response. -/
theorem C41_supplied_received_kept (addr : UDPAddr) (v : Via) (l : List Via) (m : Msg) (x : Bytes)
    (hreq : m.isResponse = false) (hv : m.via = v :: l) (hx : ParamIs v.param b!"received" x) :
    ∃ m' v', addReceived addr m = .ok m' ∧ m'.via = v' :: l ∧ ParamIs v'.param b!"received" x := by
  refine ⟨_, _, by simp only [addReceived, hreq, hv]; rfl, rfl, ?_⟩
  have h1 : ParamIs (stampRport addr v).param b!"received" x := by
    unfold stampRport
    split
    · split
      · exact (paramIs_cons_ne (by decide)).2 hx
      · split
        · exact paramIs_setParam_ne (by decide) hx
        · exact hx
    · exact hx
  unfold stampReceived
  split
  · split
    · rename_i h; exact absurd (get_isNone.1 h) (paramIs_not_noParam h1)
    · exact h1
  · exact h1

example : ∃ m', addReceived ⟨b!"6.6.6.6", 7⟩ { method := b!"X", via := [{ host := b!"h", param := [(b!"received", b!"1.1.1.1")] }] } = .ok m' ∧
    (routeMessage none none (newResponse m' 200)).2 = .ok (b!"1.1.1.1", 7) :=
  ⟨_, rfl, by decide +kernel⟩

/-! ## C43 -/

/-- **C43.** A response is left alone. A request gets everything it needs to be sent and keeps what the
caller had set; this needs a Via and, when there is no From, a Contact with a URI, from the message or
from the arguments: otherwise the call panics. -/
theorem C43_populate (ids : Ids) (via : List Via) (contact : List Addr) (msg : Msg)
    (hid : ids.callID ≠ []) :
    (msg.isResponse = true → populateMessage ids via contact msg = .ok msg) ∧
    (msg.isResponse = false →
      let vias := if msg.via = [] then via else msg.via
      let contacts := if msg.addrs .contact = [] then contact else msg.addrs .contact
      (vias ≠ [] → contacts ≠ [] → (∀ a ∈ contacts, a.uri ≠ none) →
        ∃ m, populateMessage ids via contact msg = .ok m ∧ Sendable m ∧ Keeps msg m) ∧
      (vias = [] → populateMessage ids via contact msg = .panic) ∧
      (contacts = [] → msg.addrs .from = [] → populateMessage ids via contact msg = .panic)) := by
  constructor
  · intro h; simp [populateMessage, h]
  · intro h
    simp only [populateMessage, h, Bool.false_eq_true, if_false, Res.bind_eq]
    generalize hvs : (if msg.via = [] then via else msg.via) = vias
    generalize hcs : (if msg.addrs .contact = [] then contact else msg.addrs .contact) = contacts
    refine ⟨?_, ?_, ?_⟩
    · intro hv hc huri
      -- From
      have hfrom : ∃ f, ensureFrom (msg.addrs .from) contacts = .ok f ∧ f ≠ [] ∧
          (msg.addrs .from ≠ [] → f = msg.addrs .from) := by
        unfold ensureFrom
        split
        · cases hcc : contacts with
          | nil => exact absurd hcc hc
          | cons a l =>
            cases ha : a.uri with
            | none => exact absurd ha (huri a (by simp [hcc]))
            | some u =>
              refine ⟨_, by simp only [fromContact, ha]; rfl, by simp, ?_⟩
              intro hne; contradiction
        · exact ⟨_, rfl, by assumption, fun _ => rfl⟩
      obtain ⟨f, e1, hf, hfk⟩ := hfrom
      rw [e1]
      simp only [Res.bind]
      cases hvv : vias with
      | nil => exact absurd hvv hv
      | cons v vl =>
        have hb : ∃ p, ensureBranch ids.branch (v :: vl) = .ok ({ v with param := p } :: vl) ∧
            (∃ b, ParamIs p b!"branch" b) ∧
            (p = v.param ∨ NoParam v.param b!"branch" ∧ ∃ b, p = (b!"branch", b) :: v.param) := by
          simp only [ensureBranch]
          split
          · rename_i hn
            exact ⟨_, rfl, ⟨_, paramIs_cons rfl⟩, .inr ⟨get_isNone.1 hn, _, rfl⟩⟩
          · rename_i hn
            refine ⟨v.param, rfl, ?_, .inl rfl⟩
            rcases noParam_or v.param b!"branch" with hh | hh
            · exact absurd (get_isNone.2 hh) hn
            · exact hh
        obtain ⟨pb, e2, hpb, hpk⟩ := hb
        rw [e2]
        simp only
        cases hff : f with
        | nil => exact absurd hff hf
        | cons a al =>
          have ht : ∃ p, ensureTag ids.tag (a :: al) = .ok ({ a with param := p } :: al) ∧
              (∃ t, ParamIs p b!"tag" t) ∧
              (p = a.param ∨ NoParam a.param b!"tag" ∧ ∃ t, p = (b!"tag", t) :: a.param) := by
            simp only [ensureTag]
            split
            · rename_i hn
              exact ⟨_, rfl, ⟨_, paramIs_cons rfl⟩, .inr ⟨get_isNone.1 hn, _, rfl⟩⟩
            · rename_i hn
              refine ⟨a.param, rfl, ?_, .inl rfl⟩
              rcases noParam_or a.param b!"tag" with hh | hh
              · exact absurd (get_isNone.2 hh) hn
              · exact hh
          obtain ⟨pt, e3, hpt, htk⟩ := ht
          rw [e3]
          simp only [Res.pure_eq, Res.ok.injEq, exists_eq_left']
          constructor
          · constructor
            · obtain ⟨b, hb⟩ := hpb; exact ⟨_, _, b, rfl, hb⟩
            · simpa [setAt] using hc
            · simp only
              rw [setAt_ne _ _ (by decide), setAt_same]
              split
              · simp
              · assumption
            · obtain ⟨t, ht⟩ := hpt; exact ⟨{ a with param := pt }, al, t, by simp [setAt], ht⟩
            · simp only; split <;> assumption
            · simp only; intro hm; split <;> assumption
            · simp only; split <;> simp_all
            · simp only
              split
              · simp [setAt, gosipUA]
              · assumption
          · constructor
            · exact ⟨rfl, rfl, rfl⟩
            · intro v' l' hv'
              have : vias = msg.via := by rw [← hvs, hv']; simp
              rw [hvv, hv'] at this
              cases this
              exact ⟨pb, rfl, hpk⟩
            · intro a' l' ha'
              have : f = msg.addrs .from := hfk (by rw [ha']; simp)
              rw [hff, ha'] at this
              cases this
              exact ⟨pt, by simp [setAt], htk⟩
            · intro g hg hne
              simp only [setAt, if_neg hg]
              split
              · rename_i hgt; subst hgt; rw [if_neg hne]
              · split
                · rename_i hgc; subst hgc; rw [← hcs, if_neg hne]
                · rfl
            · intro hne; simp [hne]
            · intro hne; simp [hne]
            · intro hne; simp [hne]
            · intro hne; simp [hne]
            · intro g hne
              simp only
              split
              · rename_i hua
                simp only [setAt]
                split
                · rename_i hgu; subst hgu; exact absurd hua hne
                · rfl
              · rfl
            · exact ⟨rfl, rfl, rfl, rfl, rfl⟩
    · intro hv
      rw [hv]
      cases he : ensureFrom (msg.addrs .from) contacts with
      | ok f => simp [Res.bind, ensureBranch]
      | panic => simp [Res.bind]
      | err e =>
        exfalso
        unfold ensureFrom at he
        split at he
        · unfold fromContact at he
          repeat' (split at he <;> try cases he)
        · cases he
    · intro hc hf
      rw [hc, hf]
      simp [ensureFrom, fromContact, Res.bind]

/-- A bare request is completed. -/
example : ∃ m, populateMessage ⟨b!"id", 5, b!"z9hG4bK-1", b!"t"⟩ [{ host := b!"h", port := 5060 }]
      [{ uri := some { host := b!"h", param := [(b!"transport", b!"udp")] } }]
      { method := b!"OPTIONS", request := some { host := b!"x" } } = .ok m ∧
    m.addrs .from = [{ uri := some { host := b!"h" }, param := [(b!"tag", b!"t")] }] ∧
    m.maxForwards = 70 ∧ m.cseq = 5 :=
  ⟨_, rfl, by decide +kernel, by decide +kernel, by decide +kernel⟩

/-! ## C45, the transport -/

theorem text_maxForwards (gen : Bytes) (m : Msg) (hr : m.isResponse = false) (h : m.maxForwards ≠ 0) :
    HasLine (b!"Max-Forwards: " ++ itoa m.maxForwards) (m.text gen) := by
  have hl : b!"Max-Forwards: " ++ itoa m.maxForwards ++ b!"\r\n" ∈ headerLines m := by
    simp [headerLines, maxForwardsLine, hr, h]
  obtain ⟨s, t, hst⟩ := List.append_of_mem hl
  unfold Msg.text
  rw [hst]
  refine ⟨startLine m ++ s.flatten, t.flatten ++ payloadText gen m.payload, ?_⟩
  simp

theorem populate_request {ids : Ids} {via : List Via} {contact : List Addr} {msg m : Msg}
    (hr : msg.isResponse = false) (h : populateMessage ids via contact msg = .ok m) :
    m.isResponse = false ∧ m.maxForwards = (if msg.maxForwards = 0 then 70 else msg.maxForwards) ∧
      m.payload = msg.payload := by
  simp only [populateMessage, hr, Bool.false_eq_true, if_false, Res.bind_eq, Res.bind_ok_iff] at h
  obtain ⟨_, _, _, _, _, _, h⟩ := h
  cases h
  exact ⟨hr, rfl, rfl⟩

theorem route_frame (via : Option Via) (contact : Option Addr) (m : Msg) :
    (routeMessage via contact m).1.maxForwards = m.maxForwards ∧
    (routeMessage via contact m).1.status = m.status := by
  unfold routeMessage
  split
  · exact ⟨rfl, rfl⟩
  · simp only
    split
    · exact ⟨rfl, rfl⟩
    · split
      · exact ⟨rfl, rfl⟩
      · split
        · exact ⟨rfl, rfl⟩
        · split <;> exact ⟨rfl, rfl⟩

/-- **C45** (transport; missing: `Max-Forwards: 1`, see `C45_one_becomes_70`). A request sent through the
transport with a Max-Forwards of at least 2 carries one less, which is also stored; one without
Max-Forwards (0) carries 69. -/
theorem C45_transport_partial (env : SendEnv) (tp : Transport) (msg : Msg) (t dest : Bytes)
    (hr : msg.isResponse = false) (hm : msg.maxForwards = 0 ∨ 2 ≤ msg.maxForwards)
    (h : (tp.send env msg).wire = some (t, dest)) :
    HasLine (b!"Max-Forwards: " ++ itoa ((if msg.maxForwards = 0 then 70 else msg.maxForwards) - 1)) t ∧
    (tp.send env msg).msg.maxForwards = (if msg.maxForwards = 0 then 70 else msg.maxForwards) - 1 := by
  unfold Transport.send at h ⊢
  cases hp : populateMessage env.ids tp.via tp.contact msg with
  | ok m =>
    rw [hp] at h
    simp only at h ⊢
    generalize hrm : routeMessage
      (if (!msg.isResponse && msg.via == []) = true then { tp with via := m.via } else tp).via.head?
      (if (!msg.isResponse && msg.via == []) = true then { tp with via := m.via } else tp).contact.head? m = r at h ⊢
    cases hr2 : r.2 with
    | ok hp' =>
      rw [hr2] at h
      simp only at h ⊢
      cases hres : env.resolve (joinHostPort hp'.1 (portstr hp'.2)) with
      | ok d =>
        rw [hres] at h
        simp only [sendTo] at h ⊢
        obtain ⟨q1, q2, q3⟩ := populate_request hr hp
        have f1 := route_frame (if (!msg.isResponse && msg.via == []) = true then { tp with via := m.via } else tp).via.head?
          (if (!msg.isResponse && msg.via == []) = true then { tp with via := m.via } else tp).contact.head? m
        rw [hrm, q2] at f1
        have hpos : 2 ≤ (if msg.maxForwards = 0 then 70 else msg.maxForwards) := by split <;> omega
        have hd : decForwards r.1 = { r.1 with maxForwards := r.1.maxForwards - 1 } := by
          unfold decForwards; rw [if_pos (by rw [f1.1]; omega)]
        rw [hd] at h ⊢
        have hstat : r.1.isResponse = false := by
          unfold Msg.isResponse at q1 ⊢; rw [f1.2]; exact q1
        have fin : ∀ m' : Msg, m'.status = r.1.status → m'.maxForwards = r.1.maxForwards - 1 →
            m'.text env.origin = t →
            HasLine (b!"Max-Forwards: " ++ itoa ((if msg.maxForwards = 0 then 70 else msg.maxForwards) - 1)) t ∧
            m'.appended.maxForwards = (if msg.maxForwards = 0 then 70 else msg.maxForwards) - 1 := by
          intro m' hs' hm' ht
          have hne : m'.isResponse = false := by unfold Msg.isResponse at hstat ⊢; rw [hs']; exact hstat
          have := text_maxForwards env.origin m' hne (by rw [hm', f1.1]; omega)
          rw [hm', f1.1, ht] at this
          refine ⟨this, ?_⟩
          simp only [Msg.appended, hne, Bool.false_eq_true, false_and, if_false]
          rw [hm', f1.1]
        cases hts : env.ts with
        | none =>
          rw [hts] at h
          simp only [addTimestamp, Option.some.injEq, Prod.mk.injEq] at h ⊢
          exact fin _ rfl rfl h.1
        | some ts =>
          rw [hts] at h
          cases hv : r.1.via with
          | nil => simp [addTimestamp, hv] at h
          | cons v l =>
            simp only [addTimestamp, hv, Option.some.injEq, Prod.mk.injEq] at h ⊢
            exact fin _ rfl rfl h.1
      | error e => rw [hres] at h; simp at h
    | err e => rw [hr2] at h; simp at h
    | panic => rw [hr2] at h; simp at h
  | err e => rw [hp] at h; simp at h
  | panic => rw [hp] at h; simp at h

theorem text_maxForwards_any (gen : Bytes) (m : Msg) (hr : m.isResponse = false) :
    HasLine (b!"Max-Forwards: " ++ itoa (if m.maxForwards = 0 then 70 else m.maxForwards)) (m.text gen) := by
  have h70 : itoa 70 = b!"70" := by decide +kernel
  have hl : b!"Max-Forwards: " ++ itoa (if m.maxForwards = 0 then 70 else m.maxForwards) ++ b!"\r\n" ∈ headerLines m := by
    by_cases h : m.maxForwards = 0
    · rw [if_pos h, h70]; simp [headerLines, maxForwardsLine, hr, h]
    · rw [if_neg h]; simp [headerLines, maxForwardsLine, hr, h]
  obtain ⟨s, t, hst⟩ := List.append_of_mem hl
  unfold Msg.text
  rw [hst]
  refine ⟨startLine m ++ s.flatten, t.flatten ++ payloadText gen m.payload, ?_⟩
  simp

/-- **C45**, the transport, exactly: what the request carries on the wire, whatever its Max-Forwards was. A request that may
be forwarded once more (1) is sent with 70, so that a loop through this element never ends. -/
theorem C45_transport_exact (env : SendEnv) (tp : Transport) (msg : Msg) (t dest : Bytes)
    (hr : msg.isResponse = false) (h : (tp.send env msg).wire = some (t, dest)) :
    HasLine (b!"Max-Forwards: " ++ itoa (if msg.maxForwards = 0 then 69 else if msg.maxForwards = 1 then 70
      else if msg.maxForwards > 1 then msg.maxForwards - 1 else msg.maxForwards)) t := by
  unfold Transport.send at h
  cases hp : populateMessage env.ids tp.via tp.contact msg with
  | ok m =>
    rw [hp] at h
    simp only at h
    generalize hrm : routeMessage
      (if (!msg.isResponse && msg.via == []) = true then { tp with via := m.via } else tp).via.head?
      (if (!msg.isResponse && msg.via == []) = true then { tp with via := m.via } else tp).contact.head? m = r at h
    cases hr2 : r.2 with
    | ok hp' =>
      rw [hr2] at h
      simp only at h
      cases hres : env.resolve (joinHostPort hp'.1 (portstr hp'.2)) with
      | ok d =>
        rw [hres] at h
        simp only [sendTo] at h
        obtain ⟨q1, q2, q3⟩ := populate_request hr hp
        have f1 := route_frame (if (!msg.isResponse && msg.via == []) = true then { tp with via := m.via } else tp).via.head?
          (if (!msg.isResponse && msg.via == []) = true then { tp with via := m.via } else tp).contact.head? m
        rw [hrm, q2] at f1
        have hstat : r.1.isResponse = false := by
          unfold Msg.isResponse at q1 ⊢; rw [f1.2]; exact q1
        have fin : ∀ m' : Msg, m'.status = r.1.status → m'.maxForwards = (decForwards r.1).maxForwards →
            m'.text env.origin = t →
            HasLine (b!"Max-Forwards: " ++ itoa (if msg.maxForwards = 0 then 69 else if msg.maxForwards = 1 then 70
              else if msg.maxForwards > 1 then msg.maxForwards - 1 else msg.maxForwards)) t := by
          intro m' hs' hm' ht
          have hne : m'.isResponse = false := by unfold Msg.isResponse at hstat ⊢; rw [hs']; exact hstat
          have := text_maxForwards_any env.origin m' hne
          rw [ht] at this
          have he : (if m'.maxForwards = 0 then 70 else m'.maxForwards) =
              if msg.maxForwards = 0 then 69 else if msg.maxForwards = 1 then 70
              else if msg.maxForwards > 1 then msg.maxForwards - 1 else msg.maxForwards := by
            rw [hm']
            unfold decForwards
            have f := f1.1
            by_cases h0 : msg.maxForwards = 0
            · rw [if_pos h0] at f; simp [f, h0]
            · rw [if_neg h0] at f
              rw [f, if_neg h0]
              by_cases h1 : msg.maxForwards > 0
              · rw [if_pos h1]
                dsimp only
                split <;> split <;> first | omega | (split <;> omega)
              · rw [if_neg h1, f, if_neg h0, if_neg (by omega), if_neg (by omega)]
          rw [he] at this
          exact this
        have hds : (decForwards r.1).status = r.1.status := by unfold decForwards; split <;> rfl
        cases hts : env.ts with
        | none =>
          rw [hts] at h
          simp only [addTimestamp, Option.some.injEq, Prod.mk.injEq] at h
          exact fin _ hds rfl h.1
        | some ts =>
          rw [hts] at h
          cases hv : (decForwards r.1).via with
          | nil => simp [addTimestamp, hv] at h
          | cons v l =>
            simp only [addTimestamp, hv, Option.some.injEq, Prod.mk.injEq] at h
            exact fin { decForwards r.1 with via := { v with param := (b!"usi", itoa ts) :: v.param } :: l } hds rfl h.1
      | error e => rw [hres] at h; simp at h
    | err e => rw [hr2] at h; simp at h
    | panic => rw [hr2] at h; simp at h
  | err e => rw [hp] at h; simp at h
  | panic => rw [hp] at h; simp at h

/-- The message of the witness below. -/
def lastHop : Msg :=
  { method := b!"BYE", request := some { scheme := b!"sip", host := b!"x" }, maxForwards := 1,
    callID := b!"c", cseq := 1, cseqMethod := b!"BYE", via := [{ host := b!"h", param := [(b!"branch", b!"z")] }],
    addrs := fun
      | .from => [{ uri := some { host := b!"h" }, param := [(b!"tag", b!"t")] }]
      | .to => [{ uri := some { host := b!"x" } }]
      | .contact => [{ uri := some { host := b!"h" } }]
      | _ => [] }

/-- **C45 is false** for the transport: a request with `Max-Forwards: 1` is sent with
`Max-Forwards: 70`. -/
theorem C45_one_becomes_70 (env : SendEnv) (tp : Transport) (dest : Bytes) (hts : env.ts = none)
    (hc : tp.contact = []) (hres : env.resolve b!"x:0" = .ok dest) :
    ∃ t, (tp.send env lastHop).wire = some (t, dest) ∧ HasLine b!"Max-Forwards: 70" t := by
  obtain ⟨m, hp, h1, h2, h3, h4, h5⟩ : ∃ m, populateMessage env.ids tp.via tp.contact lastHop = .ok m ∧
      m.isResponse = false ∧ m.maxForwards = 1 ∧ m.addrs .route = [] ∧
      m.request = some { scheme := b!"sip", host := b!"x" } ∧ lastHop.via ≠ [] :=
    ⟨_, rfl, rfl, rfl, rfl, rfl, by simp [lastHop]⟩
  have hown : (!lastHop.isResponse && lastHop.via == []) = false := rfl
  obtain ⟨f1, f2⟩ := route_frame tp.via.head? tp.contact.head? m
  have hr : (routeMessage tp.via.head? tp.contact.head? m).2 = .ok (b!"x", 0) := by
    simp [routeMessage, h1, hc, popRoute, addrCompareHostPort, h3, uriHop, h4]
  have hj : joinHostPort b!"x" (portstr 0) = b!"x:0" := by decide +kernel
  unfold Transport.send
  simp only [hp, hown, Bool.false_eq_true, if_false, hr, hj, hres, sendTo, hts, addTimestamp]
  refine ⟨_, rfl, ?_⟩
  have hd : decForwards (routeMessage tp.via.head? tp.contact.head? m).1 =
      { (routeMessage tp.via.head? tp.contact.head? m).1 with maxForwards := 0 } := by
    unfold decForwards
    rw [f1, h2]
    rfl
  have : ∀ m : Msg, m.isResponse = false → m.maxForwards = 0 → HasLine b!"Max-Forwards: 70" (m.text env.origin) := by
    intro m h1 h2
    have hl : b!"Max-Forwards: 70" ++ b!"\r\n" ∈ headerLines m := by
      simp [headerLines, maxForwardsLine, h1, h2]
    obtain ⟨s, t, hst⟩ := List.append_of_mem hl
    unfold Msg.text
    rw [hst]
    refine ⟨startLine m ++ s.flatten, t.flatten ++ payloadText env.origin m.payload, ?_⟩
    simp
  rw [hd]
  refine this _ ?_ rfl
  show decide ((routeMessage tp.via.head? tp.contact.head? m).1.status > 0) = false
  rw [f2]; exact h1

/-! ## C58 -/

/-- **C58** (what is missing: requests without a Via, see `C58_transport_reuses_branch`). The request built
by `NewRequest` has the freshly generated branch, and sending it through the transport keeps it and
does not touch the transport's own Via. -/
theorem C58_new_request_branch_partial (ids : Ids) (env : SendEnv) (tp : Transport) (method : Bytes)
    (to from' : List Addr) (m : Msg) (h : newRequest ids tp.via tp.contact method to from' = .ok m) :
    (∃ v l, m.via = v :: l ∧ ParamIs v.param b!"branch" ids.branch) ∧ (tp.send env m).tp = tp := by
  simp only [newRequest, Res.bind_eq, Res.bind_ok_iff, Res.pure_eq] at h
  obtain ⟨u, hu, via, hv, fr, hf, h⟩ := h
  cases htv : tp.via with
  | nil => rw [htv] at hv; cases hv
  | cons w l =>
    rw [htv] at hv
    simp only [viaBranch, Res.ok.injEq] at hv h
    subst hv
    have hmv : m.via = { w with param := (b!"branch", ids.branch) :: w.param } :: l := by rw [← h]
    refine ⟨⟨_, _, hmv, paramIs_cons rfl⟩, ?_⟩
    have hown : (!m.isResponse && m.via == []) = false := by simp [hmv]
    unfold Transport.send
    cases populateMessage env.ids tp.via tp.contact m with
    | ok m' =>
      simp only [hown, Bool.false_eq_true, if_false]
      split
      · split
        · unfold sendTo
          split <;> simp
        · rfl
      · rfl
      · rfl
    | err e => rfl
    | panic => rfl

theorem populate_own_via {ids : Ids} {v : Via} {contact : List Addr} {msg m : Msg}
    (hr : msg.isResponse = false) (hv : msg.via = []) (h : populateMessage ids [v] contact msg = .ok m) :
    m.isResponse = false ∧
    m.via = [if (v.param.get b!"branch").isNone then { v with param := (b!"branch", ids.branch) :: v.param } else v] := by
  refine ⟨(populate_request hr h).1, ?_⟩
  simp only [populateMessage, hr, Bool.false_eq_true, if_false, Res.bind_eq, Res.bind_ok_iff, hv, if_true] at h
  obtain ⟨_, _, via, h2, _, _, h⟩ := h
  cases h
  simp only [ensureBranch] at h2
  show via = _
  split at h2 <;> cases h2 <;> simp_all

theorem route_via (via : Option Via) (contact : Option Addr) (m : Msg) (hr : m.isResponse = false) :
    (routeMessage via contact m).1.via = m.via := by
  unfold routeMessage
  simp only [hr, Bool.false_eq_true, if_false]
  split
  · rfl
  · split
    · rfl
    · split
      · rfl
      · split <;> rfl

/-- After sending a request without a Via, without time stamps, both the message and the transport have
the populated Via. -/
theorem send_own_via {env : SendEnv} {v : Via} {contact : List Addr} {msg m : Msg} (hts : env.ts = none)
    (hr : msg.isResponse = false) (hv : msg.via = []) (hp : populateMessage env.ids [v] contact msg = .ok m) :
    (Transport.send env ⟨[v], contact⟩ msg).msg.via = m.via ∧
    (Transport.send env ⟨[v], contact⟩ msg).tp = ⟨m.via, contact⟩ := by
  have hq := (populate_own_via hr hv hp).1
  have hown : (!msg.isResponse && msg.via == []) = true := by simp [hr, hv]
  unfold Transport.send
  simp only [hp, hown, if_true]
  have hrv := route_via m.via.head? contact.head? m hq
  have hst := (route_frame m.via.head? contact.head? m).2
  generalize routeMessage m.via.head? contact.head? m = r at hrv hst ⊢
  split
  · split
    · unfold sendTo
      simp only [hts, addTimestamp, if_true]
      have hd : (decForwards r.1).via = r.1.via ∧ (decForwards r.1).status = r.1.status := by
        unfold decForwards; split <;> exact ⟨rfl, rfl⟩
      refine ⟨?_, by rw [hd.1, hrv]⟩
      unfold Msg.appended
      split <;> simp [hd.1, hrv]
    · exact ⟨hrv, rfl⟩
  · exact ⟨hrv, rfl⟩
  · exact ⟨hrv, rfl⟩

/-- **C58 is false**: two requests without a Via sent through the same transport carry the same branch,
whatever the random generator returned for the second. -/
theorem C58_transport_reuses_branch (env env' : SendEnv) (v : Via) (contact : List Addr) (msg msg' m m' : Msg)
    (hts : env.ts = none) (hts' : env'.ts = none)
    (h1 : msg.isResponse = false) (h2 : msg'.isResponse = false) (h3 : msg.via = []) (h4 : msg'.via = [])
    (hn : NoParam v.param b!"branch")
    (hp : populateMessage env.ids [v] contact msg = .ok m)
    (hp' : populateMessage env'.ids m.via contact msg' = .ok m') :
    let s := Transport.send env ⟨[v], contact⟩ msg
    let s' := Transport.send env' s.tp msg'
    (∃ w, s.msg.via = [w] ∧ ParamIs w.param b!"branch" env.ids.branch) ∧
    (∃ w, s'.msg.via = [w] ∧ ParamIs w.param b!"branch" env.ids.branch) := by
  obtain ⟨a1, a2⟩ := send_own_via hts h1 h3 hp
  obtain ⟨_, b2⟩ := populate_own_via h1 h3 hp
  rw [if_pos (get_isNone.2 hn)] at b2
  simp only
  rw [a2, a1, b2]
  rw [b2] at hp'
  refine ⟨⟨_, rfl, paramIs_cons rfl⟩, ?_⟩
  obtain ⟨c1, c2⟩ := send_own_via hts' h2 h4 hp'
  obtain ⟨_, d2⟩ := populate_own_via h2 h4 hp'
  have : ¬ (Pairs.get b!"branch" ((b!"branch", env.ids.branch) :: v.param)).isNone = true := by
    rw [get_isNone]; exact paramIs_not_noParam (paramIs_cons rfl)
  rw [if_neg this] at d2
  rw [c1, d2]
  exact ⟨_, rfl, paramIs_cons rfl⟩

/-- The hypotheses are met by two plain requests. -/
example (env env' : SendEnv) : ∃ m m',
    populateMessage env.ids [{ host := b!"h", port := 5060 }] [{ uri := some { host := b!"h" } }]
      { method := b!"OPTIONS", request := some { host := b!"x" } } = .ok m ∧
    populateMessage env'.ids m.via [{ uri := some { host := b!"h" } }]
      { method := b!"OPTIONS", request := some { host := b!"y" } } = .ok m' :=
  ⟨_, _, rfl, rfl⟩

end Gosip.Props
