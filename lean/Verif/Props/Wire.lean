import Verif.Props.Routing
import Verif.Props.Transport
import Verif.Spec.Transport

/-!
# Properties C43, C70 and C71: what a transport fills in, delivers and sends
-/

namespace Gosip.Props
open Sip Spec Dialog

/-! ## C43 -/

theorem filled_branch {b : Bytes} {vias via : List Via} (h : ensureBranch b vias = .ok via) :
    ∃ v l p, vias = v :: l ∧ via = { v with param := p } :: l ∧
      ((∃ b, ParamIs v.param b!"branch" b) ∧ p = v.param ∨
        NoParam v.param b!"branch" ∧ p = (b!"branch", b) :: v.param) := by
  cases vias with
  | nil => cases h
  | cons v l =>
    simp only [ensureBranch] at h
    split at h
    · rename_i hn; cases h; exact ⟨v, l, _, rfl, rfl, .inr ⟨get_isNone.1 hn, rfl⟩⟩
    · rename_i hn
      cases h
      refine ⟨v, l, v.param, rfl, rfl, .inl ⟨?_, rfl⟩⟩
      rcases noParam_or v.param b!"branch" with hh | hh
      · exact absurd (get_isNone.2 hh) hn
      · exact hh

theorem filled_tag {t : Bytes} {f f' : List Addr} (h : ensureTag t f = .ok f') :
    ∃ a l p, f = a :: l ∧ f' = { a with param := p } :: l ∧
      ((∃ b, ParamIs a.param b!"tag" b) ∧ p = a.param ∨ NoParam a.param b!"tag" ∧ p = (b!"tag", t) :: a.param) := by
  cases f with
  | nil => cases h
  | cons v l =>
    simp only [ensureTag] at h
    split at h
    · rename_i hn; cases h; exact ⟨v, l, _, rfl, rfl, .inr ⟨get_isNone.1 hn, rfl⟩⟩
    · rename_i hn
      cases h
      refine ⟨v, l, v.param, rfl, rfl, .inl ⟨?_, rfl⟩⟩
      rcases noParam_or v.param b!"tag" with hh | hh
      · exact absurd (get_isNone.2 hh) hn
      · exact hh

/-- **C43.** What `PopulateMessage` adds to a request comes from the right place, and it adds nothing else. -/
theorem C43_filled (ids : Ids) (via : List Via) (contact : List Addr) (msg m : Msg) (hr : msg.isResponse = false)
    (h : populateMessage ids via contact msg = .ok m) : FilledFrom ids via contact msg m ∧ Keeps msg m := by
  simp only [populateMessage, hr, Bool.false_eq_true, if_false, Res.bind_eq, Res.bind_ok_iff] at h
  obtain ⟨f, h1, vs, h2, f', h3, h⟩ := h
  cases h
  obtain ⟨v, l, p, e1, e2, e3⟩ := filled_branch h2
  obtain ⟨a, k, q, g1, g2, g3⟩ := filled_tag h3
  subst e2 g2 g1
  have hc : setAt (setAt (setAt msg.addrs .contact (if msg.addrs .contact = [] then contact else msg.addrs .contact)) .to
      (if msg.addrs .to = [] then [{ uri := msg.request }] else msg.addrs .to)) .from ({ a with param := q } :: k) .contact =
      (if msg.addrs .contact = [] then contact else msg.addrs .contact) := by
    rw [setAt_ne _ _ (by decide), setAt_ne _ _ (by decide), setAt_same]
  refine ⟨⟨⟨v, l, p, e1, rfl, e3⟩, ?_, ?_, ?_, ?_, ?_, ?_, ?_, ?_, ?_, ?_⟩, ⟨⟨rfl, rfl, rfl⟩, ?_, ?_, ?_, ?_, ?_, ?_, ?_, ?_, ?_⟩⟩
  · intro hn; dsimp only; rw [hc, if_pos hn]
  · intro hn; dsimp only; rw [setAt_ne _ _ (by decide), setAt_same, if_pos hn]
  · intro hn
    rw [ensureFrom, if_pos hn] at h1
    dsimp only
    rw [hc, setAt_same]
    generalize (if msg.addrs .contact = [] then contact else msg.addrs .contact) = cs at h1
    cases cs with
    | nil => cases h1
    | cons c cl =>
      simp only [fromContact] at h1
      cases hu : c.uri with
      | none => rw [hu] at h1; cases h1
      | some u =>
        rw [hu] at h1
        simp only [Res.ok.injEq, List.cons.injEq] at h1
        obtain ⟨rfl, rfl⟩ := h1
        exact ⟨c, u, cl, q, rfl, hu, by simp [addrCopy_eq, addrCopy1], g3⟩
  · intro b bl hb hn
    rw [ensureFrom, if_neg (by rw [hb]; simp)] at h1
    cases h1.symm.trans (congrArg _ hb)
    dsimp only
    rw [setAt_same]
    rcases g3 with ⟨⟨x, hx⟩, _⟩ | ⟨_, rfl⟩
    · exact absurd hn (paramIs_not_noParam hx)
    · rfl
  · intro hn; exact if_pos hn
  · intro hn; exact if_pos hn
  · intro hn; exact if_pos hn
  · intro hn; exact if_pos hn
  · intro hn; dsimp only; rw [if_pos hn, setAt_same]; rfl
  · refine ⟨?_, ?_, rfl, rfl, rfl⟩
    · intro g h1 h2 h3; dsimp only; rw [setAt_ne _ _ h3, setAt_ne _ _ h2, setAt_ne _ _ h1]
    · intro g hg; dsimp only; split
      · rw [setAt_ne _ _ hg]
      · rfl
  · intro v' l' hv
    rw [hv, if_neg (by simp)] at e1
    cases e1
    exact ⟨p, rfl, e3.imp (·.2) (fun h => ⟨h.1, _, h.2⟩)⟩
  · intro b bl hb
    rw [ensureFrom, if_neg (by rw [hb]; simp)] at h1
    cases h1.symm.trans (congrArg _ hb)
    exact ⟨q, by dsimp only; rw [setAt_same], g3.imp (·.2) (fun h => ⟨h.1, _, h.2⟩)⟩
  · intro g hg hne
    dsimp only
    rw [setAt_ne _ _ hg]
    by_cases hto : g = .to
    · subst hto; rw [setAt_same, if_neg hne]
    · rw [setAt_ne _ _ hto]
      by_cases hco : g = .contact
      · subst hco; rw [setAt_same, if_neg hne]
      · rw [setAt_ne _ _ hco]
  · intro hn; exact if_neg hn
  · intro hn; exact if_neg hn
  · intro hn; exact if_neg hn
  · intro hn; exact if_neg hn
  · intro g hne
    dsimp only
    split
    · rename_i hua; exact setAt_ne _ _ (by rintro rfl; exact hne hua)
    · rfl
  · exact ⟨rfl, rfl, rfl, rfl, rfl⟩

/-! ## C70 -/

theorem setParam_split {name x : Bytes} {l : Pairs} (h : ParamIs l name x) (y : Bytes) :
    ∃ newer n older, l = newer ++ (n, x) :: older ∧ SameName n name ∧ NoParam newer name ∧
      setParam name y l = newer ++ (n, y) :: older := by
  obtain ⟨newer, p, older, rfl, hp, rfl, hn⟩ := h
  refine ⟨newer, p.1, older, rfl, hp, hn, ?_⟩
  induction newer with
  | nil => simp [setParam, (equalFold_iff _ _).2 hp]
  | cons q newer ih =>
    have hq : equalFold q.1 name = false := by
      rw [← Bool.not_eq_true, equalFold_iff]; exact hn q (by simp)
    simp only [List.cons_append, setParam, hq, Bool.false_eq_true, if_false]
    rw [ih (fun z hz => hn z (by simp [hz]))]

theorem itoa_nat (n : Nat) : itoa (n : Int) = natDec n := by
  unfold itoa; rw [if_neg (by omega)]; simp

theorem stampRport_told (addr : UDPAddr) (v : Via) :
    ∃ p, stampRport addr v = { v with param := p } ∧ PortTold addr.port v p := by
  unfold stampRport
  by_cases hp : v.port ≠ addr.port
  · rw [if_pos hp, itoa_nat]
    rcases noParam_or v.param b!"rport" with hn | ⟨x, hx⟩
    · rw [paramVal_eq_none.2 hn]; exact ⟨_, rfl, .added hp hn⟩
    · rw [paramVal_eq_some.2 hx]
      dsimp only
      by_cases h : x = []
      · subst h
        obtain ⟨newer, n, older, e1, e2, e3, e4⟩ := setParam_split hx (natDec addr.port.toNat)
        rw [if_pos rfl, e4]
        exact ⟨_, rfl, .filled hp e1 e2 e3⟩
      · rw [if_neg h]; exact ⟨v.param, rfl, .kept hp hx h⟩
  · rw [if_neg hp]; exact ⟨v.param, rfl, .same (Classical.byContradiction hp)⟩

theorem stampReceived_told (addr : UDPAddr) (v : Via) :
    ∃ p, stampReceived addr v = { v with param := p } ∧ HostTold addr.ip v.host v.param p := by
  unfold stampReceived
  by_cases hh : v.host ≠ addr.ip
  · rw [if_pos hh]
    rcases noParam_or v.param b!"received" with hn | ⟨x, hx⟩
    · rw [if_pos (get_isNone.2 hn)]; exact ⟨_, rfl, .added hh hn⟩
    · rw [if_neg (fun h => paramIs_not_noParam hx (get_isNone.1 h))]; exact ⟨v.param, rfl, .kept hh hx⟩
  · rw [if_neg hh]; exact ⟨v.param, rfl, .same (Classical.byContradiction hh)⟩

theorem addReceived_noted {addr : UDPAddr} {m m1 : Msg} (h : addReceived addr m = .ok m1) :
    m.status ≤ 0 ∧ SourceNoted addr m m1 ∨ 0 < m.status ∧ m1 = m := by
  unfold addReceived at h
  by_cases hr : m.isResponse = true
  · rw [if_pos hr] at h; cases h
    exact .inr ⟨by simpa [Msg.isResponse] using hr, rfl⟩
  · rw [if_neg hr] at h
    refine .inl ⟨by simpa [Msg.isResponse] using hr, ?_⟩
    cases hv : m.via with
    | nil => rw [hv] at h; cases h
    | cons v l =>
      rw [hv] at h
      simp only [Res.ok.injEq] at h
      obtain ⟨p, e1, h1⟩ := stampRport_told addr v
      obtain ⟨q, e2, h2⟩ := stampReceived_told addr { v with param := p }
      rw [e1, e2] at h
      exact ⟨v, l, p, q, hv, h1, h2, h.symm⟩

theorem addTimestamp_timed {ts : Option Int} {m m' : Msg} (h : addTimestamp ts m = .ok m') : Timed ts m m' := by
  unfold addTimestamp at h
  cases ts with
  | none => cases h; exact .inl ⟨rfl, rfl⟩
  | some t =>
    cases hv : m.via with
    | nil => rw [hv] at h; cases h
    | cons v l => rw [hv] at h; cases h; exact .inr ⟨t, v, l, rfl, hv, rfl⟩

theorem timed_frame {ts : Option Int} {m m' : Msg} (h : Timed ts m m') :
    m'.addrs = m.addrs ∧ m'.request = m.request ∧ m'.status = m.status := by
  rcases h with ⟨_, rfl⟩ | ⟨_, _, _, _, _, rfl⟩ <;> exact ⟨rfl, rfl, rfl⟩

theorem popSelf_here {lhost : Bytes} {lport : UInt16} {m m' : Msg} (h : popSelf lhost lport m = .ok m') :
    ∃ route, RouteHere lhost lport (m.addrs .route) route ∧ m' = { m with addrs := setAt m.addrs .route route } := by
  have hid : m = { m with addrs := setAt m.addrs .route (m.addrs .route) } := by
    rw [show setAt m.addrs .route (m.addrs .route) = m.addrs from funext fun f => by
      unfold setAt; split <;> simp_all]
  unfold popSelf at h
  cases hr : m.addrs .route with
  | nil =>
    rw [hr] at h; cases h
    exact ⟨[], .inr ⟨by simp, rfl⟩, by rw [← hr]; exact hid⟩
  | cons a l =>
    rw [hr] at h
    simp only [Res.bind_eq, Res.bind_ok_iff, Res.pure_eq] at h
    obtain ⟨b, hb, h⟩ := h
    cases hu : a.uri with
    | none => simp [routeIsSelf, hu] at hb
    | some u =>
      simp only [routeIsSelf, hu, Res.ok.injEq] at hb
      have hiff : b = true ↔ AtHome lhost lport u := by
        rw [← hb]; unfold AtHome or5060; simp
      cases b with
      | true => cases h; exact ⟨l, .inl ⟨a, u, hu, hiff.1 rfl, rfl⟩, rfl⟩
      | false =>
        cases h
        refine ⟨a :: l, .inr ⟨?_, rfl⟩, by rw [← hr]; exact hid⟩
        intro a' u' l' h1 h2 h3
        cases h1
        rw [hu] at h2; cases h2
        exact absurd (hiff.2 h3) (by simp)

theorem fixStrict_undone (lhost : Bytes) (lport : UInt16) (m : Msg) :
    ∃ request' route', StrictUndone lhost lport m.request (m.addrs .route) request' route' ∧
      fixStrict lhost lport m = { m with request := request', addrs := setAt m.addrs .route route' } := by
  have hid : m = { m with addrs := setAt m.addrs .route (m.addrs .route) } := by
    rw [show setAt m.addrs .route (m.addrs .route) = m.addrs from funext fun f => by
      unfold setAt; split <;> simp_all]
  have hiff : ∀ u, strictlyHere lhost lport u = true ↔ LooseRoute u ∧ AtHome lhost lport u := by
    intro u
    unfold strictlyHere AtHome LooseRoute
    rw [← get_isSome]
    simp [or5060, and_assoc]
  unfold fixStrict
  split
  · rename_i u a hu ha
    have hs := snoc_of_getLast? ha
    split
    · rename_i hh
      exact ⟨a.uri, _, .inl ⟨u, a, hu, ((hiff u).1 hh).1, ((hiff u).1 hh).2, hs, rfl⟩, rfl⟩
    · rename_i hh
      refine ⟨m.request, m.addrs .route, .inr ⟨.inr ?_, rfl, rfl⟩, hid⟩
      intro u' hu' h'
      rw [hu] at hu'; cases hu'
      exact hh ((hiff u).2 h')
  · rename_i hno
    refine ⟨m.request, m.addrs .route, .inr ⟨?_, rfl, rfl⟩, hid⟩
    cases hu : m.request with
    | none => exact .inr (by simp)
    | some u =>
      left
      cases ha : (m.addrs .route).getLast? with
      | none => exact List.getLast?_eq_none_iff.1 ha
      | some a => exact absurd ha (hno u a hu)

theorem setAt_setAt {β : Type} (f : AField → β) (a : AField) (x y : β) : setAt (setAt f a x) a y = setAt f a y := by
  funext g; unfold setAt; split <;> rfl

/-- **C70.** What the receiver delivers is the message in the datagram (of which at most 2048 bytes are read), with its
source noted in the top Via of a request, the time stamp, if any, added, and the routing that led here undone; nothing
else is changed. A datagram that holds no message is dropped, and no other (see `C40_receive_panics_iff_partial` for
those that crash the receiver instead). -/
theorem C70_delivered (lhost : Bytes) (lport : UInt16) (ts : Option Int) (d : Bytes) (addr : UDPAddr) :
    (∀ m', receiveOne lhost lport ts d addr = .ok (some m') →
      ∃ m, parseMsg (d.take 2048) = .ok m ∧ Received lhost lport ts addr m m') ∧
    (receiveOne lhost lport ts d addr = .ok none ↔ ∃ e, parseMsg (d.take 2048) = .err e) := by
  unfold receiveOne
  constructor
  · intro m' h
    rcases C07_parseMsg_never_panics (d.take 2048) with ⟨m, hm⟩ | ⟨e, he⟩
    · rw [hm] at h
      simp only [Res.bind_eq, Res.bind_ok_iff, Res.pure_eq] at h
      obtain ⟨m1, h1, m2, h2, m3, h3, h⟩ := h
      simp only [Res.ok.injEq, Option.some.injEq] at h
      have t1 := addReceived_noted h1
      have t2 := addTimestamp_timed h2
      obtain ⟨route, t3, e3⟩ := popSelf_here h3
      obtain ⟨request', route', t4, e4⟩ := fixStrict_undone lhost lport m3
      have ha : m1.addrs = m.addrs ∧ m1.request = m.request := by
        rcases t1 with ⟨_, _, _, _, _, _, _, _, rfl⟩ | ⟨_, rfl⟩ <;> exact ⟨rfl, rfl⟩
      obtain ⟨f1, f2, _⟩ := timed_frame t2
      rw [f1, ha.1] at t3
      subst e3
      refine ⟨m, hm, m1, m2, route, request', route', t1, t2, t3, ?_, ?_⟩
      · simpa [setAt, f2, ha.2] using t4
      · rw [← h, e4]
        dsimp only
        rw [f1, ha.1, setAt_setAt]
    · rw [he] at h; simp at h
  · rcases C07_parseMsg_never_panics (d.take 2048) with ⟨m, hm⟩ | ⟨e, he⟩
    · rw [hm]
      simp only [Res.bind_eq]
      constructor
      · intro h
        simp only [Res.bind_ok_iff, Res.pure_eq] at h
        obtain ⟨_, _, _, _, _, _, h⟩ := h
        simp at h
      · rintro ⟨e, he⟩; cases he
    · rw [he]; simp

/-- A request that a strict router has sent here. -/
def strictBye : Bytes :=
  b!"BYE sip:1.1.1.1;lr SIP/2.0\r\nVia: SIP/2.0/UDP b;rport\r\nRoute: <sip:c;lr>, <sip:d@e>\r\n\r\n"

/-- What is in it. -/
def strictByeMsg : Msg :=
  { versionMajor := 2, method := b!"BYE",
    request := some { scheme := b!"sip", host := b!"1.1.1.1", param := [(b!"lr", [])] },
    via := [{ protocol := b!"SIP", version := b!"2.0", transport := b!"UDP", host := b!"b", param := [(b!"rport", [])] }],
    addrs := setAt (fun _ => []) .route [{ uri := some { scheme := b!"sip", host := b!"c", param := [(b!"lr", [])] } },
      { uri := some { scheme := b!"sip", user := b!"d", host := b!"e" } }] }

/-- The source is noted and the request URI restored. -/
example : parseMsg (strictBye.take 2048) = .ok strictByeMsg ∧
    receiveOne b!"1.1.1.1" 5060 none strictBye ⟨b!"2.2.2.2", 9⟩ = .ok (some { strictByeMsg with
      request := some { scheme := b!"sip", user := b!"d", host := b!"e" }
      via := [{ protocol := b!"SIP", version := b!"2.0", transport := b!"UDP", host := b!"b",
                param := [(b!"received", b!"2.2.2.2"), (b!"rport", b!"9")] }]
      addrs := setAt (fun _ => []) .route [{ uri := some { scheme := b!"sip", host := b!"c", param := [(b!"lr", [])] } }] }) := by
  decide +kernel

/-! ## C71 -/

/-- The address text looked up for a host and a port. -/
theorem portstr_nat (p : UInt16) : portstr p = natDec p.toNat := by
  unfold portstr; exact itoa_nat _

theorem route_next {via : Option Via} {contact : Option Addr} {m : Msg} {hop : Bytes × UInt16}
    (hr : m.isResponse = false) (h : (routeMessage via contact m).2 = .ok hop) :
    ∃ route u sent, ForeignRoute contact (m.addrs .route) route ∧ NextHop m route u sent hop ∧
      (m.method = b!"REGISTER" → route = []) ∧
      (routeMessage via contact m).1 = { m with request := u, addrs := setAt m.addrs .route sent } := by
  have hf := popRoute_spec contact (m.addrs .route)
  unfold routeMessage at h ⊢
  simp only [hr, Bool.false_eq_true, if_false] at h ⊢
  generalize popRoute contact (m.addrs .route) = route at *
  cases route with
  | nil =>
    refine ⟨[], m.request, [], hf, ?_, fun _ => rfl, rfl⟩
    cases hq : m.request with
    | none => simp [uriHop, hq] at h
    | some u =>
      simp only [uriHop, hq, Res.ok.injEq] at h
      subst h
      exact .direct hq
  | cons a l =>
    dsimp only at h ⊢
    by_cases hm : m.method = b!"REGISTER"
    · rw [if_pos hm] at h; cases h
    · rw [if_neg hm] at h ⊢
      cases hu : a.uri with
      | none => rw [hu] at h; cases h
      | some u =>
        rw [hu] at h
        dsimp only at h ⊢
        by_cases hl : (u.param.get b!"lr").isSome = true
        · rw [if_pos hl] at h ⊢
          cases h
          exact ⟨_, _, _, hf, .loose hu (get_isSome.1 hl), fun e => absurd e hm, rfl⟩
        · rw [if_neg hl] at h ⊢
          cases h
          refine ⟨_, _, _, hf, .strict hu (fun e => hl (get_isSome.2 e)), fun e => absurd e hm, ?_⟩
          dsimp only
          rw [setAt_setAt, addrCopy_eq]

theorem nextHop_congr {m m' : Msg} {l : List Addr} {u : Option URI} {s : List Addr} {h : Bytes × UInt16}
    (e : m'.request = m.request) (n : NextHop m l u s h) : NextHop m' l u s h := by
  cases n with
  | direct h => exact .direct (e.trans h)
  | loose h1 h2 => rw [← e]; exact .loose h1 h2
  | strict h1 h2 => rw [← e]; exact .strict h1 h2

/-- The end of `Send`. -/
theorem sendTo_wire {env : SendEnv} {tp : Transport} {own : Bool} {dest : Bytes} {m : Msg} {x : Bytes × Bytes}
    (h : (sendTo env tp own dest m).wire = some x) :
    ∃ m1, Timed env.ts { m with maxForwards := oneLess m.maxForwards } m1 ∧ x = (m1.text env.origin, dest) ∧
      (sendTo env tp own dest m).res = (match env.write with | .ok _ => .ok () | .error e => .err (.net e)) := by
  have hd : decForwards m = { m with maxForwards := oneLess m.maxForwards } := by
    unfold decForwards oneLess
    split <;> rfl
  unfold sendTo at h ⊢
  cases ht : addTimestamp env.ts (decForwards m) with
  | ok m1 =>
    rw [ht] at h
    simp only [Option.some.injEq] at h
    exact ⟨m1, hd ▸ addTimestamp_timed ht, h.symm, rfl⟩
  | err e => rw [ht] at h; cases h
  | panic => rw [ht] at h; cases h

/-- **C71.** A request handed to the socket by `Send` is the one given, completed with what it lacked, after one more
hop, with the request URI and the route set that routing gives it, and it goes to the address of its next hop. -/
theorem C71_request (env : SendEnv) (tp : Transport) (msg : Msg) (t dest : Bytes) (hr : msg.isResponse = false)
    (h : (tp.send env msg).wire = some (t, dest)) :
    ∃ m route u sent host port m1, FilledFrom env.ids tp.via tp.contact msg m ∧ Keeps msg m ∧
      ForeignRoute tp.contact.head? (msg.addrs .route) route ∧ (msg.method = b!"REGISTER" → route = []) ∧
      NextHop msg route u sent (host, port) ∧ env.resolve (joinHostPort host (natDec port.toNat)) = .ok dest ∧
      Timed env.ts { m with request := u, addrs := setAt m.addrs .route sent, maxForwards := oneLess m.maxForwards } m1 ∧
      t = m1.text env.origin := by
  unfold Transport.send at h
  cases hp : populateMessage env.ids tp.via tp.contact msg with
  | ok m =>
    rw [hp] at h
    obtain ⟨f, k⟩ := C43_filled _ _ _ _ _ hr hp
    have hm : m.isResponse = false := by unfold Msg.isResponse at hr ⊢; rw [k.line.2.2]; exact hr
    simp only at h
    generalize hv : (if (!msg.isResponse && msg.via == []) = true then { tp with via := m.via } else tp).via.head? = v at h
    have hc : (if (!msg.isResponse && msg.via == []) = true then { tp with via := m.via } else tp).contact.head? =
        tp.contact.head? := by split <;> rfl
    rw [hc] at h
    cases hq : (routeMessage v tp.contact.head? m).2 with
    | ok hop =>
      obtain ⟨route, u, sent, h1, h2, h3, h4⟩ := route_next hm hq
      obtain ⟨host, port⟩ := hop
      rw [hq] at h
      simp only at h
      rw [portstr_nat] at h
      cases hres : env.resolve (joinHostPort host (natDec port.toNat)) with
      | error e => rw [hres] at h; cases h
      | ok d =>
        rw [hres, h4] at h
        obtain ⟨m1, g1, g2, _⟩ := sendTo_wire h
        cases g2
        rw [f.noMore.1 .route (by decide) (by decide) (by decide)] at h1
        exact ⟨m, route, u, sent, host, port, m1, f, k, h1, fun e => h3 (k.line.1.trans e),
          nextHop_congr k.line.2.1.symm h2, hres, g1, rfl⟩
    | err e => rw [hq] at h; cases h
    | panic => rw [hq] at h; cases h
  | err e => rw [hp] at h; cases h
  | panic => rw [hp] at h; cases h

/-- **C71.** A response handed to the socket by `Send` is the one given without our own Via, and it goes where its top
Via says. -/
theorem C71_response (env : SendEnv) (tp : Transport) (msg : Msg) (t dest : Bytes) (hr : msg.isResponse = true)
    (h : (tp.send env msg).wire = some (t, dest)) :
    ∃ v l host port m1, ForeignVia tp.via.head? msg.via (v :: l) ∧ ResponseHop v host port ∧
      env.resolve (joinHostPort host (natDec port.toNat)) = .ok dest ∧
      Timed env.ts { msg with via := v :: l, maxForwards := oneLess msg.maxForwards } m1 ∧ t = m1.text env.origin := by
  unfold Transport.send at h
  have hp : populateMessage env.ids tp.via tp.contact msg = .ok msg := by simp [populateMessage, hr]
  rw [hp] at h
  simp only [hr, Bool.not_true, Bool.false_and, Bool.false_eq_true, if_false] at h
  obtain ⟨vias, h1, h2, h3⟩ := C38_response_routing tp.via.head? tp.contact.head? msg hr
  cases vias with
  | nil => simp only at h3; rw [h3] at h; cases h
  | cons v l =>
    rcases h3 with ⟨host, port, h3, h4⟩ | ⟨s, h3, _⟩
    · rw [h3, h2] at h
      simp only at h
      rw [portstr_nat] at h
      cases hres : env.resolve (joinHostPort host (natDec port.toNat)) with
      | error e => rw [hres] at h; cases h
      | ok d =>
        rw [hres] at h
        obtain ⟨m1, g1, g2, _⟩ := sendTo_wire h
        cases g2
        exact ⟨v, l, host, port, m1, h1, h4, hres, g1, rfl⟩
    · rw [h3] at h; cases h

theorem foreignRoute_unique {c : Option Addr} {l a b : List Addr} (h1 : ForeignRoute c l a) (h2 : ForeignRoute c l b) :
    a = b := by
  rcases h1 with ⟨x, y, e1, e2, e3⟩ | ⟨e1, e2⟩ <;> rcases h2 with ⟨x', y', f1, f2, f3⟩ | ⟨f1, f2⟩
  · rw [e3] at f3; cases f3; rfl
  · exact absurd e2 (f1 x y _ e1 e3)
  · exact absurd f2 (e1 x' y' _ f1 f3)
  · rw [e2, f2]

theorem foreignVia_unique {c : Option Via} {l a b : List Via} (h1 : ForeignVia c l a) (h2 : ForeignVia c l b) :
    a = b := by
  rcases h1 with ⟨x, e1, e2⟩ | ⟨e1, e2⟩ <;> rcases h2 with ⟨x', f1, f2⟩ | ⟨f1, f2⟩
  · rw [e2] at f2; cases f2; rfl
  · exact absurd e1 (f1 x _ e2)
  · exact absurd f1 (e1 x' _ f2)
  · rw [e2, f2]

theorem route_of_next {via : Option Via} {contact : Option Addr} {m : Msg} {route : List Addr} {u : Option URI}
    {sent : List Addr} {hop : Bytes × UInt16} (hr : m.isResponse = false)
    (hf : ForeignRoute contact (m.addrs .route) route) (hn : NextHop m route u sent hop)
    (hreg : m.method = b!"REGISTER" → route = []) : (routeMessage via contact m).2 = .ok hop := by
  have e := foreignRoute_unique (popRoute_spec contact (m.addrs .route)) hf
  unfold routeMessage
  simp only [hr, Bool.false_eq_true, if_false, e]
  cases hn with
  | direct hq => simp [uriHop, hq]
  | loose hu hl =>
    have hm : m.method ≠ b!"REGISTER" := fun hm => by have := hreg hm; cases this
    simp [hm, hu, get_isSome.2 hl]
  | @strict a u l hu hl =>
    have hm : m.method ≠ b!"REGISTER" := fun hm => by have := hreg hm; cases this
    have h : ¬ (u.param.get b!"lr").isSome = true := fun h => hl (get_isSome.1 h)
    dsimp only
    rw [if_neg hm, hu]
    dsimp only
    rw [if_neg h]

theorem populate_total (ids : Ids) (via : List Via) (contact : List Addr) (msg : Msg)
    (hv : (if msg.via = [] then via else msg.via) ≠ [])
    (hf : msg.addrs .from ≠ [] ∨ ∃ c u l, (if msg.addrs .contact = [] then contact else msg.addrs .contact) = c :: l ∧
      c.uri = some u) : ∃ m, populateMessage ids via contact msg = .ok m := by
  unfold populateMessage
  split
  · exact ⟨_, rfl⟩
  · generalize (if msg.via = [] then via else msg.via) = vias at *
    generalize (if msg.addrs .contact = [] then contact else msg.addrs .contact) = contacts at *
    have h1 : ∃ a l, ensureFrom (msg.addrs .from) contacts = .ok (a :: l) := by
      unfold ensureFrom
      cases hm : msg.addrs .from with
      | cons a l => exact ⟨a, l, by simp⟩
      | nil =>
        rcases hf with h | ⟨c, u, l, rfl, hu⟩
        · exact absurd hm h
        · exact ⟨_, _, by simp only [if_true, fromContact, hu]; rfl⟩
    obtain ⟨a, l, h1⟩ := h1
    obtain ⟨v, vl, rfl⟩ := List.exists_cons_of_ne_nil hv
    have h2 : ∃ x, ensureBranch ids.branch (v :: vl) = .ok x := by
      simp only [ensureBranch]; split <;> exact ⟨_, rfl⟩
    have h3 : ∃ x, ensureTag ids.tag (a :: l) = .ok x := by
      simp only [ensureTag]; split <;> exact ⟨_, rfl⟩
    obtain ⟨x, h2⟩ := h2
    obtain ⟨y, h3⟩ := h3
    simp only [Res.bind_eq, h1, h2, h3, Res.bind, Res.pure_eq]
    exact ⟨_, rfl⟩

theorem sendTo_total (env : SendEnv) (tp : Transport) (own : Bool) (dest : Bytes) (m : Msg) (hv : m.via ≠ []) :
    (∃ t, (sendTo env tp own dest m).wire = some (t, dest)) ∧
      (∀ e, env.write = .error e → (sendTo env tp own dest m).res = .err (.net e)) ∧
      (∀ x, env.write = .ok x → (sendTo env tp own dest m).res = .ok ()) := by
  obtain ⟨y, hy, _⟩ := addTimestamp_ok (ts := env.ts) (m := decForwards m) (.inr (by
    unfold decForwards; split <;> exact hv))
  unfold sendTo
  rw [hy]
  exact ⟨⟨_, rfl⟩, fun e he => by simp [he], fun x hx => by simp [hx]⟩

/-- **C71.** A request with a Via and a sender, its own or the transport's, whose next hop can be resolved is handed to
the socket, and `Send` tells how the socket has taken it. -/
theorem C71_sent (env : SendEnv) (tp : Transport) (msg : Msg) (route : List Addr) (u : Option URI) (sent : List Addr)
    (host : Bytes) (port : UInt16) (dest : Bytes) (hr : msg.isResponse = false)
    (hv : (if msg.via = [] then tp.via else msg.via) ≠ [])
    (hf : msg.addrs .from ≠ [] ∨ ∃ c u l, (if msg.addrs .contact = [] then tp.contact else msg.addrs .contact) = c :: l ∧
      c.uri = some u)
    (h1 : ForeignRoute tp.contact.head? (msg.addrs .route) route) (h2 : NextHop msg route u sent (host, port))
    (hreg : msg.method = b!"REGISTER" → route = [])
    (hd : env.resolve (joinHostPort host (natDec port.toNat)) = .ok dest) :
    (∃ t, (tp.send env msg).wire = some (t, dest)) ∧
      (∀ e, env.write = .error e → (tp.send env msg).res = .err (.net e)) ∧
      (∀ x, env.write = .ok x → (tp.send env msg).res = .ok ()) := by
  obtain ⟨m, hp⟩ := populate_total env.ids tp.via tp.contact msg hv hf
  obtain ⟨f, k⟩ := C43_filled _ _ _ _ _ hr hp
  have hm : m.isResponse = false := by unfold Msg.isResponse at hr ⊢; rw [k.line.2.2]; exact hr
  have hc : (if (!msg.isResponse && msg.via == []) = true then { tp with via := m.via } else tp).contact.head? =
      tp.contact.head? := by split <;> rfl
  have hrt : ∀ via, (routeMessage via tp.contact.head? m).2 = .ok (host, port) := fun via =>
    route_of_next hm (by rw [f.noMore.1 .route (by decide) (by decide) (by decide)]; exact h1)
      (nextHop_congr k.line.2.1 h2) (fun e => hreg (k.line.1.symm.trans e))
  unfold Transport.send
  simp only [hp, hc, hrt, portstr_nat, hd]
  generalize (if (!msg.isResponse && msg.via == []) = true then { tp with via := m.via } else tp) = tp'
  obtain ⟨_, _, _, _, _, _, h4⟩ := route_next (hr := hm) (hrt tp'.via.head?)
  obtain ⟨v, l, p, _, g2, _⟩ := f.via
  exact sendTo_total _ _ _ _ _ (by rw [h4]; exact g2 ▸ List.cons_ne_nil _ _)

/-- **C71.** `Send` reports success only if the datagram went out. -/
theorem C71_success (env : SendEnv) (tp : Transport) (msg : Msg) (h : (tp.send env msg).res = .ok ()) :
    (∃ t dest, (tp.send env msg).wire = some (t, dest)) ∧ ∃ x, env.write = .ok x := by
  unfold Transport.send at h ⊢
  split at h
  · simp only at h ⊢
    split at h
    · split at h
      · simp only [sendTo] at h ⊢
        rename_i hres _ _ _ _
        split at h
        · cases hw : env.write with
          | ok x => simp only at h ⊢; simp_all
          | error e => rw [hw] at h; cases h
        · cases h
      · cases h
    · cases h
    · cases h
  · cases h

/-- **C71 is false** for addresses without a port: the default port of the scheme is not used, the request is sent to
port 0. -/
theorem C71_no_port_means_port_zero (env : SendEnv) (tp : Transport) (msg : Msg) (u : URI) (t dest : Bytes)
    (hr : msg.isResponse = false) (hq : msg.request = some u) (hp : u.port = 0) (hn : msg.addrs .route = [])
    (h : (tp.send env msg).wire = some (t, dest)) : env.resolve (joinHostPort u.host b!"0") = .ok dest := by
  obtain ⟨m, route, u', sent, host, port, m1, _, _, h1, _, h2, h3, _⟩ := C71_request env tp msg t dest hr h
  rw [hn] at h1
  have : route = [] := by
    rcases h1 with ⟨_, _, _, _, h⟩ | ⟨_, h⟩
    · cases h
    · exact h
  subst this
  cases h2 with
  | direct e => rw [hq] at e; cases e; rw [hp] at h3; exact h3

/-- A request with nothing but a target, sent through a loose router. -/
example : ((Transport.send ⟨⟨b!"id", 5, b!"z9hG4bK-1", b!"t"⟩, b!"0", none, fun a => .ok a, .ok ()⟩
      ⟨[{ host := b!"h", port := 41000 }], [{ uri := some { scheme := b!"sip", host := b!"h", port := 41000 } }]⟩
      { method := b!"OPTIONS", request := some { scheme := b!"sip", host := b!"x" },
        addrs := setAt (fun _ => []) .route
          [{ uri := some { scheme := b!"sip", host := b!"p", port := 5080, param := [(b!"lr", [])] } }] }).wire.map Prod.snd) =
    some b!"p:5080" := by
  decide +kernel

end Gosip.Props
