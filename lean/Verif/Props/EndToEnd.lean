import Verif.Props.Wire
import Verif.Props.RoundTrip

/-!
# Property C73: a request and its response between two transports
-/

namespace Gosip.Props
open Sip Spec Dialog

/-! ### Parameters added on the way -/

theorem portTold_keeps {port : UInt16} {v : Via} {p : Pairs} (h : PortTold port v p) {name : Bytes}
    (hn : ¬ SameName b!"rport" name) : (∀ x, ParamIs p name x ↔ ParamIs v.param name x) ∧
      (NoParam p name ↔ NoParam v.param name) := by
  cases h with
  | same _ => exact ⟨fun _ => Iff.rfl, Iff.rfl⟩
  | kept _ _ _ => exact ⟨fun _ => Iff.rfl, Iff.rfl⟩
  | added _ _ => exact ⟨fun _ => paramIs_cons_ne hn, noParam_cons_ne hn⟩
  | @filled newer n older _ hv hs hnew =>
    have hne : ¬ SameName n name := fun h => hn (hs.symm.trans h)
    have key : ∀ x y : Bytes, ∀ z, ParamIs (newer ++ (n, x) :: older) name z → ParamIs (newer ++ (n, y) :: older) name z := by
      rintro x y z ⟨a, q, b, e, h1, h2, h3⟩
      rcases List.append_eq_append_iff.1 e with ⟨c, e1, e2⟩ | ⟨c, e1, e2⟩
      · -- the entry is behind
        cases c with
        | nil =>
          simp only [List.nil_append, List.cons.injEq] at e2
          exact absurd (by have e := congrArg Prod.fst e2.1; dsimp only at e; first | rw [e]; exact h1 | rw [← e]; exact h1) hne
        | cons d c =>
          simp only [List.cons_append, List.cons.injEq] at e2
          obtain ⟨rfl, rfl⟩ := e2
          refine ⟨newer ++ (n, y) :: c, q, b, by simp, h1, h2, ?_⟩
          intro w hw
          simp only [List.mem_append, List.mem_cons] at hw
          rcases hw with hw | rfl | hw
          · exact h3 w (by rw [e1]; simp [hw])
          · exact hne
          · exact h3 w (by rw [e1]; simp [hw])
      · cases c with
        | nil =>
          simp only [List.nil_append, List.cons.injEq] at e2
          exact absurd (by have e := congrArg Prod.fst e2.1; dsimp only at e; first | rw [e]; exact h1 | rw [← e]; exact h1) hne
        | cons d c =>
          simp only [List.cons_append, List.cons.injEq] at e2
          obtain ⟨rfl, rfl⟩ := e2
          exact ⟨a, q, c ++ (n, y) :: older, by rw [e1]; simp, h1, h2, h3⟩
    rw [hv]
    refine ⟨fun x => ⟨key _ _ x, key _ _ x⟩, ?_⟩
    unfold NoParam
    simp only [List.mem_append, List.mem_cons]
    constructor
    · rintro h q (hq | rfl | hq)
      · exact h q (.inl hq)
      · exact hne
      · exact h q (.inr (.inr hq))
    · rintro h q (hq | rfl | hq)
      · exact h q (.inl hq)
      · exact hne
      · exact h q (.inr (.inr hq))

theorem hostTold_keeps {ip host : Bytes} {p q : Pairs} (h : HostTold ip host p q) {name : Bytes}
    (hn : ¬ SameName b!"received" name) : (∀ x, ParamIs q name x ↔ ParamIs p name x) ∧
      (NoParam q name ↔ NoParam p name) := by
  cases h with
  | same _ => exact ⟨fun _ => Iff.rfl, Iff.rfl⟩
  | kept _ _ => exact ⟨fun _ => Iff.rfl, Iff.rfl⟩
  | added _ _ => exact ⟨fun _ => paramIs_cons_ne hn, noParam_cons_ne hn⟩

/-- A noted source is where responses go. -/
theorem told_hop {addr : UDPAddr} {v : Via} {p q : Pairs} (h1 : PortTold addr.port v p)
    (h2 : HostTold addr.ip v.host p q) (hnr : NoParam v.param b!"received")
    (hrp : NoParam v.param b!"rport" ∨ ParamIs v.param b!"rport" []) :
    ResponseHop { v with param := q } addr.ip addr.port := by
  have hnp : NoParam p b!"received" := (portTold_keeps h1 (by decide)).2.2 hnr
  obtain ⟨k1, k2⟩ := hostTold_keeps (name := b!"rport") h2 (by decide)
  constructor
  · cases h2 with
    | same e => exact .inr ⟨hnp, e.symm⟩
    | added _ _ => exact .inl (paramIs_cons rfl)
    | kept _ hx => exact absurd hnp (paramIs_not_noParam hx)
  · dsimp only
    have hint : IntText (natDec addr.port.toNat) (addr.port.toNat : Int) := by
      have := IntText.plain (natDec_ne_nil addr.port.toNat) (fun c hc => (isDigit_iff c).1 (natDec_isDigit _ c hc))
      rw [decVal_natDec] at this
      exact this
    have hlt := addr.port.toNat_lt
    cases h1 with
    | same e => exact .inr ⟨hrp.imp k2.2 (k1 _).2, e.symm⟩
    | added _ _ =>
      exact .inl ⟨_, _, (k1 _).2 (paramIs_cons rfl), hint, by omega, by omega, (ofInt_toNat _).symm⟩
    | filled _ e hs hnew =>
      exact .inl ⟨_, _, (k1 _).2 ⟨_, _, _, rfl, hs, rfl, hnew⟩, hint, by omega, by omega, (ofInt_toNat _).symm⟩
    | kept _ hx hne =>
      rcases hrp with h | h
      · exact absurd h (paramIs_not_noParam hx)
      · exact absurd (paramIs_unique hx h) hne

theorem responseHop_usi {v : Via} {h : Bytes} {p : UInt16} (x : Bytes) :
    ResponseHop { v with param := (b!"usi", x) :: v.param } h p ↔ ResponseHop v h p := by
  have a : ∀ z, ParamIs ((b!"usi", x) :: v.param) b!"received" z ↔ ParamIs v.param b!"received" z :=
    fun z => paramIs_cons_ne (by decide)
  have b : NoParam ((b!"usi", x) :: v.param) b!"received" ↔ NoParam v.param b!"received" := noParam_cons_ne (by decide)
  have c : ∀ z, ParamIs ((b!"usi", x) :: v.param) b!"rport" z ↔ ParamIs v.param b!"rport" z :=
    fun z => paramIs_cons_ne (by decide)
  have d : NoParam ((b!"usi", x) :: v.param) b!"rport" ↔ NoParam v.param b!"rport" := noParam_cons_ne (by decide)
  unfold ResponseHop ParamOr
  simp only [a, b, c, d]

/-! ### They can be written -/

theorem token_dig {c : UInt8} (h : isDig c) : token c := .inl (.inr h)

theorem token_natDec (n : Nat) : ∀ c ∈ natDec n, token c := fun c hc =>
  token_dig ((isDigit_iff c).1 (natDec_isDigit n c hc))

theorem token_itoa (n : Int) : ∀ c ∈ itoa n, token c := by
  intro c hc
  unfold itoa at hc
  split at hc
  · rcases List.mem_cons.1 hc with rfl | hc
    · exact .inr (by decide)
    · exact token_natDec _ c hc
  · exact token_natDec _ c hc

theorem valueOK_ip {ip : Bytes} (h : ∀ c ∈ ip, ip6c c) : ValueOK ip := by
  have hc : ∀ c : UInt8, ip6c c → (token c ∨ c = 58) ∧ c.toNat < 128 ∧ c ≠ 13 ∧ c ≠ 10 := by decide +kernel
  by_cases hk : (58 : UInt8) ∈ ip
  · refine .inr ⟨?_, 58, hk, by decide, by decide⟩
    clear hk
    induction ip with
    | nil => exact .nil
    | cons c ip ih =>
      obtain ⟨_, h1, h2, h3⟩ := hc c (h c (by simp))
      exact .char h1 h2 h3 (ih fun d hd => h d (by simp [hd]))
  · refine .inl fun c hm => ?_
    rcases (hc c (h c hm)).1 with h | rfl
    · exact h
    · exact absurd hm hk

theorem isToken_of {s : Bytes} (h1 : s ≠ []) (h2 : s.all (fun c => decide (token c)) = true) : IsToken s :=
  ⟨h1, by simpa using h2⟩

theorem plain_of {s : Bytes} (h : s.all (fun c => decide (32 ≤ c.toNat ∧ c.toNat < 127)) = true) (h0 : skipWs s = s) :
    TextOK s := text_plain (by simpa using h) h0

theorem paramOK_cons {n v : Bytes} {l : Pairs} (h1 : IsToken n) (h2 : ValueOK v) (h : ParamOK l) :
    ParamOK ((n, v) :: l) := by
  intro p hp
  rcases List.mem_cons.1 hp with rfl | hp
  · exact ⟨h1, h2⟩
  · exact h p hp

theorem portTold_ok {port : UInt16} {v : Via} {p : Pairs} (h : PortTold port v p) (hv : ParamOK v.param) : ParamOK p := by
  cases h with
  | same _ => exact hv
  | kept _ _ _ => exact hv
  | added _ _ => exact paramOK_cons (isToken_of (by decide) (by decide)) (.inl (token_natDec _)) hv
  | filled _ e _ _ =>
    rw [e] at hv
    intro q hq
    rcases List.mem_append.1 hq with hq | hq
    · exact hv q (by simp [hq])
    · rcases List.mem_cons.1 hq with rfl | hq
      · exact ⟨(hv _ (List.mem_append_right _ (List.mem_cons_self ..))).1, .inl (token_natDec _)⟩
      · exact hv q (by simp [hq])

theorem hostTold_ok {ip host : Bytes} {p q : Pairs} (h : HostTold ip host p q) (hip : ∀ c ∈ ip, ip6c c) (hp : ParamOK p) :
    ParamOK q := by
  cases h with
  | same _ => exact hp
  | kept _ _ => exact hp
  | added _ _ => exact paramOK_cons (isToken_of (by decide) (by decide)) (valueOK_ip hip) hp

theorem usi_ok {t : Int} {p : Pairs} (hp : ParamOK p) : ParamOK ((b!"usi", itoa t) :: p) :=
  paramOK_cons (isToken_of (by decide) (by decide)) (.inl (token_itoa _)) hp

/-- Two Vias of the same hop: same host and port, and the same branch. -/
structure SameHop (v w : Via) : Prop where
  host : w.host = v.host
  port : w.port = v.port
  branch : ∀ b, ParamIs w.param b!"branch" b ↔ ParamIs v.param b!"branch" b
  ok : ViaOK v → ViaOK w

theorem sameHop_timed {ts : Option Int} {m m' : Msg} {v : Via} {l : List Via} (h : Timed ts m m') (hv : m.via = v :: l) :
    ∃ w, m' = { m with via := w :: l } ∧ SameHop v w ∧ ∀ h p, ResponseHop w h p ↔ ResponseHop v h p := by
  rcases h with ⟨_, rfl⟩ | ⟨t, v', l', _, hv', rfl⟩
  · refine ⟨v, by rw [← hv], ⟨rfl, rfl, fun _ => Iff.rfl, id⟩, fun _ _ => Iff.rfl⟩
  · rw [hv] at hv'
    cases hv'
    refine ⟨_, rfl, ⟨rfl, rfl, fun b => paramIs_cons_ne (by decide), fun k => ?_⟩, fun _ _ => responseHop_usi _⟩
    exact ⟨k.protocol, k.version, k.transport, k.host, k.hostc, usi_ok k.param⟩

theorem sameHop_noted {addr : UDPAddr} {v : Via} {p q : Pairs} (h1 : PortTold addr.port v p)
    (h2 : HostTold addr.ip v.host p q) (hip : ∀ c ∈ addr.ip, ip6c c) : SameHop v { v with param := q } :=
  ⟨rfl, rfl, fun b => ((hostTold_keeps h2 (by decide)).1 b).trans ((portTold_keeps h1 (by decide)).1 b),
    fun k => ⟨k.protocol, k.version, k.transport, k.host, k.hostc, hostTold_ok h2 hip (portTold_ok h1 k.param)⟩⟩

theorem SameHop.trans {a b c : Via} (h : SameHop a b) (k : SameHop b c) : SameHop a c :=
  ⟨k.host.trans h.host, k.port.trans h.port, fun x => (k.branch x).trans (h.branch x), fun z => k.ok (h.ok z)⟩

theorem viaOK_read {v : Via} (h : ViaOK v) : ViaOK (viaRead v) := by
  refine ⟨?_, ?_, ?_, h.host, h.hostc, h.param⟩
  · unfold viaRead; dsimp only; split
    · intro c hc; exact (isToken_of (s := b!"SIP") (by decide) (by decide)).2 c hc
    · exact h.protocol
  · unfold viaRead; dsimp only; split
    · intro c hc; exact (isToken_of (s := b!"2.0") (by decide) (by decide)).2 c hc
    · exact h.version
  · unfold viaRead; dsimp only; split
    · intro c hc; exact (isToken_of (s := b!"UDP") (by decide) (by decide)).2 c hc
    · exact h.transport

/-- What the other side gets. -/
theorem got_facts {lhost : Bytes} {lport : UInt16} {ts : Option Int} {addr : UDPAddr} {m got : Msg} {v : Via}
    (h : Received lhost lport ts addr m got) (hs : m.status ≤ 0) (hv : m.via = [v]) (hip : ∀ c ∈ addr.ip, ip6c c) :
    ∃ w, got.via = [w] ∧ SameHop v w ∧ got.callID = m.callID ∧ got.cseq = m.cseq ∧ got.cseqMethod = m.cseqMethod ∧
      (∀ f, f ≠ .route → got.addrs f = m.addrs f) ∧
      (NoParam v.param b!"received" → (NoParam v.param b!"rport" ∨ ParamIs v.param b!"rport" []) →
        ResponseHop w addr.ip addr.port) := by
  obtain ⟨m1, m2, route, rq, rt, h1, h2, _, _, rfl⟩ := h
  rcases h1 with ⟨_, v', l', p, q, e, t1, t2, rfl⟩ | ⟨h1, _⟩
  · rw [hv] at e
    cases e
    obtain ⟨w, rfl, k, hop⟩ := sameHop_timed h2 rfl
    refine ⟨w, rfl, (sameHop_noted t1 t2 hip).trans k, rfl, rfl, rfl, fun f hf => setAt_ne _ _ hf, ?_⟩
    intro a b
    exact (hop _ _).2 (told_hop t1 t2 a b)
  · omega

theorem receiveOne_no_err (lhost : Bytes) (lport : UInt16) (ts : Option Int) (d : Bytes) (addr : UDPAddr) (e : Err) :
    receiveOne lhost lport ts d addr ≠ .err e := by
  unfold receiveOne
  split
  · simp
  · simp
  · rename_i m _
    have a1 : ∀ e, addReceived addr m ≠ .err e := by
      intro e; unfold addReceived; split
      · simp
      · split <;> simp
    have a2 : ∀ m e, addTimestamp ts m ≠ .err e := by
      intro m e; unfold addTimestamp; split
      · simp
      · split <;> simp
    have a3 : ∀ m e, popSelf lhost lport m ≠ .err e := by
      intro m e; unfold popSelf; split
      · simp
      · rename_i a l _
        unfold routeIsSelf
        cases a.uri <;> simp [Res.bind_eq, Res.bind]
    simp only [Res.bind_eq]
    cases h1 : addReceived addr m with
    | err e => exact absurd h1 (a1 e)
    | panic => simp [Res.bind]
    | ok m1 =>
      simp only [Res.bind]
      cases h2 : addTimestamp ts m1 with
      | err e => exact absurd h2 (a2 m1 e)
      | panic => simp
      | ok m2 =>
        simp only
        cases h3 : popSelf lhost lport m2 with
        | err e => exact absurd h3 (a3 m2 e)
        | panic => simp
        | ok m3 => simp

/-- A response, read. -/
theorem response_delivered {lhost : Bytes} {lport : UInt16} {ts : Option Int} {addr : UDPAddr} {d : Bytes} {m : Msg}
    {v : Via} (hp : parseMsg (d.take 2048) = .ok m) (hs : 0 < m.status) (hv : m.via = [v]) (hr : m.request = none)
    (hro : m.addrs .route = []) :
    ∃ ans w, receiveOne lhost lport ts d addr = .ok (some ans) ∧ ans = { m with via := [w] } ∧ SameHop v w := by
  cases hd : receiveOne lhost lport ts d addr with
  | panic =>
    obtain ⟨m', hm', hv', _⟩ := (C40_receive_panics_iff_partial lhost lport ts d addr).1 hd
    rw [hp] at hm'; cases hm'
    rw [hv] at hv'; cases hv'
  | err e =>
    exact absurd hd (receiveOne_no_err _ _ _ _ _ _)
  | ok o =>
    cases o with
    | none =>
      obtain ⟨e, he⟩ := (C70_delivered lhost lport ts d addr).2.1 hd
      rw [hp] at he; cases he
    | some ans =>
      obtain ⟨m', hm', m1, m2, route, rq, rt, h1, h2, h3, h4, rfl⟩ := (C70_delivered lhost lport ts d addr).1 ans hd
      rw [hp] at hm'; cases hm'
      rcases h1 with ⟨h1, _⟩ | ⟨_, hm1⟩
      · omega
      · subst hm1
        obtain ⟨w, rfl, k, _⟩ := sameHop_timed h2 hv
        have e1 : route = [] := by
          rw [hro] at h3
          rcases h3 with ⟨_, _, _, _, h⟩ | ⟨_, h⟩
          · cases h
          · exact h
        subst e1
        have e2 : rq = none ∧ rt = [] := by
          rcases h4 with ⟨u, _, h, _⟩ | ⟨_, a, b⟩
          · rw [hr] at h; cases h
          · exact ⟨a.trans hr, b⟩
        obtain ⟨rfl, rfl⟩ := e2
        refine ⟨_, w, rfl, ?_, k⟩
        have : setAt m1.addrs .route [] = m1.addrs := by
          funext f; unfold setAt; split
          · rename_i e; rw [e, hro]
          · rfl
        rw [this, ← hr]

/-- What comes back. -/
theorem answer_arrives {req got : Msg} {gen : Bytes} {v : Via} {lhost lhost' : Bytes} {lport lport' : UInt16}
    {ts ts' : Option Int} {addr addr' : UDPAddr} {tp : Transport} {env : SendEnv} {status : Int} {t dest : Bytes}
    (hok : MsgOK gen req) (hreq : req.status ≤ 0) (hv : req.via = [v]) (hlen : (req.text gen).length ≤ 2048)
    (hip : ∀ c ∈ addr.ip, ip6c c) (hst : 100 ≤ status ∧ status ≤ 999)
    (hgot : receiveOne lhost lport ts (req.text gen) addr = .ok (some got))
    (hsend : (tp.send env (newResponse got status)).wire = some (t, dest)) (hlen' : t.length ≤ 2048) :
    ∃ ans w, receiveOne lhost' lport' ts' t addr' = .ok (some ans) ∧ ans.status = status ∧ ans.callID = req.callID ∧
      ans.cseq = req.cseq ∧ ans.cseqMethod = req.cseqMethod ∧ ans.addrs .from = req.addrs .from ∧
      ans.addrs .to = req.addrs .to ∧ ans.via = [w] ∧ w.host = v.host ∧
      w.port = (if v.port = 5060 then 0 else v.port) ∧ (∀ b, ParamIs w.param b!"branch" b ↔ ParamIs v.param b!"branch" b) ∧
      (NoParam v.param b!"received" → (NoParam v.param b!"rport" ∨ ParamIs v.param b!"rport" []) →
        env.resolve (joinHostPort addr.ip (natDec addr.port.toNat)) = .ok dest) := by
  obtain ⟨m, hm, hr⟩ := (C70_delivered _ _ _ _ _).1 got hgot
  rw [List.take_of_length_le hlen, C14_read_back gen hok] at hm
  cases hm
  have hrs : (readBack req).status ≤ 0 := by
    unfold readBack; dsimp only; rw [if_neg (by omega)]; omega
  obtain ⟨w1, g1, g2, g3, g4, g5, g6, g7⟩ := got_facts (v := viaRead v) hr hrs (by simp [readBack, hv]) hip
  have hrsp : (newResponse got status).isResponse = true := by
    show decide (status > 0) = true
    exact decide_eq_true (by omega)
  obtain ⟨x, l, host, port, m1, a1, a2, a3, a4, rfl⟩ := C71_response env tp _ t dest hrsp hsend
  have hx : x :: l = [w1] := by
    have e : (newResponse got status).via = [w1] := g1
    rw [e] at a1
    rcases a1 with ⟨y, ⟨z, hz, z1, z2⟩, hy⟩ | ⟨_, h⟩
    · cases hy
    · exact h
  cases hx
  obtain ⟨w2, rfl, k2, _⟩ := sameHop_timed a4 rfl
  have hbase := hok.via v (by rw [hv]; simp)
  have hok2 : MsgOK env.origin { ({ newResponse got status with via := [w1], maxForwards := oneLess (newResponse got status).maxForwards } : Msg) with via := [w2] } := by
    refine ⟨.inr ⟨hst, (MsgM.phrase_ok status).1⟩, ?_, ?_, ?_, ?_, ?_, ?_, ?_, ⟨by show (0:Int) ≤ 0; omega, by show (0 : Int) < 2 ^ 63; omega⟩, ⟨by show (0:Int) ≤ 0; omega, by show (0 : Int) < 2 ^ 63; omega⟩, ?_, ?_, ?_⟩
    · intro y hy
      simp only [List.mem_cons, List.not_mem_nil, or_false] at hy
      subst hy
      exact k2.ok (g2.ok (viaOK_read hbase))
    · intro f a ha
      cases f <;> simp only [newResponse] at ha
      all_goals first
        | (rw [g6 _ (by decide)] at ha; exact hok.addrs _ a ha)
        | cases ha
    · show got.addrs .from ≠ []
      rw [g6 _ (by decide)]; exact hok.from_
    · show got.addrs .to ≠ []
      rw [g6 _ (by decide)]; exact hok.to
    · show CallIDText got.callID
      rw [g3]; exact hok.callID
    · show 0 ≤ got.cseq ∧ got.cseq < 2 ^ 63
      rw [g4]; exact hok.cseq
    · show IsToken got.cseqMethod
      rw [g5]; exact hok.cseqMethod
    · intro f hf
      have h0 : TextOK [] := text_plain (by simp) rfl
      have h1 : TextOK gosipUA := plain_of (by decide) (by decide)
      have h2 : TextOK gosipAllow := plain_of (by decide) (by decide)
      cases f <;> simp only [newResponse] <;> assumption
    · intro p hp; cases hp
    · intro p hp; cases hp
  have hparse := C14_read_back env.origin hok2
  generalize hM : ({ ({ newResponse got status with via := [w1], maxForwards := oneLess (newResponse got status).maxForwards } : Msg) with via := [w2] } : Msg) = M at *
  have hMs : M.status = status := by rw [← hM]; rfl
  have hMp : M.status > 0 := by omega
  rw [← List.take_of_length_le (i := 2048) hlen'] at hparse
  obtain ⟨ans, w, r1, r2, r3⟩ := response_delivered (lhost := lhost') (lport := lport') (ts := ts') (addr := addr')
    (v := viaRead w2) hparse (by simp only [readBack]; rw [if_pos hMp]; exact hMp)
    (by simp only [readBack]; rw [← hM]; rfl) (by simp only [readBack]; rw [if_pos hMp])
    (by simp only [readBack]; rw [← hM]; rfl)
  refine ⟨ans, w, r1, ?_, ?_, ?_, ?_, ?_, ?_, by rw [r2], ?_, ?_, ?_, ?_⟩
  · rw [r2]; simp only [readBack]; rw [if_pos hMp]; exact hMs
  · rw [r2, ← hM]; exact g3
  · rw [r2, ← hM]; exact g4
  · rw [r2, ← hM]; exact g5
  · rw [r2, ← hM]; exact g6 _ (by decide)
  · rw [r2, ← hM]; exact g6 _ (by decide)
  · rw [r3.host]; exact k2.host.trans g2.host
  · rw [r3.port]
    have : w2.port = if v.port = 5060 then 0 else v.port := k2.port.trans g2.port
    simp only [viaRead, this]
    by_cases h : v.port = 5060
    · simp [h]
    · simp [h]
  · intro b
    exact (r3.branch b).trans ((k2.branch b).trans (g2.branch b))
  · intro a b
    obtain ⟨rfl, rfl⟩ := C38_hop_unique a2 (g7 a b)
    exact a3

/-! ## C73 -/

/-- **C73** (what is missing: senders at port 5060, see `C73_5060_not_recognised`). A request that one transport has sent
is delivered by another; what that one answers goes back to where the request came from, is delivered there, and is
recognised as the answer to the request. -/
theorem C73_answer_found_partial (req got : Msg) (gen : Bytes) (v : Via) (b : Bytes) (lhost lhost' : Bytes)
    (lport lport' : UInt16) (ts ts' : Option Int) (addr addr' : UDPAddr) (tp : Transport) (env : SendEnv) (status : Int)
    (t dest : Bytes)
    (hok : MsgOK gen req) (hreq : req.status ≤ 0) (hv : req.via = [v]) (hlen : (req.text gen).length ≤ 2048)
    (hb : ParamIs v.param b!"branch" b) (hm : req.cseqMethod = req.method) (hp : v.port ≠ 5060)
    (hip : ∀ c ∈ addr.ip, ip6c c) (hst : 100 ≤ status ∧ status ≤ 999)
    (hgot : receiveOne lhost lport ts (req.text gen) addr = .ok (some got))
    (hsend : (tp.send env (newResponse got status)).wire = some (t, dest)) (hlen' : t.length ≤ 2048) :
    (∃ ans, receiveOne lhost' lport' ts' t addr' = .ok (some ans) ∧ ans.status = status ∧ ans.callID = req.callID ∧
      ans.addrs .from = req.addrs .from ∧ Answers req ans ∧ responseMatch req ans = true) ∧
    (NoParam v.param b!"received" → (NoParam v.param b!"rport" ∨ ParamIs v.param b!"rport" []) →
      env.resolve (joinHostPort addr.ip (natDec addr.port.toNat)) = .ok dest) := by
  obtain ⟨ans, w, h1, h2, h3, h4, h5, h6, h7, h8, h9, h10, h11, h12⟩ := answer_arrives (lhost' := lhost') (lport' := lport')
    (ts' := ts') (addr' := addr') hok hreq hv hlen hip hst hgot hsend hlen'
  have ha : Answers req ans := by
    refine ⟨by omega, h4, h5.trans hm, [], w, v, [], by rw [h8]; rfl, hv, h9, ?_, b, (h11 b).2 hb, hb⟩
    rw [h10, if_neg hp]
  exact ⟨⟨ans, h1, h2, h3, h6, ha, (C36_response_match req ans).2 ha⟩, h12⟩

/-- **C73 is false** for a sender at port 5060: the port is left out of the text of the Via, read as 0, and not equal to
5060, so no answer of the other side is recognised. -/
theorem C73_5060_not_recognised (req got : Msg) (gen : Bytes) (v : Via) (lhost lhost' : Bytes)
    (lport lport' : UInt16) (ts ts' : Option Int) (addr addr' : UDPAddr) (tp : Transport) (env : SendEnv) (status : Int)
    (t dest : Bytes)
    (hok : MsgOK gen req) (hreq : req.status ≤ 0) (hv : req.via = [v]) (hlen : (req.text gen).length ≤ 2048)
    (hp : v.port = 5060) (hip : ∀ c ∈ addr.ip, ip6c c) (hst : 100 ≤ status ∧ status ≤ 999)
    (hgot : receiveOne lhost lport ts (req.text gen) addr = .ok (some got))
    (hsend : (tp.send env (newResponse got status)).wire = some (t, dest)) (hlen' : t.length ≤ 2048) :
    ∃ ans, receiveOne lhost' lport' ts' t addr' = .ok (some ans) ∧ ans.status = status ∧ responseMatch req ans = false := by
  obtain ⟨ans, w, h1, h2, h3, h4, h5, h6, h7, h8, h9, h10, h11, h12⟩ := answer_arrives (lhost' := lhost') (lport' := lport')
    (ts' := ts') (addr' := addr') hok hreq hv hlen hip hst hgot hsend hlen'
  refine ⟨ans, h1, h2, ?_⟩
  rw [← Bool.not_eq_true, C36_response_match]
  rintro ⟨_, _, _, more, mine, sent, older, e1, e2, _, e3, _⟩
  rw [hv] at e2
  cases e2
  have : mine = w := by
    have := congrArg List.getLast? (e1.symm.trans h8)
    simpa using this
  rw [this, h10, if_pos hp, hp] at e3
  exact absurd e3 (by decide)

/-- **C73.** The Via in the text of a response is not the one in the text of the request if that named no port: RFC 3261
section 8.2.6.2 wants them equal, but `:0` is added. -/
theorem C73_portless_via_changed (gen : Bytes) (got : Msg) (status : Int) (v : Via) (l : List Via)
    (hv : got.via = v :: l) (hp : v.port = 0) :
    ∃ pre, HasLine (b!"Via: " ++ pre ++ v.host ++ b!":0" ++ paramText v.param) ((newResponse got status).text gen) := by
  have hl : viaLines got.via ∈ headerLines (newResponse got status) := by simp [headerLines, newResponse]
  obtain ⟨s, t, hst⟩ := List.append_of_mem hl
  have e : v.text = ((if v.protocol = [] then b!"SIP/" else v.protocol ++ b!"/") ++
      (if v.version = [] then b!"2.0/" else v.version ++ b!"/") ++
      (if v.transport = [] then b!"UDP " else v.transport ++ b!" ")) ++ v.host ++ b!":0" ++ paramText v.param := by
    unfold Via.text
    rw [hp]
    simp only [show ((0 : UInt16) ≠ 5060) = True from by decide, if_true]
    rfl
  refine ⟨(if v.protocol = [] then b!"SIP/" else v.protocol ++ b!"/") ++
      (if v.version = [] then b!"2.0/" else v.version ++ b!"/") ++
      (if v.transport = [] then b!"UDP " else v.transport ++ b!" "), startLine (newResponse got status) ++ s.flatten,
    viaLines l ++ (t.flatten ++ payloadText gen (newResponse got status).payload), ?_⟩
  unfold Msg.text
  rw [hst, hv]
  simp only [viaLines, List.flatMap_cons, e, List.flatten_append, List.flatten_cons, List.append_assoc]

/-! ### A conversation -/

/-- A request sent from port `p`. -/
def pingFrom (p : UInt16) : Msg :=
  { versionMajor := 2, method := b!"OPTIONS", request := some { scheme := b!"sip", host := b!"2.2.2.2" },
    via := [{ host := b!"1.1.1.1", port := p, param := [(b!"branch", b!"z9hG4bK-1")] }], callID := b!"c", cseq := 5,
    cseqMethod := b!"OPTIONS", maxForwards := 69,
    addrs := fun f => match f with
      | .from => [{ uri := some { scheme := b!"sip", host := b!"1.1.1.1" }, param := [(b!"tag", b!"t")] }]
      | .to => [{ uri := some { scheme := b!"sip", host := b!"2.2.2.2" } }]
      | _ => [] }

theorem ok_pingFrom (p : UInt16) : MsgOK b!"0" (pingFrom p) := by
  have hu : ∀ u : URI, parseURI u.text = .ok u → URIText u.text u := fun u h => (Uri.parseURI_grammar _ _).1 h
  refine ⟨.inl ⟨by show (0 : Int) ≤ 0; omega, .inr (show IsToken b!"OPTIONS" from isToken_of (by decide) (by decide)), ?_, by
      show (0 : Int) ≤ 69 ∧ (69 : Int) < 2 ^ 63; omega⟩, ?_, ?_, by simp [pingFrom], by simp [pingFrom],
    ⟨b!"c", [], by decide, ?_, .inl rfl⟩, by show (0 : Int) ≤ 5 ∧ (5 : Int) < 2 ^ 63; omega,
    show IsToken b!"OPTIONS" from isToken_of (by decide) (by decide),
    by show (0 : Int) ≤ 0 ∧ (0 : Int) < 2 ^ 63; omega, by show (0 : Int) ≤ 0 ∧ (0 : Int) < 2 ^ 63; omega, ?_, ?_, ?_⟩
  · intro u h; cases h; exact hu _ (by decide +kernel)
  · intro v hv
    simp only [pingFrom, List.mem_cons, List.not_mem_nil, or_false] at hv
    subst hv
    refine ⟨(fun c h => nomatch h), (fun c h => nomatch h), (fun c h => nomatch h), by simp, ?_, ?_⟩
    · intro c hc; revert c; dsimp only; decide +kernel
    · exact paramOK_cons (isToken_of (by decide) (by decide)) (.inl (isToken_of (by decide) (by decide)).2) (fun q hq => nomatch hq)
  · intro f a ha
    cases f <;> simp only [pingFrom, List.mem_cons, List.not_mem_nil, or_false] at ha <;> subst ha
    · exact ⟨⟨_, rfl, hu _ (by decide +kernel)⟩, .inl ⟨(fun c h => nomatch h), by simp, by simp⟩,
        paramOK_cons (isToken_of (by decide) (by decide)) (.inl (isToken_of (by decide) (by decide)).2) (fun q hq => nomatch hq)⟩
    · exact ⟨⟨_, rfl, hu _ (by decide +kernel)⟩, .inl ⟨(fun c h => nomatch h), by simp, by simp⟩, (fun q hq => nomatch hq)⟩
  · decide +kernel
  · intro f hf; exact plain_of rfl rfl
  · intro q hq; cases hq
  · intro q hq; cases hq

/-- What is delivered to the sender, if the other side answers 200. -/
def pong (p : UInt16) : Option Msg :=
  match receiveOne b!"2.2.2.2" 5060 none ((pingFrom p).text b!"0") ⟨b!"1.1.1.1", p⟩ with
  | .ok (some got) =>
    match (Transport.send ⟨⟨b!"id", 5, b!"z9hG4bK-2", b!"u"⟩, b!"0", none, fun a => .ok a, .ok ()⟩
        ⟨[{ host := b!"2.2.2.2", port := 5060 }], []⟩ (newResponse got 200)).wire with
    | some (t, _) =>
      match receiveOne b!"1.1.1.1" p none t ⟨b!"2.2.2.2", 5060⟩ with
      | .ok (some ans) => some ans
      | _ => none
    | none => none
  | _ => none

/-- From port 41000 the answer is recognised, from port 5060 it is not. -/
example : (pong 41000).map (fun m => (m.status, responseMatch (pingFrom 41000) m)) = some (200, true) ∧
    (pong 5060).map (fun m => (m.status, responseMatch (pingFrom 5060) m)) = some (200, false) := by
  decide +kernel

/-- The port of a Via without one is written as 0 in the response. -/
example : (match receiveOne b!"2.2.2.2" 5060 none b!"OPTIONS sip:a SIP/2.0\r\nVia: SIP/2.0/UDP b;branch=z\r\n\r\n" ⟨b!"b", 5060⟩ with
    | .ok (some got) => (newResponse got 200).via.map Via.text
    | _ => []) = [b!"SIP/2.0/UDP b:0;branch=z;rport=5060"] := by
  decide +kernel

end Gosip.Props
