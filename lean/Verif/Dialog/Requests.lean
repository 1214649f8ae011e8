import Verif.Dialog.Acts
import Verif.Dialog.Lemmas
import Verif.Sdp.StringLemmas
import Verif.Spec.Carried

/-!
# The requests of the dialog: branches and transmissions
-/

namespace Gosip.Dialog
open Sip Spec

/-- The branch of the first Via. -/
def branchOf (m : Msg) : Option Bytes := m.via.head?.bind fun v => paramVal v.param b!"branch"

/-- Number of requests with a branch. -/
def transmissions (b : Option Bytes) (l : List Out) : Nat := (own l).countP fun x => branchOf x.2 == b

theorem branchOf_ts {ts : Option Int} {m m' : Msg} (h : addTimestamp ts m = .ok m') : branchOf m' = branchOf m := by
  obtain ⟨v, rfl, h1, h2⟩ := addTimestamp_frame h
  unfold branchOf
  cases hm : m.via with
  | nil => simp [h1 hm]
  | cons x l =>
    obtain ⟨y, rfl, _, _, hy⟩ := h2 x l hm
    simp only [List.head?_cons, Option.bind_some]
    rcases hy with hy | ⟨t, hy⟩
    · rw [hy]
    · rw [hy]
      have hne : ¬ SameName b!"usi" b!"branch" := by decide +kernel
      cases hb : paramVal x.param b!"branch" with
      | none => rw [paramVal_eq_none] at hb ⊢; exact (noParam_cons_ne hne).2 hb
      | some b => rw [paramVal_eq_some] at hb ⊢; exact (paramIs_cons_ne hne).2 hb

/-- The Via made by `populate` has the new branch. -/
theorem populateVia_branch (b : Bytes) (c : Conn) (l : List Via) :
    ∃ v, populateVia b c l = v :: l.tail ∧ paramVal v.param b!"branch" = some b := by
  unfold populateVia
  split
  · exact ⟨_, rfl, paramVal_eq_some.2 (paramIs_cons rfl)⟩
  · split
    · rename_i h
      obtain ⟨x, hx⟩ := get_isSome.1 h
      exact ⟨_, rfl, paramVal_eq_some.2 (paramIs_setParam hx)⟩
    · exact ⟨_, rfl, paramVal_eq_some.2 (paramIs_cons rfl)⟩

/-- The first address has a tag. -/
def Tagged (l : List Addr) : Prop := ∃ a k t, l = a :: k ∧ ParamIs a.param b!"tag" t

/-- What `populate` does to a request. -/
structure Populated (ids : Ids) (m m' : Msg) : Prop where
  method : m'.method = m.method
  status : m'.status = m.status
  cseq : m'.cseq = if m.cseq = 0 then ids.cseq else m.cseq
  forwards : m'.maxForwards = if m.maxForwards = 0 then 70 else m.maxForwards
  callID : m'.callID = if m.callID = [] then ids.callID else m.callID
  branch : branchOf m' = some ids.branch
  via : m'.via ≠ []
  request : m'.request = m.request
  to : m.addrs .to ≠ [] → m'.addrs .to = m.addrs .to
  other : ∀ f, f ≠ .contact → f ≠ .to → f ≠ .from → m'.addrs f = m.addrs f
  cseqMethod : m.cseqMethod ≠ [] → m'.cseqMethod = m.cseqMethod
  tagged : Tagged (m'.addrs .from)
  from' : Tagged (m.addrs .from) → m'.addrs .from = m.addrs .from
  given : m.addrs .from ≠ [] → WithTag (m.addrs .from) (m'.addrs .from)
  hdr : ∀ f, f ≠ .userAgent ∨ m.hdr f ≠ [] → m'.hdr f = m.hdr f
  behind : m'.via.tail = m.via.tail
  ofMethod : m.cseqMethod = [] → m'.cseqMethod = m.method
  viaHost : ∀ v k, m.via = v :: k → ∃ v', m'.via = v' :: k ∧ v'.host = v.host
  contactHost : ∀ a k u, m.addrs .contact = a :: k → a.uri = some u →
    ∃ a' u', m'.addrs .contact = a' :: k ∧ a'.uri = some u' ∧ u'.host = u.host
  contact : ∃ a k u, m'.addrs .contact = a :: k ∧ a.uri = some u
  body : (∀ d, m.payload = some (.sdp d) → d.addr ≠ [] ∧ d.origin.addr ≠ [] ∧ d.origin.id ≠ []) →
    m'.payload = m.payload
  rest : m' = { m with
    via := m'.via, addrs := m'.addrs, callID := m'.callID, cseq := m'.cseq, cseqMethod := m'.cseqMethod,
    maxForwards := m'.maxForwards, hdr := m'.hdr, payload := m'.payload }

theorem populate_spec {ids : Ids} {origin : Bytes} {c : Conn} {cs : Option UInt16} {m m' : Msg}
    (hr : m.isResponse = false) (h : populate ids origin c cs m = .ok m') : Populated ids m m' := by
  simp only [populate, Res.bind_eq, Res.bind_ok_iff] at h
  obtain ⟨contact, hct, h⟩ := h
  obtain ⟨v, hv, hb⟩ := populateVia_branch ids.branch c m.via
  have hvh : ∀ v0 k, m.via = v0 :: k → v.host = v0.host := by
    intro v0 k e
    rw [e] at hv
    unfold populateVia at hv
    split at hv
    · rename_i heq; cases heq
    · rename_i heq
      cases heq
      injection hv with hv _
      rw [← hv]
      split <;> rfl
  rw [hv] at h
  unfold populateMessage at h
  rw [if_neg (by intro hc; rw [show m.isResponse = true from hc] at hr; simp at hr)] at h
  simp only [Res.bind_eq, Res.bind_ok_iff, reduceCtorEq, if_false] at h
  obtain ⟨fr, h1, via, h2, fr2, h3, h⟩ := h
  have hvia : via = v :: m.via.tail := by
    simp only [ensureBranch] at h2
    rw [if_neg] at h2
    · cases h2; rfl
    · rw [get_isNone]
      exact paramIs_not_noParam (paramVal_eq_some.1 hb)
  cases h
  subst hvia
  constructor
  · rfl
  · rfl
  · rfl
  · rfl
  · rfl
  · simp [branchOf, hb]
  · simp
  · rfl
  · intro ht; simp [setAt, ht]
  · intro f h1 h2 h3; simp [setAt, h1, h2, h3]
  · intro hc; exact if_neg hc
  · show Tagged fr2
    unfold ensureTag at h3
    split at h3
    · cases h3
    · rename_i a l
      split at h3
      · cases h3
        exact ⟨_, l, ids.tag, rfl, paramIs_cons rfl⟩
      · rename_i hn
        cases h3
        have hs : (a.param.get b!"tag").isSome := by
          cases hg : a.param.get b!"tag" with
          | none => exact absurd (by rw [hg]; rfl) hn
          | some x => rfl
        obtain ⟨x, hx⟩ := get_isSome.1 hs
        exact ⟨a, l, x, rfl, hx⟩
  · rintro ⟨a, k, t, ha, ht⟩
    show fr2 = _
    have hf : setAt m.addrs .contact contact .from = a :: k := by simp [setAt, ha]
    rw [hf] at h1
    unfold ensureFrom at h1
    rw [if_neg (by simp)] at h1
    cases h1
    unfold ensureTag at h3
    dsimp only at h3
    rw [if_neg] at h3
    · cases h3; exact ha.symm
    · rw [get_isNone]; exact paramIs_not_noParam ht
  · intro hne
    show WithTag _ fr2
    have hf : setAt m.addrs .contact contact .from = m.addrs .from := by simp [setAt]
    rw [hf] at h1
    unfold ensureFrom at h1
    rw [if_neg hne] at h1
    cases h1
    generalize m.addrs .from = l at h3
    unfold ensureTag at h3
    split at h3
    · cases h3
    · rename_i a l
      split at h3
      · rename_i hn
        cases h3
        exact .inr ⟨a, l, ids.tag, rfl, get_isNone.1 hn, rfl⟩
      · cases h3; exact .inl rfl
  · intro f hf
    show (if m.hdr .userAgent = [] then setAt m.hdr .userAgent gosipUA else m.hdr) f = _
    split
    · rename_i hu
      rcases hf with hf | hf
      · simp [setAt, hf]
      · have : f ≠ .userAgent := fun h => hf (h ▸ hu)
        simp [setAt, this]
    · rfl
  · rfl
  · intro hc; exact if_pos hc
  · intro v0 k e
    exact ⟨v, by rw [e]; rfl, hvh v0 k e⟩
  · intro a k u e hu
    rw [e] at hct
    unfold populateContact at hct
    dsimp only at hct
    rw [hu] at hct
    cases hct
    refine ⟨_, _, by simp [setAt]; rfl, rfl, ?_⟩
    unfold populateContactUri
    split <;> rfl
  · unfold populateContact at hct
    split at hct
    · cases hct
      exact ⟨_, [], _, by simp [setAt]; rfl, rfl⟩
    · split at hct
      · cases hct
      · cases hct
        exact ⟨_, _, _, by simp [setAt]; exact ⟨rfl, rfl⟩, rfl⟩
  · intro hd
    show populatePayload origin c m = _
    unfold populatePayload
    split
    · rename_i d e
      obtain ⟨h1, h2, h3⟩ := hd d e
      rw [e]
      split
      · unfold populateSDP orElse
        rw [if_neg h1, if_neg h2, if_neg h3]
      · rfl
    · rfl
  · rfl

theorem cur_setCur {s : St} {m m0 : Msg} (h : s.cur = some m0) : (s.setCur m).cur = some m := by
  unfold St.cur at h ⊢
  unfold St.setCur
  cases hr : s.req <;> simp_all

theorem isOwn_not_response {m : Msg} (h : isOwn m = true) : m.isResponse = false := by
  simp [isOwn] at h; exact h.1.1

theorem own_sent {m : Msg} (l : List Out) (d : Bytes) (x : Bytes) (h : isOwn m = true) :
    own (l ++ [.sent d m x]) = own l ++ [(d, m)] := by
  rw [own_append]; simp [own, sends, h]

theorem transmissions_snoc {m : Msg} (l : List Out) (b : Option Bytes) (d x : Bytes) (h : isOwn m = true) :
    transmissions b (l ++ [.sent d m x]) = transmissions b l + if branchOf m = b then 1 else 0 := by
  unfold transmissions
  rw [own_sent l d x h, List.countP_append]
  simp only [List.countP_cons, List.countP_nil, beq_iff_eq, Nat.zero_add]

theorem transmissions_err (l : List Out) (b : Option Bytes) (e : DErr) :
    transmissions b (l ++ [.err e]) = transmissions b l := by
  unfold transmissions; rw [own_err]

theorem transmissions_own {a b : List Out} (h : own a = own b) (x : Option Bytes) :
    transmissions x a = transmissions x b := by unfold transmissions; rw [h]

theorem setCur_frame (s : St) (m : Msg) : (s.setCur m).outs = s.outs ∧ (s.setCur m).tick = s.tick ∧
    (s.setCur m).requestResends = s.requestResends ∧ (s.setCur m).sock = s.sock ∧
    (s.setCur m).state = s.state ∧ (s.setCur m).lseq = s.lseq ∧ (s.setCur m).remote = s.remote := by
  unfold St.setCur; split <;> simp

theorem transmissions_snoc' {a b : List Out} {d : Bytes} {m : Msg} (h : own a = own b ++ [(d, m)]) (x : Option Bytes) :
    transmissions x a = transmissions x b + if branchOf m = x then 1 else 0 := by
  unfold transmissions
  rw [h, List.countP_append]
  simp only [List.countP_cons, List.countP_nil, beq_iff_eq, Nat.zero_add]

/-- The new attempt: state before the request is sent. -/
theorem newAttempt_frame (s : St) (m : Msg) : (newAttempt s m).outs = s.outs ∧ (newAttempt s m).tick = s.tick ∧
    (newAttempt s m).requestResends = 0 ∧ (newAttempt s m).sock = s.sock ∧ (newAttempt s m).state = s.state ∧
    (newAttempt s m).cur = (s.setCur m).cur ∧ (newAttempt s m).invite = (s.setCur m).invite ∧
    (newAttempt s m).req = (s.setCur m).req ∧
    (newAttempt s m).lseq = (if s.state.rank < 2 then m.cseq else s.lseq) := by
  obtain ⟨h1, h2, h3, h4, h5, h6, _⟩ := setCur_frame s m
  unfold newAttempt
  dsimp only
  rw [h5]
  split
  · rename_i h
    rw [if_pos (show s.state.rank < 2 from h)]
    exact ⟨h1, h2, rfl, h4, rfl, rfl, rfl, rfl, rfl⟩
  · rename_i h
    rw [if_neg (show ¬ s.state.rank < 2 from h)]
    exact ⟨h1, h2, rfl, h4, h5, rfl, rfl, rfl, h6⟩

/-- An attempt crashes, or sends the current request with a new branch. -/
theorem attempt_spec (w : World) (t : St) :
    (attempt w t = ⟨t, .crash⟩) ∨
    (∃ c m m', t.sock = some c ∧ t.cur = some m ∧
      populate (w.ids t.tick) (w.origin t.tick) c t.csock m = .ok m' ∧
      attempt w t = sendCur w (newAttempt { t with tick := t.tick + 1 } m')) := by
  unfold attempt
  split
  · rename_i c m hs hc
    split
    · rename_i m' hp
      exact .inr ⟨c, m, m', hs, hc, hp, rfl⟩
    · exact .inl rfl
  · exact .inl rfl

theorem isOwn_populated {ids : Ids} {m m' : Msg} (h : Populated ids m m') (ho : isOwn m = true) : isOwn m' = true := by
  unfold isOwn Msg.isResponse at *
  rw [h.method, h.status]; exact ho

theorem invite_setCur {s : St} {m m0 : Msg} (hc : s.cur = some m0) :
    (s.setCur m).invite = m ∧ s.req = .invite ∧ m0 = s.invite ∨
    (s.setCur m).invite = s.invite ∧ s.req = .other m0 := by
  unfold St.cur at hc
  unfold St.setCur
  cases hr : s.req <;> simp_all

theorem isOwn_bye {invite remote b : Msg} {l : Option Int} {n : Int} (h : newBye invite remote l = .ok (b, n)) :
    isOwn (routeMessage none none b).1 = true := by
  obtain ⟨u, a, hr, _⟩ := route_none b
  rw [hr]
  simp only [newBye, Res.bind_eq, Res.bind_ok_iff] at h
  obtain ⟨u, _, h⟩ := h
  cases h
  rfl

/-- The request about to be sent in a `Ready` state. -/
theorem ready_own {s t : St} (h : Ready s t) (hi : isOwn s.invite = true)
    (hc : ∀ m, s.cur = some m → isOwn m = true) {m : Msg} (hm : t.cur = some m) : isOwn m = true := by
  obtain ⟨u, a, hti, _⟩ := h.invite
  rcases h.choice with ⟨_, h1 | h1⟩ | ⟨remote, b, n, _, _, hb, _, h1⟩
  · unfold St.cur at hm hc
    rw [h1] at hm
    cases hq : s.req with
    | none => rw [hq] at hm; cases hm
    | invite =>
      rw [hq] at hm; cases hm
      rw [hti]; exact hi
    | other y => rw [hq] at hm hc; exact hc m hm
  · unfold St.cur at hm
    rw [h1] at hm
    simp only [Option.some.injEq] at hm
    rw [← hm, hti]; exact hi
  · unfold St.cur at hm
    rw [h1] at hm
    simp only [Option.some.injEq] at hm
    rw [← hm]; exact isOwn_bye hb

end Gosip.Dialog
