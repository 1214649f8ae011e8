import Verif.Dialog.Requests

/-!
# The acts of the dialog, as seen by its requests
-/

namespace Gosip.Dialog
open Sip Spec

/-- Host and port of the first Via. -/
def sentBy (m : Msg) : Option (Bytes × UInt16) := m.via.head?.map fun v => (v.host, v.port)

/-- `b` is `a`, except for time stamps in the Via. -/
structure Core (a b : Msg) : Prop where
  only : ∃ v, b = { a with via := v }
  branch : branchOf b = branchOf a
  sentBy : sentBy b = sentBy a
  stamped : Stamped a b

theorem Core.refl (a : Msg) : Core a a := ⟨⟨a.via, rfl⟩, rfl, rfl, .inl rfl⟩

theorem stamped_trans {a b c : Msg} (h : Stamped a b) (k : Stamped b c) : Stamped a c := by
  rcases h with rfl | ⟨v, l, ts, hv, ht, rfl⟩
  · exact k
  · rcases k with rfl | ⟨v', l', ts', hv', ht', rfl⟩
    · exact .inr ⟨v, l, ts, hv, ht, rfl⟩
    · simp only [List.cons.injEq] at hv'
      obtain ⟨rfl, rfl⟩ := hv'
      refine .inr ⟨v, l, ts' ++ ts, hv, ?_, ?_⟩
      · intro p hp
        rcases List.mem_append.1 hp with hp | hp
        · exact ht' p hp
        · exact ht p hp
      · simp

theorem stamped_ts {ts : Option Int} {m m' : Msg} (h : addTimestamp ts m = .ok m') : Stamped m m' := by
  unfold addTimestamp at h
  split at h
  · cases h; exact .inl rfl
  · split at h
    · simp at h
    · rename_i t _ v l hv
      cases h
      exact .inr ⟨v, l, [(b!"usi", itoa t)], hv, by simp, rfl⟩

theorem Core.trans {a b c : Msg} (h : Core a b) (k : Core b c) : Core a c := by
  obtain ⟨v, hv⟩ := h.only
  obtain ⟨v', hv'⟩ := k.only
  exact ⟨⟨v', by rw [hv', hv]⟩, k.branch.trans h.branch, k.sentBy.trans h.sentBy, stamped_trans h.stamped k.stamped⟩

theorem Core.method {a b : Msg} (h : Core a b) : b.method = a.method := by obtain ⟨v, rfl⟩ := h.only; rfl
theorem Core.status {a b : Msg} (h : Core a b) : b.status = a.status := by obtain ⟨v, rfl⟩ := h.only; rfl
theorem Core.cseq {a b : Msg} (h : Core a b) : b.cseq = a.cseq := by obtain ⟨v, rfl⟩ := h.only; rfl
theorem Core.forwards {a b : Msg} (h : Core a b) : b.maxForwards = a.maxForwards := by obtain ⟨v, rfl⟩ := h.only; rfl
theorem Core.callID {a b : Msg} (h : Core a b) : b.callID = a.callID := by obtain ⟨v, rfl⟩ := h.only; rfl

theorem sentBy_ts {ts : Option Int} {m m' : Msg} (h : addTimestamp ts m = .ok m') : sentBy m' = sentBy m := by
  obtain ⟨v, rfl, h1, h2⟩ := addTimestamp_frame h
  unfold sentBy
  cases hm : m.via with
  | nil => simp [h1 hm]
  | cons x l =>
    obtain ⟨y, rfl, hh, hp, _⟩ := h2 x l hm
    simp [hh, hp]

theorem behind_ts {ts : Option Int} {m m' : Msg} (h : addTimestamp ts m = .ok m') : m'.via.tail = m.via.tail := by
  obtain ⟨v, rfl, h1, h2⟩ := addTimestamp_frame h
  cases hm : m.via with
  | nil => simp [h1 hm]
  | cons x l =>
    obtain ⟨y, rfl, _⟩ := h2 x l hm
    rfl

/-- Where the message of an attempt comes from: the current request, the invite, or a new BYE. `l` is the
local sequence number, `inv` whether the message is the invite itself. -/
inductive Origin (s : St) : Msg → Int → Bool → Prop where
  | invite (u a) : (∀ f, f ≠ .route → a f = s.invite.addrs f) →
      Origin s { s.invite with request := u, addrs := a } s.lseq true
  | other {m} : s.req = .other m → Origin s m s.lseq false
  | bye {remote b n} : s.state = .answered → s.remote = some remote →
      newBye s.invite remote (some s.lseq) = .ok (b, n) → Origin s (routeMessage none none b).1 n false

/-- The message `m'` was made from `m` by `send`. -/
structure SentAs (m m' : Msg) : Prop where
  only : ∃ v, m' = { m with
    maxForwards := if m.maxForwards > 0 then m.maxForwards - 1 else m.maxForwards, via := v }
  branch : branchOf m' = branchOf m
  sentBy : Dialog.sentBy m' = Dialog.sentBy m
  allowed : m.maxForwards ≠ 1
  behind : m'.via.tail = m.via.tail

theorem SentAs.method {a b : Msg} (h : SentAs a b) : b.method = a.method := by obtain ⟨v, rfl⟩ := h.only; rfl
theorem SentAs.status {a b : Msg} (h : SentAs a b) : b.status = a.status := by obtain ⟨v, rfl⟩ := h.only; rfl
theorem SentAs.cseq {a b : Msg} (h : SentAs a b) : b.cseq = a.cseq := by obtain ⟨v, rfl⟩ := h.only; rfl
theorem SentAs.callID {a b : Msg} (h : SentAs a b) : b.callID = a.callID := by obtain ⟨v, rfl⟩ := h.only; rfl
theorem SentAs.forwards {a b : Msg} (h : SentAs a b) :
    b.maxForwards = if a.maxForwards > 0 then a.maxForwards - 1 else a.maxForwards := by
  obtain ⟨v, rfl⟩ := h.only; rfl

/-- Effect of an act on the requests. -/
inductive Effect (w : World) (s : St) (r : Run) : Prop where
  | quiet : own r.s.outs = own s.outs → s.tick ≤ r.s.tick →
      (r.c = .go → Core s.invite r.s.invite ∧ r.s.req = s.req ∧ r.s.requestResends = s.requestResends ∧
        r.s.lseq = s.lseq) → Effect w s r
  | resend {m m' d inv} : own r.s.outs = own s.outs ++ [(d, m')] → s.tick < r.s.tick → SentAs m m' → isOwn m' = true →
      ((inv = true ∧ s.req = .invite ∧ m = s.invite) ∨ (inv = false ∧ s.req = .other m)) →
      s.requestResends < w.maxResends →
      (r.c = .go → r.s.requestResends = s.requestResends + 1 ∧ r.s.lseq = s.lseq ∧
        ((inv = true ∧ r.s.req = .invite ∧ r.s.invite = m') ∨
         (inv = false ∧ r.s.req = .other m' ∧ r.s.invite = s.invite))) → Effect w s r
  | attempt {m0 m m' d n l inv} : own r.s.outs = own s.outs ++ [(d, m')] → s.tick ≤ n → n < r.s.tick →
      Origin s m0 l inv → Populated (w.ids n) m0 m → SentAs m m' → isOwn m' = true →
      (r.c = .go → r.s.requestResends = 0 ∧ r.s.lseq = (if s.state.rank < 2 then m.cseq else l) ∧
        ((inv = true ∧ r.s.req = .invite ∧ r.s.invite = m') ∨
         (inv = false ∧ r.s.req = .other m' ∧ r.s.invite = s.invite))) → Effect w s r

/-- Sending the current request. -/
theorem sendCur_sent (w : World) (s : St) (m : Msg) (hm : s.cur = some m) (ho : isOwn m = true) :
    (own (sendCur w s).s.outs = own s.outs ∧ (sendCur w s).c ≠ .go ∧ (sendCur w s).s.tick = s.tick) ∨
    (∃ m' d, own (sendCur w s).s.outs = own s.outs ++ [(d, m')] ∧ isOwn m' = true ∧ SentAs m m' ∧
      (sendCur w s).s.tick = s.tick + 1 ∧ (sendCur w s).s = { s with
        tick := s.tick + 1, outs := (sendCur w s).s.outs }.setCur m') := by
  unfold sendCur
  simp only [hm]
  have h := send_res w s m
  generalize send w s m = x at h ⊢
  have key : ∀ m', m.maxForwards ≠ 1 → addTimestamp (w.clock s.tick) (decForwards m) = .ok m' →
      isOwn m' = true ∧ SentAs m m' ∧ m'.appended = m' := by
    intro m' hne ht
    have hb := branchOf_ts ht
    have hsb := sentBy_ts ht
    obtain ⟨v, hv, _, _⟩ := addTimestamp_frame ht
    have hbd : branchOf (decForwards m) = branchOf m := by unfold decForwards; split <;> rfl
    have hsd : sentBy (decForwards m) = sentBy m := by unfold decForwards; split <;> rfl
    have hbh : (decForwards m).via.tail = m.via.tail := by unfold decForwards; split <;> rfl
    have hmf : decForwards m = { m with
        maxForwards := if m.maxForwards > 0 then m.maxForwards - 1 else m.maxForwards } := by
      unfold decForwards; split <;> rfl
    have ho' : isOwn m' = true := by rw [hv, isOwn_via, hmf, isOwn_mf]; exact ho
    refine ⟨ho', ⟨⟨v, by rw [hv, hmf]⟩, hb.trans hbd, hsb.trans hsd, hne, (behind_ts ht).trans hbh⟩, appended_own (isOwn_not_response ho')⟩
  cases h with
  | loop hl =>
    left
    refine ⟨?_, by simp [St.fail], ?_⟩
    · rw [(setCur_frame _ _).1]; exact own_err _ _
    · rw [(setCur_frame _ _).2.1]; rfl
  | crash m' =>
    left
    refine ⟨?_, by simp, ?_⟩
    · rw [(setCur_frame _ _).1]
    · rw [(setCur_frame _ _).2.1]
  | @sent c m' x hs hne ht =>
    right
    obtain ⟨k1, k2, k6⟩ := key m' hne ht
    refine ⟨m', c.remote, ?_, k1, k2, ?_, ?_⟩
    · rw [(setCur_frame _ _).1]; exact own_sent _ _ _ k1
    · rw [(setCur_frame _ _).2.1]; rfl
    · rw [k6, (setCur_frame _ _).1]; rfl
  | @broken c m' x e hs hne ht =>
    right
    obtain ⟨k1, k2, k6⟩ := key m' hne ht
    refine ⟨m', c.remote, ?_, k1, k2, ?_, ?_⟩
    · rw [(setCur_frame _ _).1]
      simp only [St.fail, St.out]
      rw [own_err]; exact own_sent _ _ _ k1
    · rw [(setCur_frame _ _).2.1]; rfl
    · rw [k6, (setCur_frame _ _).1]; rfl

theorem setCur_cases {s : St} {m m0 : Msg} (hc : s.cur = some m0) :
    (s.req = .invite ∧ m0 = s.invite ∧ (s.setCur m).req = .invite ∧ (s.setCur m).invite = m) ∨
    (s.req = .other m0 ∧ (s.setCur m).req = .other m ∧ (s.setCur m).invite = s.invite) := by
  unfold St.cur at hc
  unfold St.setCur
  cases hr : s.req <;> simp_all

theorem effect_act (w : World) (s : St) (r : Run) (hi : isOwn s.invite = true)
    (hc : ∀ m, s.cur = some m → isOwn m = true) (a : Act w s r) : Effect w s r := by
  cases a with
  | quiet q =>
    refine .quiet q.own q.tick fun hg => ?_
    obtain ⟨q1, q2, q3, q4, _⟩ := q.same hg
    exact ⟨by rw [q1]; exact Core.refl _, q2, q3, q4⟩
  | cancel =>
    have hq := quiet_send w s _ (own_newCancel s.invite)
    refine .quiet hq.own hq.tick fun hg => ?_
    obtain ⟨q1, q2, q3, q4, _⟩ := hq.same hg
    refine ⟨?_, q2, q3, q4⟩
    have hb : branchOf { (send w s (newCancel s.invite)).1.s.invite with
        via := (send w s (newCancel s.invite)).2.via } = branchOf s.invite ∧
        sentBy { (send w s (newCancel s.invite)).1.s.invite with
        via := (send w s (newCancel s.invite)).2.via } = sentBy s.invite ∧
        (s.invite = (send w s (newCancel s.invite)).1.s.invite →
          Stamped s.invite { (send w s (newCancel s.invite)).1.s.invite with
            via := (send w s (newCancel s.invite)).2.via }) := by
      have hg' : (send w s (newCancel s.invite)).1.c = .go := hg
      have hsr := send_res w s (newCancel s.invite)
      generalize send w s (newCancel s.invite) = x at hsr hg' ⊢
      cases hsr with
      | loop => simp [St.fail] at hg'
      | crash => simp at hg'
      | broken => simp [St.fail] at hg'
      | sent x hs hne ht =>
        rename_i c m'
        have h1 : branchOf m'.appended = branchOf m' := by unfold Msg.appended; split <;> rfl
        have h2 : sentBy m'.appended = sentBy m' := by unfold Msg.appended; split <;> rfl
        refine ⟨h1.trans ((branchOf_ts ht).trans rfl), h2.trans ((sentBy_ts ht).trans rfl), fun _ => ?_⟩
        have h3 : m'.appended.via = m'.via := by unfold Msg.appended; split <;> rfl
        have h4 : decForwards (newCancel s.invite) = newCancel s.invite := rfl
        rw [h4] at ht
        show Stamped s.invite { s.invite with via := m'.appended.via }
        rw [h3]
        rcases stamped_ts ht with h5 | ⟨v, l, st, hv, hst, h5⟩
        · rw [h5]; exact .inl rfl
        · rw [h5]; exact .inr ⟨v, l, st, hv, hst, rfl⟩
    unfold sendCancel
    dsimp only
    rw [q1] at hb ⊢
    exact ⟨⟨_, rfl⟩, hb.1, hb.2.1, hb.2.2 rfl⟩
  | resend hlt =>
    cases hcur : s.cur with
    | none =>
      have hs : sendCur w s = ⟨s, .crash⟩ := by unfold sendCur; rw [hcur]
      rw [hs]
      exact .quiet rfl (Nat.le_refl _) (by simp [Run.andThen])
    | some m =>
      have houts : ((sendCur w s).andThen fun s =>
          ⟨{ s with requestResends := s.requestResends + 1, requestTimer := true }, .go⟩).s.outs = (sendCur w s).s.outs := by
        unfold Run.andThen; split <;> rfl
      have htick : ((sendCur w s).andThen fun s =>
          ⟨{ s with requestResends := s.requestResends + 1, requestTimer := true }, .go⟩).s.tick = (sendCur w s).s.tick := by
        unfold Run.andThen; split <;> rfl
      rcases sendCur_sent w s m hcur (hc m hcur) with ⟨e1, e2, e3⟩ | ⟨m', d, e1, e2, e3, e4, e5⟩
      · refine .quiet (by rw [houts, e1]) (by rw [htick, e3]; exact Nat.le_refl _) fun hg => ?_
        cases hcc : (sendCur w s).c <;> simp [Run.andThen, hcc] at hg e2
      · have hin := setCur_cases (s := { s with tick := s.tick + 1, outs := (sendCur w s).s.outs }) (m := m')
          (m0 := m) hcur
        have hgo : ∀ {P : Prop}, ((sendCur w s).c = .go → P) → (((sendCur w s).andThen fun s =>
            ⟨{ s with requestResends := s.requestResends + 1, requestTimer := true }, .go⟩).c = .go → P) := by
          intro P hP hg
          refine hP ?_
          cases hcc : (sendCur w s).c <;> simp [Run.andThen, hcc] at hg ⊢
        have hform : (sendCur w s).c = .go → ((sendCur w s).andThen fun s =>
            ⟨{ s with requestResends := s.requestResends + 1, requestTimer := true }, .go⟩).s =
            { (sendCur w s).s with
              requestResends := (sendCur w s).s.requestResends + 1, requestTimer := true } := by
          intro hg; unfold Run.andThen; rw [hg]
        have hrr : (sendCur w s).s.requestResends = s.requestResends := by
          rw [e5, (setCur_frame _ _).2.2.1]
        have hls : (sendCur w s).s.lseq = s.lseq := by
          rw [e5, (setCur_frame _ _).2.2.2.2.2.1]
        rcases hin with ⟨i1, i2, i3, i4⟩ | ⟨i1, i3, i4⟩
        · refine .resend (inv := true) (by rw [houts, e1]) (by rw [htick, e4]; exact Nat.lt_succ_self _) e3 e2
            (.inl ⟨rfl, i1, i2⟩) hlt (hgo fun hg => ?_)
          rw [hform hg]
          refine ⟨by dsimp only; rw [hrr], by dsimp only; rw [hls], .inl ⟨rfl, ?_, ?_⟩⟩
          · dsimp only; rw [e5]; exact i3
          · dsimp only; rw [e5]; exact i4
        · refine .resend (inv := false) (by rw [houts, e1]) (by rw [htick, e4]; exact Nat.lt_succ_self _) e3 e2
            (.inr ⟨rfl, i1⟩) hlt (hgo fun hg => ?_)
          rw [hform hg]
          refine ⟨by dsimp only; rw [hrr], by dsimp only; rw [hls], .inr ⟨rfl, ?_, ?_⟩⟩
          · dsimp only; rw [e5]; exact i3
          · dsimp only; rw [e5]; exact i4
  | attempt hr =>
    rename_i t
    rcases attempt_spec w t with ha | ⟨c, m0, m, hs, hcur0, hp, ha⟩
    · rw [ha]
      exact .quiet hr.own hr.tick (by simp)
    · rw [ha]
      have hom0 : isOwn m0 = true := ready_own hr hi hc hcur0
      have hpop := populate_spec (isOwn_not_response hom0) hp
      have hom := isOwn_populated hpop hom0
      obtain ⟨f1, f2, f3, f4, f5, f6, f7, f8, f9⟩ := newAttempt_frame { t with tick := t.tick + 1 } m
      have hcur : (newAttempt { t with tick := t.tick + 1 } m).cur = some m := by
        rw [f6]; exact cur_setCur (m0 := m0) hcur0
      have hin := setCur_cases (s := { t with tick := t.tick + 1 }) (m := m) (m0 := m0) hcur0
      generalize hq : newAttempt { t with tick := t.tick + 1 } m = q at *
      have fo : own q.outs = own s.outs := by rw [f1]; exact hr.own
      have ft : q.tick = t.tick + 1 := f2
      have hor : ∃ l inv, Origin s m0 l inv ∧ t.lseq = l ∧
          ((inv = true ∧ t.req = .invite ∧ m0 = t.invite) ∨ (inv = false ∧ t.req = .other m0)) := by
        rcases hin with ⟨i1, i2, _, _⟩ | ⟨i1, _, _⟩
        · rcases hr.choice with ⟨hl, _⟩ | ⟨_, _, _, _, _, _, _, h1⟩
          · refine ⟨s.lseq, true, ?_, hl, .inl ⟨rfl, i1, i2⟩⟩
            obtain ⟨u, ad, hti, hf⟩ := hr.invite
            rw [show m0 = t.invite from i2, hti]; exact .invite u ad hf
          · rw [show t.req = _ from i1] at h1; cases h1
        · rcases hr.choice with ⟨hl, h1 | h1⟩ | ⟨remote, b, n, hst, hrem, hb, hl, h1⟩
          · exact ⟨s.lseq, false, .other (h1.symm.trans i1), hl, .inr ⟨rfl, i1⟩⟩
          · rw [show t.req = _ from i1] at h1; cases h1
          · rw [show t.req = _ from i1] at h1
            cases h1
            exact ⟨n, false, .bye hst hrem hb, hl, .inr ⟨rfl, i1⟩⟩
      obtain ⟨l, inv, ho, hl, hk⟩ := hor
      have htk := hr.tick
      rcases sendCur_sent w q m hcur hom with ⟨e1, e2, e3⟩ | ⟨m', d, e1, e2, e3, e4, e5⟩
      · exact .quiet (by rw [e1, fo]) (by rw [e3, ft]; omega) fun hg => absurd hg e2
      · refine .attempt (n := t.tick) (d := d) (by rw [e1, fo]) hr.tick (by rw [e4, ft]; omega) ho hpop e3 e2 fun hg => ?_
        have hin2 := setCur_cases (s := { q with tick := q.tick + 1, outs := (sendCur w q).s.outs }) (m := m')
          (m0 := m) hcur
        have hrr : (sendCur w q).s.requestResends = 0 := by
          rw [e5, (setCur_frame _ _).2.2.1]; exact f3
        have hls : (sendCur w q).s.lseq = if s.state.rank < 2 then m.cseq else l := by
          rw [e5, (setCur_frame _ _).2.2.2.2.2.1, ← hl, ← hr.state]; exact f9
        refine ⟨hrr, hls, ?_⟩
        rcases hk with ⟨k1, k2, k3⟩ | ⟨k1, k2⟩
        · left
          refine ⟨k1, ?_⟩
          rcases hin with ⟨i1, i2, i3, i4⟩ | ⟨i1, _, _⟩
          · rcases hin2 with ⟨j1, j2, j3, j4⟩ | ⟨j1, _, _⟩
            · rw [e5]; exact ⟨j3, j4⟩
            · rw [show q.req = _ from f8.trans i3] at j1; cases j1
          · rw [show t.req = _ from i1] at k2; cases k2
        · right
          refine ⟨k1, ?_⟩
          rcases hin with ⟨i1, i2, i3, i4⟩ | ⟨i1, i3, i4⟩
          · rw [show t.req = _ from i1] at k2; cases k2
          · rcases hin2 with ⟨j1, j2, j3, j4⟩ | ⟨j1, j3, j4⟩
            · rw [show q.req = _ from f8.trans i3] at j1; cases j1
            · rw [e5]; exact ⟨j3, by rw [j4]; exact f7.trans (i4.trans (hr.kept (by rw [show t.req = _ from i1]; simp)))⟩

/-! ### Branches -/

/-- What is known of the requests sent so far. -/
structure Branches (w : World) (r : Run) : Prop where
  known : ∀ x ∈ own r.s.outs, ∃ n < r.s.tick, branchOf x.2 = some (w.ids n).branch
  bound : ∀ b, transmissions b r.s.outs ≤ w.maxResends.toNat + 1
  pairs : ∀ x ∈ own r.s.outs, ∀ y ∈ own r.s.outs, branchOf x.2 = branchOf y.2 →
    x.2.method = y.2.method ∧ x.2.cseq = y.2.cseq ∧ x.2.callID = y.2.callID
  live : r.c = .go → isOwn r.s.invite = true ∧ 0 ≤ r.s.requestResends ∧ ∀ m, r.s.cur = some m →
    isOwn m = true ∧ (∃ n < r.s.tick, branchOf m = some (w.ids n).branch) ∧
    (transmissions (branchOf m) r.s.outs : Int) ≤ r.s.requestResends + 1 ∧
    ∀ x ∈ own r.s.outs, branchOf x.2 = branchOf m →
      x.2.method = m.method ∧ x.2.cseq = m.cseq ∧ x.2.callID = m.callID

theorem isOwn_core {a b : Msg} (h : Core a b) (k : isOwn a = true) : isOwn b = true := by
  unfold isOwn Msg.isResponse at *; rw [h.method, h.status]; exact k

theorem branches_init (w : World) (invite : Msg) (hi : isOwn invite = true) :
    Branches w ⟨{ invite := invite }, .go⟩ := by
  refine ⟨by simp [own, sends], by simp [transmissions, own, sends], by simp [own, sends], fun _ => ⟨hi, by simp, ?_⟩⟩
  intro m hm; simp [St.cur] at hm

theorem branches_cont (w : World) (s : St) (c : Cont) (h : Branches w ⟨s, .go⟩) : Branches w ⟨s, c⟩ :=
  ⟨h.known, h.bound, h.pairs, fun _ => h.live rfl⟩

theorem cur_of_req {s : St} {m : Msg} (h : s.req = .other m) : s.cur = some m := by unfold St.cur; rw [h]

theorem cur_of_invite {s : St} (h : s.req = .invite) : s.cur = some s.invite := by unfold St.cur; rw [h]

/-- A request is sent: the facts about all requests sent. -/
theorem branches_sent {w : World} {s : St} {r : Run} {m' : Msg} {d : Bytes} (h : Branches w ⟨s, .go⟩)
    (e1 : own r.s.outs = own s.outs ++ [(d, m')]) (ht : s.tick ≤ r.s.tick)
    (hn : ∃ n < r.s.tick, branchOf m' = some (w.ids n).branch)
    (hb : transmissions (branchOf m') s.outs ≤ w.maxResends.toNat)
    (hl : ∀ x ∈ own s.outs, branchOf x.2 = branchOf m' →
      x.2.method = m'.method ∧ x.2.cseq = m'.cseq ∧ x.2.callID = m'.callID)
    (hlive : r.c = .go → isOwn r.s.invite = true ∧ 0 ≤ r.s.requestResends ∧ r.s.cur = some m' ∧ isOwn m' = true ∧
      (transmissions (branchOf m') s.outs : Int) ≤ r.s.requestResends) : Branches w r := by
  have hmem : ∀ x ∈ own r.s.outs, x ∈ own s.outs ∨ x = (d, m') := by rw [e1]; intro x hx; simpa using hx
  refine ⟨fun x hx => ?_, fun b => ?_, fun x hx y hy hxy => ?_, fun hg => ?_⟩
  · rcases hmem x hx with hx | rfl
    · obtain ⟨n, hn, hb⟩ := h.known x hx
      exact ⟨n, Nat.lt_of_lt_of_le hn ht, hb⟩
    · exact hn
  · rw [transmissions_snoc' e1]
    split
    · rename_i hbb; subst hbb; omega
    · exact h.bound b
  · rcases hmem x hx with hx | rfl
    · rcases hmem y hy with hy | rfl
      · exact h.pairs x hx y hy hxy
      · exact hl x hx hxy
    · rcases hmem y hy with hy | rfl
      · obtain ⟨a, b, c⟩ := hl y hy hxy.symm
        exact ⟨a.symm, b.symm, c.symm⟩
      · exact ⟨rfl, rfl, rfl⟩
  · obtain ⟨g1, g2, g3, g4, g5⟩ := hlive hg
    refine ⟨g1, g2, fun m hm => ?_⟩
    rw [g3] at hm; cases hm
    refine ⟨g4, hn, ?_, fun x hx hxb => ?_⟩
    · rw [transmissions_snoc' e1, if_pos rfl]; omega
    · rcases hmem x hx with hx | rfl
      · exact hl x hx hxb
      · exact ⟨rfl, rfl, rfl⟩

theorem branches_act (w : World) (inj : ∀ a b, (w.ids a).branch = (w.ids b).branch → a = b) (s : St) (r : Run)
    (h : Branches w ⟨s, .go⟩) (a : Act w s r) : Branches w r := by
  obtain ⟨l1, l2, l3⟩ := h.live rfl
  dsimp only at l1 l2 l3
  have e := effect_act w s r l1 (fun m hm => (l3 m hm).1) a
  cases e with
  | quiet e1 e2 e3 =>
    refine ⟨?_, ?_, by rw [e1]; exact h.pairs, ?_⟩
    · rw [e1]; intro x hx
      obtain ⟨n, hn, hb⟩ := h.known x hx
      exact ⟨n, Nat.lt_of_lt_of_le hn e2, hb⟩
    · intro b; rw [transmissions_own e1]; exact h.bound b
    · intro hg
      obtain ⟨k1, k2, k3, _⟩ := e3 hg
      refine ⟨isOwn_core k1 l1, by rw [k3]; exact l2, fun m hm => ?_⟩
      have hcur : ∃ m0, s.cur = some m0 ∧ Core m0 m := by
        unfold St.cur at hm ⊢
        rw [k2] at hm
        cases hq : s.req with
        | none => rw [hq] at hm; cases hm
        | invite => rw [hq] at hm; cases hm; exact ⟨s.invite, rfl, k1⟩
        | other y => rw [hq] at hm; cases hm; exact ⟨m, rfl, Core.refl _⟩
      obtain ⟨m0, hm0, hk⟩ := hcur
      obtain ⟨a1, ⟨n, hn, a2⟩, a3, a4⟩ := l3 m0 hm0
      rw [hk.branch, hk.method, hk.cseq, hk.callID, k3, transmissions_own e1, e1]
      exact ⟨isOwn_core hk a1, ⟨n, Nat.lt_of_lt_of_le hn e2, a2⟩, a3, a4⟩
  | @resend m m' d inv e1 e2 e3 e4 e5 e6 e7 =>
    have hcur : s.cur = some m := by
      rcases e5 with ⟨_, k, k2⟩ | ⟨_, k⟩
      · rw [k2]; exact cur_of_invite k
      · exact cur_of_req k
    obtain ⟨a1, ⟨n, hn, a2⟩, a3, a4⟩ := l3 m hcur
    refine branches_sent h e1 (Nat.le_of_lt e2) ⟨n, by omega, e3.branch.trans a2⟩ ?_ ?_ fun hg => ?_
    · rw [e3.branch]; omega
    · rw [e3.branch, e3.method, e3.cseq, e3.callID]; exact a4
    · obtain ⟨k1, _, k⟩ := e7 hg
      have hres : 0 ≤ r.s.requestResends ∧ (transmissions (branchOf m') s.outs : Int) ≤ r.s.requestResends := by
        rw [k1, e3.branch]; omega
      rcases k with ⟨_, k0, k⟩ | ⟨_, k0, k⟩
      · exact ⟨by rw [k]; exact e4, hres.1, by rw [cur_of_invite k0, k], e4, hres.2⟩
      · exact ⟨by rw [k]; exact l1, hres.1, cur_of_req k0, e4, hres.2⟩
  | @attempt m0 m m' d n l inv e1 e2 e3 e4 e5 e6 e7 e8 =>
    have hbr : branchOf m' = some (w.ids n).branch := e6.branch.trans e5.branch
    have hfresh : ∀ x ∈ own s.outs, branchOf x.2 ≠ branchOf m' := by
      intro x hx hc
      obtain ⟨k, hk, hxb⟩ := h.known x hx
      rw [hxb, hbr] at hc
      have := inj _ _ (Option.some.inj hc)
      dsimp only at hk
      omega
    have hz : transmissions (branchOf m') s.outs = 0 := by
      unfold transmissions
      rw [List.countP_eq_zero]
      intro x hx
      simp only [beq_iff_eq]
      exact hfresh x hx
    refine branches_sent h e1 (by omega) ⟨n, e3, hbr⟩ (by omega) (fun x hx hc => absurd hc (hfresh x hx)) fun hg => ?_
    obtain ⟨k1, _, k⟩ := e8 hg
    rcases k with ⟨_, k0, k⟩ | ⟨_, k0, k⟩
    · exact ⟨by rw [k]; exact e7, by omega, by rw [cur_of_invite k0, k], e7, by omega⟩
    · exact ⟨by rw [k]; exact l1, by omega, cur_of_req k0, e7, by omega⟩

theorem own_transition (t : St) (c : CallState) : own (transition t c).outs = own t.outs := by
  simp only [transition, St.out]; rw [own_append]; simp [own, sends]

theorem branches_ends (w : World) (r r' : Run) (h : Branches w r) (e : Ends r r') : Branches w r' := by
  cases e with
  | same => exact h
  | publish t c x c' =>
    have ho := own_transition t c
    obtain ⟨l1, l2, l3⟩ := h.live rfl
    refine ⟨?_, ?_, ?_, fun _ => ⟨l1, l2, ?_⟩⟩
    · show ∀ x ∈ own (transition t c).outs, _
      rw [ho]; exact h.known
    · intro b
      show transmissions b (transition t c).outs ≤ _
      rw [transmissions_own ho]; exact h.bound b
    · show ∀ x ∈ own (transition t c).outs, ∀ y ∈ own (transition t c).outs, _
      rw [ho]; exact h.pairs
    · intro m hm
      obtain ⟨a1, a2, a3, a4⟩ := l3 m hm
      refine ⟨a1, a2, ?_, ?_⟩
      · show (transmissions (branchOf m) (transition t c).outs : Int) ≤ _
        rw [transmissions_own ho]; exact a3
      · show ∀ x ∈ own (transition t c).outs, _
        rw [ho]; exact a4

theorem branches_loop (w : World) (invite : Msg) (evs : List Event) (hi : isOwn invite = true)
    (inj : ∀ a b, (w.ids a).branch = (w.ids b).branch → a = b) : Branches w (loop w evs (start w invite)) :=
  invariant (J := Branches w) invite (branches_init w invite hi) (branches_cont w) (branches_act w inj)
    (branches_ends w) evs

end Gosip.Dialog
