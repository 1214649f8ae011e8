import Verif.Props.Wire

/-!
# Property C74: a request made with `NewRequest`
-/

namespace Gosip.Props
open Sip Spec Dialog

theorem addrOr_eq (a b : List Addr) : addrOr a b = if a = [] then b else a := rfl

/-- **C74.** `NewRequest` builds a request with identifiers of its own, addressed as told: without a sender it comes from
the Contact of the transport. It panics exactly without a recipient, without a sender or without a Via. -/
theorem C74_new_request (ids : Ids) (tp : Transport) (method : Bytes) (to from' : List Addr) :
    (∀ m, newRequest ids tp.via tp.contact method to from' = .ok m →
      Begins ids.callID ids.branch ids.tag ids.cseq tp.via method to (if from' = [] then tp.contact else from') m) ∧
    (newRequest ids tp.via tp.contact method to from' = .panic ↔
      to = [] ∨ tp.via = [] ∨ (if from' = [] then tp.contact else from') = []) ∧
    (∀ e, newRequest ids tp.via tp.contact method to from' ≠ .err e) := by
  unfold newRequest
  rw [addrOr_eq]
  generalize (if from' = [] then tp.contact else from') = fr
  cases to with
  | nil => simp [headUri]
  | cons t ts =>
    cases tp.via with
    | nil => simp [headUri, viaBranch]
    | cons v vs =>
      cases fr with
      | nil => simp [headUri, viaBranch, addrTag, addrCopy]
      | cons f fs =>
        simp only [headUri, viaBranch, addrTag, addrCopy, List.map_cons, Res.bind_eq, Res.bind, Res.pure_eq]
        refine ⟨?_, by simp, by simp⟩
        intro m h
        cases h
        refine ⟨⟨rfl, rfl, rfl⟩, ⟨t, ts, rfl, rfl⟩, ⟨v, vs, rfl, rfl⟩, ⟨f, fs, rfl, rfl⟩, rfl, rfl, rfl, rfl, ?_, ?_,
          ⟨rfl, rfl, rfl, rfl, rfl⟩, ⟨rfl, rfl⟩⟩
        · intro x; cases x <;> simp
        · intro x; cases x <;> simp

/-- **C74.** Sending such a request adds nothing but the transport's Contact, Max-Forwards, a number if none was generated,
and the time if that is wanted; it goes to the recipient. -/
theorem C74_sent (ids : Ids) (env : SendEnv) (tp : Transport) (method : Bytes) (to from' : List Addr) (m : Msg)
    (t dest : Bytes) (hm : method ≠ []) (hid : ids.callID ≠ [])
    (hn : newRequest ids tp.via tp.contact method to from' = .ok m) (h : (tp.send env m).wire = some (t, dest)) :
    ∃ m1 a l u, to = a :: l ∧ a.uri = some u ∧
      env.resolve (joinHostPort u.host (natDec u.port.toNat)) = .ok dest ∧
      Timed env.ts { m with addrs := setAt m.addrs .contact tp.contact, maxForwards := 69,
                            cseq := if ids.cseq = 0 then env.ids.cseq else ids.cseq } m1 ∧
      t = m1.text env.origin := by
  have hb := (C74_new_request ids tp method to from').1 m hn
  have hr : m.isResponse = false := by simp [Msg.isResponse, hb.method.2.2]
  obtain ⟨m', route, u, sent, host, port, m1, hf, hk, hfr, _, hhop, hd, ht, hw⟩ := C71_request env tp m t dest hr h
  have noaddr : ∀ f, f ≠ .from → f ≠ .to → m.addrs f = [] := by
    intro f h1 h2
    cases hf : m.addrs f with
    | nil => rfl
    | cons x l =>
      have := hb.only.addrs f (by simp [hf])
      simp [h1, h2] at this
  have hroute : m.addrs .route = [] := noaddr _ (by decide) (by decide)
  have hr0 : route = [] := by
    rcases hfr with ⟨_, _, _, _, e⟩ | ⟨_, e⟩
    · rw [hroute] at e; cases e
    · rw [e, hroute]
  subst hr0
  obtain ⟨a, l, hto, hreq⟩ := hb.target
  cases hhop with
  | @direct uu hu =>
    refine ⟨m1, a, l, uu, hto, by rw [← hreq, hu], hd, ?_, hw⟩
    have e : { m' with request := some uu, addrs := setAt m'.addrs .route [], maxForwards := oneLess m'.maxForwards } =
        { m with addrs := setAt m.addrs .contact tp.contact, maxForwards := 69,
                 cseq := if ids.cseq = 0 then env.ids.cseq else ids.cseq } := by
      obtain ⟨v, vs, hv1, hv2⟩ := hb.via
      obtain ⟨f0, fs, hf1, hf2⟩ := hb.from'
      have hmf : m'.maxForwards = 70 := hf.maxForwards hb.only.rest.2.2.1
      have hcs : m'.cseq = if ids.cseq = 0 then env.ids.cseq else ids.cseq := by
        split
        · exact hf.cseq (by rw [hb.cseq]; assumption)
        · rw [hk.cseq (by rw [hb.cseq]; assumption), hb.cseq]
      have hvia : m'.via = m.via := by
        obtain ⟨v', l', p, e1, e2, e3⟩ := hf.via
        rw [if_neg (by simp [hv2])] at e1
        rcases e3 with ⟨_, rfl⟩ | ⟨e3, _⟩
        · rw [e2, e1]
        · rw [hv2] at e1
          cases e1
          exact absurd (by simp [SameName]) (e3 _ (List.mem_cons_self ..))
      have hfrom : m'.addrs .from = m.addrs .from := by
        obtain ⟨p, e2, e3⟩ := hk.from' _ _ hf2
        rcases e3 with rfl | ⟨e3, _⟩
        · rw [e2, hf2]
        · exact absurd (by simp [SameName]) (e3 _ (List.mem_cons_self ..))
      have hua : m'.hdr = m.hdr := by
        funext f
        by_cases hfu : f = .userAgent
        · subst hfu
          rw [hk.hdr _ (by simp [hb.product])]
        · exact hf.noMore.2.1 f hfu
      have haddrs : setAt m'.addrs .route [] = setAt m.addrs .contact tp.contact := by
        funext f
        by_cases h1 : f = .route
        · subst h1; simp [setAt, hroute]
        · rw [setAt_ne _ _ h1]
          by_cases h2 : f = .contact
          · subst h2
            rw [setAt_same, hf.contact (noaddr _ (by decide) (by decide))]
          · rw [setAt_ne _ _ h2]
            by_cases h3 : f = .from
            · subst h3; exact hfrom
            · by_cases h4 : f = .to
              · subst h4
                refine hk.addrs _ (by decide) ?_
                rw [hb.to, hto]; simp
              · exact hf.noMore.1 f h2 h4 h3
      have hcid : m'.callID = m.callID := hk.callID (by rw [hb.callID]; exact hid)
      have hcm : m'.cseqMethod = m.cseqMethod := hk.cseqMethod (by rw [hb.method.2.1]; exact hm)
      obtain ⟨k1, k2, k3⟩ := hk.line
      obtain ⟨r1, r2, r3, r4, r5⟩ := hk.rest
      obtain ⟨_, _, n1, n2, n3⟩ := hf.noMore
      rw [haddrs, hmf]
      cases m
      cases m'
      simp only [Msg.mk.injEq] at *
      simp_all [oneLess]
    rw [e] at ht
    exact ht

/-- An OPTIONS from a transport at 10.0.0.1:5080 to bob at example.com:5070. -/
example : ∃ m t,
    newRequest ⟨b!"id", 7, b!"z9hG4bK1", b!"tg"⟩ [{ host := b!"10.0.0.1", port := 5080 }]
      [{ uri := some { scheme := b!"sip", host := b!"10.0.0.1", port := 5080 } }] b!"OPTIONS"
      [{ display := b!"Bob", uri := some { scheme := b!"sip", user := b!"bob", host := b!"example.com", port := 5070 } }] [] =
        .ok m ∧
    (Transport.send ⟨⟨[], 0, [], []⟩, [], none, fun a => .ok a, .ok ()⟩
      ⟨[{ host := b!"10.0.0.1", port := 5080 }], [{ uri := some { scheme := b!"sip", host := b!"10.0.0.1", port := 5080 } }]⟩
      m).wire = some (t, b!"example.com:5070") ∧
    t = b!"OPTIONS sip:bob@example.com:5070 SIP/2.0\r\nFrom: <sip:10.0.0.1:5080>;tag=tg\r\nTo: <sip:bob@example.com:5070>\r\nVia: SIP/2.0/UDP 10.0.0.1:5080;branch=z9hG4bK1\r\nContact: <sip:10.0.0.1:5080>\r\nCall-ID: id\r\nCSeq: 7 OPTIONS\r\nUser-Agent: slytherin/1.o\r\nMax-Forwards: 69\r\nContent-Length: 0\r\n\r\n" :=
  ⟨_, _, rfl, rfl, by decide +kernel⟩

end Gosip.Props
