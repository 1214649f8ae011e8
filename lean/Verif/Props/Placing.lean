import Verif.Props.Carried
import Verif.Props.CallRedirect
import Verif.Dialog.Placing
import Verif.Dialog.Countdown

/-!
# Properties C96 and C97: what limits a call, and that a call which can be placed is placed
-/

namespace Gosip.Props
open Sip Spec Dialog

/-! ## C97 -/

/-- **C97.** If the destination has addresses and one of them can be dialled, the call is placed: the addresses before it
are tried in order, and the INVITE is written to the socket of the first one that answers; nothing is reported yet, and
the call goes on. The INVITE is the application's (`C93_carried`), addressed as `RouteMessage` says. The conditions say
that writing succeeds, that the second socket can be opened if there is to be one, that a Contact given by the application
has an address, and that Max-Forwards allows one hop. -/
theorem C97_placed (w : World) (invite : Msg) (host : Bytes) (port : UInt16) (dead : List Bytes) (a : Bytes)
    (rest : List Bytes) (hi : IsInvite invite) (hr : (routeMessage none none invite).2 = .ok (host, port))
    (ha : (routeAddress (w.resolver 0) host port true).2 = .ok (dead ++ a :: rest))
    (hdead : ∀ b ∈ dead, ∀ n, w.dial n b = none) (hd : ∀ n, w.dial n a ≠ none)
    (hl : w.loose = false ∨ ∀ n, w.listen n ≠ none) (hw : ∀ n, w.write n = .ok ())
    (hk : ∀ ad more, invite.addrs .contact = ad :: more → ad.uri ≠ none) (hf : invite.maxForwards ≠ 1) :
    (start w invite).c = .go ∧
    ∃ c n y o, w.dial n a = some c ∧ IsInvite y ∧ y.request = (routeMessage none none invite).1.request ∧
      Carries invite y ∧ (0 ≤ invite.maxForwards → y.maxForwards = hops invite - 1) ∧
      (∃ k, HasBranch y (w.ids k).branch ∧ y.cseq = if invite.cseq = 0 then (w.ids k).cseq else invite.cseq) ∧
      (start w invite).s.outs = dead.map .dial ++ [.dial a, .sent c.remote y (y.text (w.origin o))] := by
  have hresp : invite.isResponse = false := isOwn_not_response (isOwn_invite hi)
  obtain ⟨c, n, k, o, cs, m0, y, h1, h2, h3, h4, h5⟩ := start_placed hresp hr ha hdead hd hl hw hk hf
  obtain ⟨u, ad, hrm, hadd⟩ := route_none invite
  have hpop := populate_spec (by rw [hrm]; exact hresp) h2
  have hy : IsInvite y := by
    refine ⟨h3.status.trans (hpop.status.trans ?_), h3.method.trans (hpop.method.trans ?_)⟩
    · rw [hrm]; exact hi.1
    · rw [hrm]; exact hi.2
  refine ⟨h4, c, n, y, o, h1, hy, ?_, ?_, fun hmf => ?_, ⟨k, ?_, ?_⟩, h5⟩
  · obtain ⟨v, hv⟩ := h3.only
    rw [hv]; exact hpop.request
  · have hmem : (c.remote, y) ∈ requests (dialog w invite []).s.outs := by
      rw [requests_dialog]
      show (c.remote, y) ∈ own (start w invite).s.outs
      rw [h5]
      unfold own
      rw [List.mem_filter]
      refine ⟨?_, isOwn_invite hy⟩
      simp [sends]
    exact (C93_carried w invite [] hi _ hmem hy.2).1
  · rw [h3.forwards, hpop.forwards]
    unfold hops
    have : (routeMessage none none invite).1.maxForwards = invite.maxForwards := by rw [hrm]
    rw [this]
    split
    · simp
    · rw [if_pos (by omega)]
  · exact hasBranch_iff.2 (h3.branch.trans hpop.branch)
  · rw [h3.cseq, hpop.cseq, hrm]

/-- A destination with two addresses, of which only the second can be dialled. -/
def halfDead : World :=
  { twoHomes with dial := fun _ a => if a = b!"10.0.0.2:5060" then none else some ⟨a, b!"172.16.0.1", 5080⟩ }

/-- The conditions can be met with an address that cannot be dialled. -/
example : (start halfDead twoHomesInvite).c = .go ∧ ∃ c y x, IsInvite y ∧ (start halfDead twoHomesInvite).s.outs =
    [.dial b!"10.0.0.2:5060", .dial b!"172.16.0.2:5060", .sent c y x] := by
  obtain ⟨h1, c, n, y, o, _, h2, _, _, _, _, h3⟩ := C97_placed halfDead twoHomesInvite b!"example.com" 0 [b!"10.0.0.2:5060"]
    b!"172.16.0.2:5060" [] ⟨rfl, rfl⟩ rfl (by decide +kernel)
    (by intro b hb n; simp only [List.mem_singleton] at hb; subst hb; rfl) (by intro n; simp [halfDead]) (.inl rfl)
    (fun _ => rfl) (fun ad more h => nomatch h) (by decide)
  exact ⟨h1, _, _, _, h2, h3⟩

/-! ## C96 -/

theorem invites_eq (l : List Out) : invites l = calls l := by unfold invites calls; rw [requests_eq]

theorem calls_dialog (w : World) (invite : Msg) (evs : List Event) :
    invites (dialog w invite evs).s.outs = calls (loop w evs (start w invite)).s.outs := by
  unfold invites calls; rw [requests_dialog]

/-- **C96** (Max-Forwards). Whatever happens to a call, its INVITE is transmitted with a Max-Forwards that is one less each
time, first attempts, redirections and repetitions alike, and never with less than one. -/
theorem C96_countdown (w : World) (invite : Msg) (evs : List Event) (hi : IsInvite invite) (hf : 0 ≤ invite.maxForwards)
    (k : Nat) (x : Bytes × Msg) (hx : (invites (dialog w invite evs).s.outs)[k]? = some x) :
    x.2.maxForwards = hops invite - (k + 1) ∧ 1 ≤ x.2.maxForwards := by
  rw [calls_dialog] at hx
  exact (counting_loop w invite evs (isOwn_invite hi) hi.2 hf).sent k x hx

/-- **C96** (the limit). So Max-Forwards limits a call: there are fewer transmissions of the INVITE than it says. -/
theorem C96_limited (w : World) (invite : Msg) (evs : List Event) (hi : IsInvite invite) (hf : 0 ≤ invite.maxForwards) :
    ((invites (dialog w invite evs).s.outs).length : Int) < hops invite := by
  by_cases h0 : (invites (dialog w invite evs).s.outs).length = 0
  · rw [h0]
    unfold hops
    split <;> omega
  · obtain ⟨h1, h2⟩ := C96_countdown w invite evs hi hf ((invites (dialog w invite evs).s.outs).length - 1) _
      (List.getElem?_eq_getElem (by omega))
    rw [h1] at h2
    omega

/-- A call whose Max-Forwards is four: three transmissions, then no more. -/
example : (invites (dialog { demoWorld with maxResends := 9 } { demoInvite with maxForwards := 4 }
      [.requestTimer, .requestTimer, .requestTimer, .requestTimer]).s.outs).map (·.2.maxForwards) = [3, 2, 1] ∧
    hops demoInvite = 70 := by
  decide +kernel

/-- A redirection of the request `x` to `u`. -/
def movedTo (u : URI) (x : Msg) : Msg :=
  { status := 302, versionMajor := 2, versionMinor := 0, method := [], request := none, phrase := [],
    via := x.via.take 1, callID := x.callID, cseq := x.cseq, cseqMethod := x.method,
    addrs := setAt x.addrs .contact [{ uri := some u }], hdr := fun _ => [] }

theorem moved_answers {u : URI} {x : Msg} {b : Bytes} (hb : HasBranch x b) : Answers x (movedTo u x) := by
  obtain ⟨v, l, hv, hp⟩ := hb
  refine ⟨by show (0:Int) < 302; decide, rfl, rfl, [], v, v, l, ?_, hv, rfl, rfl, b, hp, hp⟩
  simp [movedTo, hv]

theorem requests_sent_ack {l : List Out} {dest d : Bytes} {ack y : Msg} {x t : Bytes} {dials : List Out}
    (ha : ack.method = b!"ACK") (hd : OnlyDials dials) (hy : IsInvite y) :
    requests (l ++ .sent dest ack x :: dials ++ [.sent d y t]) = requests l ++ [(d, y)] := by
  have hd' : sends dials = [] := by
    rcases hd with rfl | ⟨a, rfl⟩ <;> rfl
  rw [List.append_assoc, List.cons_append]
  unfold requests
  rw [sends_append]
  rw [show sends (.sent dest ack x :: (dials ++ [.sent d y t])) = (dest, ack) :: (sends dials ++ [(d, y)]) by
    rw [show (Out.sent dest ack x :: (dials ++ [.sent d y t])) = [.sent dest ack x] ++ (dials ++ [.sent d y t]) from rfl,
      sends_append, sends_append]; rfl]
  rw [hd', List.filter_append]
  congr 1
  simp [ha, hy.1, hy.2]

/-- **C96 fails** for the number of attempts, for every call. A call that is being placed can be sent on by redirections
as often as Max-Forwards allows: each is followed with a new INVITE. The documented maximum of ten attempts is not
consulted. The conditions are those of `C64_followed_partial`: the address redirected to can be found and dialled, writing
succeeds, and the receiver of the old socket can be stopped. -/
theorem C96_redirects (w : World) (invite : Msg) (evs : List Event) (d : Bytes) (x : Msg) (b : Bytes) (u : URI) (a : Bytes)
    (rest : List Bytes) (hi : IsInvite invite) (hid : ∀ n, (w.ids n).callID ≠ []) (hw : ∀ n, w.write n = .ok ())
    (hfr : ∀ n, w.frees n = true) (hl : w.loose = false ∨ ∀ n, w.listen n ≠ none)
    (hg : (loop w evs (start w invite)).c = .go)
    (hx : (requests (loop w evs (start w invite)).s.outs).getLast? = some (d, x)) (hxi : IsInvite x) (hb : HasBranch x b)
    (hra : ∀ n srv, (routeAddress (w.resolver n) u.host u.port srv).2 = .ok (a :: rest)) (hd : ∀ n, w.dial n a ≠ none)
    (hq : x.cseq ≠ 0) (k : Nat) (hf : (k : Int) < x.maxForwards) :
    ∃ moved : List Msg, moved.length = k ∧ (∀ m ∈ moved, m.status = 302) ∧
      (loop w (evs ++ moved.map .msg) (start w invite)).c = .go ∧
      (invites (loop w (evs ++ moved.map .msg) (start w invite)).s.outs).length =
        (invites (loop w evs (start w invite)).s.outs).length + k := by
  induction k generalizing evs d x b with
  | zero => exact ⟨[], rfl, (fun m hm => nomatch hm), by simpa using hg, by simp⟩
  | succ k ih =>
    obtain ⟨h1, a0, ack, dest, text, dials, c, y, text', h2, h3, h4, h5, h6, ⟨n, h7⟩, h8⟩ :=
      C64_followed_partial w invite evs (movedTo u x) d x { uri := some u } [] u a rest hi hid hw hfr hl hg hx hxi.2
        (moved_answers hb) ⟨rfl, rfl⟩ rfl (.inr rfl) (by simp [movedTo, setAt]) rfl (fun n => hra n _) hd (by omega) hq
    have hy : IsInvite y := ⟨h6.method.2.trans hxi.1, h6.method.1⟩
    have hack : ack.method = b!"ACK" := by
      rcases h3 with rfl | ⟨v, l, ts, _, _, rfl⟩
      · exact h2.method.1
      · exact h2.method.1
    have hreq : requests (loop w (evs ++ [.msg (movedTo u x)]) (start w invite)).s.outs =
        requests (loop w evs (start w invite)).s.outs ++ [(c.remote, y)] := by
      rw [h8]; exact requests_sent_ack hack h4 hy
    have hyb : HasBranch y (w.ids n).branch := by
      rw [hasBranch_iff]
      unfold branchOf
      cases hv : y.via with
      | nil => rw [hv] at h7; cases h7
      | cons v l => rw [hv] at h7; simpa using h7
    obtain ⟨moved, k1, k2, k3, k4⟩ := ih (evs ++ [.msg (movedTo u x)]) c.remote y (w.ids n).branch h1
      (by rw [hreq]; simp) hy hyb (by rw [h6.cseq.1]; exact hq) (by rw [h6.forwards]; omega)
    refine ⟨movedTo u x :: moved, by simp [k1], ?_, ?_, ?_⟩
    · intro m hm
      rcases List.mem_cons.1 hm with rfl | hm
      · rfl
      · exact k2 m hm
    · simpa using k3
    · have : evs ++ (movedTo u x :: moved).map .msg = (evs ++ [.msg (movedTo u x)]) ++ moved.map .msg := by simp
      rw [this, k4]
      have : (invites (loop w (evs ++ [.msg (movedTo u x)]) (start w invite)).s.outs).length =
          (invites (loop w evs (start w invite)).s.outs).length + 1 := by
        unfold invites
        rw [hreq, List.filter_append]
        simp [hy.2]
      omega

/-- **C96 fails** for the number of attempts: every call that can be placed (the conditions of `C97_placed`) with a
Max-Forwards above eleven, such as the usual seventy, can be redirected until the INVITE has been sent more often than the
documented maximum, and still goes on. -/
theorem C96_attempts_not_limited (w : World) (invite : Msg) (host : Bytes) (port : UInt16) (dead : List Bytes) (a : Bytes)
    (rest : List Bytes) (hi : IsInvite invite) (hr : (routeMessage none none invite).2 = .ok (host, port))
    (ha : (routeAddress (w.resolver 0) host port true).2 = .ok (dead ++ a :: rest))
    (hdead : ∀ b ∈ dead, ∀ n, w.dial n b = none) (hd : ∀ n, w.dial n a ≠ none)
    (hl : w.loose = false ∨ ∀ n, w.listen n ≠ none) (hw : ∀ n, w.write n = .ok ())
    (hk : ∀ ad more, invite.addrs .contact = ad :: more → ad.uri ≠ none) (hf : 0 ≤ invite.maxForwards)
    (hh : 11 < hops invite) (hid : ∀ n, (w.ids n).callID ≠ []) (hfr : ∀ n, w.frees n = true)
    (hq : invite.cseq ≠ 0 ∨ ∀ n, (w.ids n).cseq ≠ 0) (u : URI) (a' : Bytes) (rest' : List Bytes)
    (hra : ∀ n srv, (routeAddress (w.resolver n) u.host u.port srv).2 = .ok (a' :: rest')) (hd' : ∀ n, w.dial n a' ≠ none) :
    ∃ moved : List Msg, (∀ m ∈ moved, m.status = 302) ∧ (loop w (moved.map .msg) (start w invite)).c = .go ∧
      maxAttempts < (invites (loop w (moved.map .msg) (start w invite)).s.outs).length := by
  have hne : invite.maxForwards ≠ 1 := by
    intro h
    unfold hops at hh
    rw [h] at hh
    exact absurd hh (by decide)
  obtain ⟨h1, c, n, y, o, _, hy, _, _, hmf, ⟨k, hb, hcs⟩, hout⟩ := C97_placed w invite host port dead a rest hi hr ha hdead hd
    hl hw hk hne
  have hreq : requests (start w invite).s.outs = [(c.remote, y)] := by
    rw [hout]
    unfold requests
    rw [sends_append]
    have : sends (dead.map .dial) = [] := by
      clear ha hdead hout
      induction dead with
      | nil => rfl
      | cons b l ih => exact ih
    rw [this]
    simp [sends, hy.1, hy.2]
  have hinv : invites (start w invite).s.outs = [(c.remote, y)] := by
    unfold invites; rw [hreq]; simp [hy.2]
  have hcne : y.cseq ≠ 0 := by
    rw [hcs]
    split
    · rcases hq with h | h
      · contradiction
      · exact h k
    · assumption
  obtain ⟨moved, m1, m2, m3, m4⟩ := C96_redirects w invite [] c.remote y (w.ids k).branch u a' rest' hi hid hw hfr hl h1
    (by show (requests (start w invite).s.outs).getLast? = _; rw [hreq]; rfl) hy hb hra hd' hcne 10 (by rw [hmf hf]; omega)
  refine ⟨moved, m2, m3, ?_⟩
  have h0 : (invites (loop w [] (start w invite)).s.outs).length = 1 := by
    show (invites (start w invite).s.outs).length = 1
    rw [hinv]; rfl
  rw [h0] at m4
  rw [show moved.map Event.msg = [] ++ moved.map Event.msg from rfl, m4]
  decide

/-- The conditions can be met: the demo call with the usual Max-Forwards. -/
example : ∃ moved : List Msg, (∀ m ∈ moved, m.status = 302) ∧
    (loop demoWorld (moved.map .msg) (start demoWorld demoInvite)).c = .go ∧
    10 < (invites (loop demoWorld (moved.map .msg) (start demoWorld demoInvite)).s.outs).length :=
  C96_attempts_not_limited demoWorld demoInvite b!"10.0.0.2" 0 [] b!"10.0.0.2:5060" [] ⟨rfl, rfl⟩ rfl (by decide +kernel)
    (fun b hb => nomatch hb) (fun n h => nomatch h) (.inl rfl) (fun _ => rfl) (fun ad more h => nomatch h) (by decide)
    (by decide) (fun n => by simp [demoWorld]) (fun _ => rfl) (.inr fun n => by simp [demoWorld])
    { scheme := b!"sip", user := b!"bob", host := b!"10.0.0.3" } b!"10.0.0.3:5060" []
    (fun n srv => by cases srv <;> rfl) (fun n h => nomatch h)

theorem flatten_length {l : List Bytes} {x : Bytes} (h : x ∈ l) : x.length ≤ l.flatten.length := by
  induction l with
  | nil => cases h
  | cons y l ih =>
    rw [List.flatten_cons, List.length_append]
    rcases List.mem_cons.1 h with rfl | h
    · omega
    · have := ih h; omega

theorem text_subject (gen : Bytes) (m : Msg) : (m.hdr .subject).length ≤ (m.text gen).length := by
  have h : strLine b!"Subject" (m.hdr .subject) ∈ headerLines m := by simp [headerLines]
  have h1 := flatten_length h
  have h2 : (m.hdr .subject).length ≤ (strLine b!"Subject" (m.hdr .subject)).length := by
    unfold strLine
    split
    · simp only [List.length_append]; omega
    · rename_i h0
      rw [Decidable.not_not.1 h0]; simp
  unfold Msg.text
  simp only [List.length_append]
  omega

/-- **C96 fails** for the length of messages, for every call: the INVITE of a call that can be placed is written whatever
its length. A Subject longer than the documented maximum makes it longer than that. -/
theorem C96_length_not_limited (w : World) (invite : Msg) (host : Bytes) (port : UInt16) (dead : List Bytes) (a : Bytes)
    (rest : List Bytes) (hi : IsInvite invite) (hr : (routeMessage none none invite).2 = .ok (host, port))
    (ha : (routeAddress (w.resolver 0) host port true).2 = .ok (dead ++ a :: rest))
    (hdead : ∀ b ∈ dead, ∀ n, w.dial n b = none) (hd : ∀ n, w.dial n a ≠ none)
    (hl : w.loose = false ∨ ∀ n, w.listen n ≠ none) (hw : ∀ n, w.write n = .ok ())
    (hk : ∀ ad more, invite.addrs .contact = ad :: more → ad.uri ≠ none) (hf : invite.maxForwards ≠ 1)
    (hlong : mtu < (invite.hdr .subject).length) :
    ∃ d m x, .sent d m x ∈ (start w invite).s.outs ∧ IsInvite m ∧ mtu < x.length := by
  obtain ⟨h1, c, n, y, o, _, hy, _, hc, _, _, hout⟩ := C97_placed w invite host port dead a rest hi hr ha hdead hd hl hw hk hf
  refine ⟨c.remote, y, y.text (w.origin o), by rw [hout]; simp, hy, ?_⟩
  have := text_subject (w.origin o) y
  rw [hc.hdr .subject (.inl (by simp))] at this
  omega

/-- The conditions can be met. -/
example : ∃ d m x, .sent d m x ∈ (start demoWorld { demoInvite with
      hdr := setAt demoInvite.hdr .subject (List.replicate 1451 65) }).s.outs ∧ IsInvite m ∧ 1450 < x.length :=
  C96_length_not_limited demoWorld _ b!"10.0.0.2" 0 [] b!"10.0.0.2:5060" [] ⟨rfl, rfl⟩ rfl (by decide +kernel)
    (fun b hb => nomatch hb) (fun n h => nomatch h) (.inl rfl) (fun _ => rfl) (fun ad more h => nomatch h) (by decide)
    (by dsimp only; rw [setAt_same, List.length_replicate]; decide)

end Gosip.Props
