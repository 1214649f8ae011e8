import Verif.Sip.ForwardQuote
import Verif.Sip.ForwardMsg
import Verif.Props.Lists

/-!
# C15: parameter values and display names

What the library writes for a parameter value or a display name, read back by its parser. Each theorem says
exactly for which texts the value is read back unchanged.
-/

namespace Gosip.Props
open Sip Sip.MsgM Spec

theorem line_of_alone {L : Bytes} {m : Msg} (hL : HeaderLine L) (h : Alone L m) : ∃ us, Line L us := by
  have hs : LogicalLine b!"SIP/2.0 200 OK" := plain_ok (by decide +kernel)
  have h' : parseMsg (headText b!"SIP/2.0 200 OK" [L] ++ []) = .ok m := by rw [List.append_nil]; exact h
  obtain ⟨_, u0, us, _, hr, _⟩ := (parse_head (body := []) hs (ls := [L]) (by simpa using hL)).1 h'
  cases hr with
  | cons h1 _ => exact ⟨_, h1⟩

/-- An address header with this text is read, and gives these addresses. -/
def ReadsAddr (name text : Bytes) (f : AField) (as : List Addr) : Prop :=
  ∃ m, Alone (headerLine name [] (b!" " ++ text)) m ∧ m.addrs f = as

/-- A Via header with this text is read, and gives these Vias. -/
def ReadsVia (name text : Bytes) (vs : List Via) : Prop := ∃ m, Alone (headerLine name [] (b!" " ++ text)) m ∧ m.via = vs

theorem readsAddr_iff {n t : Bytes} {f : AField} {as : List Addr} (hn : IsName n) (hh : headerOf n = some (.address f)) (ht : Flat t) :
    ReadsAddr n t f as ↔ ∃ us, Acc 395 (nameLoc (.address f)) (32 :: (t ++ CRLF)) us ∧ adds f us = as := by
  have hL : HeaderLine (headerLine n [] (32 :: t)) := line_ok hn ht
  have hi : IsHeader (.address f) (headerLine n [] (32 :: t)) := ⟨n, [], _, rfl, hn, no_blanks, hh⟩
  constructor
  · rintro ⟨m, hm, e⟩
    obtain ⟨us, hu⟩ := line_of_alone hL hm
    obtain ⟨m', hm', _, e'⟩ := alone_line hL hi (.inr ⟨f, rfl⟩) hu
    rw [show m' = m from by have := hm'.symm.trans hm; cases this; rfl] at e'
    exact ⟨us, (line_known hn no_blanks hh).1 hu, by rw [← e', e]⟩
  · rintro ⟨us, hu, e⟩
    obtain ⟨m, hm, _, e'⟩ := alone_line hL hi (.inr ⟨f, rfl⟩) ((line_known hn no_blanks hh).2 hu)
    exact ⟨m, hm, by rw [e', e]⟩

theorem readsVia_iff {n t : Bytes} {vs : List Via} (hn : IsName n) (hh : headerOf n = some .via) (ht : Flat t) :
    ReadsVia n t vs ↔ ∃ us, Acc 736 (nameLoc .via) (32 :: (t ++ CRLF)) us ∧ vias us = vs := by
  have hL : HeaderLine (headerLine n [] (32 :: t)) := line_ok hn ht
  have hi : IsHeader .via (headerLine n [] (32 :: t)) := ⟨n, [], _, rfl, hn, no_blanks, hh⟩
  constructor
  · rintro ⟨m, hm, e⟩
    obtain ⟨us, hu⟩ := line_of_alone hL hm
    obtain ⟨m', hm', e', _⟩ := alone_line hL hi (.inl rfl) hu
    rw [show m' = m from by have := hm'.symm.trans hm; cases this; rfl] at e'
    exact ⟨us, (line_known hn no_blanks hh).1 hu, by rw [← e', e]⟩
  · rintro ⟨us, hu, e⟩
    obtain ⟨m, hm, e', _⟩ := alone_line hL hi (.inl rfl) ((line_known hn no_blanks hh).2 hu)
    exact ⟨m, hm, by rw [e', e]⟩

theorem params_flat {n v : Bytes} {r : Pairs} (hr : ParamOK r) (hn : IsToken n) : Flat (paramText ((n, v) :: r)) := by
  rw [paramText_cons hn.2]
  refine ((Flat.params hr).append (.lit (by decide))).append ?_
  unfold pairText
  refine (Flat.tokens hn.2).append ?_
  split
  · exact (Flat.lit (by decide)).append (quoted_flat v)
  · exact .nil

theorem addr_flat {a : Addr} {u : URI} (hu : a.uri = some u) (ht : URIText u.text u) (hp : Flat (paramText a.param)) : Flat a.text := by
  unfold Addr.text
  rw [hu]
  refine (((Flat.append ?_ (.lit (by decide))).append (.uri ht)).append (.lit (by decide))).append hp
  split
  · exact (quoted_flat _).append (.lit (by decide))
  · exact .nil

theorem adds_one {f : AField} {a : Addr} : adds f [.addr f a] = [a] := by simp [adds]

/-- **C15.** The value of a parameter of an address is read back unchanged exactly if it is empty or a token, or
contains a byte that makes the library quote it and only bytes that can be quoted. -/
theorem C15_addr_param_iff {name n v : Bytes} {f : AField} {a : Addr} {r : List (Bytes × Bytes)} (hname : IsName name)
    (hf : headerOf name = some (.address f)) (ha : AddrOK { a with param := r }) (hn : IsToken n) :
    ReadsAddr name ({ a with param := (n, v) :: r } : Addr).text f [{ a with param := (n, v) :: r }] ↔ ValueOK v := by
  obtain ⟨⟨u, hu, ht⟩, hd, hp⟩ := ha
  have hflat : Flat ({ a with param := (n, v) :: r } : Addr).text := addr_flat (a := { a with param := (n, v) :: r }) hu ht (params_flat hp hn)
  rw [readsAddr_iff hname hf hflat]
  constructor
  · rintro ⟨us, hus, e⟩
    by_cases h0 : v = []
    · exact .inl (by rw [h0]; intro c hc; cases hc)
    · obtain ⟨c, t, ec, hc⟩ := addr_head (a := { a with param := (n, v) :: r }) hd
      obtain ⟨x, s, hx⟩ := entry_run (l := nameLoc (.address f)) (sp := []) (by intro c hc; cases hc) hc (t ++ CRLF)
      have e1 : ({ a with param := (n, v) :: r } : Addr).text ++ CRLF = c :: (t ++ CRLF) := by rw [ec]; rfl
      rw [e1] at hus
      have g := (acc_run_nil s).1 hus
      rw [← e1] at g
      obtain ⟨t, rfl, h⟩ := addr_value ⟨⟨u, hu, ht⟩, hd, hp⟩ hn h0 (hx.trans rfl) g
      rw [adds_one] at e
      injection e with e _
      injection e with _ _ e
      injection e with e _
      injection e with _ e
      exact h e
  · intro hv
    refine ⟨_, addr_acc (as := [{ a with param := (n, v) :: r }]) ?_ (by simp) rfl, adds_one⟩
    intro b hb
    rw [List.mem_singleton] at hb
    subst hb
    refine ⟨⟨u, hu, ht⟩, hd, ?_⟩
    intro p hp'
    rcases List.mem_cons.1 hp' with rfl | hp'
    · exact ⟨hn, hv⟩
    · exact hp p hp'

/-- **C15.** The same for the parameters of a Via. -/
theorem C15_via_param_iff {name n x : Bytes} {v : Via} {r : List (Bytes × Bytes)} (hname : IsName name)
    (hf : headerOf name = some .via) (hv : ViaOK { v with param := r }) (hn : IsToken n) :
    ReadsVia name ({ v with param := (n, x) :: r } : Via).text [viaRead { v with param := (n, x) :: r }] ↔ ValueOK x := by
  have hc : ∀ c : UInt8, viaHostc c → c ≠ 13 := by decide +kernel
  have hp := hv.param
  have hflat : Flat ({ v with param := (n, x) :: r } : Via).text  :=
    .viaParts (v := { v with param := (n, x) :: r }) hv.protocol hv.version hv.transport (fun c h => hc c (hv.hostc c h)) (params_flat hp hn)
  rw [readsVia_iff hname hf hflat]
  constructor
  · rintro ⟨us, hus, e⟩
    by_cases h0 : x = []
    · exact .inl (by rw [h0]; intro c hc; cases hc)
    · obtain ⟨t, rfl, h⟩ := via_value hv hn h0 hus
      simp [vias, viaRead] at e
      exact h e
  · intro hx
    refine ⟨_, via_acc (v := { v with param := (n, x) :: r }) ⟨hv.protocol, hv.version, hv.transport, hv.host, hv.hostc, ?_⟩ _, by simp [vias]⟩
    intro p hp'
    rcases List.mem_cons.1 hp' with rfl | hp'
    · exact ⟨hn, hx⟩
    · exact hp p hp'

/-- **C15.** A display name is read back unchanged exactly if it consists of words with spaces only between them,
or contains a byte that makes the library quote it and only bytes that can be quoted. -/
theorem C15_display_iff {name : Bytes} {f : AField} {a : Addr} (hname : IsName name) (hf : headerOf name = some (.address f))
    (hu : ∃ u, a.uri = some u ∧ URIText u.text u) (hp : ParamOK a.param) :
    ReadsAddr name a.text f [a] ↔ DisplayOK a.display := by
  obtain ⟨u, hu, ht⟩ := hu
  rw [readsAddr_iff hname hf (addr_flat hu ht (.params hp))]
  constructor
  · rintro ⟨us, hus, e⟩
    obtain ⟨d, rfl, h⟩ := addr_display ⟨u, hu, ht⟩ hp rfl hus
    rw [adds_one] at e
    injection e with e _
    exact h (congrArg Addr.display e)
  · intro hd
    refine ⟨_, addr_acc (as := [a]) ?_ (by simp) rfl, adds_one⟩
    intro b hb
    rw [List.mem_singleton] at hb
    subst hb
    exact ⟨⟨u, hu, ht⟩, hd, hp⟩

/-! ### What is lost -/

theorem quotable_bytes {s : Bytes} (h : Quotable s) : ∀ c ∈ s, c.toNat < 128 := by
  induction h with
  | nil => intro c hc; cases hc
  | char h1 _ _ _ ih =>
    intro c hc
    rcases List.mem_cons.1 hc with rfl | hc
    · exact h1
    · exact ih c hc
  | @fold w s hw _ ih =>
    intro c hc
    rcases List.mem_cons.1 hc with rfl | hc
    · decide
    rcases List.mem_cons.1 hc with rfl | hc
    · decide
    rcases List.mem_cons.1 hc with rfl | hc
    · rcases hw with rfl | rfl <;> decide
    · exact ih c hc

/-- A line break can be quoted only before a blank, and only as CR LF. -/
theorem quotable_lf {s t : Bytes} {c : UInt8} (hc : c ≠ 13) : ¬ Quotable (s ++ c :: 10 :: t) := by
  have key : ∀ {x : Bytes}, Quotable x → ∀ s, x ≠ s ++ c :: 10 :: t := by
    intro x h
    induction h with
    | nil => intro s e; simp at e
    | @char d x _ h13 h10 hq ih =>
      intro s e
      cases s with
      | nil =>
        injection e with e1 e2
        subst e2
        cases hq with
        | char _ _ h _ => exact h rfl
      | cons y s => injection e with e1 e2; exact ih s e2
    | @fold w x hw hq ih =>
      intro s e
      match s with
      | [] => injection e with e1 _; exact hc e1.symm
      | [y] =>
        injection e with _ e2; injection e2 with _ e2; injection e2 with e3 _
        subst e3
        rcases hw with h | h <;> cases h
      | [y, z] =>
        injection e with _ e2; injection e2 with _ e2; injection e2 with e3 e4
        subst e4
        cases hq with
        | char _ _ h _ => exact h rfl
      | y :: z :: a :: s =>
        injection e with _ e2; injection e2 with _ e2; injection e2 with _ e2
        exact ih s e2
  exact fun h => key h s rfl

/-- Values that are not read back unchanged, wherever they stand. -/
def LostValue (v : Bytes) : Prop :=
  (32 ∈ v ∧ ∀ c ∈ v, token c ∨ c = 32) ∨ (∃ c ∈ v, 128 ≤ c.toNat) ∨ v = b!"\n" ∨ ∃ s c t, c ≠ 13 ∧ v = s ++ c :: 10 :: t

theorem lost_not_ok {v : Bytes} (h : LostValue v) : ¬ ValueOK v := by
  have ht : ∀ c : UInt8, token c → c.toNat < 128 ∧ c ≠ 10 ∧ c ≠ 32 := by decide +kernel
  rcases h with ⟨h1, h2⟩ | ⟨c, h1, h2⟩ | rfl | ⟨s, c, t, h1, rfl⟩
  · rintro (h | ⟨_, c, hc, h3, h4⟩)
    · exact (ht 32 (h 32 h1)).2.2 rfl
    · rcases h2 c hc with h | h
      · exact h3 h
      · exact h4 h
  · rintro (h | ⟨h, _⟩)
    · have := (ht c (h c h1)).1; omega
    · have := quotable_bytes h c h1; omega
  · rintro (h | ⟨h, _⟩)
    · exact (ht 10 (h 10 (by decide))).2.1 rfl
    · cases h with | char _ _ h _ => exact h rfl
  · rintro (h | ⟨h, _⟩)
    · exact (ht 10 (h 10 (by simp))).2.1 rfl
    · exact quotable_lf h1 h

/-- **C15 does not hold as stated.** A value of words separated by spaces, a value with a byte above 127, and a value
with a line feed that does not follow a carriage return are never read back unchanged. -/
theorem C15_lost {name n v : Bytes} {f : AField} {a : Addr} {r : List (Bytes × Bytes)} (hname : IsName name)
    (hf : headerOf name = some (.address f)) (ha : AddrOK { a with param := r }) (hn : IsToken n) (hv : LostValue v) :
    ¬ ReadsAddr name ({ a with param := (n, v) :: r } : Addr).text f [{ a with param := (n, v) :: r }] :=
  fun h => lost_not_ok hv ((C15_addr_param_iff hname hf ha hn).1 h)

/-! ### Examples -/

/-- An address for the examples. -/
def quotingAddr : Addr := { uri := some { scheme := b!"sip", host := b!"example.com" }, display := b!"Bob Jones", param := [(b!"q", b!"0.7")] }

theorem quotingAddr_uri : ∃ u, quotingAddr.uri = some u ∧ URIText u.text u :=
  ⟨_, rfl, (Uri.parseURI_grammar _ _).1 (by decide +kernel)⟩

theorem quotingAddr_ok : AddrOK quotingAddr :=
  ⟨quotingAddr_uri, .inl ⟨by decide +kernel, by decide, by decide⟩, fun p hp => by
    rw [show quotingAddr.param = [(b!"q", b!"0.7")] from rfl, List.mem_singleton] at hp
    subst hp
    exact ⟨⟨by decide, by decide +kernel⟩, .inl (by decide +kernel)⟩⟩

example : ReadsAddr b!"Contact" ({ quotingAddr with param := (b!"x", b!"a \"b\\ c;d") :: quotingAddr.param } : Addr).text .contact
    [{ quotingAddr with param := (b!"x", b!"a \"b\\ c;d") :: quotingAddr.param }] :=
  (C15_addr_param_iff (a := quotingAddr) (by decide +kernel) (by decide +kernel) quotingAddr_ok ⟨by decide, by decide +kernel⟩).2
    (.inr ⟨.char (by decide) (by decide) (by decide) (.char (by decide) (by decide) (by decide) (.char (by decide) (by decide) (by decide)
      (.char (by decide) (by decide) (by decide) (.char (by decide) (by decide) (by decide) (.char (by decide) (by decide) (by decide)
      (.char (by decide) (by decide) (by decide) (.char (by decide) (by decide) (by decide) (.char (by decide) (by decide) (by decide) .nil)))))))),
      34, by decide, by decide +kernel, by decide⟩)

example : ¬ ReadsAddr b!"Contact" ({ quotingAddr with param := (b!"x", b!"two words") :: quotingAddr.param } : Addr).text .contact
    [{ quotingAddr with param := (b!"x", b!"two words") :: quotingAddr.param }] :=
  C15_lost (a := quotingAddr) (by decide +kernel) (by decide +kernel) quotingAddr_ok ⟨by decide, by decide +kernel⟩
    (.inl ⟨by decide, by decide +kernel⟩)

example : ReadsAddr b!"f" quotingAddr.text .from [quotingAddr] :=
  (C15_display_iff (by decide +kernel) (by decide +kernel) quotingAddr_uri quotingAddr_ok.param).2 quotingAddr_ok.display

example : ¬ ReadsAddr b!"f" ({ quotingAddr with display := b!" Bob" } : Addr).text .from [{ quotingAddr with display := b!" Bob" }] := by
  rw [C15_display_iff (a := { quotingAddr with display := b!" Bob" }) (by decide +kernel) (by decide +kernel) quotingAddr_uri quotingAddr_ok.param]
  rintro (⟨_, h, _⟩ | ⟨_, c, h1, h2, h3⟩)
  · exact h rfl
  · have : ∀ c ∈ b!" Bob", token c ∨ c = 32 := by decide +kernel
    rcases this c h1 with h | h
    · exact h2 h
    · exact h3 h

example : ReadsVia b!"v" ({ host := b!"a.b", param := [(b!"branch", b!"z9,1")] } : Via).text
    [viaRead { host := b!"a.b", param := [(b!"branch", b!"z9,1")] }] :=
  (C15_via_param_iff (v := { host := b!"a.b" }) (r := []) (by decide +kernel) (by decide +kernel)
    ⟨(by intro c h; cases h), (by intro c h; cases h), (by intro c h; cases h), by decide, by decide +kernel, (by intro c h; cases h)⟩
    ⟨by decide, by decide +kernel⟩).2
    (.inr ⟨.char (by decide) (by decide) (by decide) (.char (by decide) (by decide) (by decide) (.char (by decide) (by decide) (by decide)
      (.char (by decide) (by decide) (by decide) .nil))), 44, by decide, by decide +kernel, by decide⟩)

end Gosip.Props
