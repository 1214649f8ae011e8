import Verif.Sdp.SdpInvert

/-! # What a successful `sdp.Parse` has read from the media lines -/

namespace Gosip.Sdp
open Spec

theorem parseUint_iff {bits n : Nat} {t : Bytes} (h : n < 2 ^ bits) : parseUint bits t = some n ↔ Numeral t n := by
  constructor
  · intro e
    obtain ⟨_, h1, h2, h3⟩ := parseUint_some e
    exact ⟨h1, fun c hc => by simpa [isDigit] using h2 c hc, h3⟩
  · rintro ⟨h1, h2, rfl⟩
    unfold parseUint
    rw [if_pos ⟨h1, List.all_eq_true.2 fun c hc => by simpa [isDigit] using h2 c hc, h⟩]

theorem numeral_digits {t : Bytes} {n : Nat} : Numeral t n ↔ t ≠ [] ∧ t.all isDigit = true ∧ decVal t = n := by
  unfold Numeral
  simp [isDigit]

/-- What `strconv.Atoi` accepts. -/
theorem atoi_iff {t : Bytes} {x : Int} : atoi t = some x ↔ SignedNumeral t x := by
  unfold SignedNumeral
  simp only [numeral_digits]
  cases t with
  | nil => simp [atoi]
  | cons c s =>
    unfold atoi
    by_cases h45 : c = 45
    · subst h45
      simp only [if_true]
      constructor
      · intro h
        split at h
        · rename_i hc
          obtain ⟨a1, a2, a3⟩ := hc
          simp at h
          refine ⟨by omega, by omega, decVal s, .inr ⟨h.symm, s, rfl, a1, a2, rfl⟩⟩
        · simp at h
      · rintro ⟨r1, r2, n, ⟨rfl, ⟨_, h, _⟩ | ⟨u, h, _⟩⟩ | ⟨rfl, u, h, a1, a2, a3⟩⟩
        · simp [isDigit] at h
        · simp at h
        · simp at h; subst h
          rw [if_pos ⟨a1, a2, by omega⟩, a3]
    · simp only [if_neg h45]
      by_cases h43 : c = 43
      · subst h43
        simp only [if_true]
        constructor
        · intro h
          split at h
          · rename_i hc
            obtain ⟨a1, a2, a3⟩ := hc
            simp at h
            refine ⟨by omega, by omega, decVal s, .inl ⟨h.symm, .inr ⟨s, rfl, a1, a2, rfl⟩⟩⟩
          · simp at h
        · rintro ⟨r1, r2, n, ⟨rfl, ⟨_, h, _⟩ | ⟨u, h, a1, a2, a3⟩⟩ | ⟨rfl, u, h, _⟩⟩
          · simp [isDigit] at h
          · simp at h; subst h
            rw [if_pos ⟨a1, a2, by omega⟩, a3]
          · simp at h
      · simp only [if_neg h43]
        constructor
        · intro h
          split at h
          · rename_i hc
            obtain ⟨a1, a2, a3⟩ := hc
            simp only [Option.some.injEq] at h
            refine ⟨by omega, by omega, decVal (c :: s), .inl ⟨h.symm, .inl ⟨a1, a2, rfl⟩⟩⟩
          · simp at h
        · rintro ⟨r1, r2, n, ⟨rfl, ⟨a1, a2, a3⟩ | ⟨u, h, _⟩⟩ | ⟨rfl, u, h, _⟩⟩
          · rw [if_pos ⟨a1, a2, by omega⟩, a3]
          · simp at h; exact absurd h.1 h43
          · simp at h; exact absurd h.1 h45

/-- The table of the package is that of RFC 3551. -/
theorem standardCodecs_eq : standardCodecs = staticTypes.map fun (n, name, rate, ch) =>
    (UInt8.ofNat n, ⟨UInt8.ofNat n, name, rate, if ch = 1 then [] else natDec ch, []⟩) := by decide +kernel

theorem rtpmap_spec {c c' : Codec} {s : Bytes} (h : parseRtpmapInfo c s = .ok c') :
    ∃ name rate param, RtpmapValue s name rate param ∧
      c' = { c with name := name, rate := rate, param := if param = [] then c'.param else param } ∧
      (c.param = [] → c'.param = param) := by
  unfold parseRtpmapInfo at h
  obtain ⟨s1, s2⟩ := splitByte_spec 47 s
  rcases hs : splitByte 47 s with _ | ⟨name, _ | ⟨rt, more⟩⟩
  · simp [hs] at h
  · simp [hs] at h
  · rw [hs] at s1 s2
    rw [hs] at h
    dsimp only at h
    rw [if_neg (by simp)] at h
    simp [idx] at h
    cases ha : atoi rt with
    | none => simp [ha] at h
    | some rate =>
      simp only [ha] at h
      refine ⟨name, rate, more.headD [], ⟨rt, more, s1.symm, s2 _ (by simp), s2 _ (by simp), ?_, atoi_iff.1 ha, rfl⟩, ?_⟩
      · intro t ht; exact s2 t (by simp [ht])
      · cases more with
        | nil => simp at h; subst h; simp
        | cons p more =>
          simp at h; subst h; simp

theorem standardCodecs_pt {pt : UInt8} {c : Codec} (h : standardCodecs.lookup pt = some c) :
    (pt, c) ∈ standardCodecs := by
  generalize standardCodecs = l at h ⊢
  induction l with
  | nil => simp at h
  | cons p l ih =>
    rw [List.lookup_cons] at h
    split at h
    · rename_i he
      simp at h he; subst h; subst he; simp
    · exact List.mem_cons_of_mem _ (ih h)

theorem staticTypes_lt : ∀ p ∈ staticTypes, p.1 < 96 := by decide +kernel

theorem standardCodecs_ok : ∀ p ∈ standardCodecs, p.2.pt = p.1 ∧ p.2.name ≠ [] ∧ p.2.fmtp = [] ∧ p.1 < 96 := by
  decide +kernel

theorem populateCodec_spec {r f : List Bytes} {pt : UInt8} {c : Codec} (h : populateCodec r f pt = .ok c) :
    CodecOf r f pt c := by
  unfold populateCodec at h
  dsimp only at h
  rw [itoa_nat] at h
  rw [Res.bind_eq, Res.bind_ok_iff] at h
  obtain ⟨m, h1, h⟩ := h
  rw [Res.bind_eq, Res.bind_ok_iff] at h
  obtain ⟨c1, h2, h⟩ := h
  rw [Res.bind_eq, Res.bind_ok_iff] at h
  obtain ⟨c2, h3, h⟩ := h
  rw [Res.bind_eq, Res.bind_ok_iff] at h
  obtain ⟨fm, h4, h⟩ := h
  -- the codec before fmtp
  have key : c2.pt = pt ∧ c2.name ≠ [] ∧ c2.fmtp = [] ∧
      ((∃ v, FirstWith (natDec pt.toNat ++ b!" ") r v ∧ RtpmapValue v c2.name c2.rate c2.param) ∨
      (((∀ s ∈ r, ¬ (natDec pt.toNat ++ b!" ") <+: s) ∨
        ∃ v rate param, FirstWith (natDec pt.toNat ++ b!" ") r v ∧ RtpmapValue v [] rate param) ∧
       ∃ rate channels, (pt.toNat, c2.name, rate, channels) ∈ staticTypes ∧ c2.rate = rate ∧
        c2.param = if channels = 1 then [] else natDec channels)) := by
    have c1ok : (c1.pt = pt ∧ c1.fmtp = []) ∧
        ((∃ v, FirstWith (natDec pt.toNat ++ b!" ") r v ∧ RtpmapValue v c1.name c1.rate c1.param) ∨
        ((∀ s ∈ r, ¬ (natDec pt.toNat ++ b!" ") <+: s) ∧ c1.name = [])) := by
      rcases firstWith_spec (natDec pt.toNat ++ b!" ") r with ⟨v, e, hf⟩ | ⟨e, hn⟩
      · rw [e] at h1; simp at h1; subst h1
        obtain ⟨name, rate, param, hv, hc, hp⟩ := rtpmap_spec h2
        have hp := hp rfl
        rw [hc]
        refine ⟨⟨rfl, rfl⟩, .inl ⟨v, hf, ?_⟩⟩
        simp only
        split
        · rename_i h0; rw [hp]; exact hv
        · exact hv
      · rw [e] at h1; simp at h1; subst h1
        simp [rtpmapCodec] at h2; subst h2
        exact ⟨⟨rfl, rfl⟩, .inr ⟨hn, rfl⟩⟩
    unfold ianaCodec at h3
    split at h3
    · rename_i hname
      split at h3
      · simp at h3
      · rename_i hdyn
        split at h3
        · rename_i v hv
          simp at h3; subst h3
          have hm := standardCodecs_pt hv
          obtain ⟨o1, o2, o3, o4⟩ := standardCodecs_ok _ hm
          have hst : ∃ rate channels, (pt.toNat, v.name, rate, channels) ∈ staticTypes ∧ v.rate = rate ∧
              v.param = if channels = 1 then [] else natDec channels := by
            rw [standardCodecs_eq] at hm
            obtain ⟨⟨n, name, rate, ch⟩, hmem, e⟩ := List.mem_map.1 hm
            simp only [Prod.mk.injEq] at e
            obtain ⟨rfl, rfl⟩ := e
            refine ⟨rate, ch, ?_, rfl, rfl⟩
            have hb := staticTypes_lt _ hmem
            have : (UInt8.ofNat n).toNat = n := by simp; omega
            rw [this]; exact hmem
          refine ⟨o1, o2, o3, .inr ⟨?_, hst⟩⟩
          rcases c1ok.2 with ⟨w, hf, hr⟩ | ⟨hn, _⟩
          · rw [hname] at hr; exact .inr ⟨w, _, _, hf, hr⟩
          · exact .inl hn
        · simp at h3
    · rename_i hname
      simp at h3; subst h3
      refine ⟨c1ok.1.1, hname, c1ok.1.2, .inl ?_⟩
      rcases c1ok.2 with hx | ⟨_, hn⟩
      · exact hx
      · exact absurd hn hname
  obtain ⟨k1, k2, k3, k4⟩ := key
  rcases firstWith_spec (natDec pt.toNat ++ b!" ") f with ⟨v, e, hf⟩ | ⟨e, hn⟩
  · rw [e] at h4; simp at h4; subst h4
    simp at h; subst h
    exact ⟨k1, k2, k4, .inl hf⟩
  · rw [e] at h4; simp at h4; subst h4
    simp at h; subst h
    exact ⟨k1, k2, k4, .inr ⟨hn, k3⟩⟩

theorem populateCodecs_spec {r f : List Bytes} {pts : List UInt8} {cs : List Codec}
    (h : populateCodecs r f pts = .ok cs) :
    cs.map Codec.pt = pts ∧ ∀ c ∈ cs, populateCodec r f c.pt = .ok c ∧ CodecOf r f c.pt c := by
  induction pts generalizing cs with
  | nil => simp [populateCodecs] at h; subst h; simp
  | cons p pts ih =>
    rw [populateCodecs, Res.bind_eq, Res.bind_ok_iff] at h
    obtain ⟨c, h1, h⟩ := h
    rw [Res.bind_eq, Res.bind_ok_iff] at h
    obtain ⟨l, h2, h⟩ := h
    simp at h; subst h
    obtain ⟨i1, i2⟩ := ih h2
    have hc := populateCodec_spec h1
    refine ⟨by simp [i1, hc.number], ?_⟩
    intro c' hc'
    rcases List.mem_cons.1 hc' with rfl | hc'
    · rw [hc.number]; exact ⟨h1, hc⟩
    · exact i2 c' hc'

theorem parsePts_spec {ts : List Bytes} {l : List UInt8} (h : parsePts ts = .ok l) :
    ts.map (parseUint 8) = l.map (fun x => some x.toNat) := by
  induction ts generalizing l with
  | nil => simp [parsePts] at h; subst h; rfl
  | cons t ts ih =>
    unfold parsePts at h
    split at h
    · simp at h
    · rename_i v hv
      rw [Res.bind_eq, Res.bind_ok_iff] at h
      obtain ⟨l', h1, h⟩ := h
      simp at h; subst h
      have := (parseUint_some hv).1
      simp [hv, ih h1]
      omega

theorem portPart_spec {t p : Bytes} (h : portPart t = .ok p) :
    ∃ count, t = p ++ count ∧ (count = [] ∨ ∃ n, count = b!"/" ++ n) := by
  unfold portPart at h
  split at h
  · rename_i n hn
    split at h
    · obtain ⟨a, b, rfl, rfl, _⟩ := indexByte_some hn
      rw [sliceTo_ok (by simp)] at h
      simp at h; subst h
      exact ⟨47 :: b, rfl, .inr ⟨b, rfl⟩⟩
    · simp at h; subst h; exact ⟨[], by simp, .inl rfl⟩
  · simp at h; subst h; exact ⟨[], by simp, .inl rfl⟩

theorem parseMedia_spec {r f : List Bytes} {info : Bytes} {om : Option Media}
    (h : parseMedia r f info = .ok om) :
    (om = none ∧ info = []) ∨ ∃ m, om = some m ∧ info ≠ [] ∧ MediaValue r f info m ∧
      ∀ c ∈ m.codecs, populateCodec r f c.pt = .ok c := by
  unfold parseMedia at h
  split at h
  · simp at h; exact .inl ⟨h.symm, by assumption⟩
  · rename_i hne
    rw [Res.bind_eq, Res.bind_ok_iff] at h
    obtain ⟨⟨port, proto, pts⟩, h1, h⟩ := h
    dsimp only at h
    rw [Res.bind_eq, Res.bind_ok_iff] at h
    obtain ⟨cs, h2, h⟩ := h
    simp at h; subst h
    obtain ⟨p1, p2⟩ := populateCodecs_spec h2
    refine .inr ⟨_, rfl, hne, ?_, fun c hc => (p2 c hc).1⟩
    unfold parseMediaInfo at h1
    dsimp only at h1
    obtain ⟨s1, s2⟩ := splitByte_spec 32 info
    rcases hs : splitByte 32 info with _ | ⟨t0, _ | ⟨t1, _ | ⟨t2, ts⟩⟩⟩
    · simp [hs] at h1
    · simp [hs] at h1
    · simp [hs] at h1
    · rw [hs] at s1 s2
      rw [hs, if_neg (by simp)] at h1
      simp only [idx, List.getElem?_cons_succ, List.getElem?_cons_zero, Res.bind_eq, Res.ok_bind] at h1
      rw [Res.bind_ok_iff] at h1
      obtain ⟨ps, hp, h1⟩ := h1
      obtain ⟨count, rfl, hcount⟩ := portPart_spec hp
      cases hu : parseUint 16 ps with
      | none => simp [hu] at h1
      | some pn =>
        simp only [hu] at h1
        rw [Res.bind_ok_iff] at h1
        obtain ⟨l, hl, h1⟩ := h1
        simp at h1 hl
        obtain ⟨e1, e2, e3⟩ := h1
        subst e1 e2 e3
        have hpt := parsePts_spec hl
        have hb := (parseUint_some hu).1
        refine ⟨ps, count, t2 :: ts, s1.symm, s2 _ (by simp), ?_, ?_, by simp, ?_, ?_⟩
        · refine hcount.imp_right fun ⟨n, e⟩ => ⟨n, e, fun h => s2 (ps ++ count) (by simp) ?_⟩
          simp [e, h]
        · refine (parseUint_iff (bits := 16) (UInt16.toNat_lt _)).1 ?_
          rw [hu]; simp; omega
        · have := congrArg List.length hpt
          rw [← p1] at this
          simpa using this
        · intro i pt c hi hc
          refine ⟨?_, (p2 c (List.mem_of_getElem? hc)).2⟩
          have := congrArg (fun l => l[i]?) hpt
          rw [← p1] at this
          simp only [List.getElem?_map, hi, hc, Option.map_some, Option.some.injEq] at this
          exact (parseUint_iff (bits := 8) (UInt8.toNat_lt _)).1 this

theorem pairs_sendonly (ls : List Bytes) : (97, b!"sendonly") ∈ pairs ls ↔ b!"a=sendonly" ∈ ls := by
  unfold pairs
  rw [List.mem_filterMap]
  constructor
  · rintro ⟨l, hl, h⟩
    rcases l with _ | ⟨a, _ | ⟨b, _ | ⟨c, l⟩⟩⟩ <;> simp [keyValue] at h
    obtain ⟨h1, h2, h3, h4⟩ := h
    subst h1 h2 h3 h4; exact hl
  · intro h; exact ⟨_, h, rfl⟩

theorem pairs_recvonly (ls : List Bytes) : (97, b!"recvonly") ∈ pairs ls ↔ b!"a=recvonly" ∈ ls := by
  unfold pairs
  rw [List.mem_filterMap]
  constructor
  · rintro ⟨l, hl, h⟩
    rcases l with _ | ⟨a, _ | ⟨b, _ | ⟨c, l⟩⟩⟩ <;> simp [keyValue] at h
    obtain ⟨h1, h2, h3, h4⟩ := h
    subst h1 h2 h3 h4; exact hl
  · intro h; exact ⟨_, h, rfl⟩

theorem mediaOf_spec {kvs : List (UInt8 × Bytes)} {type : Bytes} {om : Option Media}
    (h : parseMedia (fields 97 b!"rtpmap:" kvs) (fields 97 b!"fmtp:" kvs)
      ((fields 109 type kvs).getLast?.getD []) = .ok om) : MediaOf kvs type om ∧
      ∀ c ∈ (om.map Media.codecs).getD [],
        populateCodec (fields 97 b!"rtpmap:" kvs) (fields 97 b!"fmtp:" kvs) c.pt = .ok c := by
  rcases parseMedia_spec h with ⟨rfl, e⟩ | ⟨m, rfl, hne, hm, hc⟩
  · exact ⟨e, by simp⟩
  · cases hl : (fields 109 type kvs).getLast? with
    | none => rw [hl] at hne; simp at hne
    | some v => rw [hl] at hne hm; exact ⟨⟨v, hl, hne, hm⟩, by simpa using hc⟩

theorem parse_spec {s : Bytes} {d : SDP} (h : parse s = .ok d) :
    ∃ ls, s = b!"v=0\r\n" ++ joinCRLF ls ∧ (∀ l ∈ ls, NoCRLF l) ∧ 2 ≤ ls.length ∧ Described ls d ∧
      (d.audio ≠ none ∨ d.video ≠ none) ∧ ∀ c ∈ allCodecs d, populateCodec (fields 97 b!"rtpmap:" (pairs ls))
        (fields 97 b!"fmtp:" (pairs ls)) c.pt = .ok c := by
  rw [parse_eff] at h
  split at h
  · simp at h
  rename_i hp
  simp at hp
  obtain ⟨r, rfl⟩ := (hasPrefix_iff _ _).1 hp
  split at h
  · simp at h
  rename_i hlen
  have hdrop : List.drop 5 (b!"v=0\r\n" ++ r) = r := by simp
  rw [hdrop] at h hlen
  obtain ⟨s1, s2⟩ := splitCRLF_spec r
  refine ⟨splitCRLF r, by rw [s1], s2, by omega, ?_⟩
  generalize splitCRLF r = ls at *
  rw [Res.bind_eq, Res.bind_ok_iff] at h
  obtain ⟨st, e1, h⟩ := h
  have inv := inv_lines inv_init e1
  rw [List.nil_append] at inv
  split at h
  · simp at h
  rename_i hok
  simp at hok
  rw [Res.bind_eq, Res.bind_ok_iff] at h
  obtain ⟨audio, h1, h⟩ := h
  rw [Res.bind_eq, Res.bind_ok_iff] at h
  obtain ⟨video, h2, h⟩ := h
  split at h
  · simp at h
  rename_i hm
  simp at h; subst h
  rw [inv.rtpmaps, inv.fmtps, inv.audio] at h1
  rw [inv.rtpmaps, inv.fmtps, inv.video] at h2
  refine ⟨⟨inv.conn1 hok.1, inv.origin hok.2, (mediaOf_spec h1).1, (mediaOf_spec h2).1, inv.session, inv.time,
    inv.ptime, ?_, ?_, inv.attrs, inv.other⟩, ?_, ?_⟩
  · rw [← pairs_sendonly]; exact inv.sendOnly
  · rw [← pairs_recvonly]; exact inv.recvOnly
  · cases audio <;> cases video <;> simp at hm ⊢
  · intro c hc
    rcases List.mem_append.1 hc with hc | hc
    · exact (mediaOf_spec h1).2 c hc
    · exact (mediaOf_spec h2).2 c hc

end Gosip.Sdp
