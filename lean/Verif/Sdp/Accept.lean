import Verif.Sdp.Reparse

/-! # Every text that describes a session is accepted -/

namespace Gosip.Sdp
open Spec

theorem parseRtpmap_value {pt : UInt8} {v name param : Bytes} {rate : Int} (h : RtpmapValue v name rate param) :
    parseRtpmapInfo { pt := pt } v = .ok { pt := pt, name := name, rate := rate, param := param } := by
  obtain ⟨rt, more, rfl, h1, h2, h3, h4, rfl⟩ := h
  unfold parseRtpmapInfo
  rw [splitByte_join (by simp) (by
    intro t ht
    rcases List.mem_cons.1 ht with rfl | ht
    · exact h1
    rcases List.mem_cons.1 ht with rfl | ht
    · exact h2
    · exact h3 t ht)]
  cases more with
  | nil => simp [idx, atoi_iff.2 h4]
  | cons p more => simp [idx, atoi_iff.2 h4]

theorem lookup_static {pt : UInt8} {name : Bytes} {rate ch : Nat} (h : (pt.toNat, name, rate, ch) ∈ staticTypes) :
    standardCodecs.lookup pt = some ⟨pt, name, rate, if ch = 1 then [] else natDec ch, []⟩ := by
  have key : ∀ p ∈ staticTypes, standardCodecs.lookup (UInt8.ofNat p.1) =
      some ⟨UInt8.ofNat p.1, p.2.1, p.2.2.1, if p.2.2.2 = 1 then [] else natDec p.2.2.2, []⟩ := by decide +kernel
  have := key _ h
  simpa using this

theorem populateCodec_codecOf {r f : List Bytes} {pt : UInt8} {c : Codec} (h : CodecOf r f pt c) :
    populateCodec r f pt = .ok c := by
  unfold populateCodec
  dsimp only
  rw [itoa_nat]
  have key : ∃ m c1, firstWith (natDec pt.toNat ++ b!" ") r = .ok m ∧ rtpmapCodec pt m = .ok c1 ∧
      ianaCodec pt c1 = .ok { c with fmtp := [] } := by
    have e : ({ c with fmtp := [] } : Codec) = ⟨pt, c.name, c.rate, c.param, []⟩ := by rw [← h.number]
    rw [e]
    rcases h.described with ⟨v, hw, hv⟩ | ⟨hn, rate, ch, hm, e2, e3⟩
    · refine ⟨some v, _, firstWith_of hw, parseRtpmap_value hv, ?_⟩
      unfold ianaCodec
      rw [if_neg h.named]
    · have hlt := staticTypes_lt _ hm
      simp only at hlt
      have hd : isDynamicPT pt = false := by
        unfold isDynamicPT
        simp only [ge_iff_le, decide_eq_false_iff_not, UInt8.not_le]
        exact UInt8.lt_iff_toNat_lt.2 hlt
      have fin : ∀ c1 : Codec, c1.name = [] → ianaCodec pt c1 = .ok ⟨pt, c.name, c.rate, c.param, []⟩ := by
        intro c1 h1
        unfold ianaCodec
        rw [if_pos h1, hd, lookup_static hm, e2, e3]
        rfl
      rcases hn with hn | ⟨v, rate', param', hw, hv⟩
      · exact ⟨none, _, firstWith_none hn, rfl, fin _ rfl⟩
      · exact ⟨some v, _, firstWith_of hw, parseRtpmap_value hv, fin _ rfl⟩
  obtain ⟨m, c1, h1, h2, h3⟩ := key
  simp only [h1, Res.bind_eq, Res.ok_bind, h2, h3]
  rcases h.format with hw | ⟨hn, e⟩
  · rw [firstWith_of hw]; rfl
  · rw [firstWith_none hn]
    simp only [Res.ok_bind]
    rw [← e]

theorem parsePts_numerals {ts : List Bytes} {cs : List Codec} (hl : ts.length = cs.length)
    (h : ∀ (i : Nat) (t : Bytes) (c : Codec), ts[i]? = some t → cs[i]? = some c → Numeral t c.pt.toNat) :
    parsePts ts = .ok (cs.map Codec.pt) := by
  induction ts generalizing cs with
  | nil => cases cs <;> simp at hl; rfl
  | cons t ts ih =>
    cases cs with
    | nil => simp at hl
    | cons c cs =>
      have h0 := h 0 t c rfl rfl
      rw [parsePts, (parseUint_iff (bits := 8) (UInt8.toNat_lt _)).2 h0]
      simp only
      rw [ih (by simpa using hl) fun i t c h1 h2 => h (i + 1) t c (by simpa using h1) (by simpa using h2)]
      simp

theorem populateCodecs_codecOf {r f : List Bytes} {cs : List Codec} (h : ∀ c ∈ cs, CodecOf r f c.pt c) :
    populateCodecs r f (cs.map Codec.pt) = .ok cs := by
  induction cs with
  | nil => rfl
  | cons c cs ih =>
    rw [List.map_cons, populateCodecs, populateCodec_codecOf (h c (by simp)), ih fun c hc => h c (by simp [hc])]
    rfl

theorem numeral_no {t : Bytes} {n : Nat} {c : UInt8} (h : Numeral t n) (hc : isDigit c = false) : c ∉ t := by
  intro hm
  have := h.2.1 c hm
  simp only [isDigit, Bool.and_eq_false_iff, decide_eq_false_iff_not] at hc
  rcases hc with hc | hc
  · exact hc this.1
  · exact hc this.2

theorem portPart_value {p count : Bytes} {n : Nat} (h : Numeral p n) (hc : count = [] ∨ ∃ n, count = b!"/" ++ n ∧ 32 ∉ n) :
    portPart (p ++ count) = .ok p := by
  have h47 := numeral_no h (c := 47) (by decide)
  unfold portPart
  rcases hc with rfl | ⟨x, rfl, _⟩
  · rw [List.append_nil, indexByte_none.2 h47]
  · rw [show p ++ (b!"/" ++ x) = p ++ 47 :: x from rfl, indexByte_append h47]
    have : p.length > 0 := List.length_pos_iff.2 h.1
    simp only [this, if_true]
    rw [sliceTo_ok (by simp)]
    simp

theorem parseMedia_value {r f : List Bytes} {v : Bytes} {m : Media} (hv : v ≠ []) (h : MediaValue r f v m) :
    parseMedia r f v = .ok (some m) := by
  obtain ⟨p, count, ts, rfl, h32, hcount, hp, hne, hlen, hc⟩ := h
  unfold parseMedia
  rw [if_neg hv]
  have hcodecs : ∀ c ∈ m.codecs, CodecOf r f c.pt c := by
    intro c hcm
    obtain ⟨i, hi⟩ := List.mem_iff_getElem?.1 hcm
    have hlt : i < ts.length := by
      rw [hlen]; exact (List.getElem?_eq_some_iff.1 hi).1
    exact (hc i _ c (List.getElem?_eq_getElem hlt) hi).2
  have hnum : ∀ t ∈ ts, 32 ∉ t := by
    intro t ht
    obtain ⟨i, hi⟩ := List.mem_iff_getElem?.1 ht
    have hlt : i < m.codecs.length := by
      rw [← hlen]; exact (List.getElem?_eq_some_iff.1 hi).1
    exact numeral_no (hc i t _ hi (List.getElem?_eq_getElem hlt)).1 (by decide)
  have hinfo : parseMediaInfo (joinByte 32 ((p ++ count) :: m.proto :: ts)) = .ok (m.port, m.proto, m.codecs.map Codec.pt) := by
    unfold parseMediaInfo
    rw [splitByte_join (by simp) (by
      intro t ht
      rcases List.mem_cons.1 ht with rfl | ht
      · rw [List.mem_append]
        rintro (h | h)
        · exact numeral_no hp (by decide) h
        · rcases hcount with rfl | ⟨x, rfl, hx⟩
          · cases h
          · rcases List.mem_cons.1 h with h | h
            · revert h; decide
            · exact hx h
      rcases List.mem_cons.1 ht with rfl | ht
      · exact h32
      · exact hnum t ht)]
    have hl : ts.length ≠ 0 := fun e => hne (List.length_eq_zero_iff.1 e)
    dsimp only
    rw [if_neg (by simp; omega)]
    simp only [idx, List.getElem?_cons_succ, List.getElem?_cons_zero, Res.bind_eq, Res.ok_bind, portPart_value hp hcount,
      (parseUint_iff (bits := 16) (UInt16.toNat_lt _)).2 hp, List.drop_succ_cons, List.drop_zero,
      parsePts_numerals hlen fun i t c h1 h2 => (hc i t c h1 h2).1]
    simp
  rw [hinfo, Res.bind_eq, Res.ok_bind]
  simp only
  rw [populateCodecs_codecOf hcodecs]
  simp

theorem parseMedia_mediaOf {kvs : List (UInt8 × Bytes)} {type : Bytes} {om : Option Media} (h : MediaOf kvs type om) :
    parseMedia (fields 97 b!"rtpmap:" kvs) (fields 97 b!"fmtp:" kvs) ((fields 109 type kvs).getLast?.getD []) = .ok om := by
  cases om with
  | none => rw [show _ = ([] : Bytes) from h]; rfl
  | some m =>
    obtain ⟨v, hv, hne, hm⟩ := h
    rw [hv]
    exact parseMedia_value hne hm

theorem splitCRLF_joinCRLF {ls : List Bytes} (h : ∀ l ∈ ls, NoCRLF l) (hn : ls ≠ []) : splitCRLF (joinCRLF ls) = ls := by
  induction ls with
  | nil => exact absurd rfl hn
  | cons l ls ih =>
    by_cases hls : ls = []
    · subst hls; exact splitCRLF_noSep (h l (by simp))
    · rw [joinCRLF_cons hls, splitCRLF_append (h l (by simp)), ih (fun l hl => h l (by simp [hl])) hls]

theorem attrEff_okConn (st : PState) (v : Bytes) : (attrEff st v).okConn = st.okConn := by
  unfold attrEff
  repeat' split
  all_goals rfl

/-- Reading succeeds when the first `c=` line and every `o=` line can be read. -/
theorem linesEff_ok' (ls : List Bytes) (st : PState)
    (hc : st.okConn = true ∨ ∀ v, (values 99 (pairs ls)).head? = some v → ∃ a, ConnValue v a)
    (ho : ∀ v ∈ values 111 (pairs ls), ∃ o, OriginValue v o) : ∃ st', linesEff st ls = .ok st' := by
  induction ls generalizing st with
  | nil => exact ⟨st, rfl⟩
  | cons l ls ih =>
    cases hk : keyValue l with
    | none =>
      have e : pairs (l :: ls) = pairs ls := by unfold pairs; simp [hk]
      rw [e] at hc ho
      obtain ⟨st', h⟩ := ih st hc ho
      exact ⟨st', by rw [linesEff, show lineEff st l = .ok st by unfold lineEff; rw [hk]]; exact h⟩
    | some p =>
      obtain ⟨c, v⟩ := p
      have e : pairs (l :: ls) = (c, v) :: pairs ls := by unfold pairs; simp [hk]
      have ev : ∀ k, values k (pairs (l :: ls)) = if c = k then v :: values k (pairs ls) else values k (pairs ls) := by
        intro k; rw [e]; unfold values; by_cases h : c = k <;> simp [h]
      have ho' : ∀ v ∈ values 111 (pairs ls), ∃ o, OriginValue v o := by
        intro v hv
        refine ho v ?_
        rw [ev]; split
        · exact List.mem_cons_of_mem _ hv
        · exact hv
      have next : ∀ st1, lineEff st l = .ok st1 →
          (st1.okConn = true ∨ ∀ v, (values 99 (pairs ls)).head? = some v → ∃ a, ConnValue v a) →
          ∃ st', linesEff st (l :: ls) = .ok st' := by
        intro st1 h1 h2
        obtain ⟨st', h⟩ := ih st1 h2 ho'
        exact ⟨st', by rw [linesEff, h1]; exact h⟩
      have hl : lineEff st l = valueEff st c v := by unfold lineEff; rw [hk]
      have keep : c ≠ 99 → (st.okConn = true ∨ ∀ v, (values 99 (pairs ls)).head? = some v → ∃ a, ConnValue v a) := by
        intro h99
        rw [ev, if_neg h99] at hc; exact hc
      by_cases h99 : c = 99
      · subst h99
        by_cases hok : st.okConn = true
        · exact next st (by rw [hl]; simp [valueEff, hok]) (.inl hok)
        · rcases hc with hc | hc
          · exact absurd hc hok
          · obtain ⟨a, ha⟩ := hc v (by rw [ev]; rfl)
            refine next { st with sdp.addr := a, okConn := true } ?_ (.inl rfl)
            rw [hl]
            simp [valueEff, hok, connEff_of ha]
      · have hkeep := keep h99
        rw [show valueEff st c v = _ from rfl] at hl
        unfold valueEff at hl
        split at hl
        · refine next _ hl ?_
          rw [show (mediaEff st v).okConn = st.okConn by unfold mediaEff; split; · rfl
                                                         split <;> rfl]
          exact hkeep
        split at hl
        · exact next _ hl hkeep
        split at hl
        · exact next _ hl hkeep
        split at hl
        · rename_i h; subst h
          obtain ⟨o, hov⟩ := ho v (by rw [ev]; simp)
          rw [originEff_of hov] at hl
          exact next _ hl hkeep
        split at hl
        · refine next _ hl ?_
          rw [attrEff_okConn]; exact hkeep
        · refine next _ hl ?_
          rw [show (otherEff st c v).okConn = st.okConn by unfold otherEff; split <;> rfl]
          exact hkeep

/-- Every origin line of an accepted text can be read. -/
theorem linesEff_origins {ls : List Bytes} {st st' : PState} (h : linesEff st ls = .ok st') :
    ∀ v ∈ values 111 (pairs ls), ∃ o, OriginValue v o := by
  induction ls generalizing st with
  | nil => simp [pairs, values]
  | cons l ls ih =>
    rw [linesEff, Res.bind_eq, Res.bind_ok_iff] at h
    obtain ⟨st1, h1, h2⟩ := h
    have ih := ih h2
    cases hk : keyValue l with
    | none =>
      have e : pairs (l :: ls) = pairs ls := by unfold pairs; simp [hk]
      rw [e]; exact ih
    | some p =>
      obtain ⟨c, v⟩ := p
      have e : pairs (l :: ls) = (c, v) :: pairs ls := by unfold pairs; simp [hk]
      intro w hw
      rw [e, show values 111 ((c, v) :: pairs ls) =
        if c = 111 then v :: values 111 (pairs ls) else values 111 (pairs ls) by
          unfold values; by_cases h : c = 111 <;> simp [h]] at hw
      split at hw
      · rename_i hc; subst hc
        rcases List.mem_cons.1 hw with rfl | hw
        · unfold lineEff at h1
          simp only [hk, valueEff] at h1
          rw [if_neg (by decide), if_neg (by decide), if_neg (by decide), if_neg (by decide), if_pos trivial,
            Res.bind_eq, Res.bind_ok_iff] at h1
          obtain ⟨o, ho, _⟩ := h1
          exact ⟨o, originEff_spec ho⟩
        · exact ih w hw
      · exact ih w hw

/-- A text of lines which describe a session, with every origin line readable, is accepted. -/
theorem parse_of {ls : List Bytes} {d : SDP} (hl : ∀ l ∈ ls, NoCRLF l) (h2 : 2 ≤ ls.length) (hd : Described ls d)
    (ho : ∀ v ∈ values 111 (pairs ls), ∃ o, OriginValue v o) (hm : d.audio ≠ none ∨ d.video ≠ none) :
    parse (b!"v=0\r\n" ++ joinCRLF ls) = .ok d := by
  rw [parse_eff]
  have hpre : hasPrefix b!"v=0\r\n" (b!"v=0\r\n" ++ joinCRLF ls) = true := (hasPrefix_iff _ _).2 ⟨_, rfl⟩
  have hdrop : List.drop 5 (b!"v=0\r\n" ++ joinCRLF ls) = joinCRLF ls := by simp
  rw [hpre, hdrop, splitCRLF_joinCRLF hl (by intro e; simp [e] at h2)]
  simp only [Bool.not_true, Bool.false_eq_true, if_false, if_neg (Nat.not_lt.2 h2)]
  obtain ⟨cv, hcv, hconn⟩ := hd.conn
  obtain ⟨ov, hov, horig⟩ := hd.origin
  obtain ⟨st, hst⟩ := linesEff_ok' ls initState (.inr fun v hv => by
    rw [hcv] at hv; cases hv; exact ⟨_, hconn⟩) ho
  have inv := inv_lines inv_init hst
  rw [List.nil_append] at inv
  rw [hst, Res.bind_eq, Res.ok_bind]
  have okc : st.okConn = true := by
    cases hc : st.okConn with
    | true => rfl
    | false => have := inv.conn0 hc; rw [this] at hcv; simp at hcv
  have oko : st.okOrigin = true := by
    cases hc : st.okOrigin with
    | true => rfl
    | false => have := inv.origin0 hc; rw [this] at hov; simp at hov
  have haddr : st.sdp.addr = d.addr := by
    obtain ⟨v, e, hv⟩ := inv.conn1 okc
    rw [hcv] at e; cases e
    exact connValue_unique hv hconn
  have hor : st.sdp.origin = d.origin := by
    obtain ⟨v, e, hv⟩ := inv.origin oko
    rw [hov] at e; cases e
    exact originValue_unique hv horig
  rw [okc, oko, inv.rtpmaps, inv.fmtps, inv.audio, inv.video, parseMedia_mediaOf hd.audio, parseMedia_mediaOf hd.video]
  have hnm : (d.audio.isNone && d.video.isNone) = false := by
    cases hx : d.audio <;> cases hy : d.video <;> simp_all
  simp only [Bool.not_true, Bool.or_self, Bool.false_eq_true, if_false, Res.bind_eq, Res.ok_bind, hnm]
  congr 1
  have h1 : st.sdp.session = d.session := by rw [inv.session, hd.session]
  have h2 : st.sdp.time = d.time := by rw [inv.time, hd.time]
  have h3 : st.sdp.ptime = d.ptime := by rw [inv.ptime, hd.ptime]
  have h4 : st.sdp.sendOnly = d.sendOnly := by
    rw [Bool.eq_iff_iff, hd.sendOnly, inv.sendOnly, pairs_sendonly]
  have h5 : st.sdp.recvOnly = d.recvOnly := by
    rw [Bool.eq_iff_iff, hd.recvOnly, inv.recvOnly, pairs_recvonly]
  have h6 : st.sdp.attrs = d.attrs := by rw [inv.attrs, hd.attrs]
  have h7 : st.sdp.other = d.other := by rw [inv.other, hd.other]
  obtain ⟨x1, x2, x3, x4, x5, x6, x7, x8, x9, x10, x11⟩ := d
  simp only at haddr hor h1 h2 h3 h4 h5 h6 h7
  simp [haddr, hor, h1, h2, h3, h4, h5, h6, h7]

end Gosip.Sdp
