import Verif.Sdp.SdpLemmas

/-! # What a successful `sdp.Parse` has read -/

namespace Gosip.Sdp
open Spec

theorem values_snoc (k : UInt8) (kvs : List (UInt8 × Bytes)) (c : UInt8) (v : Bytes) :
    values k (kvs ++ [(c, v)]) = if c = k then values k kvs ++ [v] else values k kvs := by
  unfold values
  by_cases h : c = k <;> simp [h]

theorem fields_snoc (k : UInt8) (pre : Bytes) (kvs : List (UInt8 × Bytes)) (c : UInt8) (v : Bytes) :
    fields k pre (kvs ++ [(c, v)]) =
      if c = k then fields k pre kvs ++ (strip pre v).toList else fields k pre kvs := by
  unfold fields
  rw [values_snoc]
  split
  · rw [List.filterMap_append]; cases h : strip pre v <;> simp [h]
  · rfl

theorem strip_hasPrefix {p v : Bytes} : strip p v = if hasPrefix p v then some (v.drop p.length) else none := rfl

theorem strip_other {p q v : Bytes} (h : hasPrefix p v = true) (hd : ∀ r, ¬ q <+: p ++ r) :
    strip q v = none := by
  obtain ⟨r, rfl⟩ := (hasPrefix_iff _ _).1 h
  unfold strip
  rw [if_neg]
  rw [List.isPrefixOf_iff_prefix]; exact hd r

theorem attrOf_none {v : Bytes} (h : indexByte 58 v = none) : attrOf v = (v, []) := by
  have h := indexByte_none.1 h
  unfold attrOf
  have hp : ∀ c ∈ v, decide (c ≠ (58 : UInt8)) = true := by
    intro c hc; simp; rintro rfl; exact h hc
  have h1 := List.takeWhile_append_of_pos (l₂ := []) hp
  have h2 := List.dropWhile_append_of_pos (l₂ := []) hp
  simp only [List.append_nil, List.takeWhile_nil, List.dropWhile_nil] at h1 h2
  rw [h1, h2]; rfl

theorem attrOf_some {v : Bytes} {n : Nat} (h : indexByte 58 v = some n) :
    attrOf v = (v.take n, v.drop (n + 1)) := by
  obtain ⟨a, b, rfl, rfl, ha⟩ := indexByte_some h
  unfold attrOf
  have hp : ∀ c ∈ a, decide (c ≠ (58 : UInt8)) = true := by
    intro c hc; simp; rintro rfl; exact ha hc
  rw [List.takeWhile_append_of_pos hp, List.dropWhile_append_of_pos hp]
  simp

/-- What the lines read so far (`kvs`) have put into the state. -/
structure Inv (kvs : List (UInt8 × Bytes)) (st : PState) : Prop where
  rtpmaps : st.rtpmaps = fields 97 b!"rtpmap:" kvs
  fmtps : st.fmtps = fields 97 b!"fmtp:" kvs
  audio : st.audioinfo = (fields 109 b!"audio " kvs).getLast?.getD []
  video : st.videoinfo = (fields 109 b!"video " kvs).getLast?.getD []
  conn0 : st.okConn = false → values 99 kvs = []
  conn1 : st.okConn = true → ∃ v, (values 99 kvs).head? = some v ∧ ConnValue v st.sdp.addr
  origin0 : st.okOrigin = false → values 111 kvs = []
  origin : st.okOrigin = true → ∃ v, (values 111 kvs).getLast? = some v ∧ OriginValue v st.sdp.origin
  session : st.sdp.session = (values 115 kvs).getLast?.getD b!"pokémon"
  time : st.sdp.time = (values 116 kvs).getLast?.getD b!"0 0"
  ptime : st.sdp.ptime = (ptimes kvs).getLast?.getD 0
  sendOnly : st.sdp.sendOnly = true ↔ (97, b!"sendonly") ∈ kvs
  recvOnly : st.sdp.recvOnly = true ↔ (97, b!"recvonly") ∈ kvs
  attrs : st.sdp.attrs = ((values 97 kvs).filter (! reserved ·)).map attrOf
  other : st.sdp.other = (kvs.filter (fun p => !knownKeys.contains p.1)).map fun p => ([p.1], p.2)

theorem connEff_spec {v a : Bytes} (h : connEff v = .ok a) : ConnValue v a := by
  unfold connEff at h
  split at h
  · rename_i t0 t1 t2 hs
    split at h
    · simp at h
    · rename_i hc
      split at h
      · simp at h
      · rename_i hi
        simp at h; subst h
        obtain ⟨s1, s2⟩ := splitByte_spec 32 v
        rw [hs] at s1 s2
        have h0 : t0 = b!"IN" := Decidable.byContradiction fun e => hc (.inl e)
        have h1 : t1 = b!"IP4" ∨ t1 = b!"IP6" := by
          by_cases e1 : t1 = b!"IP4"
          · exact .inl e1
          · by_cases e2 : t1 = b!"IP6"
            · exact .inr e2
            · exact absurd (.inr ⟨e1, e2⟩) hc
        subst h0
        refine ⟨t1, h1, s1.symm, s2 _ (by simp), ?_⟩
        apply indexByte_none.1
        cases hx : indexByte 47 t2 with
        | none => rfl
        | some n => simp [hx] at hi
  · simp at h

theorem originEff_spec {v : Bytes} {o : Origin} (h : originEff v = .ok o) : OriginValue v o := by
  unfold originEff at h
  split at h
  · rename_i t0 t1 t2 t3 t4 t5 hs
    split at h
    · simp at h
    · rename_i hc
      split at h
      · simp at h
      · rename_i hi
        simp at h; subst h
        obtain ⟨s1, s2⟩ := splitByte_spec 32 v
        rw [hs] at s1 s2
        have h0 : t3 = b!"IN" := Decidable.byContradiction fun e => hc (.inl e)
        have h1 : t4 = b!"IP4" ∨ t4 = b!"IP6" := by
          by_cases e1 : t4 = b!"IP4"
          · exact .inl e1
          · by_cases e2 : t4 = b!"IP6"
            · exact .inr e2
            · exact absurd (.inr ⟨e1, e2⟩) hc
        subst h0
        refine ⟨t4, h1, s1.symm, ?_, ?_⟩
        · intro t ht
          apply s2
          simp at ht ⊢
          rcases ht with e | e | e | e <;> simp [e]
        · apply indexByte_none.1
          cases hx : indexByte 47 t5 with
          | none => rfl
          | some n => simp [hx] at hi
  · simp at h


theorem ptimes_snoc (kvs : List (UInt8 × Bytes)) (c : UInt8) (v : Bytes) :
    ptimes (kvs ++ [(c, v)]) = if c = 97 then
      ptimes kvs ++ (((strip b!"ptime:" v).bind atoi).toList.filter (0 < ·)) else ptimes kvs := by
  unfold ptimes
  rw [fields_snoc]
  split
  · rw [List.filterMap_append, List.filter_append]
    cases h : strip b!"ptime:" v with
    | none => simp
    | some w => cases h2 : atoi w <;> simp [h2]
  · rfl

/-- `Inv` for the fields that an attribute line does not touch, and what it does to the others. -/
theorem inv_attr {kvs : List (UInt8 × Bytes)} {st : PState} {v : Bytes} (h : Inv kvs st) :
    Inv (kvs ++ [(97, v)]) (attrEff st v) := by
  have base : ∀ st', st'.audioinfo = st.audioinfo → st'.videoinfo = st.videoinfo →
      st'.okConn = st.okConn → st'.okOrigin = st.okOrigin → st'.sdp.addr = st.sdp.addr →
      st'.sdp.origin = st.sdp.origin → st'.sdp.session = st.sdp.session → st'.sdp.time = st.sdp.time →
      st'.sdp.other = st.sdp.other →
      st'.rtpmaps = st.rtpmaps ++ (strip b!"rtpmap:" v).toList →
      st'.fmtps = st.fmtps ++ (strip b!"fmtp:" v).toList →
      st'.sdp.ptime = ((((strip b!"ptime:" v).bind atoi).toList.filter (0 < ·))).getLast?.getD st.sdp.ptime →
      (st'.sdp.sendOnly = true ↔ st.sdp.sendOnly = true ∨ v = b!"sendonly") →
      (st'.sdp.recvOnly = true ↔ st.sdp.recvOnly = true ∨ v = b!"recvonly") →
      st'.sdp.attrs = st.sdp.attrs ++ (([v].filter (! reserved ·)).map attrOf) →
      Inv (kvs ++ [(97, v)]) st' := by
    intro st' e1 e2 e3 e4 e5 e6 e7 e8 e9 e10 e11 e12 e13 e14 e15
    constructor
    · rw [fields_snoc, if_pos rfl, e10, h.rtpmaps]
    · rw [fields_snoc, if_pos rfl, e11, h.fmtps]
    · rw [fields_snoc, if_neg (by decide), e1, h.audio]
    · rw [fields_snoc, if_neg (by decide), e2, h.video]
    · rw [values_snoc, if_neg (by decide), e3]; exact h.conn0
    · rw [values_snoc, if_neg (by decide), e3, e5]; exact h.conn1
    · rw [values_snoc, if_neg (by decide), e4]; exact h.origin0
    · rw [values_snoc, if_neg (by decide), e4, e6]; exact h.origin
    · rw [values_snoc, if_neg (by decide), e7]; exact h.session
    · rw [values_snoc, if_neg (by decide), e8]; exact h.time
    · rw [ptimes_snoc, if_pos rfl, e12, h.ptime, List.getLast?_append]
      cases (List.filter (fun x => decide (0 < x)) ((strip b!"ptime:" v).bind atoi).toList).getLast? <;> simp
    · rw [e13, h.sendOnly]; simp [eq_comm]
    · rw [e14, h.recvOnly]; simp [eq_comm]
    · rw [values_snoc, if_pos rfl, e15, h.attrs]; simp [List.filter_append]
    · rw [e9, h.other, List.filter_append]
      have : ([((97 : UInt8), v)].filter (fun p => !knownKeys.contains p.1)) = [] := by
        simp [knownKeys]
      rw [this, List.append_nil]
  have hnp : ∀ p : Bytes, ¬ hasPrefix p v = true → strip p v = none := fun p hp => if_neg hp
  unfold attrEff
  split
  · rename_i hp
    have a1 : strip b!"fmtp:" v = none := strip_other hp (by simp [List.cons_prefix_cons])
    have a2 : strip b!"ptime:" v = none := strip_other hp (by simp [List.cons_prefix_cons])
    have a3 : strip b!"rtpmap:" v = some (v.drop 7) := if_pos hp
    have a4 : reserved v = true := by unfold hasPrefix at hp; simp [reserved, hp]
    have a5 : v ≠ b!"sendonly" := by rintro rfl; simp [hasPrefix] at hp
    have a6 : v ≠ b!"recvonly" := by rintro rfl; simp [hasPrefix] at hp
    apply base <;> simp [a1, a2, a3, a4, a5, a6]
  split
  · rename_i hq hp
    have a1 : strip b!"rtpmap:" v = none := hnp _ hq
    have a2 : strip b!"ptime:" v = none := strip_other hp (by simp [List.cons_prefix_cons])
    have a3 : strip b!"fmtp:" v = some (v.drop 5) := if_pos hp
    have a4 : reserved v = true := by unfold hasPrefix at hp; simp [reserved, hp]
    have a5 : v ≠ b!"sendonly" := by rintro rfl; simp [hasPrefix] at hp
    have a6 : v ≠ b!"recvonly" := by rintro rfl; simp [hasPrefix] at hp
    apply base <;> simp [a1, a2, a3, a4, a5, a6]
  split
  · rename_i hq1 hq2 hp
    have a1 : strip b!"rtpmap:" v = none := hnp _ hq1
    have a2 : strip b!"fmtp:" v = none := hnp _ hq2
    have a3 : strip b!"ptime:" v = some (v.drop 6) := if_pos hp
    have a4 : reserved v = true := by unfold hasPrefix at hp; simp [reserved, hp]
    have a5 : v ≠ b!"sendonly" := by rintro rfl; simp [hasPrefix] at hp
    have a6 : v ≠ b!"recvonly" := by rintro rfl; simp [hasPrefix] at hp
    cases ha : atoi (v.drop 6) with
    | none => apply base <;> simp [a1, a2, a3, a4, a5, a6, ha]
    | some p =>
      dsimp only
      split
      · rename_i hpos
        have hpos : 0 < p := hpos
        apply base <;> simp [a1, a2, a3, a4, a5, a6, ha, hpos]
      · rename_i hpos
        have hpos : ¬ 0 < p := hpos
        apply base <;> simp [a1, a2, a3, a4, a5, a6, ha, hpos]
  rename_i hq1 hq2 hq3
  have a1 : strip b!"rtpmap:" v = none := hnp _ hq1
  have a2 : strip b!"fmtp:" v = none := hnp _ hq2
  have a3 : strip b!"ptime:" v = none := hnp _ hq3
  split
  · rename_i e
    have a4 : reserved v = true := by simp [reserved, e]
    have a5 : v ≠ b!"sendonly" := by rw [e]; decide
    have a6 : v ≠ b!"recvonly" := by rw [e]; decide
    apply base <;> simp [a1, a2, a3, a4, a5, a6]
  split
  · rename_i e
    have a4 : reserved v = true := by simp [reserved, e]
    have a6 : v ≠ b!"recvonly" := by rw [e]; decide
    apply base <;> first | (simp [a1, a2, a3, a4, a6]; done) | simp [e]
  split
  · rename_i e
    have a4 : reserved v = true := by simp [reserved, e]
    have a5 : v ≠ b!"sendonly" := by rw [e]; decide
    apply base <;> first | (simp [a1, a2, a3, a4, a5]; done) | simp [e]
  rename_i n1 n2 n3
  have a4 : reserved v = b!":".isPrefixOf v := by
    simp [hasPrefix] at hq1 hq2 hq3
    simp [reserved, hq1, hq2, hq3, n1, n2, n3]
  cases hi : indexByte 58 v with
  | none =>
    have : b!":".isPrefixOf v = false := by
      have hm := indexByte_none.1 hi
      cases v with
      | nil => rfl
      | cons c v => simp at hm; simp [List.isPrefixOf]; exact fun e => hm.1 e
    apply base <;> simp [a1, a2, a3, a4, n2, n3, this, attrOf_none hi]
  | some n =>
    obtain ⟨a, b, hv, hl, ha⟩ := indexByte_some hi
    cases n with
    | zero =>
      have : b!":".isPrefixOf v = true := by
        rw [hv, List.length_eq_zero_iff.1 hl]; simp
      apply base <;> simp [a1, a2, a3, a4, n2, n3, this]
    | succ n =>
      have : b!":".isPrefixOf v = false := by
        cases a with
        | nil => simp at hl
        | cons c a => rw [hv]; simp at ha; simp [List.isPrefixOf]; exact fun e => ha.1 e
      apply base <;> simp [a1, a2, a3, a4, n2, n3, this, attrOf_some hi]

theorem inv_value {kvs : List (UInt8 × Bytes)} {st st' : PState} {c : UInt8} {v : Bytes} (h : Inv kvs st)
    (e : valueEff st c v = .ok st') : Inv (kvs ++ [(c, v)]) st' := by
  unfold valueEff at e
  have hk : ∀ c : UInt8, knownKeys.contains c = true →
      (kvs ++ [(c, v)]).filter (fun p => !knownKeys.contains p.1) =
      kvs.filter (fun p => !knownKeys.contains p.1) := by
    intro c hc
    rw [List.filter_append]
    simp
    simpa using hc
  split at e
  · rename_i hc; subst hc
    simp at e; subst e
    have base : ∀ st' : PState, st'.rtpmaps = st.rtpmaps → st'.fmtps = st.fmtps → st'.sdp = st.sdp →
        st'.okConn = st.okConn → st'.okOrigin = st.okOrigin →
        st'.audioinfo = (strip b!"audio " v).getD st.audioinfo →
        st'.videoinfo = (strip b!"video " v).getD st.videoinfo → Inv (kvs ++ [(109, v)]) st' := by
      intro st' e1 e2 e3 e4 e5 e6 e7
      constructor <;>
        try simp (config := { decide := true }) only [fields_snoc, values_snoc, ptimes_snoc, if_false, if_true, e1, e2, e3, e4, e5, e6, e7, hk 109 (by decide)]
      · exact h.rtpmaps
      · exact h.fmtps
      · rw [h.audio, List.getLast?_append]; cases strip b!"audio " v <;> simp
      · rw [h.video, List.getLast?_append]; cases strip b!"video " v <;> simp
      · exact h.conn0
      · exact h.conn1
      · exact h.origin0
      · exact h.origin
      · exact h.session
      · exact h.time
      · exact h.ptime
      · rw [h.sendOnly]; simp
      · rw [h.recvOnly]; simp
      · exact h.attrs
      · exact h.other
    unfold mediaEff
    split
    · rename_i hp
      have a1 : strip b!"video " v = none := strip_other hp (by simp [List.cons_prefix_cons])
      have a2 : strip b!"audio " v = some (v.drop 6) := if_pos hp
      apply base <;> simp [a1, a2]
    rename_i hq
    have a1 : strip b!"audio " v = none := if_neg hq
    split
    · rename_i hp
      have a2 : strip b!"video " v = some (v.drop 6) := if_pos hp
      apply base <;> simp [a1, a2]
    · rename_i hq2
      have a2 : strip b!"video " v = none := if_neg hq2
      apply base <;> simp [a1, a2]
  split at e
  · rename_i hc; subst hc
    simp at e; subst e
    constructor <;>
      simp (config := { decide := true }) only [fields_snoc, values_snoc, ptimes_snoc, if_false, if_true, hk 115 (by decide)]
    · exact h.rtpmaps
    · exact h.fmtps
    · exact h.audio
    · exact h.video
    · exact h.conn0
    · exact h.conn1
    · exact h.origin0
    · exact h.origin
    · simp
    · exact h.time
    · exact h.ptime
    · rw [h.sendOnly]; simp
    · rw [h.recvOnly]; simp
    · exact h.attrs
    · exact h.other
  split at e
  · rename_i hc; subst hc
    simp at e; subst e
    constructor <;>
      simp (config := { decide := true }) only [fields_snoc, values_snoc, ptimes_snoc, if_false, if_true, hk 116 (by decide)]
    · exact h.rtpmaps
    · exact h.fmtps
    · exact h.audio
    · exact h.video
    · exact h.conn0
    · exact h.conn1
    · exact h.origin0
    · exact h.origin
    · exact h.session
    · simp
    · exact h.ptime
    · rw [h.sendOnly]; simp
    · rw [h.recvOnly]; simp
    · exact h.attrs
    · exact h.other
  split at e
  · rename_i hc; subst hc
    split at e
    · rename_i hok
      simp at e; subst e
      constructor <;>
        try simp (config := { decide := true }) only [fields_snoc, values_snoc, ptimes_snoc, if_false, if_true, hk 99 (by decide)]
      · exact h.rtpmaps
      · exact h.fmtps
      · exact h.audio
      · exact h.video
      · simp [hok]
      · intro _
        obtain ⟨w, h1, h2⟩ := h.conn1 hok
        exact ⟨w, by simp [h1], h2⟩
      · exact h.origin0
      · exact h.origin
      · exact h.session
      · exact h.time
      · exact h.ptime
      · rw [h.sendOnly]; simp
      · rw [h.recvOnly]; simp
      · exact h.attrs
      · exact h.other
    · rename_i hok
      rw [Res.bind_eq, Res.bind_ok_iff] at e
      obtain ⟨a, ha, e⟩ := e
      simp at e; subst e
      constructor <;>
        try simp (config := { decide := true }) only [fields_snoc, values_snoc, ptimes_snoc, if_false, if_true, hk 99 (by decide)]
      · exact h.rtpmaps
      · exact h.fmtps
      · exact h.audio
      · exact h.video
      · simp
      · intro _
        exact ⟨v, by simp [h.conn0 (by simpa using hok)], connEff_spec ha⟩
      · exact h.origin0
      · exact h.origin
      · exact h.session
      · exact h.time
      · exact h.ptime
      · rw [h.sendOnly]; simp
      · rw [h.recvOnly]; simp
      · exact h.attrs
      · exact h.other
  split at e
  · rename_i hc; subst hc
    rw [Res.bind_eq, Res.bind_ok_iff] at e
    obtain ⟨a, ha, e⟩ := e
    simp at e; subst e
    constructor <;>
      simp (config := { decide := true }) only [fields_snoc, values_snoc, ptimes_snoc, if_false, if_true, hk 111 (by decide)]
    · exact h.rtpmaps
    · exact h.fmtps
    · exact h.audio
    · exact h.video
    · exact h.conn0
    · exact h.conn1
    · simp
    · intro _; exact ⟨v, by simp, originEff_spec ha⟩
    · exact h.session
    · exact h.time
    · exact h.ptime
    · rw [h.sendOnly]; simp
    · rw [h.recvOnly]; simp
    · exact h.attrs
    · exact h.other
  split at e
  · rename_i hc; subst hc
    simp at e; subst e
    exact inv_attr h
  · rename_i c1 c2 c3 c4 c5 c6
    simp at e; subst e
    have base : ∀ st' : PState, st'.rtpmaps = st.rtpmaps → st'.fmtps = st.fmtps → 
        st'.okConn = st.okConn → st'.okOrigin = st.okOrigin →
        st'.audioinfo = st.audioinfo → st'.videoinfo = st.videoinfo →
        ({ st'.sdp with other := [] } = { st.sdp with other := [] }) →
        st'.sdp.other = st.sdp.other ++ ([(c, v)].filter (fun p => !knownKeys.contains p.1)).map (fun p => ([p.1], p.2)) →
        Inv (kvs ++ [(c, v)]) st' := by
      intro st' e1 e2 e4 e5 e6 e7 e3 e8
      simp at e3
      obtain ⟨f1, f2, _, _, f7, f8, f9, f10⟩ := e3
      constructor <;>
        try simp only [fields_snoc, values_snoc, ptimes_snoc, c1, c2, c3, c4, c5, c6, if_false,
          e1, e2, e4, e5, e6, e7, f1, f2, f7, f8, f9, f10]
      · exact h.rtpmaps
      · exact h.fmtps
      · exact h.audio
      · exact h.video
      · exact h.conn0
      · exact h.conn1
      · exact h.origin0
      · exact h.origin
      · exact h.session
      · exact h.time
      · exact h.ptime
      · rw [h.sendOnly]; simp [Ne.symm c6]
      · rw [h.recvOnly]; simp [Ne.symm c6]
      · exact h.attrs
      · rw [e8, h.other]; simp [List.filter_append]
    unfold otherEff
    split
    · rename_i hc; subst hc
      apply base <;> simp [knownKeys]
    · rename_i c7
      have : knownKeys.contains c = false := by
        simp [knownKeys, c1, c2, c3, c4, c5, c6, c7]
      apply base <;> simp
      simp [knownKeys, c1, c2, c3, c4, c5, c6, c7]

theorem inv_line {ls : List Bytes} {st st' : PState} {l : Bytes} (h : Inv (pairs ls) st)
    (e : lineEff st l = .ok st') : Inv (pairs (ls ++ [l])) st' := by
  unfold lineEff at e
  unfold pairs
  rw [List.filterMap_append]
  cases hk : keyValue l with
  | none => simp [hk] at e ⊢; subst e; exact h
  | some p =>
    obtain ⟨c, v⟩ := p
    simp [hk] at e ⊢
    exact inv_value h e

theorem inv_lines {ls done : List Bytes} {st st' : PState} (h : Inv (pairs done) st)
    (e : linesEff st ls = .ok st') : Inv (pairs (done ++ ls)) st' := by
  induction ls generalizing done st with
  | nil => simp [linesEff] at e; subst e; simpa using h
  | cons l ls ih =>
    rw [linesEff, Res.bind_eq, Res.bind_ok_iff] at e
    obtain ⟨st1, e1, e2⟩ := e
    have := ih (inv_line h e1) e2
    simpa using this

theorem inv_init : Inv (pairs []) initState := by
  constructor <;> simp [initState, pairs, fields, values, ptimes]

end Gosip.Sdp
