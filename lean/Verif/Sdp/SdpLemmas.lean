import Verif.Spec.Sdp

/-! # Lemmas on `sdp.Parse` -/

namespace Gosip.Sdp
open Spec

/-! ### Effect of a line, without the bounds checks -/

def attrEff (st : PState) (v : Bytes) : PState :=
  if hasPrefix b!"rtpmap:" v then { st with rtpmaps := st.rtpmaps ++ [v.drop 7] }
  else if hasPrefix b!"fmtp:" v then { st with fmtps := st.fmtps ++ [v.drop 5] }
  else if hasPrefix b!"ptime:" v then
    match atoi (v.drop 6) with
    | some p => if p > 0 then { st with sdp.ptime := p } else st
    | none => st
  else if v = b!"sendrecv" then st
  else if v = b!"sendonly" then { st with sdp.sendOnly := true }
  else if v = b!"recvonly" then { st with sdp.recvOnly := true }
  else match indexByte 58 v with
    | some 0 => st
    | some n => { st with sdp.attrs := st.sdp.attrs ++ [(v.take n, v.drop (n + 1))] }
    | none => { st with sdp.attrs := st.sdp.attrs ++ [(v, [])] }

def mediaEff (st : PState) (v : Bytes) : PState :=
  if hasPrefix b!"audio " v then { st with audioinfo := v.drop 6 }
  else if hasPrefix b!"video " v then { st with videoinfo := v.drop 6 }
  else st

def otherEff (st : PState) (c0 : UInt8) (v : Bytes) : PState :=
  if c0 = 61 then st else { st with sdp.other := st.sdp.other ++ [([c0], v)] }

def connEff (v : Bytes) : Res SErr Bytes :=
  match splitByte 32 v with
  | [t0, t1, t2] =>
    if t0 ≠ b!"IN" ∨ (t1 ≠ b!"IP4" ∧ t1 ≠ b!"IP6") then .err .connNet
    else if (indexByte 47 t2).isSome then .err .connMulticast else .ok t2
  | _ => .err .connLine

def originEff (v : Bytes) : Res SErr Origin :=
  match splitByte 32 v with
  | [t0, t1, t2, t3, t4, t5] =>
    if t3 ≠ b!"IN" ∨ (t4 ≠ b!"IP4" ∧ t4 ≠ b!"IP6") then .err .originNet
    else if (indexByte 47 t5).isSome then .err .originMulticast else .ok ⟨t0, t1, t2, t5⟩
  | _ => .err .originLine

def valueEff (st : PState) (c0 : UInt8) (v : Bytes) : Res SErr PState :=
  if c0 = 109 then .ok (mediaEff st v)
  else if c0 = 115 then .ok { st with sdp.session := v }
  else if c0 = 116 then .ok { st with sdp.time := v }
  else if c0 = 99 then
    if st.okConn then .ok st
    else connEff v >>= fun a => .ok { st with sdp.addr := a, okConn := true }
  else if c0 = 111 then originEff v >>= fun o => .ok { st with sdp.origin := o, okOrigin := true }
  else if c0 = 97 then .ok (attrEff st v)
  else .ok (otherEff st c0 v)

def lineEff (st : PState) (line : Bytes) : Res SErr PState :=
  match keyValue line with
  | some (c0, v) => valueEff st c0 v
  | none => .ok st

def linesEff : PState → List Bytes → Res SErr PState
  | st, [] => .ok st
  | st, l :: ls => lineEff st l >>= fun st => linesEff st ls

/-- The arrays of the parser have room for `n` more elements. -/
def Room (cap : Nat) (st : PState) (n : Nat) : Prop :=
  st.rtpmaps.length + n ≤ cap ∧ st.fmtps.length + n ≤ cap ∧ st.sdp.attrs.length + n ≤ cap

theorem drop_ok {ε : Type} {p v : Bytes} {n : Nat} (h : hasPrefix p v = true) (hn : p.length = n) :
    (sliceFrom v n : Res ε Bytes) = .ok (v.drop n) := by
  obtain ⟨r, rfl⟩ := (hasPrefix_iff _ _).1 h
  exact sliceFrom_ok (by simp; omega)

theorem attrLine_eff (cap : Nat) (st : PState) (c0 c1 : UInt8) (v : Bytes) (h : Room cap st 1) :
    attrLine cap st (c0 :: c1 :: v) = .ok (attrEff st v) := by
  obtain ⟨h1, h2, h3⟩ := h
  unfold attrLine attrEff
  have : (sliceFrom (c0 :: c1 :: v) 2 : Res SErr Bytes) = .ok v := by simp [sliceFrom]
  simp only [this, Res.bind_eq, Res.ok_bind]
  split
  · rename_i hp
    rw [drop_ok (n := 7) hp rfl]; simp only [Res.ok_bind, store, if_pos (show st.rtpmaps.length < cap by omega)]
  split
  · rename_i hp
    rw [drop_ok (n := 5) hp rfl]; simp only [Res.ok_bind, store, if_pos (show st.fmtps.length < cap by omega)]
  split
  · rename_i hp
    rw [drop_ok (n := 6) hp rfl]; simp only [Res.ok_bind]
    cases atoi (List.drop 6 v) with
    | none => rfl
    | some p => dsimp only; split <;> rfl
  split
  · rfl
  split
  · rfl
  split
  · rfl
  cases hi : indexByte 58 v with
  | none => simp only [store, if_pos (show st.sdp.attrs.length < cap by omega), Res.ok_bind]
  | some n =>
    cases n with
    | zero => rfl
    | succ n =>
      obtain ⟨a, b, rfl, hl, _⟩ := indexByte_some hi
      have e1 : (sliceTo (a ++ 58 :: b) (n + 1) : Res SErr Bytes) = .ok ((a ++ 58 :: b).take (n + 1)) :=
        sliceTo_ok (by simp; omega)
      have e2 : (sliceFrom (a ++ 58 :: b) (n + 1 + 1) : Res SErr Bytes) =
          .ok ((a ++ 58 :: b).drop (n + 1 + 1)) := sliceFrom_ok (by simp; omega)
      simp only [e1, e2, Res.ok_bind, store, if_pos (show st.sdp.attrs.length < cap by omega)]

theorem mediaLine_eff (st : PState) (c0 c1 : UInt8) (v : Bytes) :
    mediaLine st (c0 :: c1 :: v) = .ok (mediaEff st v) := by
  unfold mediaLine mediaEff
  have : (sliceFrom (c0 :: c1 :: v) 2 : Res SErr Bytes) = .ok v := by simp [sliceFrom]
  simp only [this, Res.bind_eq, Res.ok_bind]
  split
  · rename_i hp
    rw [drop_ok (n := 6) hp rfl]; simp only [Res.ok_bind]
  split
  · rename_i hp
    rw [drop_ok (n := 6) hp rfl]; simp only [Res.ok_bind]
  · rfl

theorem otherLine_eff (st : PState) (c0 : UInt8) (v : Bytes) :
    otherLine st (c0 :: 61 :: v) = .ok (otherEff st c0 v) := by
  unfold otherLine otherEff
  by_cases h : c0 = 61
  · subst h
    have : indexByte 61 (61 :: 61 :: v) = some 0 := by simp [indexByte]
    simp [this]
  · have : indexByte 61 (c0 :: 61 :: v) = some 1 := by
      have := indexByte_append (c := 61) (a := [c0]) (b := v) (by simpa using fun e => h e.symm)
      simpa using this
    simp [this, h, sliceTo, sliceFrom]

theorem conn_eff (c0 c1 : UInt8) (v : Bytes) : parseConnLine (c0 :: c1 :: v) = connEff v := by
  unfold parseConnLine connEff
  have : (sliceFrom (c0 :: c1 :: v) 2 : Res SErr Bytes) = .ok v := by simp [sliceFrom]
  simp only [this, Res.bind_eq, Res.ok_bind]
  rcases hs : splitByte 32 v with _ | ⟨a, _ | ⟨b, _ | ⟨c, _ | ⟨d, l⟩⟩⟩⟩ <;> simp [idx]

theorem origin_eff (c0 c1 : UInt8) (v : Bytes) : parseOriginLine (c0 :: c1 :: v) = originEff v := by
  unfold parseOriginLine originEff
  have : (sliceFrom (c0 :: c1 :: v) 2 : Res SErr Bytes) = .ok v := by simp [sliceFrom]
  simp only [this, Res.bind_eq, Res.ok_bind]
  rcases hs : splitByte 32 v with _ | ⟨a, _ | ⟨b, _ | ⟨c, _ | ⟨d, _ | ⟨e, _ | ⟨f, _ | ⟨g, l⟩⟩⟩⟩⟩⟩⟩ <;>
    simp [idx]

theorem parseLine_eff (cap : Nat) (st : PState) (line : Bytes) (h : Room cap st 1) :
    parseLine cap st line = lineEff st line := by
  unfold parseLine lineEff
  rcases line with _ | ⟨c0, _ | ⟨c1, _ | ⟨x, v⟩⟩⟩
  · simp [keyValue]
  · simp [keyValue]
  · simp [keyValue]
  · rw [if_neg (by simp), if_neg (by simp)]
    simp only [idx, List.getElem?_cons_succ, List.getElem?_cons_zero, Res.bind_eq, Res.ok_bind, keyValue]
    by_cases h1 : c1 = 61
    · subst h1
      rw [if_neg (by simp), if_pos rfl]
      unfold valueEff
      simp only [mediaLine_eff, conn_eff, origin_eff, attrLine_eff cap st _ _ _ h, otherLine_eff]
      have : (sliceFrom (c0 :: 61 :: x :: v) 2 : Res SErr Bytes) = .ok (x :: v) := by simp [sliceFrom]
      simp only [this, Res.bind_eq, Res.ok_bind]
    · rw [if_pos h1, if_neg h1]

macro "room" : tactic => `(tactic| first | omega | (dsimp only; omega) | (simp; omega))

theorem lineEff_room {cap n : Nat} {st st' : PState} {line : Bytes} (h : Room cap st (n + 1))
    (e : lineEff st line = .ok st') : Room cap st' n := by
  obtain ⟨h1, h2, h3⟩ := h
  unfold lineEff at e
  split at e
  · rename_i c0 v _
    unfold valueEff at e
    split at e
    · simp at e; subst e
      unfold mediaEff
      split
      · exact ⟨by room, by room, by room⟩
      split
      · exact ⟨by room, by room, by room⟩
      · exact ⟨by room, by room, by room⟩
    split at e
    · simp at e; subst e; exact ⟨by room, by room, by room⟩
    split at e
    · simp at e; subst e; exact ⟨by room, by room, by room⟩
    split at e
    · split at e
      · simp at e; subst e; exact ⟨by room, by room, by room⟩
      · rw [Res.bind_eq, Res.bind_ok_iff] at e
        obtain ⟨a, _, e⟩ := e
        simp at e; subst e; exact ⟨by room, by room, by room⟩
    split at e
    · rw [Res.bind_eq, Res.bind_ok_iff] at e
      obtain ⟨a, _, e⟩ := e
      simp at e; subst e; exact ⟨by room, by room, by room⟩
    split at e
    · simp at e; subst e
      unfold attrEff
      split
      · exact ⟨by room, by room, by room⟩
      split
      · exact ⟨by room, by room, by room⟩
      split
      · split
        · split <;> exact ⟨by room, by room, by room⟩
        · exact ⟨by room, by room, by room⟩
      split
      · exact ⟨by room, by room, by room⟩
      split
      · exact ⟨by room, by room, by room⟩
      split
      · exact ⟨by room, by room, by room⟩
      split
      · exact ⟨by room, by room, by room⟩
      · exact ⟨by room, by room, by room⟩
      · exact ⟨by room, by room, by room⟩
    · simp at e; subst e
      unfold otherEff
      split
      · exact ⟨by room, by room, by room⟩
      · exact ⟨by room, by room, by room⟩
  · simp at e; subst e; exact ⟨by room, by room, by room⟩

theorem parseLines_eff (cap : Nat) (st : PState) (ls : List Bytes) (h : Room cap st ls.length) :
    parseLines cap st ls = linesEff st ls := by
  induction ls generalizing st with
  | nil => rfl
  | cons l ls ih =>
    rw [parseLines, linesEff, parseLine_eff cap st l ⟨by have := h.1; simp at this; omega,
      by have := h.2.1; simp at this; omega, by have := h.2.2; simp at this; omega⟩]
    cases e : lineEff st l with
    | ok st' => exact ih st' (lineEff_room h e)
    | err _ => rfl
    | panic => rfl

theorem connEff_ne_panic (v : Bytes) : connEff v ≠ .panic := by
  unfold connEff; split
  · split
    · simp
    · split <;> simp
  · simp

theorem originEff_ne_panic (v : Bytes) : originEff v ≠ .panic := by
  unfold originEff; split
  · split
    · simp
    · split <;> simp
  · simp

theorem lineEff_ne_panic (st : PState) (l : Bytes) : lineEff st l ≠ .panic := by
  unfold lineEff
  split
  · unfold valueEff
    split
    · simp
    split
    · simp
    split
    · simp
    split
    · split
      · simp
      · exact Res.bind_ne_panic (connEff_ne_panic _) (by simp)
    split
    · exact Res.bind_ne_panic (originEff_ne_panic _) (by simp)
    split <;> simp
  · simp

theorem linesEff_ne_panic (st : PState) (ls : List Bytes) : linesEff st ls ≠ .panic := by
  induction ls generalizing st with
  | nil => simp [linesEff]
  | cons l ls ih => exact Res.bind_ne_panic (lineEff_ne_panic _ _) fun st' _ => ih st'

/-! ### Media and codecs -/

theorem firstWith_spec (pre : Bytes) (l : List Bytes) :
    (∃ v, firstWith pre l = .ok (some v) ∧ FirstWith pre l v) ∨
    (firstWith pre l = .ok none ∧ ∀ s ∈ l, ¬ pre <+: s) := by
  induction l with
  | nil => exact .inr ⟨rfl, by simp⟩
  | cons s l ih =>
    unfold firstWith
    by_cases h : hasPrefix pre s = true
    · rw [if_pos h, drop_ok h rfl]
      obtain ⟨r, rfl⟩ := (hasPrefix_iff _ _).1 h
      exact .inl ⟨r, by simp, [], l, rfl, by simp⟩
    · rw [if_neg h]
      have hp : ¬ pre <+: s := by
        rintro ⟨r, hr⟩; exact h ((hasPrefix_iff _ _).2 ⟨r, hr.symm⟩)
      rcases ih with ⟨v, e, b, a, e2, hb⟩ | ⟨e, hn⟩
      · exact .inl ⟨v, e, s :: b, a, by simp [e2], by simpa [hp] using hb⟩
      · exact .inr ⟨e, by simpa [hp] using hn⟩

theorem firstWith_of {pre : Bytes} {l : List Bytes} {v : Bytes} (h : FirstWith pre l v) :
    firstWith pre l = .ok (some v) := by
  obtain ⟨b, a, rfl, hb⟩ := h
  induction b with
  | nil =>
    rw [List.nil_append, firstWith, if_pos ((hasPrefix_iff _ _).2 ⟨v, rfl⟩), sliceFrom_ok (by simp)]
    simp
  | cons s b ih =>
    rw [List.cons_append, firstWith, if_neg, ih fun s hs => hb s (by simp [hs])]
    intro hp
    obtain ⟨r, hr⟩ := (hasPrefix_iff _ _).1 hp
    exact hb s (by simp) ⟨r, hr.symm⟩

theorem firstWith_none {pre : Bytes} {l : List Bytes} (h : ∀ s ∈ l, ¬ pre <+: s) :
    firstWith pre l = .ok none := by
  rcases firstWith_spec pre l with ⟨v, _, b, a, rfl, _⟩ | ⟨e, _⟩
  · exact absurd ⟨v, rfl⟩ (h (pre ++ v) (by simp))
  · exact e

theorem rtpmap_ne_panic (c : Codec) (s : Bytes) : parseRtpmapInfo c s ≠ .panic := by
  unfold parseRtpmapInfo
  dsimp only
  split
  · simp
  · rename_i h
    refine Res.bind_ne_panic (idx_ne_panic (by omega)) fun _ _ => ?_
    refine Res.bind_ne_panic (idx_ne_panic (by omega)) fun _ _ => ?_
    split
    · simp
    · split
      · exact Res.bind_ne_panic (idx_ne_panic (by omega)) (by simp)
      · simp

theorem firstWith_ne_panic (pre : Bytes) (l : List Bytes) : firstWith pre l ≠ .panic := by
  rcases firstWith_spec pre l with ⟨v, e, _⟩ | ⟨e, _⟩ <;> simp [e]

theorem rtpmapCodec_ne_panic (pt : UInt8) (m : Option Bytes) : rtpmapCodec pt m ≠ .panic := by
  unfold rtpmapCodec; split
  · exact rtpmap_ne_panic _ _
  · simp

theorem ianaCodec_ne_panic (pt : UInt8) (c : Codec) : ianaCodec pt c ≠ .panic := by
  unfold ianaCodec; split
  · split
    · simp
    · split <;> simp
  · simp

theorem populateCodec_ne_panic (r f : List Bytes) (pt : UInt8) : populateCodec r f pt ≠ .panic := by
  unfold populateCodec
  dsimp only
  refine Res.bind_ne_panic (firstWith_ne_panic _ _) fun m _ => ?_
  refine Res.bind_ne_panic (rtpmapCodec_ne_panic _ _) fun c _ => ?_
  refine Res.bind_ne_panic (ianaCodec_ne_panic _ _) fun c _ => ?_
  refine Res.bind_ne_panic (firstWith_ne_panic _ _) fun m _ => ?_
  split <;> simp

theorem populateCodecs_ne_panic (r f : List Bytes) (pts : List UInt8) :
    populateCodecs r f pts ≠ .panic := by
  induction pts with
  | nil => simp [populateCodecs]
  | cons p pts ih =>
    exact Res.bind_ne_panic (populateCodec_ne_panic _ _ _) fun _ _ =>
      Res.bind_ne_panic ih (by simp)

theorem parsePts_ne_panic (ts : List Bytes) : parsePts ts ≠ .panic := by
  induction ts with
  | nil => simp [parsePts]
  | cons t ts ih =>
    unfold parsePts
    split
    · simp
    · exact Res.bind_ne_panic ih (by simp)

theorem portPart_ne_panic (t : Bytes) : portPart t ≠ .panic := by
  unfold portPart
  split
  · rename_i n hn
    split
    · obtain ⟨a, b, rfl, hl, _⟩ := indexByte_some hn
      rw [sliceTo_ok (by simp; omega)]; simp
    · simp
  · simp

theorem parseMediaInfo_ne_panic (s : Bytes) : parseMediaInfo s ≠ .panic := by
  unfold parseMediaInfo
  dsimp only
  split
  · simp
  · rename_i h
    refine Res.bind_ne_panic (idx_ne_panic (by omega)) fun t0 _ => ?_
    refine Res.bind_ne_panic (portPart_ne_panic _) fun p _ => ?_
    split
    · simp
    · refine Res.bind_ne_panic (idx_ne_panic (by omega)) fun _ _ => ?_
      exact Res.bind_ne_panic (parsePts_ne_panic _) (by simp)

theorem parseMedia_ne_panic (r f : List Bytes) (i : Bytes) : parseMedia r f i ≠ .panic := by
  unfold parseMedia
  split
  · simp
  · refine Res.bind_ne_panic (parseMediaInfo_ne_panic _) fun a _ => ?_
    obtain ⟨p, q, l⟩ := a
    exact Res.bind_ne_panic (populateCodecs_ne_panic _ _ _) (by simp)

/-- State of `Parse` before the first line. -/
def initState : PState := { sdp := { session := b!"pokémon", time := b!"0 0" } }

/-- `Parse` with the pure loop. -/
theorem parse_eff (s : Bytes) : parse s =
    if !hasPrefix b!"v=0\r\n" s then .err .noVersion
    else if (splitCRLF (s.drop 5)).length < 2 then .err .fewLines
    else (do
      let st ← linesEff initState (splitCRLF (s.drop 5))
      if !st.okConn || !st.okOrigin then .err .missingMandatory else do
      let audio ← parseMedia st.rtpmaps st.fmtps st.audioinfo
      let video ← parseMedia st.rtpmaps st.fmtps st.videoinfo
      if audio.isNone && video.isNone then .err .noMedia
      else .ok { st.sdp with audio := audio, video := video }) := by
  unfold parse
  by_cases h : hasPrefix b!"v=0\r\n" s = true
  · simp only [h, Bool.not_true, Bool.false_eq_true, ↓reduceIte]
    rw [drop_ok (n := 5) h rfl]
    simp only [Res.bind_eq, Res.ok_bind]
    rw [parseLines_eff _ _ _ ⟨by simp, by simp, by simp⟩]
    rfl
  · simp only [h, Bool.not_false, ↓reduceIte]

theorem parse_ne_panic (s : Bytes) : parse s ≠ .panic := by
  rw [parse_eff]
  split
  · simp
  split
  · simp
  refine Res.bind_ne_panic (linesEff_ne_panic _ _) fun st _ => ?_
  split
  · simp
  refine Res.bind_ne_panic (parseMedia_ne_panic _ _ _) fun a _ => ?_
  refine Res.bind_ne_panic (parseMedia_ne_panic _ _ _) fun v _ => ?_
  split <;> simp

end Gosip.Sdp
