import Verif.Sdp.MediaInvert

/-! # Reading back the text of a description -/

namespace Gosip.Sdp
open Spec
open Sip (isIPv6)

/-! ### Lines -/

theorem noCRLF_append {a b : Bytes} (ha : NoCRLF a) (hb : NoCRLF b) (h : startsLF b = false) :
    NoCRLF (a ++ b) := by
  induction a with
  | nil => exact hb
  | cons c a ih =>
    obtain ⟨h1, h2⟩ := noCRLF_cons.1 ha
    rw [List.cons_append]
    refine noCRLF_cons.2 ⟨?_, ih h2⟩
    rintro ⟨hc, hs⟩
    cases a with
    | nil => simp [h] at hs
    | cons d a => 
      obtain ⟨r, hr⟩ := (startsLF_iff _).1 hs
      simp at hr
      exact h1 ⟨hc, by rw [hr.1]; rfl⟩

theorem noCRLF_lit {a b : Bytes} (ha : 13 ∉ a) (hb : NoCRLF b) : NoCRLF (a ++ b) := by
  induction a with
  | nil => exact hb
  | cons c a ih =>
    simp at ha
    exact noCRLF_cons.2 ⟨fun h => ha.1 h.1.symm, ih ha.2⟩

theorem noCRLF_of13 {a : Bytes} (ha : 13 ∉ a) : NoCRLF a := by
  have := noCRLF_lit ha noCRLF_nil
  simpa using this

theorem noCRLF_sep {a b : Bytes} {c : UInt8} (ha : NoCRLF a) (hb : NoCRLF b) (h : c ≠ 13) (h' : c ≠ 10) :
    NoCRLF (a ++ c :: b) := by
  apply noCRLF_append ha
  · exact noCRLF_cons.2 ⟨fun e => h e.1, hb⟩
  · cases hs : startsLF (c :: b) with
    | false => rfl
    | true => obtain ⟨r, hr⟩ := (startsLF_iff _).1 hs; simp at hr; exact absurd hr.1 h'

/-- A key-value line without its end. -/
def kvLine (p : UInt8 × Bytes) : Bytes := p.1 :: 61 :: p.2

def kvText (p : UInt8 × Bytes) : Bytes := kvLine p ++ b!"\r\n"

theorem splitCRLF_lines (kvs : List (UInt8 × Bytes)) (h : ∀ p ∈ kvs, NoCRLF (kvLine p)) :
    splitCRLF (kvs.flatMap kvText) = kvs.map kvLine ++ [[]] := by
  induction kvs with
  | nil => rfl
  | cons p kvs ih =>
    rw [List.flatMap_cons, kvText, splitCRLF_append (h p (by simp)), ih fun q hq => h q (by simp [hq])]
    rfl

theorem pairs_lines (kvs : List (UInt8 × Bytes)) (h : ∀ p ∈ kvs, p.2 ≠ []) :
    pairs (kvs.map kvLine ++ [[]]) = kvs := by
  unfold pairs
  rw [List.filterMap_append]
  have : [([] : Bytes)].filterMap keyValue = [] := rfl
  rw [this, List.append_nil]
  induction kvs with
  | nil => rfl
  | cons p kvs ih =>
    obtain ⟨k, v⟩ := p
    cases v with
    | nil => exact absurd rfl (h (k, []) (by simp))
    | cons x v =>
      rw [List.map_cons, List.filterMap_cons]
      simp only [kvLine, keyValue, if_true]
      rw [ih fun q hq => h q (by simp [hq])]

/-! ### The lines of a description -/

def rtpmapVal (c : Codec) : Bytes :=
  natDec c.pt.toNat ++ b!" " ++ c.name ++ b!"/" ++ itoa c.rate ++
    (if c.param ≠ [] then b!"/" ++ c.param else [])

def fmtpVal (c : Codec) : Bytes := natDec c.pt.toNat ++ b!" " ++ c.fmtp

def codecLines (c : Codec) : List (UInt8 × Bytes) :=
  (97, b!"rtpmap:" ++ rtpmapVal c) :: if c.fmtp ≠ [] then [(97, b!"fmtp:" ++ fmtpVal c)] else []

def mediaVal (m : Media) : Bytes :=
  natDec m.port.toNat ++ b!" " ++ m.proto ++ m.codecs.flatMap (fun c => b!" " ++ natDec c.pt.toNat)

def mediaLines (type : Bytes) : Option Media → List (UInt8 × Bytes)
  | some m => (109, type ++ mediaVal m) :: m.codecs.flatMap codecLines
  | none => []

def netText (a : Bytes) : Bytes := if isIPv6 a then b!"IP6" else b!"IP4"

def originVal (o : Origin) : Bytes :=
  o.user ++ b!" " ++ o.id ++ b!" " ++ o.version ++ b!" IN " ++ netText o.addr ++ b!" " ++ o.addr

def connVal (a : Bytes) : Bytes := b!"IN " ++ netText a ++ b!" " ++ a

def dirVal (d : SDP) : Bytes :=
  if d.sendOnly then b!"sendonly" else if d.recvOnly then b!"recvonly" else b!"sendrecv"

def attrLines (d : SDP) : List (UInt8 × Bytes) :=
  d.attrs.map (fun a => (97, attrValue a)) ++
  (if d.ptime > 0 then [(97, b!"ptime:" ++ itoa d.ptime)] else []) ++ [(97, dirVal d)]

def otherLines (d : SDP) : List (UInt8 × Bytes) := d.other.map fun p => (p.1.headD 0, p.2)

def linesOf (d : SDP) : List (UInt8 × Bytes) :=
  [(111, originVal d.origin), (115, d.session), (99, connVal d.addr), (116, d.time)] ++
  mediaLines b!"audio " d.audio ++ mediaLines b!"video " d.video ++ attrLines d ++ otherLines d

theorem codec_text (c : Codec) : c.text = (codecLines c).flatMap kvText := by
  unfold Codec.text codecLines
  rw [itoa_nat]
  by_cases h : c.fmtp = [] <;> simp [h, kvText, kvLine, rtpmapVal, fmtpVal]

theorem codecs_text (cs : List Codec) : cs.flatMap Codec.text = (cs.flatMap codecLines).flatMap kvText := by
  induction cs with
  | nil => rfl
  | cons c cs ih => simp only [List.flatMap_cons, List.flatMap_append, ih, codec_text]

theorem media_text (type : Bytes) (m : Media) (h : m.proto ≠ []) :
    m.text type = (mediaLines (type ++ b!" ") (some m)).flatMap kvText := by
  unfold Media.text mediaLines
  rw [List.flatMap_cons, ← codecs_text]
  simp [h, kvText, kvLine, mediaVal, itoa_nat]

theorem attr_text (a : Bytes × Bytes) : attrText a = kvText (97, attrValue a) := by
  unfold attrText attrValue
  split <;> simp [kvText, kvLine]

theorem attrs_text (l : List (Bytes × Bytes)) :
    l.flatMap attrText = (l.map fun a => ((97 : UInt8), attrValue a)).flatMap kvText := by
  induction l with
  | nil => rfl
  | cons a l ih => simp only [List.flatMap_cons, List.map_cons, ih, attr_text]

theorem other_text (l : List (Bytes × Bytes)) (h : ∀ p ∈ l, ∃ k : UInt8, p.1 = [k]) :
    l.flatMap (fun v => v.1 ++ b!"=" ++ v.2 ++ b!"\r\n") =
      (l.map fun p => (p.1.headD 0, p.2)).flatMap kvText := by
  induction l with
  | nil => rfl
  | cons a l ih =>
    obtain ⟨k, hk⟩ := h a (by simp)
    simp only [List.flatMap_cons, List.map_cons, ih fun p hp => h p (by simp [hp])]
    simp [hk, kvText, kvLine]

theorem sdp_text (gen : Bytes) (d : SDP) (h : WellFormed d) :
    d.text gen = b!"v=0\r\n" ++ (linesOf d).flatMap kvText := by
  have ho := h.origin
  simp only [List.mem_cons, List.not_mem_nil, or_false, forall_eq_or_imp, forall_eq] at ho
  obtain ⟨⟨o1, _⟩, ⟨o2, _⟩, ⟨o3, _⟩, ⟨o4, _⟩⟩ := ho
  have ha : (match d.audio with | some m => m.text b!"audio" | none => []) =
      (mediaLines b!"audio " d.audio).flatMap kvText := by
    cases hm : d.audio with
    | none => rfl
    | some m => exact media_text b!"audio" m (h.audio m hm).proto.1
  have hv : (match d.video with | some m => m.text b!"video" | none => []) =
      (mediaLines b!"video " d.video).flatMap kvText := by
    cases hm : d.video with
    | none => rfl
    | some m => exact media_text b!"video" m (h.video m hm).proto.1
  have hoth := other_text d.other fun p hp => by
    obtain ⟨k, hk, _⟩ := h.other p hp; exact ⟨k, hk⟩
  have horig : d.origin.text gen = kvText (111, originVal d.origin) := by
    unfold Origin.text originVal netText
    simp only [o1, o2, o3, o4, if_false]
    by_cases hi : isIPv6 d.origin.addr = true <;> simp [hi, kvText, kvLine]
  have hconn : (if isIPv6 d.addr then b!"c=IN IP6 " else b!"c=IN IP4 ") ++ d.addr ++ b!"\r\n" =
      kvText (99, connVal d.addr) := by
    unfold connVal netText
    by_cases hi : isIPv6 d.addr = true <;> simp [hi, kvText, kvLine]
  have hattr : d.attrs.flatMap attrText ++
      (if d.ptime > 0 then b!"a=ptime:" ++ itoa d.ptime ++ b!"\r\n" else []) ++
      (if d.sendOnly then b!"a=sendonly\r\n" else if d.recvOnly then b!"a=recvonly\r\n"
       else b!"a=sendrecv\r\n") = (attrLines d).flatMap kvText := by
    unfold attrLines dirVal
    rw [attrs_text, List.flatMap_append, List.flatMap_append]
    congr 1
    · congr 1
      split <;> simp [kvText, kvLine]
    · split
      · simp [kvText, kvLine]
      · split <;> simp [kvText, kvLine]
  unfold SDP.text linesOf otherLines
  simp only [h.session.1, h.time.1, h.addr.1, if_false, hoth, horig, List.flatMap_append, ← hattr]
  simp only [← hconn, List.flatMap_cons, List.flatMap_nil, List.append_nil]
  simp [kvText, kvLine]
  rw [← ha, ← hv]
  cases d.audio <;> cases d.video <;> rfl

/-! ### The lines can be read -/

theorem mem_digits_not {n : Nat} {c : UInt8} (h : isDigit c = false) : c ∉ natDec n := by
  intro hc
  have := natDec_isDigit n c hc
  simp [h] at this

theorem mem_itoa_not {n : Int} {c : UInt8} (h : isDigit c = false) (h' : c ≠ 45) : c ∉ itoa n := by
  intro hc
  rcases itoa_mem n c hc with e | e
  · simp [h] at e
  · exact h' e

theorem netText_cases (a : Bytes) : netText a = b!"IP4" ∨ netText a = b!"IP6" := by
  unfold netText; split <;> simp

theorem netText_no (a : Bytes) : 32 ∉ netText a ∧ 13 ∉ netText a := by
  rcases netText_cases a with h | h <;> rw [h] <;> decide

theorem connVal_join (a : Bytes) : connVal a = joinByte 32 [b!"IN", netText a, a] := by
  simp [connVal, joinByte]

theorem originVal_join (o : Origin) :
    originVal o = joinByte 32 [o.user, o.id, o.version, b!"IN", netText o.addr, o.addr] := by
  simp [originVal, joinByte]

theorem connEff_of {v a : Bytes} (h : ConnValue v a) : connEff v = .ok a := by
  obtain ⟨net, hn, rfl, h1, h2⟩ := h
  unfold connEff
  rw [splitByte_join (by simp) (by
    intro t ht
    simp at ht
    rcases ht with rfl | rfl | rfl
    · decide
    · rcases hn with rfl | rfl <;> decide
    · exact h1)]
  simp only
  rw [if_neg (by rcases hn with rfl | rfl <;> simp), indexByte_none.2 h2]
  simp

theorem originEff_of {v : Bytes} {o : Origin} (h : OriginValue v o) : originEff v = .ok o := by
  obtain ⟨net, hn, rfl, h1, h2⟩ := h
  simp only [List.mem_cons, List.not_mem_nil, or_false, forall_eq_or_imp, forall_eq] at h1
  unfold originEff
  rw [splitByte_join (by simp) (by
    intro t ht
    simp at ht
    rcases ht with rfl | rfl | rfl | rfl | rfl | rfl
    · exact h1.1
    · exact h1.2.1
    · exact h1.2.2.1
    · decide
    · rcases hn with rfl | rfl <;> decide
    · exact h1.2.2.2)]
  simp only
  rw [if_neg (by rcases hn with rfl | rfl <;> simp), indexByte_none.2 h2]
  simp

theorem connValue_unique {v a b : Bytes} (h : ConnValue v a) (h' : ConnValue v b) : a = b := by
  have := connEff_of h
  rw [connEff_of h'] at this
  simpa using this.symm

theorem originValue_unique {v : Bytes} {a b : Origin} (h : OriginValue v a) (h' : OriginValue v b) : a = b := by
  have := originEff_of h
  rw [originEff_of h'] at this
  simpa using this.symm

/-- Reading succeeds when every `c=` and `o=` line can be read. -/
theorem linesEff_ok (ls : List Bytes) (st : PState)
    (hc : ∀ v ∈ values 99 (pairs ls), ∃ a, ConnValue v a)
    (ho : ∀ v ∈ values 111 (pairs ls), ∃ o, OriginValue v o) : ∃ st', linesEff st ls = .ok st' := by
  induction ls generalizing st with
  | nil => exact ⟨st, rfl⟩
  | cons l ls ih =>
    have hcons : ∀ k v, v ∈ values k (pairs ls) → v ∈ values k (pairs (l :: ls)) := by
      intro k v hv
      unfold pairs values at *
      simp only [List.filterMap_cons]
      cases keyValue l with
      | none => exact hv
      | some p =>
        simp only [List.filter_cons]
        split
        · exact List.mem_cons_of_mem _ hv
        · exact hv
    have hl : ∃ st1, lineEff st l = .ok st1 := by
      unfold lineEff
      cases hk : keyValue l with
      | none => exact ⟨st, rfl⟩
      | some p =>
        obtain ⟨c, v⟩ := p
        have hmem : v ∈ values c (pairs (l :: ls)) := by
          unfold values pairs; simp [hk]
        simp only
        unfold valueEff
        split
        · exact ⟨_, rfl⟩
        split
        · exact ⟨_, rfl⟩
        split
        · exact ⟨_, rfl⟩
        split
        · rename_i e; subst e
          split
          · exact ⟨_, rfl⟩
          · obtain ⟨a, ha⟩ := hc v hmem
            rw [connEff_of ha]; exact ⟨_, rfl⟩
        split
        · rename_i e; subst e
          obtain ⟨a, ha⟩ := ho v hmem
          rw [originEff_of ha]; exact ⟨_, rfl⟩
        split
        · exact ⟨_, rfl⟩
        · exact ⟨_, rfl⟩
    obtain ⟨st1, h1⟩ := hl
    obtain ⟨st2, h2⟩ := ih st1 (fun v hv => hc v (hcons _ v hv)) (fun v hv => ho v (hcons _ v hv))
    exact ⟨st2, by rw [linesEff, h1]; exact h2⟩

/-! ### Media -/

theorem prefix_num {a b : Nat} {x : Bytes} (h : natDec a ++ b!" " <+: natDec b ++ b!" " ++ x) : a = b := by
  obtain ⟨t, ht⟩ := h
  have h1 : indexByte 32 (natDec a ++ 32 :: t) = some (natDec a).length :=
    indexByte_append (mem_digits_not (by decide))
  have h2 : indexByte 32 (natDec b ++ 32 :: x) = some (natDec b).length :=
    indexByte_append (mem_digits_not (by decide))
  simp at ht
  rw [ht, h2] at h1
  simp at h1
  have := List.append_inj_left ht h1.symm
  exact natDec_injective this

/-- Among lines `number value`, the first one for `pt` is that of the first element with that number. -/
theorem firstWith_values {l : List Codec} {f : Codec → Bytes} {c : Codec} (hc : c ∈ l)
    (hu : ∀ c' ∈ l, c'.pt = c.pt → f c' = f c) :
    FirstWith (natDec c.pt.toNat ++ b!" ") (l.map fun c => natDec c.pt.toNat ++ b!" " ++ f c) (f c) := by
  induction l with
  | nil => simp at hc
  | cons d l ih =>
    by_cases h : d.pt = c.pt
    · refine ⟨[], l.map fun c => natDec c.pt.toNat ++ b!" " ++ f c, ?_, by simp⟩
      simp [h, hu d (by simp) h]
    · have hc' : c ∈ l := by
        rcases List.mem_cons.1 hc with rfl | hc
        · exact absurd rfl h
        · exact hc
      obtain ⟨b, a, e, hb⟩ := ih hc' fun c' h' => hu c' (by simp [h'])
      refine ⟨(natDec d.pt.toNat ++ b!" " ++ f d) :: b, a, by rw [List.map_cons, e]; rfl, ?_⟩
      intro s hs
      rcases List.mem_cons.1 hs with rfl | hs
      · intro hp
        exact h (UInt8.toNat_inj.1 (prefix_num hp).symm)
      · exact hb s hs

theorem parseRtpmap_of {c : Codec} (h : CodecOK c) :
    parseRtpmapInfo { pt := c.pt } (c.name ++ b!"/" ++ itoa c.rate ++
      (if c.param ≠ [] then b!"/" ++ c.param else [])) = .ok { c with fmtp := [] } := by
  have hr : 47 ∉ itoa c.rate := mem_itoa_not (by decide) (by decide)
  unfold parseRtpmapInfo
  by_cases hp : c.param = []
  · have : c.name ++ b!"/" ++ itoa c.rate ++ (if c.param ≠ [] then b!"/" ++ c.param else []) =
        joinByte 47 [c.name, itoa c.rate] := by simp [hp, joinByte]
    rw [this, splitByte_join (by simp) (by
      intro t ht; simp at ht; rcases ht with rfl | rfl
      · exact h.name.2.1
      · exact hr)]
    simp [idx, atoi_itoa _ h.rate.1 h.rate.2, hp]
  · have : c.name ++ b!"/" ++ itoa c.rate ++ (if c.param ≠ [] then b!"/" ++ c.param else []) =
        joinByte 47 [c.name, itoa c.rate, c.param] := by simp [hp, joinByte]
    rw [this, splitByte_join (by simp) (by
      intro t ht; simp at ht; rcases ht with rfl | rfl | rfl
      · exact h.name.2.1
      · exact hr
      · exact h.param.1)]
    simp [idx, atoi_itoa _ h.rate.1 h.rate.2]

theorem populateCodec_of {l : List Codec} {c : Codec} (hc : c ∈ l) (ok : CodecOK c)
    (hu : ∀ c' ∈ l, c'.pt = c.pt → c' = c) :
    populateCodec (l.map rtpmapVal) ((l.filter (·.fmtp ≠ [])).map fmtpVal) c.pt = .ok c := by
  have e1 : l.map rtpmapVal = l.map fun c => natDec c.pt.toNat ++ b!" " ++ (c.name ++ b!"/" ++ itoa c.rate ++
      (if c.param ≠ [] then b!"/" ++ c.param else [])) := by
    apply List.map_congr_left; intro c _; simp [rtpmapVal]
  unfold populateCodec
  dsimp only
  rw [itoa_nat, e1, firstWith_of (firstWith_values hc (f := fun c => c.name ++ b!"/" ++ itoa c.rate ++
      (if c.param ≠ [] then b!"/" ++ c.param else [])) fun c' h' e => by rw [hu c' h' e])]
  simp only [Res.bind_eq, Res.ok_bind, rtpmapCodec, parseRtpmap_of ok]
  simp only [ianaCodec, ok.name.1, if_false, Res.ok_bind]
  by_cases hf : c.fmtp = []
  · rw [firstWith_none]
    · simp [← hf]
    · intro s hs
      simp at hs
      obtain ⟨c', ⟨hc', hne⟩, rfl⟩ := hs
      intro hp
      have : c'.pt = c.pt := (UInt8.toNat_inj.1 (prefix_num (x := c'.fmtp) hp)).symm
      rw [hu c' hc' this] at hne
      exact hne hf
  · have hm : c ∈ l.filter (·.fmtp ≠ []) := by simp [hc, hf]
    have := firstWith_values (f := fun c => c.fmtp) hm (by
      intro c' h' e
      simp at h'
      rw [hu c' h'.1 e])
    rw [show (fun c : Codec => natDec c.pt.toNat ++ b!" " ++ c.fmtp) = fmtpVal from rfl] at this
    rw [firstWith_of this]
    simp

theorem populateCodecs_of {l cs : List Codec} (hs : ∀ c ∈ cs, c ∈ l) (ok : ∀ c ∈ cs, CodecOK c)
    (hu : ∀ c ∈ l, ∀ c' ∈ l, c'.pt = c.pt → c' = c) :
    populateCodecs (l.map rtpmapVal) ((l.filter (·.fmtp ≠ [])).map fmtpVal) (cs.map Codec.pt) = .ok cs := by
  induction cs with
  | nil => rfl
  | cons c cs ih =>
    rw [List.map_cons, populateCodecs,
      populateCodec_of (hs c (by simp)) (ok c (by simp)) (hu c (hs c (by simp))),
      ih (fun c h => hs c (by simp [h])) fun c h => ok c (by simp [h])]
    rfl

theorem parsePts_of (pts : List UInt8) : parsePts (pts.map fun p => natDec p.toNat) = .ok pts := by
  induction pts with
  | nil => rfl
  | cons p pts ih =>
    rw [List.map_cons, parsePts, parseUint_natDec (by have := p.toNat_lt; omega), ih]
    simp

theorem mediaVal_join (m : Media) :
    mediaVal m = joinByte 32 (natDec m.port.toNat :: m.proto :: (m.codecs.map fun c => natDec c.pt.toNat)) := by
  unfold mediaVal
  have : ∀ (p : Bytes) (cs : List Codec), p ++ cs.flatMap (fun c => b!" " ++ natDec c.pt.toNat) =
      joinByte 32 (p :: cs.map fun c => natDec c.pt.toNat) := by
    intro p cs
    induction cs generalizing p with
    | nil => simp [joinByte]
    | cons c cs ih =>
      rw [List.map_cons, joinByte_cons (by simp), ← ih]
      simp
  rw [List.append_assoc, this, joinByte_cons (t := natDec m.port.toNat) (by simp)]
  simp

theorem parseMedia_of {l : List Codec} {m : Media} (ok : MediaOK m) (hs : ∀ c ∈ m.codecs, c ∈ l)
    (hu : ∀ c ∈ l, ∀ c' ∈ l, c'.pt = c.pt → c' = c) :
    parseMedia (l.map rtpmapVal) ((l.filter (·.fmtp ≠ [])).map fmtpVal) (mediaVal m) = .ok (some m) := by
  unfold parseMedia
  have hne : mediaVal m ≠ [] := by
    unfold mediaVal
    have := natDec_ne_nil m.port.toNat
    simp [this]
  rw [if_neg hne]
  have hinfo : parseMediaInfo (mediaVal m) = .ok (m.port, m.proto, m.codecs.map Codec.pt) := by
    unfold parseMediaInfo
    rw [mediaVal_join, splitByte_join (by simp) (by
      intro t ht
      simp at ht
      rcases ht with rfl | rfl | ⟨c, _, rfl⟩
      · exact mem_digits_not (by decide)
      · exact ok.proto.2.1
      · exact mem_digits_not (by decide))]
    have hl : m.codecs.length ≠ 0 := by
      intro e; exact ok.codecs.1 (List.length_eq_zero_iff.1 e)
    have hport : portPart (natDec m.port.toNat) = .ok (natDec m.port.toNat) := by
      unfold portPart
      rw [indexByte_none.2 (mem_digits_not (by decide))]
    have hpts : parsePts (m.codecs.map fun c => natDec c.pt.toNat) = .ok (m.codecs.map Codec.pt) := by
      have := parsePts_of (m.codecs.map Codec.pt)
      rw [List.map_map] at this; exact this
    dsimp only
    rw [if_neg (by simp; omega)]
    simp only [idx, List.getElem?_cons_succ, List.getElem?_cons_zero, Res.bind_eq, Res.ok_bind, hport,
      parseUint_natDec (show m.port.toNat < 2 ^ 16 from m.port.toNat_lt), List.drop_succ_cons, List.drop_zero, hpts]
    simp
  rw [hinfo, Res.bind_eq, Res.ok_bind]
  simp only
  rw [populateCodecs_of hs ok.codecs.2 hu]
  simp

/-! ### The fields of the lines -/

theorem values_append (k : UInt8) (a b : List (UInt8 × Bytes)) :
    values k (a ++ b) = values k a ++ values k b := by
  simp [values]

theorem fields_append (k : UInt8) (pre : Bytes) (a b : List (UInt8 × Bytes)) :
    fields k pre (a ++ b) = fields k pre a ++ fields k pre b := by
  simp [fields, values_append]

theorem values_all {k : UInt8} {l : List (UInt8 × Bytes)} (h : ∀ p ∈ l, p.1 = k) :
    values k l = l.map (·.2) := by
  unfold values
  rw [List.filter_eq_self.2 (by simpa using h)]

theorem values_none {k : UInt8} {l : List (UInt8 × Bytes)} (h : ∀ p ∈ l, p.1 ≠ k) : values k l = [] := by
  unfold values
  rw [List.filter_eq_nil_iff.2 (by simpa using h)]
  rfl

theorem codecLines_key (c : Codec) : ∀ p ∈ codecLines c, p.1 = 97 := by
  unfold codecLines
  intro p hp
  split at hp <;> simp at hp
  · rcases hp with rfl | rfl <;> rfl
  · rw [hp]

theorem codecsLines_key (cs : List Codec) : ∀ p ∈ cs.flatMap codecLines, p.1 = 97 := by
  intro p hp
  obtain ⟨c, _, h⟩ := List.mem_flatMap.1 hp
  exact codecLines_key c p h

theorem attrLines_key (d : SDP) : ∀ p ∈ attrLines d, p.1 = 97 := by
  unfold attrLines
  intro p hp
  simp only [List.mem_append, List.mem_map] at hp
  rcases hp with (⟨a, _, rfl⟩ | hp) | hp
  · rfl
  · split at hp <;> simp at hp; rw [hp]
  · simp at hp; rw [hp]

theorem mediaLines_values (type : Bytes) (k : UInt8) (h1 : k ≠ 97) (h2 : k ≠ 109) (om : Option Media) :
    values k (mediaLines type om) = [] := by
  apply values_none
  cases om with
  | none => simp [mediaLines]
  | some m =>
    intro p hp
    rcases List.mem_cons.1 hp with rfl | hp
    · exact fun e => h2 e.symm
    · rw [codecsLines_key _ p hp]; exact fun e => h1 e.symm

theorem mediaLines_97 (type : Bytes) (m : Media) :
    values 97 (mediaLines type (some m)) = m.codecs.flatMap fun c => (codecLines c).map (·.2) := by
  show values 97 ([(109, type ++ mediaVal m)] ++ m.codecs.flatMap codecLines) = _
  rw [values_append, values_none (by simp), values_all (codecsLines_key _),
    List.map_flatMap, List.nil_append]

theorem mediaLines_109 (type : Bytes) (m : Media) :
    values 109 (mediaLines type (some m)) = [type ++ mediaVal m] := by
  show values 109 ([(109, type ++ mediaVal m)] ++ m.codecs.flatMap codecLines) = _
  rw [values_append, values_all (by simp),
    values_none (fun p hp => by rw [codecsLines_key _ p hp]; decide)]
  rfl

theorem strip_self (p v : Bytes) : strip p (p ++ v) = some v := by
  unfold strip
  rw [if_pos (by rw [List.isPrefixOf_iff_prefix]; exact ⟨v, rfl⟩)]
  simp

theorem strip_diff {p q v : Bytes} (hd : ∀ r, ¬ q <+: p ++ r) : strip q (p ++ v) = none :=
  strip_other ((hasPrefix_iff _ _).2 ⟨v, rfl⟩) hd

theorem codec_fields (c : Codec) :
    ((codecLines c).map (·.2)).filterMap (strip b!"rtpmap:") = [rtpmapVal c] ∧
    ((codecLines c).map (·.2)).filterMap (strip b!"fmtp:") = (if c.fmtp ≠ [] then [fmtpVal c] else []) ∧
    ((codecLines c).map (·.2)).filterMap (strip b!"ptime:") = [] ∧
    ((codecLines c).map (·.2)).filter (! reserved ·) = [] := by
  have a1 := strip_self b!"rtpmap:" (rtpmapVal c)
  have a2 : strip b!"rtpmap:" (b!"fmtp:" ++ fmtpVal c) = none := strip_diff (by simp [List.cons_prefix_cons])
  have a3 := strip_self b!"fmtp:" (fmtpVal c)
  have a4 : strip b!"fmtp:" (b!"rtpmap:" ++ rtpmapVal c) = none := strip_diff (by simp [List.cons_prefix_cons])
  have a5 : strip b!"ptime:" (b!"rtpmap:" ++ rtpmapVal c) = none := strip_diff (by simp [List.cons_prefix_cons])
  have a6 : strip b!"ptime:" (b!"fmtp:" ++ fmtpVal c) = none := strip_diff (by simp [List.cons_prefix_cons])
  have a7 : reserved (b!"rtpmap:" ++ rtpmapVal c) = true := by simp [reserved]
  have a8 : reserved (b!"fmtp:" ++ fmtpVal c) = true := by simp [reserved]
  unfold codecLines
  by_cases hf : c.fmtp = []
  · simp only [hf, ne_eq, not_true_eq_false, if_false, List.map_cons, List.map_nil, List.filterMap_cons,
      List.filterMap_nil, List.filter_cons, List.filter_nil, a1, a4, a5, a7]
    simp
  · simp only [hf, ne_eq, not_false_eq_true, if_true, List.map_cons, List.map_nil, List.filterMap_cons,
      List.filterMap_nil, List.filter_cons, List.filter_nil, a1, a2, a3, a4, a5, a6, a7, a8]
    simp

theorem codecs_fields (cs : List Codec) :
    (cs.flatMap fun c => (codecLines c).map (·.2)).filterMap (strip b!"rtpmap:") = cs.map rtpmapVal ∧
    (cs.flatMap fun c => (codecLines c).map (·.2)).filterMap (strip b!"fmtp:") =
      (cs.filter (·.fmtp ≠ [])).map fmtpVal ∧
    (cs.flatMap fun c => (codecLines c).map (·.2)).filterMap (strip b!"ptime:") = [] ∧
    (cs.flatMap fun c => (codecLines c).map (·.2)).filter (! reserved ·) = [] := by
  induction cs with
  | nil => simp
  | cons c cs ih =>
    obtain ⟨i1, i2, i3, i4⟩ := ih
    obtain ⟨c1, c2, c3, c4⟩ := codec_fields c
    refine ⟨?_, ?_, ?_, ?_⟩
    · rw [List.flatMap_cons, List.filterMap_append, i1, c1]; rfl
    · rw [List.flatMap_cons, List.filterMap_append, i2, c2, List.filter_cons]
      by_cases hf : c.fmtp = [] <;> simp [hf]
    · rw [List.flatMap_cons, List.filterMap_append, i3, c3]; rfl
    · rw [List.flatMap_cons, List.filter_append, i4, c4]; rfl

theorem reserved_strip {v : Bytes} (h : reserved v = false) :
    strip b!"rtpmap:" v = none ∧ strip b!"fmtp:" v = none ∧ strip b!"ptime:" v = none ∧
    v ≠ b!"sendonly" ∧ v ≠ b!"recvonly" := by
  unfold reserved at h
  simp only [Bool.or_eq_false_iff, decide_eq_false_iff_not] at h
  obtain ⟨⟨⟨⟨⟨⟨h1, h2⟩, h3⟩, h4⟩, h5⟩, h6⟩, h7⟩ := h
  refine ⟨if_neg (by rw [h1]; simp), if_neg (by rw [h2]; simp), if_neg (by rw [h3]; simp), h6, h7⟩

theorem attrs_fields (l : List (Bytes × Bytes)) (h : ∀ a ∈ l, reserved (attrValue a) = false) :
    (l.map attrValue).filterMap (strip b!"rtpmap:") = [] ∧
    (l.map attrValue).filterMap (strip b!"fmtp:") = [] ∧
    (l.map attrValue).filterMap (strip b!"ptime:") = [] ∧
    (l.map attrValue).filter (! reserved ·) = l.map attrValue := by
  have hm : ∀ v ∈ l.map attrValue, reserved v = false := by
    intro v hv; obtain ⟨a, ha, rfl⟩ := List.mem_map.1 hv; exact h a ha
  refine ⟨?_, ?_, ?_, ?_⟩
  · rw [List.filterMap_eq_nil_iff]; intro v hv; exact (reserved_strip (hm v hv)).1
  · rw [List.filterMap_eq_nil_iff]; intro v hv; exact (reserved_strip (hm v hv)).2.1
  · rw [List.filterMap_eq_nil_iff]; intro v hv; exact (reserved_strip (hm v hv)).2.2.1
  · rw [List.filter_eq_self]; intro v hv; simp [hm v hv]

theorem dirVal_reserved (d : SDP) : reserved (dirVal d) = true ∧ strip b!"rtpmap:" (dirVal d) = none ∧
    strip b!"fmtp:" (dirVal d) = none ∧ strip b!"ptime:" (dirVal d) = none := by
  unfold dirVal
  split
  · decide
  · split <;> decide

theorem ptime_reserved (p : Int) : reserved (b!"ptime:" ++ itoa p) = true ∧
    strip b!"rtpmap:" (b!"ptime:" ++ itoa p) = none ∧ strip b!"fmtp:" (b!"ptime:" ++ itoa p) = none := by
  refine ⟨by simp [reserved], strip_diff (by simp [List.cons_prefix_cons]),
    strip_diff (by simp [List.cons_prefix_cons])⟩

theorem attrLines_fields (d : SDP) (h : ∀ a ∈ d.attrs, reserved (attrValue a) = false) :
    fields 97 b!"rtpmap:" (attrLines d) = [] ∧ fields 97 b!"fmtp:" (attrLines d) = [] ∧
    fields 97 b!"ptime:" (attrLines d) = (if d.ptime > 0 then [itoa d.ptime] else []) ∧
    (values 97 (attrLines d)).filter (! reserved ·) = d.attrs.map attrValue := by
  obtain ⟨a1, a2, a3, a4⟩ := attrs_fields d.attrs h
  obtain ⟨b1, b2, b3, b4⟩ := dirVal_reserved d
  obtain ⟨c1, c2, c3⟩ := ptime_reserved d.ptime
  have c4 := strip_self b!"ptime:" (itoa d.ptime)
  unfold fields
  rw [values_all (attrLines_key d)]
  unfold attrLines
  simp only [List.map_append, List.map_map, List.map_cons, List.map_nil]
  rw [show ((fun x => x.snd) ∘ fun a => ((97 : UInt8), attrValue a)) = attrValue from rfl]
  simp only [List.filterMap_append, List.filter_append, a1, a2, a3, a4]
  by_cases hp : d.ptime > 0
  · simp only [hp, if_true, List.map_cons, List.map_nil, List.filterMap_cons, List.filterMap_nil,
      List.filter_cons, List.filter_nil, b1, b2, b3, b4, c1, c2, c3, c4]
    simp
  · simp only [hp, if_false, List.map_nil, List.filterMap_cons, List.filterMap_nil, 
      List.filter_cons, List.filter_nil, b1, b2, b3, b4]
    simp

theorem otherLines_values (d : SDP) (h : WellFormed d) (k : UInt8) (hk : k ∈ knownKeys) :
    values k (otherLines d) = [] := by
  apply values_none
  intro p hp
  obtain ⟨q, hq, rfl⟩ := List.mem_map.1 hp
  obtain ⟨k', e, hk', _⟩ := h.other q hq
  simp only [e, List.headD_cons]
  rintro rfl
  exact hk' hk

/-- Codecs of an optional media. -/
def codecsOf (om : Option Media) : List Codec := (om.map Media.codecs).getD []

theorem mediaLines_fields (type : Bytes) (om : Option Media) :
    fields 97 b!"rtpmap:" (mediaLines type om) = (codecsOf om).map rtpmapVal ∧
    fields 97 b!"fmtp:" (mediaLines type om) = ((codecsOf om).filter (·.fmtp ≠ [])).map fmtpVal ∧
    fields 97 b!"ptime:" (mediaLines type om) = [] ∧
    (values 97 (mediaLines type om)).filter (! reserved ·) = [] := by
  cases om with
  | none => simp [mediaLines, fields, values, codecsOf]
  | some m =>
    unfold fields
    rw [mediaLines_97]
    exact codecs_fields m.codecs

theorem mediaLines_info (type : Bytes) (om : Option Media) :
    fields 109 type (mediaLines type om) = (om.map mediaVal).toList := by
  cases om with
  | none => rfl
  | some m =>
    unfold fields
    rw [mediaLines_109, List.filterMap_cons, strip_self]
    rfl

theorem mediaLines_info_other {type type' : Bytes} (h : ∀ r, ¬ type' <+: type ++ r) (om : Option Media) :
    fields 109 type' (mediaLines type om) = [] := by
  cases om with
  | none => rfl
  | some m =>
    unfold fields
    rw [mediaLines_109, List.filterMap_cons, strip_diff h]
    rfl

theorem dir_mem (d : SDP) (h : WellFormed d) (x : Bytes) (hx : x = b!"sendonly" ∨ x = b!"recvonly") :
    (97, x) ∈ linesOf d ↔ dirVal d = x := by
  have hx2 : x ≠ [] ∧ (∀ r, x ≠ b!"rtpmap:" ++ r) ∧ (∀ r, x ≠ b!"fmtp:" ++ r) ∧ (∀ r, x ≠ b!"ptime:" ++ r) ∧
      reserved x = true := by
    rcases hx with rfl | rfl <;> simp [reserved]
  have hmedia : ∀ type om, (97, x) ∉ mediaLines type om := by
    intro type om hm
    cases om with
    | none => simp [mediaLines] at hm
    | some m =>
      rcases List.mem_cons.1 hm with e | hm
      · simp at e
      · obtain ⟨c, _, hm⟩ := List.mem_flatMap.1 hm
        unfold codecLines at hm
        rcases List.mem_cons.1 hm with e | hm
        · simp only [Prod.mk.injEq, true_and] at e; exact hx2.2.1 _ e
        · split at hm
          · simp only [List.mem_singleton, Prod.mk.injEq, true_and] at hm; exact hx2.2.2.1 _ hm
          · simp at hm
  have hother : (97, x) ∉ otherLines d := by
    intro hm
    obtain ⟨q, hq, e⟩ := List.mem_map.1 hm
    obtain ⟨k', e1, hk', _⟩ := h.other q hq
    simp [e1] at e
    exact hk' (by rw [e.1]; decide)
  have hattrs : (97, x) ∈ attrLines d ↔ dirVal d = x := by
    unfold attrLines
    simp only [List.mem_append, List.mem_map]
    constructor
    · rintro ((⟨a, ha, e⟩ | hm) | hm)
      · simp at e
        have := (h.attrs a ha).2.2.2.2
        rw [e, hx2.2.2.2.2] at this; simp at this
      · split at hm
        · simp only [List.mem_singleton, Prod.mk.injEq, true_and] at hm; exact absurd hm (hx2.2.2.2.1 _)
        · simp at hm
      · simp at hm; exact hm.symm
    · intro e; right; simp [e]
  unfold linesOf
  simp only [List.mem_append, hmedia, hother, hattrs, or_false]
  simp

theorem wf_lines {d : SDP} (h : WellFormed d) : ∀ p ∈ linesOf d, p.2 ≠ [] ∧ NoCRLF (kvLine p) := by
  have kv : ∀ {k : UInt8} {v : Bytes}, NoCRLF v → NoCRLF (kvLine (k, v)) := by
    intro k v hv
    exact noCRLF_sep (a := [k]) (b := v) (c := 61) (by
      refine noCRLF_cons.2 ⟨?_, noCRLF_nil⟩
      simp [startsLF]) hv (by decide) (by decide)
  have num : ∀ n, NoCRLF (natDec n) := fun n => noCRLF_of13 (mem_digits_not (by decide))
  have inum : ∀ n, NoCRLF (itoa n) := fun n => noCRLF_of13 (mem_itoa_not (by decide) (by decide))
  have net : ∀ a, NoCRLF (netText a) := fun a => noCRLF_of13 (netText_no a).2
  have sep : ∀ {a b : Bytes} {c : UInt8}, NoCRLF a → NoCRLF b → c ≠ 13 → c ≠ 10 → NoCRLF (a ++ [c] ++ b) := by
    intro a b c ha hb h1 h2
    have := noCRLF_sep ha hb h1 h2
    simpa using this
  have hcodec : ∀ c, CodecOK c → ∀ p ∈ codecLines c, p.2 ≠ [] ∧ NoCRLF (kvLine p) := by
    intro c ok p hp
    have hr : NoCRLF (rtpmapVal c) := by
      unfold rtpmapVal
      have h1 := sep (c := 47) (sep (c := 32) (num c.pt.toNat) ok.name.2.2 (by decide) (by decide)) (inum c.rate) (by decide) (by decide)
      split
      · have := sep (c := 47) h1 ok.param.2 (by decide) (by decide)
        simpa using this
      · simpa using h1
    have hf : NoCRLF (fmtpVal c) := sep (c := 32) (num _) ok.fmtp (by decide) (by decide)
    unfold codecLines at hp
    rcases List.mem_cons.1 hp with rfl | hp
    · exact ⟨by simp, kv (noCRLF_lit (by decide) hr)⟩
    · split at hp
      · simp only [List.mem_singleton] at hp; subst hp
        exact ⟨by simp, kv (noCRLF_lit (by decide) hf)⟩
      · simp at hp
  have hmedia : ∀ type om, 13 ∉ type → (∀ m, om = some m → MediaOK m) →
      ∀ p ∈ mediaLines type om, p.2 ≠ [] ∧ NoCRLF (kvLine p) := by
    intro type om ht hm p hp
    cases om with
    | none => simp [mediaLines] at hp
    | some m =>
      have ok := hm m rfl
      rcases List.mem_cons.1 hp with rfl | hp
      · refine ⟨?_, kv (noCRLF_lit ht ?_)⟩
        · have := natDec_ne_nil m.port.toNat
          simp [mediaVal, this]
        · unfold mediaVal
          have h1 := sep (c := 32) (num m.port.toNat) ok.proto.2.2 (by decide) (by decide)
          generalize natDec m.port.toNat ++ [32] ++ m.proto = x at h1 ⊢
          generalize m.codecs = cs
          induction cs generalizing x with
          | nil => simpa using h1
          | cons c cs ih =>
            have := ih _ (sep (c := 32) h1 (num c.pt.toNat) (by decide) (by decide))
            simpa using this
      · obtain ⟨c, hc, hp⟩ := List.mem_flatMap.1 hp
        exact hcodec c (ok.codecs.2 c hc) p hp
  intro p hp
  unfold linesOf at hp
  simp only [List.mem_append] at hp
  have ho := h.origin
  simp only [List.mem_cons, List.not_mem_nil, or_false, forall_eq_or_imp, forall_eq] at ho
  obtain ⟨⟨_, _, o1⟩, ⟨_, _, o2⟩, ⟨_, _, o3⟩, ⟨o5, _, o4⟩⟩ := ho
  rcases hp with (((hp | hp) | hp) | hp) | hp
  · simp only [List.mem_cons, List.not_mem_nil, or_false] at hp
    rcases hp with rfl | rfl | rfl | rfl
    · refine ⟨by simp [originVal], kv ?_⟩
      have h1 := sep (c := 32) (sep (c := 32) o1 o2 (by decide) (by decide)) o3 (by decide) (by decide)
      have h2 : NoCRLF b!"IN" := noCRLF_of13 (by decide)
      have h3 := sep (c := 32) (sep (c := 32) (sep (c := 32) h1 h2 (by decide) (by decide)) (net d.origin.addr) (by decide) (by decide))
        o4 (by decide) (by decide)
      unfold originVal
      simpa using h3
    · exact ⟨h.session.1, kv h.session.2⟩
    · refine ⟨by simp [connVal], kv ?_⟩
      unfold connVal
      have := sep (c := 32) (noCRLF_lit (a := b!"IN ") (by decide) (net d.addr)) h.addr.2.2.2 (by decide) (by decide)
      simpa using this
    · exact ⟨h.time.1, kv h.time.2⟩
  · exact hmedia _ _ (by decide) h.audio p hp
  · exact hmedia _ _ (by decide) h.video p hp
  · unfold attrLines at hp
    simp only [List.mem_append, List.mem_map] at hp
    rcases hp with (⟨a, ha, rfl⟩ | hp) | hp
    · obtain ⟨h1, h2, h3, h4, h5⟩ := h.attrs a ha
      unfold attrValue
      split
      · exact ⟨h1, kv h3⟩
      · exact ⟨by simp, kv (sep h3 h4 (by decide) (by decide))⟩
    · split at hp
      · simp only [List.mem_singleton] at hp; subst hp
        exact ⟨by simp, kv (noCRLF_lit (by decide) (inum _))⟩
      · simp at hp
    · simp only [List.mem_singleton] at hp; subst hp
      unfold dirVal
      split
      · exact ⟨by decide, kv (noCRLF_of13 (by decide))⟩
      · split
        · exact ⟨by decide, kv (noCRLF_of13 (by decide))⟩
        · exact ⟨by decide, kv (noCRLF_of13 (by decide))⟩
  · obtain ⟨q, hq, rfl⟩ := List.mem_map.1 hp
    obtain ⟨k', e1, hk', h1, h2⟩ := h.other q hq
    exact ⟨h1, kv h2⟩

theorem attrOf_value {a : Bytes × Bytes} (h : 58 ∉ a.1) : attrOf (attrValue a) = a := by
  obtain ⟨n, v⟩ := a
  unfold attrValue
  by_cases hv : v = []
  · subst hv
    simp only [if_true]
    exact attrOf_none (indexByte_none.2 h)
  · simp only [hv, if_false]
    rw [attrOf_some (n := n.length) (by simpa using indexByte_append h)]
    simp

theorem parse_text (gen : Bytes) (d : SDP) (h : WellFormed d) : parse (d.text gen) = .ok d := by
  rw [parse_eff, sdp_text gen d h]
  have hpre : hasPrefix b!"v=0\r\n" (b!"v=0\r\n" ++ (linesOf d).flatMap kvText) = true :=
    (hasPrefix_iff _ _).2 ⟨_, rfl⟩
  rw [hpre]
  have hdrop : List.drop 5 (b!"v=0\r\n" ++ (linesOf d).flatMap kvText) = (linesOf d).flatMap kvText := by simp
  have wl := wf_lines h
  rw [hdrop, splitCRLF_lines _ fun p hp => (wl p hp).2]
  have hp := pairs_lines (linesOf d) fun p hp => (wl p hp).1
  generalize hls : (linesOf d).map kvLine ++ [[]] = ls at hp
  have hlen : ¬ ls.length < 2 := by
    rw [← hls]; simp [linesOf]
  simp only [Bool.not_true, Bool.false_eq_true, if_false, if_neg hlen]
  -- the fields
  have key4 : ∀ k, k ∈ knownKeys → k ≠ 97 → k ≠ 109 → values k (linesOf d) =
      values k [(111, originVal d.origin), (115, d.session), (99, connVal d.addr), (116, d.time)] := by
    intro k hk h1 h2
    unfold linesOf
    rw [values_append, values_append, values_append, values_append, otherLines_values d h k hk,
      mediaLines_values _ k h1 h2, mediaLines_values _ k h1 h2,
      values_none (l := attrLines d) (fun p hp => by rw [attrLines_key d p hp]; exact fun e => h1 e.symm)]
    simp
  have v111 : values 111 (linesOf d) = [originVal d.origin] := by
    rw [key4 111 (by decide) (by decide) (by decide)]; simp [values]
  have v115 : values 115 (linesOf d) = [d.session] := by
    rw [key4 115 (by decide) (by decide) (by decide)]; simp [values]
  have v99 : values 99 (linesOf d) = [connVal d.addr] := by
    rw [key4 99 (by decide) (by decide) (by decide)]; simp [values]
  have v116 : values 116 (linesOf d) = [d.time] := by
    rw [key4 116 (by decide) (by decide) (by decide)]; simp [values]
  have hres : ∀ a ∈ d.attrs, reserved (attrValue a) = false := fun a ha => (h.attrs a ha).2.2.2.2
  obtain ⟨t1, t2, t3, t4⟩ := attrLines_fields d hres
  obtain ⟨p1, p2, p3, p4⟩ := mediaLines_fields b!"audio " d.audio
  obtain ⟨q1, q2, q3, q4⟩ := mediaLines_fields b!"video " d.video
  have o97 := otherLines_values d h 97 (by decide)
  have o109 := otherLines_values d h 109 (by decide)
  have first97 : values 97 [(111, originVal d.origin), (115, d.session), (99, connVal d.addr), (116, d.time)] = [] := by
    simp [values]
  have f97 : ∀ pre, fields 97 pre (linesOf d) = fields 97 pre (mediaLines b!"audio " d.audio) ++
      fields 97 pre (mediaLines b!"video " d.video) ++ fields 97 pre (attrLines d) := by
    intro pre
    unfold linesOf
    rw [fields_append, fields_append, fields_append, fields_append]
    have e1 : fields 97 pre (otherLines d) = [] := by unfold fields; rw [o97]; rfl
    have e2 : fields 97 pre [(111, originVal d.origin), (115, d.session), (99, connVal d.addr), (116, d.time)] = [] := by
      unfold fields; rw [first97]; rfl
    rw [e1, e2]; simp
  have fr : fields 97 b!"rtpmap:" (linesOf d) = (allCodecs d).map rtpmapVal := by
    rw [f97, t1, p1, q1]; simp [allCodecs, codecsOf]
  have ff : fields 97 b!"fmtp:" (linesOf d) = ((allCodecs d).filter (·.fmtp ≠ [])).map fmtpVal := by
    rw [f97, t2, p2, q2]; simp [allCodecs, codecsOf]
  have fp : fields 97 b!"ptime:" (linesOf d) = (if d.ptime > 0 then [itoa d.ptime] else []) := by
    rw [f97, t3, p3, q3]; simp
  have fattr : (values 97 (linesOf d)).filter (! reserved ·) = d.attrs.map attrValue := by
    unfold linesOf
    rw [values_append, values_append, values_append, values_append, o97, first97]
    simp only [List.filter_append, p4, q4, t4]
    simp
  have f109 : ∀ pre, fields 109 pre (linesOf d) = fields 109 pre (mediaLines b!"audio " d.audio) ++
      fields 109 pre (mediaLines b!"video " d.video) := by
    intro pre
    unfold linesOf
    rw [fields_append, fields_append, fields_append, fields_append]
    have e1 : fields 109 pre (otherLines d) = [] := by unfold fields; rw [o109]; rfl
    have e2 : fields 109 pre [(111, originVal d.origin), (115, d.session), (99, connVal d.addr), (116, d.time)] = [] := by
      simp [fields, values]
    have e3 : fields 109 pre (attrLines d) = [] := by
      unfold fields
      rw [values_none (l := attrLines d) (fun p hp => by rw [attrLines_key d p hp]; decide)]; rfl
    rw [e1, e2, e3]; simp
  have fa : fields 109 b!"audio " (linesOf d) = (d.audio.map mediaVal).toList := by
    rw [f109, mediaLines_info, mediaLines_info_other (by simp [List.cons_prefix_cons]), List.append_nil]
  have fv : fields 109 b!"video " (linesOf d) = (d.video.map mediaVal).toList := by
    rw [f109, mediaLines_info, mediaLines_info_other (by simp [List.cons_prefix_cons]), List.nil_append]
  -- reading succeeds
  have hconn : ConnValue (connVal d.addr) d.addr :=
    ⟨netText d.addr, netText_cases _, connVal_join _, h.addr.2.1, h.addr.2.2.1⟩
  have horig : OriginValue (originVal d.origin) d.origin :=
    ⟨netText d.origin.addr, netText_cases _, originVal_join _, fun t ht => (h.origin t ht).2.1, h.originAddr⟩
  obtain ⟨st, hst⟩ := linesEff_ok ls initState (by
    rw [hp, v99]; intro v hv; simp at hv; subst hv; exact ⟨_, hconn⟩) (by
    rw [hp, v111]; intro v hv; simp at hv; subst hv; exact ⟨_, horig⟩)
  have inv := inv_lines inv_init hst
  rw [List.nil_append, hp] at inv
  rw [hst, Res.bind_eq, Res.ok_bind]
  have okc : st.okConn = true := by
    cases hc : st.okConn with
    | true => rfl
    | false => have := inv.conn0 hc; rw [v99] at this; simp at this
  have oko : st.okOrigin = true := by
    cases hc : st.okOrigin with
    | true => rfl
    | false => have := inv.origin0 hc; rw [v111] at this; simp at this
  have haddr : st.sdp.addr = d.addr := by
    obtain ⟨v, e, hv⟩ := inv.conn1 okc
    rw [v99] at e; simp at e; subst e
    exact connValue_unique hv hconn
  have hor : st.sdp.origin = d.origin := by
    obtain ⟨v, e, hv⟩ := inv.origin oko
    rw [v111] at e; simp at e; subst e
    exact originValue_unique hv horig
  have hu : ∀ c ∈ allCodecs d, ∀ c' ∈ allCodecs d, c'.pt = c.pt → c' = c :=
    fun c hc c' hc' e => h.consistent c' hc' c hc e
  have hau : parseMedia st.rtpmaps st.fmtps st.audioinfo = .ok d.audio := by
    rw [inv.rtpmaps, inv.fmtps, inv.audio, fr, ff, fa]
    cases hm : d.audio with
    | none => rfl
    | some m =>
      exact parseMedia_of (h.audio m hm) (fun c hc => by simp [allCodecs, hm, hc]) hu
  have hvi : parseMedia st.rtpmaps st.fmtps st.videoinfo = .ok d.video := by
    rw [inv.rtpmaps, inv.fmtps, inv.video, fr, ff, fv]
    cases hm : d.video with
    | none => rfl
    | some m =>
      exact parseMedia_of (h.video m hm) (fun c hc => by simp [allCodecs, hm, hc]) hu
  rw [okc, oko, hau, hvi]
  have hnm : (d.audio.isNone && d.video.isNone) = false := by
    rcases h.media with hm | hm
    · cases hx : d.audio with
      | none => exact absurd hx hm
      | some m => rfl
    · cases hx : d.video with
      | none => exact absurd hx hm
      | some m => simp
  simp only [Bool.not_true, Bool.or_self, Bool.false_eq_true, if_false, Res.bind_eq, Res.ok_bind, hnm]
  congr 1
  have hs := inv.session
  rw [v115] at hs
  have ht := inv.time
  rw [v116] at ht
  have hpt : st.sdp.ptime = d.ptime := by
    rw [inv.ptime]
    unfold ptimes
    rw [fp]
    split
    · rename_i hpos
      rw [List.filterMap_cons, atoi_itoa _ (by have := h.ptime.1; omega) h.ptime.2]
      have hpos : 0 < d.ptime := hpos
      simp [hpos]
    · have := h.ptime.1
      simp; omega
  have hsend : st.sdp.sendOnly = d.sendOnly := by
    have := (inv.sendOnly.trans (dir_mem d h _ (.inl rfl)))
    rw [Bool.eq_iff_iff, this]
    unfold dirVal
    cases d.sendOnly <;> cases d.recvOnly <;> simp
  have hrecv : st.sdp.recvOnly = d.recvOnly := by
    have := (inv.recvOnly.trans (dir_mem d h _ (.inr rfl)))
    rw [Bool.eq_iff_iff, this]
    have hd := h.direction
    unfold dirVal
    cases h1 : d.sendOnly <;> cases h2 : d.recvOnly <;> simp_all
  have hattrs : st.sdp.attrs = d.attrs := by
    rw [inv.attrs, fattr, List.map_map]
    have : ∀ a ∈ d.attrs, (attrOf ∘ attrValue) a = id a := fun a ha => attrOf_value (h.attrs a ha).2.1
    rw [List.map_congr_left this]; simp
  have hother : st.sdp.other = d.other := by
    rw [inv.other]
    have hk : ∀ (l : List (UInt8 × Bytes)), (∀ p ∈ l, p.1 ∈ knownKeys) →
        l.filter (fun p => !knownKeys.contains p.1) = [] := by
      intro l hl
      rw [List.filter_eq_nil_iff]; intro p hp; simp [hl p hp]
    unfold linesOf
    simp only [List.filter_append]
    rw [hk _ (by simp [knownKeys]), hk (mediaLines b!"audio " d.audio), hk (mediaLines b!"video " d.video),
      hk (attrLines d) (fun p hp => by rw [attrLines_key d p hp]; decide)]
    · simp only [List.nil_append]
      unfold otherLines
      rw [List.filter_eq_self.2]
      · rw [List.map_map]
        conv => rhs; rw [← List.map_id d.other]
        apply List.map_congr_left
        intro q hq
        obtain ⟨k', e1, _⟩ := h.other q hq
        obtain ⟨a, b⟩ := q
        simp at e1; subst e1; rfl
      · intro p hp
        obtain ⟨q, hq, rfl⟩ := List.mem_map.1 hp
        obtain ⟨k', e1, hk', _⟩ := h.other q hq
        simp [e1, hk']
    · cases d.video with
      | none => simp [mediaLines]
      | some m =>
        intro p hp
        rcases List.mem_cons.1 hp with rfl | hp
        · simp only; decide
        · rw [codecsLines_key _ p hp]; decide
    · cases d.audio with
      | none => simp [mediaLines]
      | some m =>
        intro p hp
        rcases List.mem_cons.1 hp with rfl | hp
        · simp only; decide
        · rw [codecsLines_key _ p hp]; decide
  obtain ⟨x1, x2, x3, x4, x5, x6, x7, x8, x9, x10, x11⟩ := d
  simp only at haddr hor hpt hsend hrecv hattrs hother hs ht
  simp [haddr, hor, hpt, hsend, hrecv, hattrs, hother, hs, ht]

end Gosip.Sdp
