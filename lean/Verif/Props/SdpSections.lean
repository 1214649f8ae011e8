import Verif.Sdp.Insert
import Verif.Props.Sdp

/-!
# Properties C84 and C85: lines of a session description that concern others, or nobody
-/

namespace Gosip.Props
open Sdp Spec

theorem pairs_one {l : Bytes} {k : UInt8} {v : Bytes} (h : keyValue l = some (k, v)) : pairs [l] = [(k, v)] := by
  simp [pairs, h]

theorem pairs_bad {l : Bytes} (h : keyValue l = none) : pairs [l] = [] := by
  simp [pairs, h]

theorem values_one (k k' : UInt8) (v : Bytes) : values k [(k', v)] = if k' = k then [v] else [] := by
  unfold values
  by_cases h : k' = k <;> simp [h]

theorem strip_none {pre v : Bytes} (h : ¬ pre <+: v) : strip pre v = none := by
  unfold strip
  rw [if_neg (by rw [List.isPrefixOf_iff_prefix]; exact h)]

theorem strip_reserved {v : Bytes} (h : reserved v = false ∨ b!":" <+: v) :
    strip b!"rtpmap:" v = none ∧ strip b!"fmtp:" v = none ∧ strip b!"ptime:" v = none ∧ v ≠ b!"sendonly" ∧ v ≠ b!"recvonly" := by
  rcases h with h | ⟨r, rfl⟩
  · simp only [reserved, Bool.or_eq_false_iff, decide_eq_false_iff_not] at h
    obtain ⟨⟨⟨⟨⟨⟨h1, h2⟩, h3⟩, _⟩, _⟩, h4⟩, h5⟩ := h
    refine ⟨?_, ?_, ?_, h4, h5⟩ <;> unfold strip
    · rw [if_neg (by rw [h1]; simp)]
    · rw [if_neg (by rw [h2]; simp)]
    · rw [if_neg (by rw [h3]; simp)]
  · refine ⟨strip_none ?_, strip_none ?_, strip_none ?_, ?_, ?_⟩
    all_goals first | (rintro ⟨x, hx⟩; simp at hx) | simp

theorem harmless_unknown {a : List Bytes} {l : Bytes} {d : SDP} (h : Unknown l) : Harmless a l d := by
  cases hk : keyValue l with
  | none =>
    have e := pairs_bad hk
    constructor <;> first | (rw [e]; first | rfl | exact .inr rfl) | (intro c _; rw [e]; exact .inr fun y hy => by cases hy)
  | some p =>
    obtain ⟨k, v⟩ := p
    have e := pairs_one hk
    rcases h k v hk with h | ⟨rfl, h⟩ | ⟨rfl, h1, h2⟩
    · have hne : ∀ x ∈ b!"mstcoa", k ≠ x := fun x hx e => h (e ▸ hx)
      have key : ∀ x ∈ b!"mstcoa", values x (pairs [l]) = [] := by
        intro x hx
        rw [e, values_one, if_neg (hne x hx)]
      have keyf : ∀ x ∈ b!"mstcoa", ∀ pre, fields x pre (pairs [l]) = [] := by
        intro x hx pre
        unfold fields
        rw [key x hx]; rfl
      refine ⟨.inr (key _ (by decide)), key _ (by decide), key _ (by decide), key _ (by decide), keyf _ (by decide) _,
        keyf _ (by decide) _, ?_, ?_, ?_⟩
      · unfold ptimes; rw [keyf _ (by decide)]; rfl
      · intro c _; rw [keyf 97 (by decide)]; exact .inr fun y hy => by cases hy
      · intro c _; rw [keyf 97 (by decide)]; exact .inr fun y hy => by cases hy
    · obtain ⟨h1, h2, h3, _, _⟩ := strip_reserved h
      have key : ∀ x, x ≠ 97 → values x (pairs [l]) = [] := by
        intro x hx
        rw [e, values_one, if_neg (fun e => hx e.symm)]
      have keyf : ∀ pre, strip pre v = none → fields 97 pre (pairs [l]) = [] := by
        intro pre hp
        unfold fields
        rw [e, values_one, if_pos rfl]
        simp [hp]
      refine ⟨.inr (key _ (by decide)), key _ (by decide), key _ (by decide), key _ (by decide), ?_, ?_, ?_, ?_, ?_⟩
      · unfold fields; rw [key _ (by decide)]; rfl
      · unfold fields; rw [key _ (by decide)]; rfl
      · unfold ptimes; rw [keyf _ h3]; rfl
      · intro c _; rw [keyf _ h1]; exact .inr fun y hy => by cases hy
      · intro c _; rw [keyf _ h2]; exact .inr fun y hy => by cases hy
    · have key : ∀ x, x ≠ 109 → values x (pairs [l]) = [] := by
        intro x hx
        rw [e, values_one, if_neg (fun e => hx e.symm)]
      have keyf : ∀ x, x ≠ 109 → ∀ pre, fields x pre (pairs [l]) = [] := by
        intro x hx pre
        unfold fields
        rw [key x hx]; rfl
      refine ⟨.inr (key _ (by decide)), key _ (by decide), key _ (by decide), key _ (by decide), ?_, ?_, ?_, ?_, ?_⟩
      · unfold fields; rw [e, values_one, if_pos rfl]; simp [strip_none h1]
      · unfold fields; rw [e, values_one, if_pos rfl]; simp [strip_none h2]
      · unfold ptimes; rw [keyf _ (by decide)]; rfl
      · intro c _; rw [keyf _ (by decide)]; exact .inr fun y hy => by cases hy
      · intro c _; rw [keyf _ (by decide)]; exact .inr fun y hy => by cases hy

theorem keptAttrs_insert (a b : List Bytes) (l : Bytes) :
    keptAttrs (a ++ l :: b) = keptAttrs a ++ keptAttrs [l] ++ keptAttrs b := by
  simp [keptAttrs, pairs_insert, values_append]

theorem keptOthers_insert (a b : List Bytes) (l : Bytes) :
    keptOthers (a ++ l :: b) = keptOthers a ++ keptOthers [l] ++ keptOthers b := by
  simp [keptOthers, pairs_insert]

theorem keptAttrs_append (a b : List Bytes) : keptAttrs (a ++ b) = keptAttrs a ++ keptAttrs b := by
  simp [keptAttrs, pairs_append, values_append]

theorem keptOthers_append (a b : List Bytes) : keptOthers (a ++ b) = keptOthers a ++ keptOthers b := by
  simp [keptOthers, pairs_append]

/-- Adding a harmless line. -/
theorem parse_insert {a b : List Bytes} {l : Bytes} {d : SDP} (hab : ∀ x ∈ a ++ b, NoCRLF x) (hl : NoCRLF l)
    (h : parse (b!"v=0\r\n" ++ joinCRLF (a ++ b)) = .ok d) (hn : a ++ b ≠ []) (hh : Harmless a l d) :
    parse (b!"v=0\r\n" ++ joinCRLF (a ++ l :: b)) =
      .ok { d with sendOnly := d.sendOnly || l == b!"a=sendonly", recvOnly := d.recvOnly || l == b!"a=recvonly",
                   attrs := keptAttrs a ++ keptAttrs [l] ++ keptAttrs b,
                   other := keptOthers a ++ keptOthers [l] ++ keptOthers b } ∧
      d.attrs = keptAttrs a ++ keptAttrs b ∧ d.other = keptOthers a ++ keptOthers b := by
  obtain ⟨ls, e, h1, h2, h3, h4, h5⟩ := (C21_sdp_iff _ _).1 h
  have hls : a ++ b = ls := C21_lines_unique hab h1 hn (by intro e; simp [e] at h2) (List.append_cancel_left e)
  subst hls
  refine ⟨?_, ?_, ?_⟩
  · refine (C21_sdp_iff _ _).2 ⟨_, rfl, ?_, ?_, ?_, ?_, h5⟩
    · intro x hx
      rcases List.mem_append.1 hx with hx | hx
      · exact hab x (List.mem_append_left _ hx)
      · rcases List.mem_cons.1 hx with rfl | hx
        · exact hl
        · exact hab x (List.mem_append_right _ hx)
    · simp at h2 ⊢; omega
    · rw [← keptAttrs_insert, ← keptOthers_insert]; exact described_insert h3 hh
    · intro v hv
      rw [pairs_insert, values_append, values_append, hh.origin] at hv
      exact h4 v (by rw [pairs_append, values_append]; exact hv)
  · rw [← keptAttrs_append]; exact h3.attrs
  · rw [← keptOthers_append]; exact h3.other

theorem lines_ne {a b : List Bytes} {d : SDP} (h : parse (b!"v=0\r\n" ++ joinCRLF (a ++ b)) = .ok d) : a ++ b ≠ [] := by
  intro e
  rw [e] at h
  have : parse (b!"v=0\r\n" ++ joinCRLF []) ≠ .ok d := by
    rw [show parse (b!"v=0\r\n" ++ joinCRLF []) = .err .fewLines from by decide +kernel]; simp
  exact this h

/-- **C85.** A line nobody knows, put anywhere after the version line of a description that is accepted, does no harm: the
description is accepted and read as before, and the line is kept among the attributes or the other lines, in its place. -/
theorem C85_unknown_line {a b : List Bytes} {l : Bytes} {d : SDP} (hab : ∀ x ∈ a ++ b, NoCRLF x) (hl : NoCRLF l)
    (hu : Unknown l) (h : parse (b!"v=0\r\n" ++ joinCRLF (a ++ b)) = .ok d) :
    parse (b!"v=0\r\n" ++ joinCRLF (a ++ l :: b)) =
      .ok { d with attrs := keptAttrs a ++ keptAttrs [l] ++ keptAttrs b,
                   other := keptOthers a ++ keptOthers [l] ++ keptOthers b } ∧
      d.attrs = keptAttrs a ++ keptAttrs b ∧ d.other = keptOthers a ++ keptOthers b := by
  have hs : (l == b!"a=sendonly") = false ∧ (l == b!"a=recvonly") = false := by
    constructor
    · rw [beq_eq_false_iff_ne]; rintro rfl
      rcases hu 97 b!"sendonly" rfl with h | ⟨_, h⟩ | ⟨h, _⟩
      · exact h (by decide)
      · exact (strip_reserved h).2.2.2.1 rfl
      · cases h
    · rw [beq_eq_false_iff_ne]; rintro rfl
      rcases hu 97 b!"recvonly" rfl with h | ⟨_, h⟩ | ⟨h, _⟩
      · exact h (by decide)
      · exact (strip_reserved h).2.2.2.2 rfl
      · cases h
  have := parse_insert hab hl h (lines_ne h) (harmless_unknown hu)
  rw [hs.1, hs.2, Bool.or_false, Bool.or_false] at this
  exact this

theorem mem_fields {k : UInt8} {pre x : Bytes} {ls : List Bytes} (h : x ∈ fields k pre (pairs ls)) :
    ∃ l ∈ ls, l = k :: 61 :: (pre ++ x) := by
  unfold fields at h
  obtain ⟨w, hw, e⟩ := List.mem_filterMap.1 h
  unfold strip at e
  split at e
  · rename_i hp
    obtain ⟨r, hr⟩ := List.isPrefixOf_iff_prefix.1 hp
    unfold values pairs at hw
    obtain ⟨p, hpf, rfl⟩ := List.mem_map.1 hw
    obtain ⟨hp1, hp2⟩ := List.mem_filter.1 hpf
    obtain ⟨l, hl', e4⟩ := List.mem_filterMap.1 hp1
    obtain ⟨e5, _⟩ := keyValue_some (k := p.1) (v := p.2) e4
    simp at hp2 e
    refine ⟨l, hl', ?_⟩
    rw [e5, hp2, ← e, ← hr]
    simp
  · cases e

theorem section_media {ls own others : List Bytes} {type v : Bytes} {m : Media} (ht : type ≠ [])
    (hs : Section ls type v own others) (hm : MediaOf (pairs ls) type (some m))
    (hab : ∀ l ∈ others, ∀ c ∈ m.codecs, ¬ About c.pt l) : SectionMedia own v m := by
  obtain ⟨before, after, e, e', ho, _, hn⟩ := hs
  obtain ⟨x, h1, _, h3⟩ := hm
  have hkv : keyValue (b!"m=" ++ type ++ v) = some (109, type ++ v) := by
    cases type with
    | nil => exact absurd rfl ht
    | cons c t => rfl
  have hp : pairs ls = pairs before ++ ((109, type ++ v) :: (pairs own ++ pairs after)) := by
    rw [e, List.append_assoc, pairs_append]
    congr 1
    show pairs ([b!"m=" ++ type ++ v] ++ (own ++ after)) = _
    rw [pairs_append, pairs_append, pairs_one hkv]; rfl
  have hno : ∀ ks, (∀ l ∈ ks, ¬ (b!"m=" ++ type) <+: l) → fields 109 type (pairs ks) = [] := by
    intro ks hk
    refine List.eq_nil_iff_forall_not_mem.2 fun y hy => ?_
    obtain ⟨l, hl, rfl⟩ := mem_fields hy
    exact hk _ hl ⟨y, by simp⟩
  have hb : fields 109 type (pairs before) = [] := hno _ fun l hl => hn l (by rw [e']; exact List.mem_append_left _ hl)
  have ha : fields 109 type (pairs after) = [] := hno _ fun l hl => hn l (by rw [e']; exact List.mem_append_right _ hl)
  have hw : fields 109 type (pairs own) = [] := by
    refine List.eq_nil_iff_forall_not_mem.2 fun y hy => ?_
    obtain ⟨l, hl, rfl⟩ := mem_fields hy
    have := ho _ hl
    simp [isMediaLine] at this
  have hone : fields 109 type (pairs ls) = [v] := by
    rw [hp, fields_append, hb]
    show fields 109 type ([(109, type ++ v)] ++ (pairs own ++ pairs after)) = [v]
    rw [fields_append, fields_append, hw, ha]
    unfold fields
    rw [values_one, if_pos rfl]
    simp [strip_self]
  rw [hone] at h1
  cases h1
  have key : ∀ pre, ∀ c ∈ m.codecs,
      (∀ l ∈ others, ¬ (97 :: 61 :: (pre ++ natDec c.pt.toNat ++ b!" ")) <+: l) →
      (fields 97 pre (pairs own)).find? (fun s => (natDec c.pt.toNat ++ b!" ").isPrefixOf s) =
      (fields 97 pre (pairs ls)).find? (fun s => (natDec c.pt.toNat ++ b!" ").isPrefixOf s) := by
    intro pre c _ hx
    have hnone : ∀ ks, (∀ l ∈ ks, l ∈ others) →
        (fields 97 pre (pairs ks)).find? (fun s => (natDec c.pt.toNat ++ b!" ").isPrefixOf s) = none := by
      intro ks hk
      refine noneWith_find.1 fun y hy hpre => ?_
      obtain ⟨l, hl, rfl⟩ := mem_fields hy
      obtain ⟨r, rfl⟩ := hpre
      exact hx _ (hk _ hl) ⟨r, by simp⟩
    rw [hp, fields_append]
    show _ = List.find? _ (_ ++ fields 97 pre ([(109, type ++ v)] ++ (pairs own ++ pairs after)))
    rw [fields_append, fields_append, List.find?_append, List.find?_append, List.find?_append,
      hnone before (fun l hl => by rw [e']; exact List.mem_append_left _ hl),
      hnone after (fun l hl => by rw [e']; exact List.mem_append_right _ hl)]
    have : fields 97 pre [(109, type ++ v)] = [] := by
      unfold fields; rw [values_one, if_neg (by decide)]; rfl
    rw [this]
    simp
  refine mediaValue_congr h3 fun c hc => ⟨key _ c hc fun l hl hp => hab l hl c hc (.inl ?_), key _ c hc fun l hl hp =>
    hab l hl c hc (.inr ?_)⟩
  · exact hp
  · exact hp

/-- **C84** (missing: descriptions whose sections name different addresses or use one number for two formats; there it is
false, see below). If no line outside the section of a media speaks of a number of that media, the media is what its own
section says; if all `c=` lines agree, so is the address. -/
theorem C84_own_section_partial {ls own others : List Bytes} {v : Bytes} {d : SDP} {m : Media}
    (hl : ∀ l ∈ ls, NoCRLF l) (h : parse (b!"v=0\r\n" ++ joinCRLF ls) = .ok d) :
    (d.audio = some m → Section ls b!"audio " v own others → (∀ l ∈ others, ∀ c ∈ m.codecs, ¬ About c.pt l) →
      SectionMedia own v m) ∧
    (d.video = some m → Section ls b!"video " v own others → (∀ l ∈ others, ∀ c ∈ m.codecs, ¬ About c.pt l) →
      SectionMedia own v m) ∧
    ((∀ x ∈ values 99 (pairs ls), ∀ y ∈ values 99 (pairs ls), x = y) → (∀ l ∈ own, l ∈ ls) →
      values 99 (pairs own) ≠ [] ∨ values 99 (pairs (sessionLines ls)) ≠ [] → SectionAddr ls own d.addr) := by
  have hne : ls ≠ [] := by simpa using lines_ne (a := ls) (b := []) (by simpa using h)
  obtain ⟨ls', e, h1, h2, h3, _⟩ := (C21_sdp_iff _ _).1 h
  have := C21_lines_unique hl h1 hne (by intro e; simp [e] at h2) (List.append_cancel_left e)
  subst this
  refine ⟨?_, ?_, ?_⟩
  · intro hm hs hab
    have := h3.audio
    rw [hm] at this
    exact section_media (by decide) hs this hab
  · intro hm hs hab
    have := h3.video
    rw [hm] at this
    exact section_media (by decide) hs this hab
  · intro hall hsub hsome
    obtain ⟨x, hx, hxa⟩ := h3.conn
    have hmx : x ∈ values 99 (pairs ls) := List.mem_of_head? hx
    have sub : ∀ ks, (∀ l ∈ ks, l ∈ ls) → ∀ y ∈ values 99 (pairs ks), y ∈ values 99 (pairs ls) := by
      intro ks hk y hy
      unfold values pairs at hy ⊢
      obtain ⟨p, hpf, rfl⟩ := List.mem_map.1 hy
      obtain ⟨hp1, hp2⟩ := List.mem_filter.1 hpf
      obtain ⟨l, hl', e4⟩ := List.mem_filterMap.1 hp1
      exact List.mem_map.2 ⟨p, List.mem_filter.2 ⟨List.mem_filterMap.2 ⟨l, hk l hl', e4⟩, hp2⟩, rfl⟩
    unfold SectionAddr
    cases ho : values 99 (pairs own) with
    | cons y t =>
      have := hall x hmx y (sub own hsub y (by rw [ho]; simp))
      exact .inl ⟨y, by simp, this ▸ hxa⟩
    | nil =>
      refine .inr ⟨rfl, ?_⟩
      rcases hsome with h | h
      · exact absurd ho h
      · cases hs : values 99 (pairs (sessionLines ls)) with
        | nil => exact absurd hs h
        | cons y t =>
          have := hall x hmx y (sub (sessionLines ls) (fun l hl => (List.takeWhile_prefix _).subset hl) y (by rw [hs]; simp))
          exact ⟨y, by simp, this ▸ hxa⟩

/-- **C84 is false**: a later address is ignored, whatever section it stands in and whatever it is. -/
theorem C84_later_address_ignored {a b : List Bytes} {v : Bytes} {d : SDP} (hab : ∀ x ∈ a ++ b, NoCRLF x)
    (hl : NoCRLF (b!"c=" ++ v)) (hc : values 99 (pairs a) ≠ []) (h : parse (b!"v=0\r\n" ++ joinCRLF (a ++ b)) = .ok d) :
    parse (b!"v=0\r\n" ++ joinCRLF (a ++ (b!"c=" ++ v) :: b)) = .ok d := by
  have hp : pairs [b!"c=" ++ v] = [] ∨ pairs [b!"c=" ++ v] = [(99, v)] := by
    cases v with
    | nil => exact .inl rfl
    | cons x v => exact .inr rfl
  have hv : ∀ k, k ≠ 99 → values k (pairs [b!"c=" ++ v]) = [] := by
    intro k hk
    rcases hp with e | e <;> rw [e]
    · rfl
    · rw [values_one, if_neg (fun e => hk e.symm)]
  have hf : ∀ k, k ≠ 99 → ∀ pre, fields k pre (pairs [b!"c=" ++ v]) = [] := by
    intro k hk pre
    unfold fields
    rw [hv k hk]; rfl
  obtain ⟨h1, h2, h3⟩ := parse_insert hab hl h (lines_ne h)
    ⟨.inl hc, hv _ (by decide), hv _ (by decide), hv _ (by decide), hf _ (by decide) _, hf _ (by decide) _,
      by unfold ptimes; rw [hf _ (by decide)]; rfl,
      fun c _ => .inr (by rw [hf _ (by decide)]; intro y hy; cases hy),
      fun c _ => .inr (by rw [hf _ (by decide)]; intro y hy; cases hy)⟩
  have e1 : keptAttrs [b!"c=" ++ v] = [] := by unfold keptAttrs; rw [hv _ (by decide)]; rfl
  have e2 : keptOthers [b!"c=" ++ v] = [] := by
    unfold keptOthers
    rcases hp with e | e <;> rw [e] <;> rfl
  have e3 : (b!"c=" ++ v == b!"a=sendonly") = false ∧ (b!"c=" ++ v == b!"a=recvonly") = false := ⟨rfl, rfl⟩
  rw [e1, e2, e3.1, e3.2, List.append_nil, List.append_nil, ← h2, ← h3, Bool.or_false, Bool.or_false] at h1
  exact h1

/-- **C84 is false** for every description with an address for the session and an audio section without one: give the
section an address of its own, and the address of the session is still the one reported. -/
theorem C84_section_address_ignored {before own after : List Bytes} {v x : Bytes} {d : SDP}
    (hab : ∀ l ∈ before ++ (b!"m=audio " ++ v) :: own ++ after, NoCRLF l) (hx : 32 ∉ x ∧ 47 ∉ x ∧ 13 ∉ x)
    (hc : values 99 (pairs before) ≠ []) (ho : values 99 (pairs own) = [])
    (h : parse (b!"v=0\r\n" ++ joinCRLF (before ++ (b!"m=audio " ++ v) :: own ++ after)) = .ok d) (hne : x ≠ d.addr) :
    ConnValue (b!"IN IP4 " ++ x) x ∧
    parse (b!"v=0\r\n" ++ joinCRLF (before ++ (b!"m=audio " ++ v) :: own ++ (b!"c=IN IP4 " ++ x) :: after)) = .ok d ∧
    ¬ SectionAddr (before ++ (b!"m=audio " ++ v) :: own ++ (b!"c=IN IP4 " ++ x) :: after)
      (own ++ [b!"c=IN IP4 " ++ x]) d.addr := by
  refine ⟨⟨b!"IP4", .inl rfl, rfl, hx.1, hx.2.1⟩, ?_, ?_⟩
  · refine C84_later_address_ignored (v := b!"IN IP4 " ++ x) hab (noCRLF_of13 ?_) ?_ h
    · simpa using hx.2.2
    · rw [pairs_append, values_append]
      intro e
      exact hc (List.append_eq_nil_iff.1 e).1
  · have hv : values 99 (pairs (own ++ [b!"c=IN IP4 " ++ x])) = [b!"IN IP4 " ++ x] := by
      rw [pairs_append, values_append, ho]; rfl
    unfold SectionAddr
    rw [hv]
    rintro (⟨y, hy, net, hnet, e, _⟩ | ⟨e, _⟩)
    · rw [List.mem_singleton.1 hy] at e
      rcases hnet with rfl | rfl
      · have : b!"IN IP4 " ++ x = b!"IN IP4 " ++ d.addr := e
        exact hne (List.append_cancel_left this)
      · have : b!"IN IP4 " ++ x = b!"IN IP6 " ++ d.addr := e
        simp at this
    · cases e

/-- **C84 is false**: what a later section says about a number that was described before is ignored. -/
theorem C84_later_rtpmap_ignored {a b : List Bytes} {pt : UInt8} {v : Bytes} {d : SDP} (hab : ∀ x ∈ a ++ b, NoCRLF x)
    (hl : NoCRLF (b!"a=rtpmap:" ++ natDec pt.toNat ++ b!" " ++ v))
    (ha : ∃ w, b!"a=rtpmap:" ++ natDec pt.toNat ++ b!" " ++ w ∈ a)
    (h : parse (b!"v=0\r\n" ++ joinCRLF (a ++ b)) = .ok d) :
    parse (b!"v=0\r\n" ++ joinCRLF (a ++ (b!"a=rtpmap:" ++ natDec pt.toNat ++ b!" " ++ v) :: b)) = .ok d := by
  generalize hle : b!"a=rtpmap:" ++ natDec pt.toNat ++ b!" " ++ v = l at hl ⊢
  have hle' : l = 97 :: 61 :: (b!"rtpmap:" ++ (natDec pt.toNat ++ b!" " ++ v)) := by rw [← hle]; simp
  have hp : pairs [l] = [(97, b!"rtpmap:" ++ (natDec pt.toNat ++ b!" " ++ v))] := pairs_one (by rw [hle']; rfl)
  have hv : ∀ k, k ≠ 97 → values k (pairs [l]) = [] := by
    intro k hk
    rw [hp, values_one, if_neg (fun e => hk e.symm)]
  have hf : ∀ k, k ≠ 97 → ∀ pre, fields k pre (pairs [l]) = [] := by
    intro k hk pre
    unfold fields
    rw [hv k hk]; rfl
  have hr : fields 97 b!"rtpmap:" (pairs [l]) = [natDec pt.toNat ++ b!" " ++ v] := by
    unfold fields
    rw [hp, values_one, if_pos rfl]
    simp only [List.filterMap_cons, strip_self, List.filterMap_nil]
  have hr' : fields 97 b!"fmtp:" (pairs [l]) = [] ∧ fields 97 b!"ptime:" (pairs [l]) = [] := by
    unfold fields
    rw [hp, values_one, if_pos rfl]
    constructor <;> rfl
  obtain ⟨h1, h2, h3⟩ := parse_insert hab hl h (lines_ne h)
    ⟨.inr (hv _ (by decide)), hv _ (by decide), hv _ (by decide), hv _ (by decide), hf _ (by decide) _, hf _ (by decide) _,
      by unfold ptimes; rw [hr'.2]; rfl,
      fun c _ => by
        by_cases e : c.pt = pt
        · obtain ⟨w, hw⟩ := ha
          refine .inl ⟨natDec pt.toNat ++ b!" " ++ w, ?_, ?_⟩
          · unfold fields
            refine List.mem_filterMap.2 ⟨b!"rtpmap:" ++ (natDec pt.toNat ++ b!" " ++ w), ?_, strip_self _ _⟩
            unfold values pairs
            refine List.mem_map.2 ⟨(97, b!"rtpmap:" ++ (natDec pt.toNat ++ b!" " ++ w)), List.mem_filter.2
              ⟨List.mem_filterMap.2 ⟨_, hw, ?_⟩, by simp⟩, rfl⟩
            simp [keyValue]
          · rw [List.isPrefixOf_iff_prefix, e]; exact ⟨w, rfl⟩
        · refine .inr fun y hy => ?_
          rw [hr] at hy
          rw [List.mem_singleton.1 hy]
          cases hq : (natDec c.pt.toNat ++ b!" ").isPrefixOf (natDec pt.toNat ++ b!" " ++ v) with
          | false => rfl
          | true => exact absurd (UInt8.toNat_inj.1 (prefix_num (List.isPrefixOf_iff_prefix.1 hq))) e,
      fun c _ => .inr (by rw [hr'.1]; intro y hy; cases hy)⟩
  have e1 : keptAttrs [l] = [] := by
    unfold keptAttrs
    rw [hp, values_one, if_pos rfl]
    rfl
  have e2 : keptOthers [l] = [] := by
    unfold keptOthers
    rw [hp]; rfl
  have e3 : (l == b!"a=sendonly") = false ∧ (l == b!"a=recvonly") = false := by rw [hle']; exact ⟨rfl, rfl⟩
  rw [e1, e2, e3.1, e3.2, List.append_nil, List.append_nil, ← h2, ← h3, Bool.or_false, Bool.or_false] at h1
  exact h1

/-- **C84 is false**: `a=sendonly` in any section is said of the whole session. -/
theorem C84_direction_shared {a b : List Bytes} {d : SDP} (hab : ∀ x ∈ a ++ b, NoCRLF x)
    (h : parse (b!"v=0\r\n" ++ joinCRLF (a ++ b)) = .ok d) :
    parse (b!"v=0\r\n" ++ joinCRLF (a ++ b!"a=sendonly" :: b)) = .ok { d with sendOnly := true } := by
  obtain ⟨h1, h2, h3⟩ := parse_insert (l := b!"a=sendonly") hab (noCRLF_of13 (by decide)) h (lines_ne h)
    ⟨.inr rfl, rfl, rfl, rfl, rfl, rfl, rfl, fun c _ => .inr (fun y hy => by cases hy), fun c _ => .inr (fun y hy => by cases hy)⟩
  rw [show keptAttrs [b!"a=sendonly"] = [] from rfl, show keptOthers [b!"a=sendonly"] = [] from rfl, List.append_nil,
    List.append_nil, ← h2, ← h3] at h1
  rw [h1]
  simp

/-- An answer with two media at different addresses, which use the number 96 for different formats. -/
def twoMedia : List Bytes :=
  [b!"o=u 1 1 IN IP4 10.0.0.9", b!"s=-", b!"t=0 0", b!"m=video 5000 RTP/AVP 96", b!"c=IN IP4 10.0.0.2",
   b!"a=rtpmap:96 H264/90000", b!"a=sendonly", b!"m=audio 4000 RTP/AVP 96 0", b!"c=IN IP4 10.0.0.1",
   b!"a=rtpmap:96 opus/48000/2", b!""]

/-- What is made of it. -/
def twoMediaSdp : SDP :=
  { origin := ⟨b!"u", b!"1", b!"1", b!"10.0.0.9"⟩, addr := b!"10.0.0.2", session := b!"-", time := b!"0 0",
    audio := some ⟨b!"RTP/AVP", 4000, [⟨96, b!"H264", 90000, [], []⟩, ⟨0, b!"PCMU", 8000, [], []⟩]⟩,
    video := some ⟨b!"RTP/AVP", 5000, [⟨96, b!"H264", 90000, [], []⟩]⟩, sendOnly := true }

/-- **C84 is false**, seen in one description: the audio is said to be at the address of the video, in the format of the
video, and not wanted in return. -/
theorem C84_mixed_up :
    Section twoMedia b!"audio " b!"4000 RTP/AVP 96 0" [b!"c=IN IP4 10.0.0.1", b!"a=rtpmap:96 opus/48000/2", b!""]
      (twoMedia.take 7) ∧
    (∀ l ∈ twoMedia, 13 ∉ l) ∧ parse (b!"v=0\r\n" ++ joinCRLF twoMedia) = .ok twoMediaSdp :=
  ⟨⟨twoMedia.take 7, [], by decide +kernel, by decide +kernel, by decide +kernel, by simp, by
      simp only [← List.isPrefixOf_iff_prefix]; decide +kernel⟩, by decide +kernel, by decide +kernel⟩

/-- One media and one address: everything is read as meant, and lines nobody knows do not matter. -/
def oneMedia : List Bytes :=
  [b!"o=u 1 1 IN IP4 10.0.0.9", b!"s=-", b!"c=IN IP4 10.0.0.1", b!"t=0 0", b!"m=audio 4000 RTP/AVP 96 0",
   b!"a=rtpmap:96 opus/48000/2", b!""]

/-- The hypotheses of the theorems can be met. -/
example : Section oneMedia b!"audio " b!"4000 RTP/AVP 96 0" [b!"a=rtpmap:96 opus/48000/2", b!""] (oneMedia.take 4) ∧
    (∀ l ∈ oneMedia.take 4, ∀ pt : UInt8, ¬ About pt l) ∧ values 99 (pairs (oneMedia.take 4)) = [b!"IN IP4 10.0.0.1"] ∧
    (∃ d m, parse (b!"v=0\r\n" ++ joinCRLF oneMedia) = .ok d ∧ d.audio = some m ∧ d.addr = b!"10.0.0.1" ∧
      m.codecs.map (·.name) = [b!"opus", b!"PCMU"]) := by
  refine ⟨⟨oneMedia.take 4, [], rfl, rfl, by decide +kernel, by simp, by
      simp only [← List.isPrefixOf_iff_prefix]; decide +kernel⟩, ?_, by decide +kernel, _, _, rfl, rfl, by decide +kernel⟩
  have key : ∀ l ∈ oneMedia.take 4, ¬ b!"a=" <+: l := by
    simp only [← List.isPrefixOf_iff_prefix]; decide +kernel
  rintro l hl pt (⟨r, rfl⟩ | ⟨r, rfl⟩) <;> exact key _ hl ⟨_, rfl⟩

example : (∀ l ∈ [b!"garbage", b!"z=0 1h", b!"a=candidate:1 1 UDP 1 10.0.0.1 4000 typ host", b!"m=application 1 TCP x",
      b!"a=inactive", b!"a=:x", b!"b=AS:64", b!"==="], ∀ p, keyValue l = some p →
      p.1 ∉ b!"mstcoa" ∨ p.1 = 97 ∧ (reserved p.2 = false ∨ b!":".isPrefixOf p.2) ∨
      p.1 = 109 ∧ b!"audio ".isPrefixOf p.2 = false ∧ b!"video ".isPrefixOf p.2 = false) ∧
    keptAttrs [b!"a=candidate:1 2"] = [(b!"candidate", b!"1 2")] ∧ keptOthers [b!"b=AS:64"] = [(b!"b", b!"AS:64")] := by
  refine ⟨?_, by decide +kernel, by decide +kernel⟩
  have : ∀ l ∈ [b!"garbage", b!"z=0 1h", b!"a=candidate:1 1 UDP 1 10.0.0.1 4000 typ host", b!"m=application 1 TCP x",
      b!"a=inactive", b!"a=:x", b!"b=AS:64", b!"==="], ∀ p ∈ (keyValue l).toList,
      p.1 ∉ b!"mstcoa" ∨ p.1 = 97 ∧ (reserved p.2 = false ∨ b!":".isPrefixOf p.2) ∨
      p.1 = 109 ∧ b!"audio ".isPrefixOf p.2 = false ∧ b!"video ".isPrefixOf p.2 = false := by decide +kernel
  exact fun l hl p hp => this l hl p (by rw [hp]; simp)

end Gosip.Props
