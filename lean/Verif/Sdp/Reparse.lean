import Verif.Sdp.RoundTrip

/-! # Descriptions read from a text can be written and read again -/

namespace Gosip.Sdp
open Spec

theorem noCRLF_infix {a b c : Bytes} (h : NoCRLF (a ++ b ++ c)) : NoCRLF b := by
  intro x y e
  exact h (a ++ x) (y ++ c) (by rw [e]; simp)

theorem joinByte_mem {c : UInt8} {ts : List Bytes} {t : Bytes} (h : t ∈ ts) :
    ∃ a b, joinByte c ts = a ++ t ++ b := by
  induction ts with
  | nil => simp at h
  | cons u ts ih =>
    by_cases hts : ts = []
    · subst hts
      simp at h; subst h
      exact ⟨[], [], by simp [joinByte]⟩
    · rw [joinByte_cons hts]
      rcases List.mem_cons.1 h with rfl | h
      · exact ⟨[], c :: joinByte c ts, by simp⟩
      · obtain ⟨a, b, e⟩ := ih h
        exact ⟨u ++ c :: a, b, by rw [e]; simp⟩

theorem noCRLF_join {c : UInt8} {ts : List Bytes} {t : Bytes} (h : NoCRLF (joinByte c ts)) (ht : t ∈ ts) :
    NoCRLF t := by
  obtain ⟨a, b, e⟩ := joinByte_mem (c := c) ht
  rw [e] at h
  exact noCRLF_infix h

theorem keyValue_some {l v : Bytes} {k : UInt8} (h : keyValue l = some (k, v)) : l = k :: 61 :: v ∧ v ≠ [] := by
  rcases l with _ | ⟨a, _ | ⟨b, _ | ⟨c, l⟩⟩⟩ <;> simp [keyValue] at h
  obtain ⟨rfl, rfl, rfl⟩ := h
  simp

theorem values_line {ls : List Bytes} (hl : ∀ l ∈ ls, NoCRLF l) {k : UInt8} {v : Bytes}
    (h : v ∈ values k (pairs ls)) : NoCRLF v ∧ v ≠ [] := by
  unfold values pairs at h
  obtain ⟨p, hp, rfl⟩ := List.mem_map.1 h
  have hp := (List.mem_filter.1 hp).1
  obtain ⟨l, hl', e⟩ := List.mem_filterMap.1 hp
  obtain ⟨e1, e2⟩ := keyValue_some (k := p.1) (v := p.2) e
  have := hl l hl'
  rw [e1] at this
  exact ⟨noCRLF_infix (a := [p.1, 61]) (c := []) (by simpa using this), e2⟩

theorem fields_line {ls : List Bytes} (hl : ∀ l ∈ ls, NoCRLF l) {k : UInt8} {pre v : Bytes}
    (h : v ∈ fields k pre (pairs ls)) : NoCRLF v := by
  unfold fields at h
  obtain ⟨w, hw, e⟩ := List.mem_filterMap.1 h
  unfold strip at e
  split at e
  · rename_i hp
    simp at e; subst e
    obtain ⟨r, hr⟩ := List.isPrefixOf_iff_prefix.1 hp
    have := (values_line hl hw).1
    rw [← hr] at this ⊢
    simp
    exact noCRLF_infix (a := pre) (c := []) (by simpa using this)
  · simp at e

theorem getLast?_getD_mem {α : Type} {l : List α} {d : α} : l.getLast?.getD d ∈ l ∨ l.getLast?.getD d = d := by
  cases h : l.getLast? with
  | none => simp
  | some v => exact .inl (List.mem_of_getLast? h)

theorem firstWith_mem {pre v : Bytes} {l : List Bytes} (h : FirstWith pre l v) : pre ++ v ∈ l := by
  obtain ⟨b, a, rfl, _⟩ := h; simp

theorem atoi_range {s : Bytes} {x : Int} (h : atoi s = some x) : -2 ^ 63 ≤ x ∧ x < 2 ^ 63 := by
  cases s with
  | nil => simp [atoi] at h
  | cons c s =>
    rw [atoi] at h
    split at h
    · split at h
      · rename_i hc; simp at h; omega
      · simp at h
    · simp only at h
      generalize (if c = 43 then s else c :: s) = u at h
      split at h
      · rename_i hc; simp at h; omega
      · simp at h

theorem static_ok : ∀ p ∈ staticTypes, 47 ∉ p.2.1 ∧ 13 ∉ p.2.1 ∧ p.2.2.1 < 2 ^ 63 ∧
    47 ∉ (if p.2.2.2 = 1 then [] else natDec p.2.2.2) ∧ 13 ∉ (if p.2.2.2 = 1 then [] else natDec p.2.2.2) := by
  decide +kernel

theorem codecOf_ok {r f : List Bytes} {pt : UInt8} {c : Codec} (h : CodecOf r f pt c)
    (hr : ∀ v ∈ r, NoCRLF v) (hf : ∀ v ∈ f, NoCRLF v) : CodecOK c := by
  have hfm : NoCRLF c.fmtp := by
    rcases h.format with hw | ⟨_, e⟩
    · have := hf _ (firstWith_mem hw)
      exact noCRLF_infix (a := natDec pt.toNat ++ b!" ") (c := []) (by simpa using this)
    · rw [e]; exact noCRLF_nil
  rcases h.described with ⟨v, hw, rt, more, hv, h1, h2, h3, h4, h5⟩ | ⟨_, rate, ch, hm, e2, e3⟩
  · have hv' : NoCRLF v := noCRLF_infix (a := natDec pt.toNat ++ b!" ") (c := []) (by
      have := hr _ (firstWith_mem hw); simpa using this)
    rw [hv] at hv'
    refine ⟨⟨h.named, h1, noCRLF_join hv' (by simp)⟩, ⟨h4.1, h4.2.1⟩, ?_, hfm⟩
    rw [h5]
    cases more with
    | nil => exact ⟨by simp, noCRLF_nil⟩
    | cons p more => exact ⟨h3 _ (by simp), noCRLF_join hv' (by simp)⟩
  · obtain ⟨s1, s2, s5, s3, s4⟩ := static_ok _ hm
    simp only at s1 s2 s3 s4 s5
    refine ⟨⟨h.named, s1, noCRLF_of13 s2⟩, by rw [e2]; omega,
      by rw [e3]; exact ⟨s3, noCRLF_of13 s4⟩, hfm⟩

theorem mediaOf_ok {ls : List Bytes} (hl : ∀ l ∈ ls, NoCRLF l) {type : Bytes} {m : Media}
    (h : MediaOf (pairs ls) type (some m)) (hp : m.proto ≠ []) : MediaOK m := by
  obtain ⟨v, hv, _, pt, cnt, pts, e, h32, _, _, hne, hlen, hc⟩ := h
  have hv' : NoCRLF v := fields_line hl (List.mem_of_getLast? hv)
  rw [e] at hv'
  refine ⟨⟨hp, h32, noCRLF_join hv' (by simp)⟩, ?_, ?_⟩
  · intro e0
    rw [e0] at hlen
    simp at hlen
    exact hne hlen
  · intro c hcm
    obtain ⟨i, hi⟩ := List.mem_iff_getElem?.1 hcm
    have hlt : i < pts.length := by
      rw [hlen]; exact (List.getElem?_eq_some_iff.1 hi).1
    obtain ⟨_, hco⟩ := hc i _ c (List.getElem?_eq_getElem hlt) hi
    exact codecOf_ok hco (fun v hv => fields_line hl hv) fun v hv => fields_line hl hv

theorem attrOf_split {v : Bytes} (h : reserved v = false) (hv : v ≠ []) :
    (attrOf v).1 ≠ [] ∧ 58 ∉ (attrOf v).1 ∧
    ((v = (attrOf v).1 ∧ (attrOf v).2 = []) ∨ v = (attrOf v).1 ++ b!":" ++ (attrOf v).2) := by
  cases hi : indexByte 58 v with
  | none =>
    rw [attrOf_none hi]
    exact ⟨hv, indexByte_none.1 hi, .inl ⟨rfl, rfl⟩⟩
  | some n =>
    rw [attrOf_some hi]
    obtain ⟨a, b, rfl, rfl, ha⟩ := indexByte_some hi
    simp
    refine ⟨?_, ha⟩
    rintro rfl
    unfold reserved at h
    simp [List.isPrefixOf] at h

theorem reparse_wf {s : Bytes} {d : SDP} (h : parse s = .ok d) (nb : NoBlanks d) : WellFormed d := by
  obtain ⟨ls, _, hl, _, hd, hm, hc⟩ := parse_spec h
  refine ⟨?_, ?_, ?_, ?_, ?_, hm, ?_, ?_, ?_, ?_, nb.direction, ?_, ?_⟩
  · rw [hd.session]
    rcases getLast?_getD_mem (l := values 115 (pairs ls)) (d := b!"pokémon") with h1 | h1
    · exact ⟨(values_line hl h1).2, (values_line hl h1).1⟩
    · rw [h1]; exact ⟨by decide, noCRLF_of13 (by decide)⟩
  · rw [hd.time]
    rcases getLast?_getD_mem (l := values 116 (pairs ls)) (d := b!"0 0") with h1 | h1
    · exact ⟨(values_line hl h1).2, (values_line hl h1).1⟩
    · rw [h1]; exact ⟨by decide, noCRLF_of13 (by decide)⟩
  · obtain ⟨v, hv, net, _, e, h1, h2⟩ := hd.conn
    have hv' := (values_line hl (List.mem_of_head? hv)).1
    rw [e] at hv'
    exact ⟨nb.addr, h1, h2, noCRLF_join hv' (by simp)⟩
  · obtain ⟨v, hv, net, _, e, h1, h2⟩ := hd.origin
    have hv' := (values_line hl (List.mem_of_getLast? hv)).1
    rw [e] at hv'
    intro t ht
    refine ⟨nb.origin t ht, h1 t ht, noCRLF_join hv' ?_⟩
    simp at ht ⊢
    rcases ht with e | e | e | e <;> simp [e]
  · obtain ⟨v, hv, net, _, e, h1, h2⟩ := hd.origin
    exact h2
  · intro m e
    have := hd.audio
    rw [e] at this
    exact mediaOf_ok hl this (nb.proto m (.inl e))
  · intro m e
    have := hd.video
    rw [e] at this
    exact mediaOf_ok hl this (nb.proto m (.inr e))
  · intro c h1 c' h2 e
    have a1 := hc c h1
    have a2 := hc c' h2
    rw [e, a2] at a1
    simpa using a1.symm
  · rw [hd.ptime]
    rcases getLast?_getD_mem (l := ptimes (pairs ls)) (d := 0) with h1 | h1
    · generalize (ptimes (pairs ls)).getLast?.getD 0 = x at h1 ⊢
      unfold ptimes at h1
      obtain ⟨h2, h3⟩ := List.mem_filter.1 h1
      obtain ⟨w, _, hw⟩ := List.mem_filterMap.1 h2
      have := atoi_range hw
      simp at h3
      omega
    · rw [h1]; omega
  · intro a ha
    have hna := nb.attrs a ha
    rw [hd.attrs] at ha
    obtain ⟨v, hv, rfl⟩ := List.mem_map.1 ha
    obtain ⟨hv1, hv2⟩ := List.mem_filter.1 hv
    simp at hv2
    obtain ⟨n1, n2⟩ := values_line hl hv1
    obtain ⟨s1, s2, s3⟩ := attrOf_split hv2 n2
    refine ⟨s1, s2, ?_⟩
    rcases s3 with ⟨e1, e2⟩ | e
    · refine ⟨by rw [← e1]; exact n1, by rw [e2]; exact noCRLF_nil, ?_⟩
      unfold attrValue
      rw [if_pos e2]; exact hna e2
    · have n1' := n1
      rw [e] at n1'
      refine ⟨noCRLF_infix (a := []) (c := b!":" ++ (attrOf v).2) (by simpa using n1'),
        noCRLF_infix (a := (attrOf v).1 ++ b!":") (c := []) (by simpa using n1'), ?_⟩
      unfold attrValue
      split
      · rename_i h0; exact hna h0
      · rw [← e]; exact hv2
  · intro p hp
    rw [hd.other] at hp
    obtain ⟨q, hq, rfl⟩ := List.mem_map.1 hp
    obtain ⟨hq1, hq2⟩ := List.mem_filter.1 hq
    have hmem : q.2 ∈ values q.1 (pairs ls) := by
      unfold values
      exact List.mem_map.2 ⟨q, List.mem_filter.2 ⟨hq1, by simp⟩, rfl⟩
    obtain ⟨n1, n2⟩ := values_line hl hmem
    exact ⟨q.1, rfl, by simpa using hq2, n2, n1⟩

end Gosip.Sdp
