import Verif.Sdp.Accept
import Verif.Spec.Sections

/-!
# Lemmas on adding a line to a session description
-/

namespace Gosip.Sdp
open Spec

theorem firstWith_find {pre v : Bytes} {l : List Bytes} :
    FirstWith pre l v ↔ l.find? (fun s => pre.isPrefixOf s) = some (pre ++ v) := by
  rw [List.find?_eq_some_iff_append]
  constructor
  · rintro ⟨b, a, rfl, h⟩
    refine ⟨List.isPrefixOf_iff_prefix.2 ⟨v, rfl⟩, b, a, rfl, fun x hx => ?_⟩
    cases hp : pre.isPrefixOf x with
    | false => rfl
    | true => exact absurd (List.isPrefixOf_iff_prefix.1 hp) (h x hx)
  · rintro ⟨_, b, a, rfl, h⟩
    refine ⟨b, a, rfl, fun x hx => ?_⟩
    intro hp
    have := h x hx
    rw [List.isPrefixOf_iff_prefix.2 hp] at this
    cases this

theorem noneWith_find {pre : Bytes} {l : List Bytes} :
    (∀ s ∈ l, ¬ pre <+: s) ↔ l.find? (fun s => pre.isPrefixOf s) = none := by
  simp [List.find?_eq_none, List.isPrefixOf_iff_prefix]

theorem codecOf_congr {r f r' f' : List Bytes} {pt : UInt8} {c : Codec} (h : CodecOf r f pt c)
    (hr : r'.find? (fun s => (natDec pt.toNat ++ b!" ").isPrefixOf s) = r.find? (fun s => (natDec pt.toNat ++ b!" ").isPrefixOf s))
    (hf : f'.find? (fun s => (natDec pt.toNat ++ b!" ").isPrefixOf s) = f.find? (fun s => (natDec pt.toNat ++ b!" ").isPrefixOf s)) :
    CodecOf r' f' pt c := by
  have kr : ∀ v, FirstWith (natDec pt.toNat ++ b!" ") r v → FirstWith (natDec pt.toNat ++ b!" ") r' v :=
    fun v hv => firstWith_find.2 (hr.trans (firstWith_find.1 hv))
  have kf : ∀ v, FirstWith (natDec pt.toNat ++ b!" ") f v → FirstWith (natDec pt.toNat ++ b!" ") f' v :=
    fun v hv => firstWith_find.2 (hf.trans (firstWith_find.1 hv))
  refine ⟨h.number, h.named, ?_, ?_⟩
  · rcases h.described with ⟨v, h1, h2⟩ | ⟨h1, h2⟩
    · exact .inl ⟨v, kr v h1, h2⟩
    · refine .inr ⟨?_, h2⟩
      rcases h1 with h1 | ⟨v, ra, p, h1, h3⟩
      · exact .inl (noneWith_find.2 (hr.trans (noneWith_find.1 h1)))
      · exact .inr ⟨v, ra, p, kr v h1, h3⟩
  · rcases h.format with h1 | ⟨h1, h2⟩
    · exact .inl (kf _ h1)
    · exact .inr ⟨noneWith_find.2 (hf.trans (noneWith_find.1 h1)), h2⟩

theorem mediaValue_congr {r f r' f' : List Bytes} {v : Bytes} {m : Media} (h : MediaValue r f v m)
    (k : ∀ c ∈ m.codecs,
      r'.find? (fun s => (natDec c.pt.toNat ++ b!" ").isPrefixOf s) = r.find? (fun s => (natDec c.pt.toNat ++ b!" ").isPrefixOf s) ∧
      f'.find? (fun s => (natDec c.pt.toNat ++ b!" ").isPrefixOf s) = f.find? (fun s => (natDec c.pt.toNat ++ b!" ").isPrefixOf s)) :
    MediaValue r' f' v m := by
  obtain ⟨a, b, c, h1, h2, h3, h4, h5, h6, h7⟩ := h
  refine ⟨a, b, c, h1, h2, h3, h4, h5, h6, fun i pt x hi hx => ?_⟩
  obtain ⟨g1, g2⟩ := h7 i pt x hi hx
  obtain ⟨k1, k2⟩ := k x (List.mem_of_getElem? hx)
  exact ⟨g1, codecOf_congr g2 k1 k2⟩

theorem pairs_append (a b : List Bytes) : pairs (a ++ b) = pairs a ++ pairs b := by simp [pairs]

theorem pairs_insert (a b : List Bytes) (l : Bytes) : pairs (a ++ l :: b) = pairs a ++ (pairs [l] ++ pairs b) := by
  rw [← pairs_append, ← pairs_append]; rfl

theorem find_insert {α : Type} {p : α → Bool} {a x b : List α} (h : (∃ y ∈ a, p y = true) ∨ ∀ y ∈ x, p y = false) :
    (a ++ (x ++ b)).find? p = (a ++ b).find? p := by
  simp only [List.find?_append]
  rcases h with ⟨y, hy, hp⟩ | h
  · cases ha : a.find? p with
    | none => exact absurd hp (by simpa using List.find?_eq_none.1 ha y hy)
    | some z => rfl
  · have hx : x.find? p = none := List.find?_eq_none.2 (by simpa using h)
    rw [hx]; rfl

/-- The line may be added. -/
structure Harmless (a : List Bytes) (l : Bytes) (d : SDP) : Prop where
  conn : values 99 (pairs a) ≠ [] ∨ values 99 (pairs [l]) = []
  origin : values 111 (pairs [l]) = []
  session : values 115 (pairs [l]) = []
  time : values 116 (pairs [l]) = []
  audio : fields 109 b!"audio " (pairs [l]) = []
  video : fields 109 b!"video " (pairs [l]) = []
  ptime : ptimes (pairs [l]) = []
  rtpmap : ∀ c ∈ allCodecs d, (∃ y ∈ fields 97 b!"rtpmap:" (pairs a), (natDec c.pt.toNat ++ b!" ").isPrefixOf y = true) ∨
    ∀ y ∈ fields 97 b!"rtpmap:" (pairs [l]), (natDec c.pt.toNat ++ b!" ").isPrefixOf y = false
  fmtp : ∀ c ∈ allCodecs d, (∃ y ∈ fields 97 b!"fmtp:" (pairs a), (natDec c.pt.toNat ++ b!" ").isPrefixOf y = true) ∨
    ∀ y ∈ fields 97 b!"fmtp:" (pairs [l]), (natDec c.pt.toNat ++ b!" ").isPrefixOf y = false

theorem mediaOf_insert {a b : List Bytes} {l type : Bytes} {o : Option Media} (h : MediaOf (pairs (a ++ b)) type o)
    (ht : fields 109 type (pairs [l]) = [])
    (hr : ∀ m, o = some m → ∀ c ∈ m.codecs,
      (∃ y ∈ fields 97 b!"rtpmap:" (pairs a), (natDec c.pt.toNat ++ b!" ").isPrefixOf y = true) ∨
      ∀ y ∈ fields 97 b!"rtpmap:" (pairs [l]), (natDec c.pt.toNat ++ b!" ").isPrefixOf y = false)
    (hf : ∀ m, o = some m → ∀ c ∈ m.codecs,
      (∃ y ∈ fields 97 b!"fmtp:" (pairs a), (natDec c.pt.toNat ++ b!" ").isPrefixOf y = true) ∨
      ∀ y ∈ fields 97 b!"fmtp:" (pairs [l]), (natDec c.pt.toNat ++ b!" ").isPrefixOf y = false) :
    MediaOf (pairs (a ++ l :: b)) type o := by
  have e : fields 109 type (pairs (a ++ l :: b)) = fields 109 type (pairs (a ++ b)) := by
    rw [pairs_insert, pairs_append, fields_append, fields_append, fields_append, ht]; rfl
  cases o with
  | none => unfold MediaOf at h ⊢; rw [e]; exact h
  | some m =>
    obtain ⟨v, h1, h2, h3⟩ := h
    refine ⟨v, by rw [e]; exact h1, h2, mediaValue_congr h3 fun c hc => ⟨?_, ?_⟩⟩
    · rw [pairs_insert, pairs_append, fields_append, fields_append, fields_append]
      exact find_insert (hr m rfl c hc)
    · rw [pairs_insert, pairs_append, fields_append, fields_append, fields_append]
      exact find_insert (hf m rfl c hc)

theorem getLast?_mid {α : Type} {a x b : List α} (h : x = []) : (a ++ (x ++ b)).getLast? = (a ++ b).getLast? := by
  rw [h]; rfl

theorem described_insert {a b : List Bytes} {l : Bytes} {d : SDP} (h : Described (a ++ b) d) (hl : Harmless a l d) :
    Described (a ++ l :: b)
      { d with sendOnly := d.sendOnly || l == b!"a=sendonly", recvOnly := d.recvOnly || l == b!"a=recvonly",
               attrs := keptAttrs (a ++ l :: b), other := keptOthers (a ++ l :: b) } := by
  have hcod : ∀ m, d.audio = some m → ∀ c ∈ m.codecs, c ∈ allCodecs d := by
    intro m hm c hc; simp [allCodecs, hm, hc]
  have hcod' : ∀ m, d.video = some m → ∀ c ∈ m.codecs, c ∈ allCodecs d := by
    intro m hm c hc; simp [allCodecs, hm, hc]
  refine ⟨?_, ?_, mediaOf_insert h.audio hl.audio (fun m hm c hc => hl.rtpmap c (hcod m hm c hc))
      (fun m hm c hc => hl.fmtp c (hcod m hm c hc)),
    mediaOf_insert h.video hl.video (fun m hm c hc => hl.rtpmap c (hcod' m hm c hc))
      (fun m hm c hc => hl.fmtp c (hcod' m hm c hc)), ?_, ?_, ?_, ?_, ?_, rfl, rfl⟩
  · obtain ⟨v, h1, h2⟩ := h.conn
    refine ⟨v, ?_, h2⟩
    rw [← h1, pairs_insert, pairs_append, values_append, values_append, values_append]
    rcases hl.conn with h3 | h3
    · cases hv : values 99 (pairs a) with
      | nil => exact absurd hv h3
      | cons x y => rfl
    · rw [h3]; rfl
  · obtain ⟨v, h1, h2⟩ := h.origin
    refine ⟨v, ?_, h2⟩
    rw [← h1, pairs_insert, pairs_append, values_append, values_append, values_append, hl.origin]; rfl
  · rw [pairs_insert, values_append, values_append, hl.session]
    have := h.session
    rw [pairs_append, values_append] at this
    exact this
  · rw [pairs_insert, values_append, values_append, hl.time]
    have := h.time
    rw [pairs_append, values_append] at this
    exact this
  · have e : ∀ x y, ptimes (x ++ y) = ptimes x ++ ptimes y := by
      intro x y; simp [ptimes, fields_append]
    rw [pairs_insert, e, e, hl.ptime]
    have := h.ptime
    rw [pairs_append, e] at this
    exact this
  · have := h.sendOnly
    simp only [Bool.or_eq_true, this, beq_iff_eq, List.mem_append, List.mem_cons]
    constructor
    · rintro ((h | h) | h)
      · exact .inl h
      · exact .inr (.inr h)
      · exact .inr (.inl h.symm)
    · rintro (h | h | h)
      · exact .inl (.inl h)
      · exact .inr h.symm
      · exact .inl (.inr h)
  · have := h.recvOnly
    simp only [Bool.or_eq_true, this, beq_iff_eq, List.mem_append, List.mem_cons]
    constructor
    · rintro ((h | h) | h)
      · exact .inl h
      · exact .inr (.inr h)
      · exact .inr (.inl h.symm)
    · rintro (h | h | h)
      · exact .inl (.inl h)
      · exact .inr h.symm
      · exact .inl (.inr h)

end Gosip.Sdp
