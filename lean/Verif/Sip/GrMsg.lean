import Verif.Sip.GrStart
import Verif.Sip.ForwardAll
import Verif.Sip.HeadFields

/-!
# Messages, as read by the message machine
-/

namespace Gosip.Sip.MsgM.Gr
open Spec

/-- What has been read, as the machine keeps it. -/
def core (x : Draft) : Core := ⟨x.msg, x.length, x.type⟩

theorem core_inj {x y : Draft} (h : core x = core y) : x = y := by
  cases x; cases y
  simp only [core, Core.mk.injEq] at h
  simpa using h

/-! ### Numbers -/

theorem digits_iff {ds : Bytes} : Digits ds ↔ ds ≠ [] ∧ ∀ c ∈ ds, isDigit c = true := by
  unfold Digits
  simp only [isDigit_iff]
  rfl

/-- Digits read on top of any number. -/
theorem dec64_onto (ds : Bytes) (hne : ds ≠ []) (hd : ∀ c ∈ ds, isDigit c = true) (y : Int) :
    ds.foldl dec64 y = wrap64 (y * 10 ^ ds.length + decVal ds) := by
  have step : ∀ (x : Int) (c : UInt8), isDigit c = true →
      dec64 (wrap64 x) c = wrap64 (x * 10 + ((c.toNat - 48 : Nat) : Int)) := by
    intro x c hc
    have hc := (isDigit_iff c).1 hc
    rw [show ((c.toNat - 48 : Nat) : Int) = (c.toNat : Int) - 48 by omega]
    unfold dec64 wrap64
    generalize 2 ^ 64 = m
    exact bmod_step _ _ _
  have step0 : ∀ (x : Int) (c : UInt8), isDigit c = true →
      dec64 x c = wrap64 (x * 10 + ((c.toNat - 48 : Nat) : Int)) := by
    intro x c hc
    rw [← step x c hc]
    unfold dec64 wrap64
    generalize 2 ^ 64 = m
    rw [bmod_step, Int.bmod_add_bmod]
  have loop : ∀ (ds : Bytes), (∀ c ∈ ds, isDigit c = true) → ∀ x : Int,
      ds.foldl dec64 (wrap64 x) = wrap64 (x * 10 ^ ds.length + decVal ds) := by
    intro ds
    induction ds with
    | nil => intro _ x; simp [decVal]
    | cons c ds ih =>
      intro hd x
      rw [List.foldl_cons, step x c (hd c List.mem_cons_self), ih fun d h => hd d (List.mem_cons_of_mem _ h)]
      congr 1
      have : decVal (c :: ds) = (c.toNat - 48) * 10 ^ ds.length + decVal ds := by
        have := decVal_append [c] ds
        rw [decVal_foldl] at this
        simpa [decVal] using this
      rw [this, List.length_cons]
      push_cast
      rw [Int.add_mul, Int.pow_succ, Int.mul_assoc, Int.mul_comm 10, Int.add_assoc]
  cases ds with
  | nil => exact absurd rfl hne
  | cons c ds =>
    rw [List.foldl_cons, step0 y c (hd c List.mem_cons_self), loop ds fun d h => hd d (List.mem_cons_of_mem _ h)]
    congr 1
    have : decVal (c :: ds) = (c.toNat - 48) * 10 ^ ds.length + decVal ds := by
      have := decVal_append [c] ds
      rw [decVal_foldl] at this
      simpa [decVal] using this
    rw [this, List.length_cons]
    push_cast
    rw [Int.add_mul, Int.pow_succ, Int.mul_assoc, Int.mul_comm 10, Int.add_assoc]

theorem version_digits (ds : Bytes) (hd : ∀ c ∈ ds, isDig c) (n : Nat) :
    ds.foldl (fun v c => v * 10 + (c - 48)) (UInt8.ofNat n) =
      UInt8.ofNat (ds.foldl (fun a c => a * 10 + (c.toNat - 48)) n) := by
  induction ds generalizing n with
  | nil => rfl
  | cons c ds ih =>
    have hc := hd c List.mem_cons_self
    have h1 := hc.1
    have h2 := hc.2
    have e : c - 48 = UInt8.ofNat (c.toNat - 48) := by
      apply UInt8.toNat_inj.1
      rw [UInt8.toNat_sub_of_le _ _ (by rw [UInt8.le_iff_toNat_le]; simpa using h1)]
      simp
      omega
    rw [List.foldl_cons, List.foldl_cons, ← ih fun d h => hd d (List.mem_cons_of_mem _ h), e]
    simp

theorem version_val {ds : Bytes} (hd : Digits ds) :
    ds.foldl (fun v c => v * 10 + (c - 48)) (0 : UInt8) = UInt8.ofNat (decVal ds) :=
  version_digits ds hd.2 0

theorem decVal_lt (ds : Bytes) (hd : ∀ c ∈ ds, isDigit c = true) : decVal ds < 10 ^ ds.length := by
  induction ds with
  | nil => simp [decVal]
  | cons c ds ih =>
    have hc := (isDigit_iff c).1 (hd c List.mem_cons_self)
    have := ih fun d h => hd d (List.mem_cons_of_mem _ h)
    have e : decVal (c :: ds) = (c.toNat - 48) * 10 ^ ds.length + decVal ds := by
      have := decVal_append [c] ds
      rw [decVal_foldl] at this
      simpa [decVal] using this
    rw [e, List.length_cons, Nat.pow_succ]
    have h9 : (c.toNat - 48) * 10 ^ ds.length ≤ 9 * 10 ^ ds.length := Nat.mul_le_mul_right _ (by omega)
    omega

/-! ### The start line -/

theorem apps_versions (x : Core) {a b : Bytes} (ha : Digits a) (hb : Digits b) (h1 : x.msg.versionMajor = 0)
    (h2 : x.msg.versionMinor = 0) : apps x (verUpds a b) =
      { x with msg.versionMajor := UInt8.ofNat (decVal a), msg.versionMinor := UInt8.ofNat (decVal b) } := by
  unfold verUpds
  rw [apps_append, apps_major, apps_minor, h1, version_val ha]
  simp only [h2, version_val hb]

theorem status_val {ds : Bytes} (hd : Digits ds) (h3 : ds.length = 3) : ds.foldl dec64 0 = decVal ds := by
  have hd' := digits_iff.1 hd
  rw [dec64_onto ds hd'.1 hd'.2]
  have := decVal_lt ds hd'.2
  rw [h3] at this
  simp only [Int.zero_mul, Int.zero_add]
  unfold wrap64
  rw [Int.bmod_def]
  omega

theorem start_to {s : Bytes} {us : List Upd} (hs : LogicalLine s) (h : Start s us) :
    ∃ m, StartText s m ∧ apps {} us = core { msg := m } := by
  rcases (start_iff hs).1 h with ⟨m, u, x, a, b, rfl, hm, hu, ha, hb, rfl⟩ | ⟨a, b, ds, t, p, rfl, ha, hb, hd, h3, ht, hp, rfl⟩
  · refine ⟨_, .request hm hu (.mk ha hb), ?_⟩
    rw [apps_cons, apps_cons, apps_versions _ ha hb rfl rfl]
    rfl
  · refine ⟨_, .response (.mk ha hb) hd h3 ht hp, ?_⟩
    rw [apps_append, apps_append, apps_versions _ ha hb rfl rfl, apps_status]
    simp only [status_val hd h3, apps_cons, apps_nil, Upd.app]
    rfl

theorem start_from {s : Bytes} {m : Msg} (hs : LogicalLine s) (h : StartText s m) :
    ∃ us, Start s us ∧ apps {} us = core { msg := m } := by
  cases h with
  | request hm hu hv =>
    cases hv with
    | mk ha hb =>
      refine ⟨_, (start_iff hs).2 (.inl ⟨_, _, _, _, _, rfl, hm, hu, ha, hb, rfl⟩), ?_⟩
      rw [apps_cons, apps_cons, apps_versions _ ha hb rfl rfl]
      rfl
  | response hv hd h3 ht hp =>
    cases hv with
    | mk ha hb =>
      refine ⟨_, (start_iff hs).2 (.inr ⟨_, _, _, _, _, rfl, ha, hb, hd, h3, ht, hp, rfl⟩), ?_⟩
      rw [apps_append, apps_append, apps_versions _ ha hb rfl rfl, apps_status]
      simp only [status_val hd h3, apps_cons, apps_nil, Upd.app]
      rfl

/-! ### Header lines -/

theorem apps_num {e0 e1 : UInt8 → List Upd} {set : Core → Int → Core}
    (h0 : ∀ x d, apps x (e0 d) = set x (dec64 0 d)) (h1 : ∀ x z d, apps (set x z) (e1 d) = set x (dec64 z d)) (x : Core)
    (d : UInt8) (ds : Bytes) (hd : ∀ c ∈ d :: ds, isDigit c = true) :
    apps x (e0 d ++ ds.flatMap e1) = set x (wrap64 (decVal (d :: ds))) := by
  rw [← dec64_digits d ds hd, apps_append, h0]
  generalize dec64 0 d = z
  clear hd
  induction ds generalizing z with
  | nil => rfl
  | cons c ds ih => rw [List.flatMap_cons, apps_append, h1, ih]; rfl

theorem apps_cseqs (x : Core) (ds : Bytes) :
    apps x (ds.map .cseq) = { x with msg.cseq := ds.foldl dec64 x.msg.cseq } := by
  induction ds generalizing x with
  | nil => rfl
  | cons d ds ih => rw [List.map_cons, apps_cons, ih]; rfl

theorem field_to {n w v : Bytes} {us : List Upd} (x : Draft) (hn : IsName n) (hw : Blanks w) (hv : LogicalLine v)
    (h : Line (headerLine n w v) us) : ∃ y, FieldText n v x y ∧ apps (core x) us = core y := by
  cases hh : headerOf n with
  | none =>
    by_cases hs : StubName n
    · exact absurd h (line_stub hn hw hs)
    · obtain ⟨h1, rfl⟩ := (line_ext hn hw hv hh hs).1 h
      exact ⟨_, .extension hh hs h1, rfl⟩
  | some k =>
    cases k with
    | text f =>
      obtain ⟨h1, rfl⟩ := (line_text hn hw hv hh).1 h
      exact ⟨_, .text hh h1, rfl⟩
    | address f =>
      obtain ⟨w', t, as, rfl, h1, h2, rfl⟩ := (line_address hn hw hv hh).1 h
      exact ⟨_, .address hh rfl h1 h2, by rw [apps_addr]; rfl⟩
    | via =>
      obtain ⟨w', t, as, rfl, h1, h2, rfl⟩ := (line_via hn hw hv hh).1 h
      exact ⟨_, .via hh rfl h1 h2, by rw [apps_vias]; rfl⟩
    | callID =>
      obtain ⟨w', t, rfl, h1, h2, rfl⟩ := (Gr.line_callID hn hw hv hh).1 h
      exact ⟨_, .callID hh rfl h1 h2, rfl⟩
    | cseq =>
      obtain ⟨w1, ds, w2, t, rfl, h1, h2, h3, h4, rfl⟩ := (Gr.line_cseq hn hw hv hh).1 h
      refine ⟨_, .cseq hh rfl h1 h2 h3 h4, ?_⟩
      have hd := digits_iff.1 h2
      rw [apps_append, apps_cseqs, dec64_onto ds hd.1 hd.2]
      rfl
    | contentType =>
      obtain ⟨w', t, ps, rfl, h1, h2, h3, rfl⟩ := (line_type hn hw hv hh).1 h
      exact ⟨_, .contentType hh rfl h1 h2 h3, rfl⟩
    | contentLength =>
      obtain ⟨d, ds, ⟨s, rfl, h1, h2, h3⟩, rfl⟩ := (line_num hn hw hv hh rfl).1 h
      have hd : Digits (d :: ds) := digits_iff.2 ⟨h2, h3⟩
      rw [numUpd_put _ _ _ _ h3]
      by_cases hl : n.map lower = b!"l"
      · exact ⟨_, .compactLength hl rfl h1 hd rfl, by rw [putLength, if_pos hl]; generalize wrap64 _ = z; rfl⟩
      · exact ⟨_, .contentLength hh hl rfl h1 hd rfl, by rw [putLength, if_neg hl]; generalize wrap64 _ = z; rfl⟩
    | expires =>
      obtain ⟨d, ds, ⟨s, rfl, h1, h2, h3⟩, rfl⟩ := (line_num hn hw hv hh rfl).1 h
      refine ⟨_, .expires hh rfl h1 (digits_iff.2 ⟨h2, h3⟩) rfl, ?_⟩
      exact apps_num (e0 := (numUpd .expires (n.map lower)).1) (e1 := (numUpd .expires (n.map lower)).2)
        (set := fun x z => { x with msg.expires := z }) (fun _ _ => rfl) (fun _ _ _ => rfl) _ _ _ h3
    | maxForwards =>
      obtain ⟨d, ds, ⟨s, rfl, h1, h2, h3⟩, rfl⟩ := (line_num hn hw hv hh rfl).1 h
      refine ⟨_, .maxForwards hh rfl h1 (digits_iff.2 ⟨h2, h3⟩) rfl, ?_⟩
      exact apps_num (e0 := (numUpd .maxForwards (n.map lower)).1) (e1 := (numUpd .maxForwards (n.map lower)).2)
        (set := fun x z => { x with msg.maxForwards := z }) (fun _ _ => rfl) (fun _ _ _ => rfl) _ _ _ h3
    | minExpires =>
      obtain ⟨d, ds, ⟨s, rfl, h1, h2, h3⟩, rfl⟩ := (line_num hn hw hv hh rfl).1 h
      refine ⟨_, .minExpires hh rfl h1 (digits_iff.2 ⟨h2, h3⟩) rfl, ?_⟩
      exact apps_num (e0 := (numUpd .minExpires (n.map lower)).1) (e1 := (numUpd .minExpires (n.map lower)).2)
        (set := fun x z => { x with msg.minExpires := z }) (fun _ _ => rfl) (fun _ _ _ => rfl) _ _ _ h3

theorem field_from {n w v : Bytes} {x y : Draft} (hn : IsName n) (hw : Blanks w) (hv : LogicalLine v)
    (h : FieldText n v x y) : ∃ us, Line (headerLine n w v) us ∧ apps (core x) us = core y := by
  have num : ∀ {k : Header} {s ds : Bytes} {set : Core → Int → Core}, headerOf n = some k → numeric k = true → v = s ++ ds →
      Sws s → Digits ds → (∀ x d, apps x ((numUpd k (n.map lower)).1 d) = set x (dec64 0 d)) →
      (∀ x z d, apps (set x z) ((numUpd k (n.map lower)).2 d) = set x (dec64 z d)) →
      ∃ us, Line (headerLine n w v) us ∧ apps (core x) us = set (core x) (wrap64 (decVal ds)) := by
    intro k s ds set hh hk e hs hd h0 h1
    have hd' := digits_iff.1 hd
    cases ds with
    | nil => exact absurd rfl hd'.1
    | cons d ds =>
      exact ⟨_, (line_num hn hw hv hh hk).2 ⟨d, ds, ⟨s, e, hs, hd'⟩, rfl⟩, apps_num h0 h1 _ _ _ hd'.2⟩
  have len : ∀ {s ds : Bytes}, headerOf n = some .contentLength → v = s ++ ds → Sws s → Digits ds →
      ∃ us, Line (headerLine n w v) us ∧ apps (core x) us = putLength (n.map lower) (wrap64 (decVal ds)) (core x) := by
    intro s ds hh e hs hd
    have hd' := digits_iff.1 hd
    cases ds with
    | nil => exact absurd rfl hd'.1
    | cons d ds =>
      exact ⟨_, (line_num hn hw hv hh rfl).2 ⟨d, ds, ⟨s, e, hs, hd'⟩, rfl⟩, numUpd_put _ _ _ _ hd'.2⟩
  cases h with
  | text hh h1 => exact ⟨_, (line_text hn hw hv hh).2 ⟨h1, rfl⟩, rfl⟩
  | extension hh hs h1 => exact ⟨_, (line_ext hn hw hv hh hs).2 ⟨h1, rfl⟩, rfl⟩
  | via hh e h1 h2 => exact ⟨_, (line_via hn hw hv hh).2 ⟨_, _, _, e, h1, h2, rfl⟩, by rw [apps_vias]; rfl⟩
  | address hh e h1 h2 => exact ⟨_, (line_address hn hw hv hh).2 ⟨_, _, _, e, h1, h2, rfl⟩, by rw [apps_addr]; rfl⟩
  | callID hh e h1 h2 => exact ⟨_, (Gr.line_callID hn hw hv hh).2 ⟨_, _, e, h1, h2, rfl⟩, rfl⟩
  | cseq hh e h1 h2 h3 h4 =>
    refine ⟨_, (Gr.line_cseq hn hw hv hh).2 ⟨_, _, _, _, e, h1, h2, h3, h4, rfl⟩, ?_⟩
    have hd := digits_iff.1 h2
    rw [apps_append, apps_cseqs, dec64_onto _ hd.1 hd.2]
    rfl
  | contentType hh e h1 h2 h3 => exact ⟨_, (line_type hn hw hv hh).2 ⟨_, _, _, e, h1, h2, h3, rfl⟩, rfl⟩
  | contentLength hh hl e h1 h2 hk =>
    obtain ⟨us, g1, g2⟩ := len hh e h1 h2
    exact ⟨us, g1, by rw [g2, putLength, if_neg hl, ← hk]; rfl⟩
  | compactLength hl e h1 h2 hk =>
    obtain ⟨us, g1, g2⟩ := len (name_l hl) e h1 h2
    exact ⟨us, g1, by rw [g2, putLength, if_pos hl, ← hk]; rfl⟩
  | expires hh e h1 h2 hk =>
    rw [hk]
    exact num (set := fun x z => { x with msg.expires := z }) hh rfl e h1 h2 (fun _ _ => rfl) (fun _ _ _ => rfl)
  | maxForwards hh e h1 h2 hk =>
    rw [hk]
    exact num (set := fun x z => { x with msg.maxForwards := z }) hh rfl e h1 h2 (fun _ _ => rfl) (fun _ _ _ => rfl)
  | minExpires hh e h1 h2 hk =>
    rw [hk]
    exact num (set := fun x z => { x with msg.minExpires := z }) hh rfl e h1 h2 (fun _ _ => rfl) (fun _ _ _ => rfl)

theorem lines_to {ls : List Bytes} {us : List Upd} (hl : ∀ L ∈ ls, HeaderLine L) (h : Reads ls us) (x : Draft) :
    ∃ z, FieldLines ls x z ∧ apps (core x) us = core z := by
  induction h generalizing x with
  | nil => exact ⟨x, .nil, rfl⟩
  | @cons L ls u us h1 _ ih =>
    obtain ⟨n, w, v, hn, hw, rfl⟩ := line_shape (hl L List.mem_cons_self) h1
    have hv := (headerLine_line hn hw).1 (hl _ List.mem_cons_self)
    obtain ⟨y, g1, g2⟩ := field_to x hn hw hv h1
    obtain ⟨z, g3, g4⟩ := ih (fun L h => hl L (List.mem_cons_of_mem _ h)) y
    exact ⟨z, .cons hn hw hv g1 g3, by rw [apps_append, g2, g4]⟩

theorem lines_from {ls : List Bytes} {x z : Draft} (h : FieldLines ls x z) :
    (∀ L ∈ ls, HeaderLine L) ∧ ∃ us, Reads ls us ∧ apps (core x) us = core z := by
  induction h with
  | nil => exact ⟨by simp, [], .nil, rfl⟩
  | cons hn hw hv h1 _ ih =>
    obtain ⟨u, g1, g2⟩ := field_from (w := _) hn hw hv h1
    obtain ⟨g3, us, g4, g5⟩ := ih
    refine ⟨?_, _, .cons g1 g4, by rw [apps_append, g2, g5]⟩
    intro L hL
    rcases List.mem_cons.1 hL with rfl | hL
    · exact (headerLine_line hn hw).2 hv
    · exact g3 L hL

/-! ### The body -/

theorem body_iff {x : Draft} {body : Bytes} {m : Msg} : sfinish (core x) body = .ok m ↔ BodyText x body m := by
  unfold sfinish BodyText core
  simp only
  by_cases h0 : x.length > 0
  · rw [if_pos h0]
    by_cases h1 : x.length = body.length
    · have hne : body ≠ [] := by
        rintro rfl
        rw [h1] at h0
        simp at h0
      rw [if_neg (by simpa using h1)]
      constructor
      · intro h
        refine .inr ⟨h1, hne, ?_⟩
        by_cases ht : x.type = b!"application/sdp"
        · rw [if_pos ht] at h
          cases hp : Sdp.parse body with
          | ok ms =>
            rw [hp] at h
            cases h
            exact ⟨_, ⟨fun g => absurd ht g, fun _ => ⟨ms, hp, rfl⟩⟩, rfl⟩
          | err e => rw [hp] at h; cases h
          | panic => rw [hp] at h; cases h
        · rw [if_neg ht] at h
          cases h
          exact ⟨_, ⟨fun _ => rfl, fun g => absurd g ht⟩, rfl⟩
      · rintro (⟨h, _⟩ | ⟨_, _, p, ⟨p1, p2⟩, rfl⟩)
        · omega
        · by_cases ht : x.type = b!"application/sdp"
          · obtain ⟨ms, e, rfl⟩ := p2 ht
            rw [if_pos ht, e]
          · rw [if_neg ht, p1 ht]
    · rw [if_pos h1]
      constructor
      · intro h; cases h
      · rintro (⟨h, _⟩ | ⟨h, _⟩)
        · omega
        · exact absurd h h1
  · rw [if_neg h0]
    constructor
    · intro h; cases h; exact .inl ⟨by omega, rfl⟩
    · rintro (⟨_, rfl⟩ | ⟨h, hne, _⟩)
      · rfl
      · have := List.length_pos_iff.2 hne
        omega

/-! ### Messages -/

theorem parse_grammar (d : Bytes) (m : Msg) : parseMsg d = .ok m ↔ MessageText d m := by
  constructor
  · intro h
    obtain ⟨s, ls, body, u0, us, e, hs, hl, hb, h1, h2, h3⟩ := parse_text h
    obtain ⟨m0, g1, g2⟩ := start_to hs h1
    obtain ⟨z, g3, g4⟩ := lines_to hl h2 { msg := m0 }
    exact ⟨s, ls, body, m0, z, e, hb, hs, g1, g3, body_iff.1 (by rw [← g4, ← g2, ← apps_append]; exact h3)⟩
  · rintro ⟨s, ls, body, m0, z, rfl, hb, hs, h1, h2, h3⟩
    obtain ⟨u0, g1, g2⟩ := start_from hs h1
    obtain ⟨hl, us, g3, g4⟩ := lines_from h2
    exact (parse_head hs hl).2 ⟨hb, u0, us, g1, g3, by rw [apps_append, g2, g4]; exact body_iff.2 h3⟩

end Gosip.Sip.MsgM.Gr
