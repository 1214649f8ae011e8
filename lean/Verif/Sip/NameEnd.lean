import Verif.Sip.Names

/-!
# From the name of a header line to its value
-/

namespace Gosip.Sip.MsgM
open Spec

theorem lower_toNat : ∀ c : UInt8, (lower c).toNat = lowerN c.toNat := by decide +kernel
theorem lower_token : ∀ c : UInt8, tokenc c = true → tokenc (lower c) = true := by decide +kernel
theorem lower_lower : ∀ c : UInt8, lower (lower c) = lower c := by decide +kernel

theorem nstep_lower {k : Nat} {c : UInt8} (hk : trie k = true ∨ k = 274) (hc : tokenc c = true) :
    nstep k (lower c) = nstep k c := by
  rcases hk with hk | rfl
  · have ht : tokenN c.toNat = true := by simpa [tokenN] using hc
    have h := name_check k (trie_lt hk) hk c.toNat (token_lt c hc)
    simp only [nameByte, ht, Bool.not_true, Bool.false_or] at h
    unfold nstep
    rw [lower_toNat]
    cases hl : lookup (rows k) c.toNat with
    | none => rw [hl] at h; cases h
    | some r =>
      rw [hl] at h
      simp only [Bool.and_eq_true] at h
      have h2 := h.1.2
      cases hq : lookup (rows k) (lowerN c.toNat) with
      | none => rw [hq] at h2; cases h2
      | some q =>
        rw [hq] at h2
        simp only [decide_eq_true_eq] at h2
        simp only [h2.2]
  · have e : ∀ c, tokenc c = true → nstep 274 c = 274 := by
      intro c hc
      have ht : tokenN c.toNat = true := by simpa [tokenN] using hc
      have n2 := (name_273 c.toNat c.toNat_lt ht).2
      cases hq : lookup (rows 274) c.toNat with
      | none => rw [hq] at n2; cases n2
      | some q =>
        rw [hq] at n2
        simp only [Option.map_some, Option.some.injEq, Prod.mk.injEq] at n2
        unfold nstep; rw [hq]; simp only [n2.2]; rfl
    rw [e c hc, e _ (lower_token c hc)]

theorem walk_lower {k : Nat} {n : Bytes} (hk : trie k = true ∨ k = 274) (hn : ∀ c ∈ n, tokenc c = true) :
    walk k (n.map lower) = walk k n := by
  induction n generalizing k with
  | nil => rfl
  | cons c n ih =>
    have hc := hn c List.mem_cons_self
    have h2 := (name_step (l := {}) (tl := []) hk hc).2
    have := ih h2 fun d hd => hn d (List.mem_cons_of_mem _ hd)
    simp only [walk, List.map_cons, List.foldl_cons] at this ⊢
    rw [nstep_lower hk hc]
    exact this

theorem nstep_pre {k : Nat} {c : UInt8} {w : Bytes} (hk : trie k = true) (hc : tokenc c = true)
    (ht' : trie (nstep k c) = true) (hw : w ∈ pre k) : w ++ [lower c] ∈ pre (nstep k c) := by
  have ht : tokenN c.toNat = true := by simpa [tokenN] using hc
  have h := name_check k (trie_lt hk) hk c.toNat (token_lt c hc)
  simp only [nameByte, ht, Bool.not_true, Bool.false_or] at h
  unfold nstep at ht' ⊢
  cases hl : lookup (rows k) c.toNat with
  | none => rw [hl] at h; cases h
  | some r =>
    rw [hl] at h ht'
    simp only [Bool.and_eq_true] at h
    simp only [] at ht' ⊢
    cases hb : Nat.beq r.tgt 273 with
    | true => rw [hb, cond_true, trie_274] at ht'; cases ht'
    | false =>
      rw [hb, cond_false] at ht'
      rw [cond_false]
      have h2 := h.2
      rw [ht'] at h2
      simp only [Bool.not_true, Bool.false_or, List.all_eq_true] at h2
      have := h2 w hw
      rw [← lower_toNat, UInt8.ofNat_toNat] at this
      simpa using this

theorem walk_pre {k : Nat} {n w : Bytes} (hk : trie k = true) (hn : ∀ c ∈ n, tokenc c = true)
    (ht : trie (walk k n) = true) (hw : w ∈ pre k) : w ++ n.map lower ∈ pre (walk k n) := by
  induction n generalizing k w with
  | nil => simpa [walk] using hw
  | cons c n ih =>
    have hc := hn c List.mem_cons_self
    have hn' : ∀ d ∈ n, tokenc d = true := fun d hd => hn d (List.mem_cons_of_mem _ hd)
    have h2 := (name_step (l := {}) (tl := []) (.inl hk) hc).2
    rcases h2 with h2 | h2
    · have := ih h2 hn' ht (nstep_pre hk hc h2 hw)
      simpa [walk] using this
    · exfalso
      have e : ∀ n : Bytes, (∀ d ∈ n, tokenc d = true) → walk 274 n = 274 := by
        intro n hn
        induction n with
        | nil => rfl
        | cons d n ihn =>
          have hd := hn d List.mem_cons_self
          have hh : tokenN d.toNat = true := by simpa [tokenN] using hd
          have n2 := (name_273 d.toNat d.toNat_lt hh).2
          cases hq : lookup (rows 274) d.toNat with
          | none => rw [hq] at n2; cases n2
          | some q =>
            rw [hq] at n2
            simp only [Option.map_some, Option.some.injEq, Prod.mk.injEq] at n2
            have e1 : nstep 274 d = 274 := by unfold nstep; rw [hq]; simp only [n2.2]; rfl
            simp only [walk, List.foldl_cons, e1]
            exact ihn fun z hz => hn z (List.mem_cons_of_mem _ hz)
      have e2 : walk k (c :: n) = walk 274 n := by simp only [walk, List.foldl_cons, h2]
      rw [e2, e n hn', trie_274] at ht
      cases ht

/-- Known names stay within the trie. -/
def staysIn (k : Nat) : Bytes → Bool
  | [] => trie k
  | c :: n => trie k && staysIn (nstep k c) n

theorem names_stay : ∀ p ∈ headerNames, staysIn 281 p.1 = true := by decide +kernel

theorem staysIn_prefix {k : Nat} {w x : Bytes} (h : staysIn k (w ++ x) = true) : trie (walk k w) = true := by
  induction w generalizing k with
  | nil =>
    cases x with
    | nil => exact h
    | cons c x => simp only [List.nil_append, staysIn, Bool.and_eq_true] at h; exact h.1
  | cons c w ih =>
    simp only [List.cons_append, staysIn, Bool.and_eq_true] at h
    exact ih h.2

/-- Beginnings of known names only. -/
theorem pre_prefix : ∀ k, k < 765 → ∀ w ∈ pre k, headerNames.any (fun p => w.isPrefixOf p.1) = true := by
  decide +kernel

/-- The actions when a known name has been read. -/
def nameActs (h : Header) (w : Bytes) : List MAct :=
  match h with
  | .text f => if w = b!"u" then [.setValue .allow, .setValue .allowEvents] else [.setValue f]
  | .address f => [.lastAddr f]
  | _ => []

/-- The state after the colon. -/
def entry (h : Header) (w : Bytes) : Nat :=
  match h with
  | .text _ => 284
  | .address _ => 395
  | .via => 736
  | .callID => 377
  | .cseq => 449
  | .contentType => 366
  | .contentLength => if w = b!"l" then 507 else 436
  | .expires => 484
  | .maxForwards => 525
  | .minExpires => 551

/-- The end of a name. -/
def endCheck (k : Nat) (w : Bytes) : Bool :=
  match headerNames.lookup w with
  | none => [9, 32, 58].all fun n => decide (rowAt k n = some ([.hold], 273))
  | some h => decide (rowAt k 58 = some (nameActs h w, entry h w)) &&
      match rowAt k 32 with
      | none => false
      | some (as, t) => decide (as = nameActs h w) && decide (rowAt k 9 = some (as, t)) && Nat.blt t 765 && !wide t &&
          decide (rowAt t 9 = some ([], t)) && decide (rowAt t 32 = some ([], t)) &&
          decide (rowAt t 58 = some ([], entry h w)) && (rows t).all fun r => Nat.beq r.lo r.hi && (Nat.beq r.lo 9 || Nat.beq r.lo 32 || Nat.beq r.lo 58)

theorem end_check : ∀ k, k < 765 → ∀ w ∈ pre k, w = [] ∨ endCheck k w = true := by decide +kernel

/-- Other bytes are errors. -/
def otherCheck (k n : Nat) : Bool :=
  tokenN n || Nat.beq n 9 || Nat.beq n 32 || Nat.beq n 58 ||
    match lookup (rows k) n with
    | none => true
    | some r => decide (r.acts = [.hold]) && Nat.beq r.tgt 273

theorem other_check : ∀ k, k < 765 → trie k = true → ∀ n, n < 256 → otherCheck k n = true := by decide +kernel

theorem other_27x : ∀ n, n < 256 → (tokenN n = true ∨ lookup (rows 273) n = none) ∧
    (tokenN n = true ∨ n = 9 ∨ n = 32 ∨ n = 58 ∨ lookup (rows 274) n = none) := by decide +kernel

end Gosip.Sip.MsgM
