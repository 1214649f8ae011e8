import Verif.Sip.Acc
import Verif.Sip.NameTable
import Verif.Sip.CharsetLemmas
import Verif.Spec.Headers

/-!
# The name of a header line

The trie of header names in the message machine (states 281 to 763 of `sip/msg_parse.go`): a name leads to
the part of the machine for its header whatever the case of its letters, an unknown name to the part for
extension headers, except that the beginning of a known name leads to an error.
-/

namespace Gosip.Sip.MsgM
open Spec

/-- A state of the trie. -/
def trie (k : Nat) : Bool := !(pre k).isEmpty

/-- The state after a byte of a name. -/
def nstep (k : Nat) (c : UInt8) : Nat :=
  match lookup (rows k) c.toNat with
  | some r => bif Nat.beq r.tgt 273 then 274 else r.tgt
  | none => 0

/-- ASCII lower case on numbers. -/
def lowerN (n : Nat) : Nat := bif Nat.ble 65 n && Nat.ble n 90 then n + 32 else n

/-- Token characters on numbers. -/
def tokenN (n : Nat) : Bool := tokenc (UInt8.ofNat n)

/-- A row that reads a byte of a name: within the trie, or out of it. -/
def nameRow (k : Nat) (r : Row) : Bool :=
  (decide (r.acts = []) && (trie r.tgt || Nat.beq r.tgt 274)) || (decide (r.acts = [.hold]) && Nat.beq r.tgt 273 && trie k)

/-- The symbols of a state that lead within the trie. -/
def nameByte (k n : Nat) : Bool :=
  !tokenN n ||
    match lookup (rows k) n with
    | none => false
    | some r => nameRow k r &&
        (match lookup (rows k) (lowerN n) with
          | some q => decide (q.acts = r.acts ∧ q.tgt = r.tgt)
          | none => false) &&
        (!trie r.tgt || (pre k).all fun w => (pre r.tgt).contains (w ++ [UInt8.ofNat (lowerN n)]))

theorem name_check : ∀ k, k < 765 → trie k = true → ∀ n, n < 128 → nameByte k n = true := by decide +kernel

theorem trie_narrow : ∀ k, k < 765 → trie k = true ∨ k = 273 ∨ k = 274 ∨ k = 275 → wide k = false := by
  decide +kernel

/-- A token is read by 273 and 274. -/
theorem name_273 : ∀ n, n < 256 → tokenN n = true →
    (lookup (rows 273) n).map (fun r => (r.acts, r.tgt)) = some ([], 274) ∧
    (lookup (rows 274) n).map (fun r => (r.acts, r.tgt)) = some ([], 274) := by decide +kernel

theorem trie_lt {k : Nat} (h : trie k = true) : k < 765 := by
  refine Decidable.byContradiction fun hk => ?_
  have : pre k = [] := by
    unfold pre
    repeat' (first
      | rfl
      | (rw [show Nat.blt k _ = false from Bool.eq_false_iff.2 (by rw [Ne, Nat.blt_eq]; omega)]; simp only [cond_false]))
  rw [trie, this] at h; cases h

theorem trie_281 : trie 281 = true := by decide +kernel
theorem trie_274 : trie 274 = false := by decide +kernel
theorem trie_273 : trie 273 = false := by decide +kernel

theorem token_lt : ∀ c : UInt8, tokenc c = true → c.toNat < 128 := by decide +kernel

/-- One byte of a name. -/
theorem name_step {k : Nat} {l : Loc} {c : UInt8} {tl : Bytes} (hk : trie k = true ∨ k = 274)
    (hc : tokenc c = true) :
    SRun ⟨k, l, c :: tl⟩ [] ⟨nstep k c, { l with seg := l.seg ++ [c] }, tl⟩ ∧
      (trie (nstep k c) = true ∨ nstep k c = 274) := by
  have ht : tokenN c.toNat = true := by simpa [tokenN] using hc
  obtain ⟨n1, n2⟩ := name_273 c.toNat c.toNat_lt ht
  rcases hk with hk | rfl
  · have h := name_check k (trie_lt hk) hk c.toNat (token_lt c hc)
    simp only [nameByte, ht, Bool.not_true, Bool.false_or] at h
    cases hl : lookup (rows k) c.toNat with
    | none => rw [hl] at h; cases h
    | some r =>
      rw [hl] at h
      simp only [Bool.and_eq_true, nameRow, Bool.or_eq_true, decide_eq_true_eq] at h
      have hs : ssymbol k (c :: tl) c = c.toNat := ssymbol_narrow (trie_narrow k (trie_lt hk) (.inl hk))
      rcases h.1.1 with ⟨h1, h2⟩ | ⟨⟨h1, h2⟩, _⟩
      · have hn : nstep k c = r.tgt := by
          unfold nstep; rw [hl]
          have : Nat.beq r.tgt 273 = false := by
            cases hb : Nat.beq r.tgt 273 with
            | false => rfl
            | true =>
              have e := Nat.eq_of_beq_eq_true hb
              rw [e, trie_273] at h2; simp at h2
          simp only [this]; rfl
        refine ⟨?_, by rw [hn]; exact h2.imp id Nat.eq_of_beq_eq_true⟩
        have := SRun.one (sstep_intro (l := l) (l' := l) (a := []) (r := r) (by rw [hs]; exact hl)
          (by rw [h1]; rfl))
        rw [h1] at this
        rw [hn]; exact this
      · have e := Nat.eq_of_beq_eq_true h2
        have hn : nstep k c = 274 := by
          unfold nstep; rw [hl]
          simp only [h2]; rfl
        refine ⟨?_, .inr hn⟩
        have s1 := sstep_intro (tl := tl) (l := l) (l' := l) (a := []) (r := r) (by rw [hs]; exact hl)
          (by rw [h1]; rfl)
        rw [h1, e] at s1
        cases hq : lookup (rows 273) c.toNat with
        | none => rw [hq] at n1; cases n1
        | some q =>
          rw [hq] at n1
          simp only [Option.map_some, Option.some.injEq, Prod.mk.injEq] at n1
          have hs3 : ssymbol 273 (c :: tl) c = c.toNat := ssymbol_narrow (trie_narrow 273 (by decide) (.inr (.inl rfl)))
          have s2 := sstep_intro (tl := tl) (l := l) (l' := l) (a := []) (r := q) (by rw [hs3]; exact hq)
            (by rw [n1.1]; rfl)
          rw [n1.1, n1.2] at s2
          rw [hn]
          exact .step s1 (.one s2)
  · cases hq : lookup (rows 274) c.toNat with
    | none => rw [hq] at n2; cases n2
    | some q =>
      rw [hq] at n2
      simp only [Option.map_some, Option.some.injEq, Prod.mk.injEq] at n2
      have hs3 : ssymbol 274 (c :: tl) c = c.toNat := ssymbol_narrow (trie_narrow 274 (by decide) (.inr (.inr (.inl rfl))))
      have s2 := sstep_intro (tl := tl) (l := l) (l' := l) (a := []) (r := q) (by rw [hs3]; exact hq)
        (by rw [n2.1]; rfl)
      rw [n2.1, n2.2] at s2
      have hn : nstep 274 c = 274 := by
        unfold nstep; rw [hq]; simp only [n2.2]; rfl
      rw [hn]
      exact ⟨.one s2, .inr rfl⟩

/-- The state after a name. -/
def walk (k : Nat) (n : Bytes) : Nat := n.foldl nstep k

theorem name_walk {k : Nat} {l : Loc} {n tl : Bytes} (hk : trie k = true ∨ k = 274)
    (hn : ∀ c ∈ n, tokenc c = true) :
    SRun ⟨k, l, n ++ tl⟩ [] ⟨walk k n, { l with seg := l.seg ++ n }, tl⟩ ∧
      (trie (walk k n) = true ∨ walk k n = 274) := by
  induction n generalizing k l with
  | nil => exact ⟨by simpa [walk] using SRun.refl _, hk⟩
  | cons c n ih =>
    obtain ⟨h1, h2⟩ := name_step (l := l) (tl := n ++ tl) hk (hn c List.mem_cons_self)
    obtain ⟨h3, h4⟩ := ih (l := { l with seg := l.seg ++ [c] }) h2 fun d hd => hn d (List.mem_cons_of_mem _ hd)
    refine ⟨?_, h4⟩
    have := h1.trans h3
    simpa [walk] using this

end Gosip.Sip.MsgM
