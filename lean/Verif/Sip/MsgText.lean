import Verif.Sip.MsgSafe
import Verif.Sip.MsgTextTable
import Verif.Sip.CharsetLemmas
import Verif.Spec.MsgText

/-!
# The message machine: contents of the texts it stores, and the shape of the start line

Second abstract interpretation over the same table.
-/

namespace Gosip.Sip.MsgM
open Spec

/-! ### Induction over reachable configurations -/

/-- Position after the actions and the increment of a row. -/
def nextCtx (d : Bytes) (r : Row) (x : Ctx) : Ctx := { effs d r.acts x with p := (effs d r.acts x).p + 1 }

theorem step_cont {d : Bytes} {k k' : Nat} {x x' : Ctx} (h : step d k x = .cont k' x') :
    ∃ c r y, d[x.p]? = some c ∧ x.p < d.length ∧ r ∈ rows k ∧ r.lo ≤ symbol d k x.p c ∧
      symbol d k x.p c ≤ r.hi ∧ execs d r.acts x = .ok y ∧ k' = r.tgt ∧ r.tgt ≠ 781 ∧
      y = effs d r.acts x ∧ x' = { y with p := y.p + 1 } := by
  rcases step_cases (d := d) (k := k) (x := x) with ⟨_, h1⟩ | ⟨c, hc, _, h1⟩ | ⟨c, r, hc, hl, h1⟩
  · rw [h1] at h; cases h
  · rw [h1] at h; cases h
  · rw [h1] at h
    cases he : execs d r.acts x with
    | panic => simp [he, after] at h
    | err e => simp [he, after] at h
    | ok y =>
      rw [he] at h
      simp only [after] at h
      split at h
      · cases h
      · rename_i ht
        cases h
        obtain ⟨m1, m2, m3⟩ := lookup_mem hl
        exact ⟨c, r, y, hc, (List.getElem?_eq_some_iff.1 hc).1, m1, m2, m3, he, rfl, ht, execs_ok he, rfl⟩

theorem step_brk {d : Bytes} {k : Nat} {x x' : Ctx} (h : step d k x = .brk x') :
    ∃ c r y, d[x.p]? = some c ∧ x.p < d.length ∧ r ∈ rows k ∧ r.lo ≤ symbol d k x.p c ∧
      symbol d k x.p c ≤ r.hi ∧ execs d r.acts x = .ok y ∧ r.tgt = 781 ∧
      y = effs d r.acts x ∧ x' = { y with p := y.p + 1 } := by
  rcases step_cases (d := d) (k := k) (x := x) with ⟨_, h1⟩ | ⟨c, hc, _, h1⟩ | ⟨c, r, hc, hl, h1⟩
  · rw [h1] at h; cases h
  · rw [h1] at h; cases h
  · rw [h1] at h
    cases he : execs d r.acts x with
    | panic => simp [he, after] at h
    | err e => simp [he, after] at h
    | ok y =>
      rw [he] at h
      simp only [after] at h
      split at h
      · rename_i ht
        cases h
        obtain ⟨m1, m2, m3⟩ := lookup_mem hl
        exact ⟨c, r, y, hc, (List.getElem?_eq_some_iff.1 hc).1, m1, m2, m3, he, ht, execs_ok he, rfl⟩
      · cases h

theorem symbol_cases (d : Bytes) (k p : Nat) (c : UInt8) :
    symbol d k p c = c.toNat ∨ (256 ≤ symbol d k p c ∧ c = 13) := by
  unfold symbol
  cases h : wide k && c == 13
  · exact .inl rfl
  · simp only [Bool.and_eq_true, beq_iff_eq] at h
    refine .inr ⟨?_, h.2⟩
    cases lookAheadWSP d p <;> simp

/-! ### Folded text -/

theorem snoc_cases {α : Type} (l : List α) : l = [] ∨ ∃ l' z, l = l' ++ [z] := by
  rcases List.eq_nil_or_concat l with h | ⟨l', z, h⟩
  · exact .inl h
  · exact .inr ⟨l', z, by rw [h, List.concat_eq_append]⟩

theorem snoc_induction {α : Type} {P : List α → Prop} (h0 : P []) (h1 : ∀ l z, P l → P (l ++ [z])) :
    ∀ l, P l := by
  intro l
  rw [← List.reverse_reverse l]
  induction l.reverse with
  | nil => exact h0
  | cons a l ih => rw [List.reverse_cons]; exact h1 _ _ ih


/-- `FoldedText`, built from the left. -/
inductive Folded : Bytes → Prop
  | nil : Folded []
  | char {s c} : Folded s → c ≠ 13 → c ≠ 10 → Folded (s ++ [c])
  | fold {s w} : Folded s → wsp w → Folded (s ++ [13, 10, w])

theorem Folded.text {s : Bytes} (h : Folded s) : FoldedText s := by
  induction h with
  | nil => intro a c b e; simp at e
  | @char s c _ h1 h2 ih =>
    intro a e b he
    rcases snoc_cases b with rfl | ⟨b', z, rfl⟩
    · obtain ⟨_, h4⟩ := List.append_inj' he rfl
      cases h4
      exact ⟨fun h => absurd h h1, fun h => absurd h h2⟩
    · rw [show a ++ e :: (b' ++ [z]) = (a ++ e :: b') ++ [z] by simp] at he
      obtain ⟨h3, _⟩ := List.append_inj' he rfl
      obtain ⟨i1, i2⟩ := ih a e b' h3
      constructor
      · intro h
        obtain ⟨w, r, rfl, hw⟩ := i1 h
        exact ⟨w, r ++ [z], by simp, hw⟩
      · intro h
        obtain ⟨i3, w, r, rfl, hw⟩ := i2 h
        exact ⟨i3, w, r ++ [z], by simp, hw⟩
  | @fold s w _ hw ih =>
    intro a e b he
    rcases List.append_eq_append_iff.1 he with ⟨t, rfl, h2⟩ | ⟨t, rfl, h2⟩
    · -- the position is in the fold
      cases t with
      | nil =>
        simp at h2; obtain ⟨rfl, rfl⟩ := h2
        exact ⟨fun _ => ⟨w, [], rfl, hw⟩, fun h => absurd h (by decide)⟩
      | cons t1 t =>
        simp at h2; obtain ⟨rfl, h2⟩ := h2
        cases t with
        | nil =>
          simp at h2; obtain ⟨rfl, rfl⟩ := h2
          exact ⟨fun h => absurd h (by decide), fun _ => ⟨⟨s, rfl⟩, w, [], rfl, hw⟩⟩
        | cons t2 t =>
          simp at h2; obtain ⟨rfl, h2⟩ := h2
          cases t with
          | nil =>
            simp at h2; obtain ⟨rfl, rfl⟩ := h2
            refine ⟨fun h => ?_, fun h => ?_⟩ <;> subst h <;> simp [wsp] at hw
          | cons t3 t => simp at h2
    · cases t with
      | nil =>
        simp at h2; obtain ⟨rfl, rfl⟩ := h2
        exact ⟨fun _ => ⟨w, [], rfl, hw⟩, fun h => absurd h (by decide)⟩
      | cons t1 t =>
        simp at h2; obtain ⟨rfl, rfl⟩ := h2
        obtain ⟨i1, i2⟩ := ih a _ t rfl
        constructor
        · intro h
          obtain ⟨w', r, rfl, hw'⟩ := i1 h
          exact ⟨w', r ++ [13, 10, w], by simp, hw'⟩
        · intro h
          obtain ⟨i3, w', r, rfl, hw'⟩ := i2 h
          exact ⟨i3, w', r ++ [13, 10, w], by simp, hw'⟩

/-- Dropping trailing blanks keeps folded text folded. -/
theorem Folded.trim {s : Bytes} (h : Folded s) : ∀ t w, s = t ++ w →
    (∀ c ∈ w, whitespacec c = true) → (∀ t' c, t = t' ++ [c] → whitespacec c = false) → Folded t := by
  induction h with
  | nil => intro t w e _ _; simp at e; rw [e.1]; exact .nil
  | @char s c hs h1 h2 ih =>
    intro t w e hw ht
    rcases snoc_cases w with rfl | ⟨w', z, rfl⟩
    · rw [List.append_nil] at e; rw [← e]; exact hs.char h1 h2
    · rw [← List.append_assoc] at e
      obtain ⟨h3, _⟩ := List.append_inj' e rfl
      exact ih t w' h3 (fun c hc => hw c (by simp [hc])) ht
  | @fold s b hs hb ih =>
    intro t w e hw ht
    have hbw : whitespacec b = true := by rcases hb with rfl | rfl <;> decide
    have last : ∀ (u : Bytes) (z : UInt8) (t w : Bytes), whitespacec z = true → u ++ [z] = t ++ w →
        (∀ t' c, t = t' ++ [c] → whitespacec c = false) → ∃ w', w = w' ++ [z] ∧ u = t ++ w' := by
      intro u z t w hz e ht
      rcases snoc_cases w with rfl | ⟨w', z', rfl⟩
      · rw [List.append_nil] at e
        have := ht u z e.symm
        rw [hz] at this; cases this
      · rw [← List.append_assoc] at e
        obtain ⟨h3, h4⟩ := List.append_inj' e rfl
        cases h4
        exact ⟨w', rfl, h3⟩
    rw [show s ++ [13, 10, b] = (s ++ [13, 10]) ++ [b] by simp] at e
    obtain ⟨w1, rfl, e1⟩ := last _ _ _ _ hbw e ht
    rw [show s ++ [13, 10] = (s ++ [13]) ++ [10] by simp] at e1
    obtain ⟨w2, rfl, e2⟩ := last _ _ _ _ (by decide) e1 ht
    obtain ⟨w3, rfl, e3⟩ := last _ _ _ _ (by decide) e2 ht
    exact ih t w3 e3 (fun c hc => hw c (by simp [hc])) ht

theorem Folded.of_oneLine {s : Bytes} (h : OneLine s) : Folded s := by
  revert h
  refine snoc_induction (P := fun s => OneLine s → Folded s) (fun _ => .nil) ?_ s
  · intro s c ih h
    exact (ih fun e he => h e (by simp [he])).char (h c (by simp)).1 (h c (by simp)).2

/-! ### Classes of text -/

/-- Meaning of a class. -/
def ClsOK : Nat → Bytes → Prop
  | 0, s => TokenText s
  | 1, s => OneLine s
  | 2, s => Folded s
  | 3, s => ∃ t, s = t ++ [13] ∧ Folded t
  | 4, s => ∃ t, s = t ++ [13, 10] ∧ Folded t
  | _, _ => True

/-- Ranges of token characters. -/
def tokRanges : List (Nat × Nat) :=
  [(33, 33), (37, 37), (39, 39), (42, 43), (45, 46), (48, 57), (65, 90), (95, 122), (126, 126)]

def tokRange (lo hi : Nat) : Bool := tokRanges.any fun r => Nat.ble r.1 lo && Nat.ble hi r.2

def plainRange (lo hi : Nat) : Bool :=
  Nat.blt hi 10 || (Nat.blt 10 lo && Nat.blt hi 13) || (Nat.blt 13 lo && Nat.blt hi 256)

def crRange (lo hi : Nat) : Bool := (Nat.beq lo 13 && Nat.beq hi 13) || Nat.ble 256 lo

def lfRange (lo hi : Nat) : Bool := Nat.beq lo 10 && Nat.beq hi 10

def wspRange (lo hi : Nat) : Bool := (Nat.beq lo 9 && Nat.beq hi 9) || (Nat.beq lo 32 && Nat.beq hi 32)

/-- Class after one more byte from the range. -/
def clsAdv (c lo hi : Nat) : Nat :=
  match c with
  | 0 => bif tokRange lo hi then 0 else bif plainRange lo hi then 1 else bif crRange lo hi then 3 else 5
  | 1 => bif plainRange lo hi then 1 else bif crRange lo hi then 3 else 5
  | 2 => bif plainRange lo hi then 2 else bif crRange lo hi then 3 else 5
  | 3 => bif lfRange lo hi then 4 else 5
  | 4 => bif wspRange lo hi then 2 else 5
  | _ => 5

/-- Class inclusion. -/
def clsLe (a b : Nat) : Bool := Nat.beq a b || Nat.beq b 5 || (Nat.ble a b && Nat.ble b 2)

theorem ClsOK.five (s : Bytes) : ClsOK 5 s := trivial

theorem TokenText.oneLine {s : Bytes} (h : TokenText s) : OneLine s := fun c hc =>
  (by decide +kernel : ∀ c, token c → c ≠ 13 ∧ c ≠ 10) c (h c hc)

theorem ClsOK.le {a b : Nat} {s : Bytes} (h : ClsOK a s) (hl : clsLe a b = true) : ClsOK b s := by
  simp only [clsLe, Bool.or_eq_true, Bool.and_eq_true, Nat.beq_eq, Nat.ble_eq] at hl
  rcases hl with (rfl | rfl) | ⟨h1, h2⟩
  · exact h
  · trivial
  · have : b = 0 ∨ b = 1 ∨ b = 2 := by omega
    rcases this with rfl | rfl | rfl
    · have : a = 0 := by omega
      subst this; exact h
    · have : a = 0 ∨ a = 1 := by omega
      rcases this with rfl | rfl
      · exact TokenText.oneLine h
      · exact h
    · have : a = 0 ∨ a = 1 ∨ a = 2 := by omega
      rcases this with rfl | rfl | rfl
      · exact .of_oneLine (TokenText.oneLine h)
      · exact .of_oneLine h
      · exact h

/-- What a byte read through a row is. -/
structure InRange (lo hi : Nat) (c : UInt8) : Prop where
  mem : (lo ≤ c.toNat ∧ c.toNat ≤ hi) ∨ (256 ≤ hi ∧ c = 13)

theorem inRange_tok {lo hi : Nat} {c : UInt8} (h : InRange lo hi c) (ht : tokRange lo hi = true) :
    token c := by
  simp only [tokRange, List.any_eq_true, Bool.and_eq_true, Nat.ble_eq] at ht
  obtain ⟨r, hr, h1, h2⟩ := ht
  have key : ∀ c : UInt8, ∀ r ∈ tokRanges, r.1 ≤ c.toNat → c.toNat ≤ r.2 → token c := by decide +kernel
  have small : ∀ r ∈ tokRanges, r.2 < 256 := by decide
  rcases h.mem with h | h
  · exact key c r hr (by omega) (by omega)
  · have := small r hr; omega

theorem inRange_plain {lo hi : Nat} {c : UInt8} (h : InRange lo hi c) (ht : plainRange lo hi = true) :
    c ≠ 13 ∧ c ≠ 10 := by
  simp only [plainRange, Bool.or_eq_true, Bool.and_eq_true, Nat.blt_eq] at ht
  have : c.toNat ≠ 13 ∧ c.toNat ≠ 10 := by rcases h.mem with h | h <;> omega
  constructor <;> intro e <;> subst e <;> simp at this

theorem inRange_cr {lo hi : Nat} {c : UInt8} (h : InRange lo hi c) (ht : crRange lo hi = true) : c = 13 := by
  simp only [crRange, Bool.or_eq_true, Bool.and_eq_true, Nat.beq_eq, Nat.ble_eq] at ht
  rcases h.mem with h | h
  · have h256 := c.toNat_lt
    have : c.toNat = 13 := by omega
    exact UInt8.toNat_inj.1 this
  · exact h.2

theorem inRange_lf {lo hi : Nat} {c : UInt8} (h : InRange lo hi c) (ht : lfRange lo hi = true) : c = 10 := by
  simp only [lfRange, Bool.and_eq_true, Nat.beq_eq] at ht
  have : c.toNat = 10 := by rcases h.mem with h | h <;> omega
  exact UInt8.toNat_inj.1 this

theorem inRange_wsp {lo hi : Nat} {c : UInt8} (h : InRange lo hi c) (ht : wspRange lo hi = true) : wsp c := by
  simp only [wspRange, Bool.or_eq_true, Bool.and_eq_true, Nat.beq_eq] at ht
  have : c.toNat = 32 ∨ c.toNat = 9 := by rcases h.mem with h | h <;> omega
  rcases this with h | h
  · exact .inl (UInt8.toNat_inj.1 h)
  · exact .inr (UInt8.toNat_inj.1 h)

theorem ClsOK.adv {k lo hi : Nat} {s : Bytes} {c : UInt8} (h : ClsOK k s) (hc : InRange lo hi c) :
    ClsOK (clsAdv k lo hi) (s ++ [c]) := by
  have snoc1 : OneLine s → c ≠ 13 ∧ c ≠ 10 → OneLine (s ++ [c]) := by
    intro h1 h2 e he
    rcases List.mem_append.1 he with he | he
    · exact h1 e he
    · rw [List.mem_singleton.1 he]; exact h2
  match k, h with
  | 0, h =>
    simp only [clsAdv]
    cases h1 : tokRange lo hi
    · cases h2 : plainRange lo hi
      · cases h3 : crRange lo hi
        · trivial
        · exact ⟨s, by rw [inRange_cr hc h3], .of_oneLine (TokenText.oneLine h)⟩
      · exact snoc1 (TokenText.oneLine h) (inRange_plain hc h2)
    · intro e he
      rcases List.mem_append.1 he with he | he
      · exact h e he
      · rw [List.mem_singleton.1 he]; exact inRange_tok hc h1
  | 1, h =>
    simp only [clsAdv]
    cases h2 : plainRange lo hi
    · cases h3 : crRange lo hi
      · trivial
      · exact ⟨s, by rw [inRange_cr hc h3], .of_oneLine h⟩
    · exact snoc1 h (inRange_plain hc h2)
  | 2, h =>
    simp only [clsAdv]
    cases h2 : plainRange lo hi
    · cases h3 : crRange lo hi
      · trivial
      · exact ⟨s, by rw [inRange_cr hc h3], h⟩
    · exact Folded.char h (inRange_plain hc h2).1 (inRange_plain hc h2).2
  | 3, ⟨t, ht, hf⟩ =>
    simp only [clsAdv]
    cases h2 : lfRange lo hi
    · trivial
    · exact ⟨t, by rw [ht, inRange_lf hc h2]; simp, hf⟩
  | 4, ⟨t, ht, hf⟩ =>
    simp only [clsAdv]
    cases h2 : wspRange lo hi
    · trivial
    · show Folded (s ++ [c])
      rw [ht, List.append_assoc]
      exact hf.fold (inRange_wsp hc h2)
  | n + 5, _ =>
    have : clsAdv (n + 5) lo hi = 5 := rfl
    rw [this]; trivial

/-! ### Row-level check -/

/-- Classes of the marked text and of the scratch buffer, and whether the position was moved
back (1: held, 2: back to the mark). -/
structure TV where
  seg : Nat
  buf : Nat
  moved : Nat

def reqT (b : Bool) (v : TV) : Option TV := bif b then some v else none

theorem reqT_some {b : Bool} {v w : TV} (h : reqT b v = some w) : b = true ∧ w = v := by
  cases b <;> simp [reqT] at h; exact ⟨rfl, h.symm⟩

/-- Effect of an action; `none` if it might store a text of the wrong class. -/
def texec (lo hi : Nat) (a : MAct) (v : TV) : Option TV :=
  match a with
  | .hold => reqT (Nat.beq v.moved 0) { v with moved := 1 }
  | .mark => reqT (Nat.beq v.moved 0) { v with seg := 0 }
  | .backtrack => reqT (Nat.beq v.moved 0) { v with moved := 2 }
  | .start => some { v with buf := 0 }
  | .append => reqT (Nat.beq v.moved 0) { v with buf := clsAdv v.buf lo hi }
  | .hexLo => some { v with buf := 5 }
  | .method | .cseqMethod | .name | .viaProtocol | .viaVersion | .viaTransport =>
    reqT (Nat.beq v.moved 0 && clsLe v.seg 0) v
  | .callID | .viaHost | .contentType => reqT (Nat.beq v.moved 0 && clsLe v.seg 1) v
  | .addrUnquotedDisplay => reqT (Nat.beq v.moved 0 && clsLe v.seg 2) v
  | .viaParam | .addrParam | .addrQuotedDisplay => reqT (clsLe v.buf 2) v
  | .value => reqT (Nat.beq v.moved 0 && Nat.beq v.seg 3) v
  | _ => some v

def texecs (lo hi : Nat) : List MAct → TV → Option TV
  | [], v => some v
  | a :: l, v => (texec lo hi a v).bind (texecs lo hi l)

/-- The check of one row. -/
def checkText (k : Nat) (r : Row) : Bool :=
  match texecs r.lo r.hi r.acts ⟨segCls k, bufCls k, 0⟩ with
  | none => false
  | some v => Nat.beq r.tgt 781 ||
      (clsLe (bif Nat.beq v.moved 0 then clsAdv v.seg r.lo r.hi else bif Nat.beq v.moved 1 then v.seg else 0)
        (segCls r.tgt) && clsLe v.buf (bufCls r.tgt))

theorem text_all : ∀ k, k < 765 → ∀ r ∈ rows k, checkText k r = true := by decide +kernel

/-! ### Soundness -/

/-- The texts stored so far. -/
structure Stored (x : Ctx) : Prop where
  name : TokenText x.name
  ctype : OneLine x.ctype
  method : TokenText x.msg.method
  cseqMethod : TokenText x.msg.cseqMethod
  callID : OneLine x.msg.callID
  hdr : ∀ f, FoldedText (x.msg.hdr f)
  xheader : ParamsOK x.msg.xheader
  vias : ∀ v ∈ x.msg.via, TokenText v.protocol ∧ TokenText v.version ∧ TokenText v.transport ∧
    OneLine v.host ∧ ParamsOK v.param
  via : ∀ v ∈ x.via.toList, TokenText v.protocol ∧ TokenText v.version ∧ TokenText v.transport ∧
    OneLine v.host ∧ ParamsOK v.param
  addrs : ∀ f, ∀ a ∈ x.msg.addrs f, FoldedText a.display ∧ ParamsOK a.param
  addr : ∀ a ∈ x.addr.toList, FoldedText a.display ∧ ParamsOK a.param
  payload : x.msg.payload = none

/-- During the actions of a row that reads position `q`. -/
structure TSat (d : Bytes) (q : Nat) (v : TV) (x : Ctx) : Prop where
  mark : x.mark ≤ q
  seg : ClsOK v.seg (seg d x.mark q)
  buf : ClsOK v.buf (x.buf.take x.amt)
  amt : x.amt ≤ x.buf.length
  still : v.moved = 0 → x.p = q
  held : v.moved = 1 → x.p + 1 = q
  back : v.moved ≠ 0 → v.moved ≠ 1 → x.p + 1 = x.mark
  stored : Stored x

theorem seg_succ {d : Bytes} {m q : Nat} {c : UInt8} (h : m ≤ q) (hc : d[q]? = some c) :
    seg d m (q + 1) = seg d m q ++ [c] := by
  unfold seg
  have hq := (List.getElem?_eq_some_iff.1 hc).1
  rw [List.take_add_one, hc, Option.toList_some, List.drop_append_of_le_length (by simp; omega)]

theorem seg_self (d : Bytes) (m : Nat) : seg d m m = [] := by
  unfold seg; rw [List.drop_eq_nil_iff]; simp; omega

theorem seg_length {d : Bytes} {m q : Nat} (hq : q ≤ d.length) : (seg d m q).length = q - m := by
  simp [seg]; omega

theorem seg_take {d : Bytes} {m q n : Nat} (hn : n ≤ q) : seg d m n = (seg d m q).take (n - m) := by
  unfold seg
  rw [← List.drop_take, List.take_take, Nat.min_eq_left hn]

theorem seg_pred {d t : Bytes} {m q : Nat} {c : UInt8} (hq : q ≤ d.length) (h : seg d m q = t ++ [c]) :
    seg d m (q - 1) = t := by
  have hl := seg_length (m := m) hq
  rw [h, List.length_append, List.length_singleton] at hl
  rw [seg_take (show q - 1 ≤ q by omega), h, show q - 1 - m = t.length by omega, List.take_left']
  rfl

theorem trimTo_le (d : Bytes) (m n : Nat) : trimTo d m n ≤ n := by
  induction n with
  | zero => simp [trimTo]
  | succ n ih => unfold trimTo; split <;> (try split) <;> omega

/-- The unquoted display name is the marked text without its trailing blanks. -/
theorem trimTo_spec {d : Bytes} {m n : Nat} (hn : n ≤ d.length) (hm : m ≤ n) :
    ∃ w, seg d m n = seg d m (trimTo d m n) ++ w ∧ (∀ c ∈ w, whitespacec c = true) ∧
      ∀ t c, seg d m (trimTo d m n) = t ++ [c] → whitespacec c = false := by
  induction n with
  | zero =>
    refine ⟨[], by simp [trimTo], by simp, ?_⟩
    intro t c h
    have : m = 0 := by omega
    subst this
    rw [trimTo, seg_self] at h
    simp at h
  | succ n ih =>
    have hdn : d[n]? = some (d.getD n 0) := by
      rw [List.getD, List.getElem?_eq_getElem (by omega)]; rfl
    unfold trimTo
    by_cases h1 : m < n + 1
    · rw [if_pos h1]
      by_cases h2 : whitespacec (d.getD n 0) = true
      · rw [if_pos h2]
        obtain ⟨w, e1, e2, e3⟩ := ih (by omega) (by omega)
        refine ⟨w ++ [d.getD n 0], ?_, ?_, e3⟩
        · rw [seg_succ (by omega) hdn, e1, List.append_assoc]
        · intro c hc
          rcases List.mem_append.1 hc with hc | hc
          · exact e2 c hc
          · rw [List.mem_singleton.1 hc]; exact h2
      · rw [if_neg h2]
        refine ⟨[], by simp, by simp, ?_⟩
        intro t c h
        rw [seg_succ (by omega) hdn] at h
        obtain ⟨_, h3⟩ := List.append_inj' h rfl
        cases h3
        simpa using h2
    · rw [if_neg h1]
      refine ⟨[], by simp, by simp, ?_⟩
      intro t c h
      have : m = n + 1 := by omega
      subst this
      rw [seg_self] at h
      simp at h

theorem FoldedText.nil : FoldedText [] := Folded.nil.text
theorem ParamsOK.nil : ParamsOK [] := by simp [ParamsOK]
theorem TokenText.nil : TokenText [] := by simp [TokenText]
theorem OneLine.nil : OneLine [] := by simp [OneLine]

theorem Stored.congr {x y : Ctx} (h : Stored x) (h1 : y.msg = x.msg) (h2 : y.name = x.name)
    (h3 : y.ctype = x.ctype) (h4 : y.via = x.via) (h5 : y.addr = x.addr) : Stored y := by
  constructor
  case name => rw [h2]; exact h.name
  case ctype => rw [h3]; exact h.ctype
  case method => rw [h1]; exact h.method
  case cseqMethod => rw [h1]; exact h.cseqMethod
  case callID => rw [h1]; exact h.callID
  case hdr => rw [h1]; exact h.hdr
  case xheader => rw [h1]; exact h.xheader
  case vias => rw [h1]; exact h.vias
  case via => rw [h4]; exact h.via
  case addrs => rw [h1]; exact h.addrs
  case addr => rw [h5]; exact h.addr
  case payload => rw [h1]; exact h.payload

theorem ParamsOK.cons {n s : Bytes} {l : List (Bytes × Bytes)} (h1 : TokenText n) (h2 : FoldedText s)
    (h : ParamsOK l) : ParamsOK ((n, s) :: l) := by
  intro p hp
  rcases List.mem_cons.1 hp with rfl | hp
  · exact ⟨h1, h2⟩
  · exact h p hp

theorem ClsOK.folded {k : Nat} {s : Bytes} (h : ClsOK k s) (hl : clsLe k 2 = true) : FoldedText s :=
  Folded.text (h.le hl : ClsOK 2 s)

/-- Actions that touch only the position, the mark, the buffer, numbers and selectors. -/
def quiet : MAct → Bool
  | .hold | .mark | .backtrack | .start | .append | .hexHi | .hexLo | .contentLength | .clen0
  | .valueNil | .lastAddr _ | .setValue _ => true
  | _ => false

theorem stored_exec {d : Bytes} {q : Nat} {lo hi : Nat} {a : MAct} {v v' : TV} {x y : Ctx}
    (hx : TSat d q v x) (hq : q ≤ d.length) (h : texec lo hi a v = some v') (he : exec d a x = .ok y) :
    Stored y := by
  have hs := hx.stored
  obtain rfl := exec_ok he
  have hseg : v.moved = 0 → seg d x.mark x.p = seg d x.mark q := fun hm => by rw [hx.still hm]
  have hcls : ∀ n, (Nat.beq v.moved 0 && clsLe v.seg n) = true → ClsOK n (seg d x.mark x.p) := by
    intro n hb
    simp only [Bool.and_eq_true, Nat.beq_eq] at hb
    rw [hseg hb.1]; exact hx.seg.le hb.2
  cases a
  case hold | mark | backtrack | start | append | hexHi | hexLo | contentLength | clen0
      | valueNil | lastAddr | setValue => exact hs.congr rfl rfl rfl rfl rfl
  case versionMajor | versionMinor | requestURI | statusCode | reasonPhrase | cseq | expires | maxForwards
      | minExpires | expires0 | maxForwards0 | minExpires0 =>
    exact ⟨hs.name, hs.ctype, hs.method, hs.cseqMethod, hs.callID, hs.hdr, hs.xheader, hs.vias, hs.via,
      hs.addrs, hs.addr, hs.payload⟩
  case method =>
    obtain ⟨hb, rfl⟩ := reqT_some h
    exact { hs with method := hcls 0 hb }
  case cseqMethod =>
    obtain ⟨hb, rfl⟩ := reqT_some h
    exact { hs with cseqMethod := hcls 0 hb }
  case name =>
    obtain ⟨hb, rfl⟩ := reqT_some h
    exact { hs with name := hcls 0 hb }
  case callID =>
    obtain ⟨hb, rfl⟩ := reqT_some h
    exact { hs with callID := hcls 1 hb }
  case contentType =>
    obtain ⟨hb, rfl⟩ := reqT_some h
    exact { hs with ctype := hcls 1 hb }
  case viaNew =>
    refine { hs with via := ?_ }
    intro w hw
    simp only [eff, Option.toList_some, List.mem_singleton] at hw
    subst hw
    exact ⟨TokenText.nil, TokenText.nil, TokenText.nil, OneLine.nil, ParamsOK.nil⟩
  case addrNew =>
    refine { hs with addr := ?_ }
    intro w hw
    simp only [eff, Option.toList_some, List.mem_singleton] at hw
    subst hw
    exact ⟨FoldedText.nil, ParamsOK.nil⟩
  case via =>
    refine { hs with via := by simp [eff], vias := ?_ }
    intro w hw
    rcases List.mem_append.1 hw with hw | hw
    · exact hs.vias w hw
    · exact hs.via w hw
  case viaProtocol =>
    obtain ⟨hb, rfl⟩ := reqT_some h
    refine { hs with via := ?_ }
    intro w hw
    simp only [eff, Option.mem_toList, Option.map_eq_some_iff] at hw
    obtain ⟨u, hu, rfl⟩ := hw
    have := hs.via u (by simpa using hu)
    exact ⟨hcls 0 hb, this.2⟩
  case viaVersion =>
    obtain ⟨hb, rfl⟩ := reqT_some h
    refine { hs with via := ?_ }
    intro w hw
    simp only [eff, Option.mem_toList, Option.map_eq_some_iff] at hw
    obtain ⟨u, hu, rfl⟩ := hw
    have := hs.via u (by simpa using hu)
    exact ⟨this.1, hcls 0 hb, this.2.2⟩
  case viaTransport =>
    obtain ⟨hb, rfl⟩ := reqT_some h
    refine { hs with via := ?_ }
    intro w hw
    simp only [eff, Option.mem_toList, Option.map_eq_some_iff] at hw
    obtain ⟨u, hu, rfl⟩ := hw
    have := hs.via u (by simpa using hu)
    exact ⟨this.1, this.2.1, hcls 0 hb, this.2.2.2⟩
  case viaHost =>
    obtain ⟨hb, rfl⟩ := reqT_some h
    refine { hs with via := ?_ }
    intro w hw
    simp only [eff, Option.mem_toList, Option.map_eq_some_iff] at hw
    obtain ⟨u, hu, rfl⟩ := hw
    have := hs.via u (by simpa using hu)
    exact ⟨this.1, this.2.1, this.2.2.1, hcls 1 hb, this.2.2.2.2⟩
  case viaPort =>
    refine { hs with via := ?_ }
    intro w hw
    simp only [eff, Option.mem_toList, Option.map_eq_some_iff] at hw
    obtain ⟨u, hu, rfl⟩ := hw
    exact hs.via u (by simpa using hu)
  case viaParam =>
    obtain ⟨hb, rfl⟩ := reqT_some h
    refine { hs with via := ?_ }
    intro w hw
    simp only [eff, Option.mem_toList, Option.map_eq_some_iff] at hw
    obtain ⟨u, hu, rfl⟩ := hw
    have := hs.via u (by simpa using hu)
    exact ⟨this.1, this.2.1, this.2.2.1, this.2.2.2.1, ParamsOK.cons hs.name (hx.buf.folded hb) this.2.2.2.2⟩
  case value =>
    obtain ⟨hb, rfl⟩ := reqT_some h
    simp only [Bool.and_eq_true, Nat.beq_eq, Nat.beq_eq] at hb
    have h3 := hx.seg
    rw [hb.2] at h3
    obtain ⟨t, ht, hf⟩ := h3
    have hpq := hx.still hb.1
    have hfold : FoldedText (seg d x.mark (x.p - 1)) := by
      rw [hpq, seg_pred hq ht]; exact hf.text
    cases hv : x.value with
    | none =>
      have : eff d .value x = { x with msg.xheader := (x.name, seg d x.mark (x.p - 1)) :: x.msg.xheader } := by
        simp only [eff, hv]
      rw [this]
      exact { hs with xheader := ParamsOK.cons hs.name hfold hs.xheader }
    | some f =>
      have : eff d .value x = { x with msg.hdr := setAt x.msg.hdr f (seg d x.mark (x.p - 1)) } := by
        simp only [eff, hv]
      rw [this]
      refine { hs with hdr := ?_ }
      intro g
      simp only [setAt]
      split
      · exact hfold
      · exact hs.hdr g
  case addrQuotedDisplay =>
    obtain ⟨hb, rfl⟩ := reqT_some h
    refine { hs with addr := ?_ }
    intro w hw
    simp only [eff, Option.mem_toList, Option.map_eq_some_iff] at hw
    obtain ⟨u, hu, rfl⟩ := hw
    have := hs.addr u (by simpa using hu)
    exact ⟨hx.buf.folded hb, this.2⟩
  case addrUnquotedDisplay =>
    obtain ⟨hb, rfl⟩ := reqT_some h
    refine { hs with addr := ?_ }
    intro w hw
    simp only [eff, Option.mem_toList, Option.map_eq_some_iff] at hw
    obtain ⟨u, hu, rfl⟩ := hw
    have := hs.addr u (by simpa using hu)
    refine ⟨?_, this.2⟩
    have hF : Folded (seg d x.mark x.p) := hcls 2 hb
    simp only [Bool.and_eq_true, Nat.beq_eq] at hb
    have hpq := hx.still hb.1
    obtain ⟨w, e1, e2, e3⟩ := trimTo_spec (d := d) (m := x.mark) (n := x.p) (by omega)
      (by have := hx.mark; omega)
    exact (hF.trim _ _ e1 e2 e3).text
  case addrUri =>
    refine { hs with addr := ?_ }
    intro w hw
    simp only [eff, Option.mem_toList, Option.map_eq_some_iff] at hw
    obtain ⟨u, hu, rfl⟩ := hw
    exact hs.addr u (by simpa using hu)
  case addrParam =>
    obtain ⟨hb, rfl⟩ := reqT_some h
    refine { hs with addr := ?_ }
    intro w hw
    simp only [eff, Option.mem_toList, Option.map_eq_some_iff] at hw
    obtain ⟨u, hu, rfl⟩ := hw
    have := hs.addr u (by simpa using hu)
    exact ⟨this.1, ParamsOK.cons hs.name (hx.buf.folded hb) this.2⟩
  case addr =>
    cases hp : x.addrp with
    | none => simp [exec, hp, deref, Res.bind_eq, Res.bind] at he
    | some f =>
      have : eff d .addr x = { x with msg.addrs := setAt x.msg.addrs f (x.msg.addrs f ++ x.addr.toList),
                                      addr := none } := by
        simp only [eff, hp]
      rw [this]
      refine { hs with addr := by simp, addrs := ?_ }
      intro g b hb
      simp only [setAt] at hb
      split at hb
      · rcases List.mem_append.1 hb with hb | hb
        · exact hs.addrs f b hb
        · exact hs.addr b hb
      · exact hs.addrs g b hb

theorem tsat_exec {d : Bytes} {q : Nat} {lo hi : Nat} {a : MAct} {v v' : TV} {x y : Ctx} {c : UInt8}
    (hx : TSat d q v x) (hc : d[q]? = some c) (hr : InRange lo hi c) (h : texec lo hi a v = some v')
    (he : exec d a x = .ok y) : TSat d q v' y := by
  have hq := (List.getElem?_eq_some_iff.1 hc).1
  have hst := stored_exec hx (Nat.le_of_lt hq) h he
  have frame : v' = v → (eff d a x).mark = x.mark → (eff d a x).buf = x.buf → (eff d a x).amt = x.amt →
      (eff d a x).p = x.p → TSat d q v' (eff d a x) := by
    intro e1 e2 e3 e4 e5
    rw [exec_ok he] at hst
    subst e1
    constructor
    case mark => rw [e2]; exact hx.mark
    case seg => rw [e2]; exact hx.seg
    case buf => rw [e3, e4]; exact hx.buf
    case amt => rw [e3, e4]; exact hx.amt
    case still => rw [e5]; exact hx.still
    case held => rw [e5]; exact hx.held
    case back => rw [e5, e2]; exact hx.back
    case stored => exact hst
  have hy := exec_ok he
  cases a
  case hold =>
    obtain ⟨hb, rfl⟩ := reqT_some h
    simp only [Nat.beq_eq] at hb
    have hp := hx.still hb
    have hne : x.p ≠ 0 := by
      intro h0; simp [exec, h0] at he
    subst hy
    exact ⟨hx.mark, hx.seg, hx.buf, hx.amt, by simp, by simp only [eff]; omega, by simp, hst⟩
  case mark =>
    obtain ⟨hb, rfl⟩ := reqT_some h
    simp only [Nat.beq_eq] at hb
    have hp := hx.still hb
    subst hy
    refine ⟨by simp only [eff]; omega, ?_, hx.buf, hx.amt, hx.still, by simp [hb], by simp [hb], hst⟩
    simp only [eff, hp, seg_self]
    exact TokenText.nil
  case backtrack =>
    obtain ⟨hb, rfl⟩ := reqT_some h
    have hne : x.mark ≠ 0 := by
      intro h0; simp [exec, h0] at he
    subst hy
    exact ⟨hx.mark, hx.seg, hx.buf, hx.amt, by simp, by simp, by simp only [eff]; omega, hst⟩
  case start =>
    cases h
    subst hy
    refine ⟨hx.mark, hx.seg, ?_, Nat.zero_le _, hx.still, hx.held, hx.back, hst⟩
    simp only [eff, List.take_zero]
    exact TokenText.nil
  case append =>
    obtain ⟨hb, rfl⟩ := reqT_some h
    simp only [Nat.beq_eq] at hb
    have hp := hx.still hb
    have hl : x.amt < x.buf.length := by
      simp only [exec, Res.bind_eq] at he
      obtain ⟨e, _, he⟩ := Res.bind_ok_iff.1 he
      exact (push_eq_ok he).2
    subst hy
    refine ⟨hx.mark, hx.seg, ?_, by simp only [eff, List.length_set]; omega, hx.still, by simp [hb],
      by simp [hb], hst⟩
    have : (eff d .append x).buf.take (eff d .append x).amt = x.buf.take x.amt ++ [c] := by
      simp only [eff, hp, List.getD, hc, Option.getD_some]
      rw [List.take_add_one, List.take_set_of_le (Nat.le_refl _), List.getElem?_set_self hl]
      rfl
    rw [this]
    exact hx.buf.adv hr
  case hexLo =>
    cases h
    have hl : x.amt < x.buf.length := by
      simp only [exec, Res.bind_eq] at he
      obtain ⟨e, _, he⟩ := Res.bind_ok_iff.1 he
      exact (push_eq_ok he).2
    subst hy
    exact ⟨hx.mark, hx.seg, trivial, by simp only [eff, List.length_set]; omega, hx.still, hx.held, hx.back, hst⟩
  case method | cseqMethod | name | viaProtocol | viaVersion | viaTransport | callID | viaHost | contentType
      | addrUnquotedDisplay | viaParam | addrParam | addrQuotedDisplay | value =>
    subst hy
    exact frame (reqT_some h).2 rfl rfl rfl rfl
  all_goals
    subst hy
    exact frame (Option.some.inj h).symm rfl rfl rfl rfl

theorem tsat_execs {d : Bytes} {q : Nat} {lo hi : Nat} {l : List MAct} {v v' : TV} {x y : Ctx} {c : UInt8}
    (hx : TSat d q v x) (hc : d[q]? = some c) (hr : InRange lo hi c) (h : texecs lo hi l v = some v')
    (he : execs d l x = .ok y) : TSat d q v' y := by
  induction l generalizing v x with
  | nil => cases h; cases he; exact hx
  | cons a l ih =>
    simp only [texecs] at h
    cases ha : texec lo hi a v with
    | none => simp [ha] at h
    | some w =>
      rw [ha] at h
      simp only [execs, Res.bind_eq] at he
      obtain ⟨z, hz, he⟩ := Res.bind_ok_iff.1 he
      exact ih (tsat_exec hx hc hr ha hz) h he

/-- What holds of every reachable configuration. -/
structure TInv (d : Bytes) (k : Nat) (x : Ctx) : Prop where
  mark : x.mark ≤ x.p
  seg : ClsOK (segCls k) (seg d x.mark x.p)
  buf : ClsOK (bufCls k) (x.buf.take x.amt)
  amt : x.amt ≤ x.buf.length
  stored : Stored x

theorem TInv.sat {d : Bytes} {k : Nat} {x : Ctx} (h : TInv d k x) :
    TSat d x.p ⟨segCls k, bufCls k, 0⟩ x :=
  ⟨h.mark, h.seg, h.buf, h.amt, fun _ => rfl, by simp, by simp, h.stored⟩

theorem tinv_init (d : Bytes) : TInv d 1 (initCtx d) where
  mark := by simp [initCtx]
  seg := by simp only [initCtx, seg_self]; exact TokenText.nil
  buf := by simp only [initCtx, List.take_zero]; exact TokenText.nil
  amt := by simp [initCtx]
  stored := ⟨TokenText.nil, OneLine.nil, TokenText.nil, TokenText.nil, OneLine.nil,
    fun _ => FoldedText.nil, ParamsOK.nil, by simp [initCtx], by simp [initCtx], by simp [initCtx],
    by simp [initCtx], rfl⟩

theorem row_text {d : Bytes} {k : Nat} {x y : Ctx} {c : UInt8} {r : Row} (hk : k < 765) (h : TInv d k x)
    (hc : d[x.p]? = some c) (hm : r ∈ rows k) (h1 : r.lo ≤ symbol d k x.p c)
    (h2 : symbol d k x.p c ≤ r.hi) (he : execs d r.acts x = .ok y) :
    ∃ v, TSat d x.p v y ∧ (r.tgt = 781 ∨
      (clsLe (bif Nat.beq v.moved 0 then clsAdv v.seg r.lo r.hi else bif Nat.beq v.moved 1 then v.seg else 0)
        (segCls r.tgt) = true ∧ clsLe v.buf (bufCls r.tgt) = true)) ∧ InRange r.lo r.hi c := by
  have hr : InRange r.lo r.hi c := by
    rcases symbol_cases d k x.p c with e | ⟨e1, e2⟩
    · rw [e] at h1 h2; exact ⟨.inl ⟨h1, h2⟩⟩
    · exact ⟨.inr ⟨by omega, e2⟩⟩
  have ht := text_all k hk r hm
  unfold checkText at ht
  cases hv : texecs r.lo r.hi r.acts ⟨segCls k, bufCls k, 0⟩ with
  | none => simp [hv] at ht
  | some v =>
    simp only [hv, Bool.or_eq_true, Bool.and_eq_true, Nat.beq_eq] at ht
    exact ⟨v, tsat_execs h.sat hc hr hv he, ht, hr⟩

theorem reach_text {d : Bytes} {k : Nat} {x : Ctx} (h : Reach d k x) : TInv d k x := by
  induction h with
  | init => exact tinv_init d
  | @step k x k' x' hr hs ih =>
    obtain ⟨c, r, y, hc, hp, hm, h1, h2, he, rfl, ht, _, rfl⟩ := step_cont hs
    obtain ⟨v, hv, hcl, hir⟩ := row_text (reach_inv hr).state ih hc hm h1 h2 he
    rcases hcl with h | ⟨h3, h4⟩
    · exact absurd h ht
    · have hms := hv.mark
      by_cases m0 : v.moved = 0
      · have hyp := hv.still m0
        rw [m0] at h3
        simp only [show Nat.beq 0 0 = true from rfl, cond_true] at h3
        refine ⟨by simp only []; omega, ?_, hv.buf.le h4, hv.amt, hv.stored.congr rfl rfl rfl rfl rfl⟩
        simp only [hyp]
        rw [seg_succ hms hc]
        exact (hv.seg.adv hir).le h3
      · have b0 : Nat.beq v.moved 0 = false := by
          cases hb : Nat.beq v.moved 0
          · rfl
          · exact absurd (Nat.eq_of_beq_eq_true hb) m0
        rw [b0] at h3
        by_cases m1 : v.moved = 1
        · have hyp := hv.held m1
          rw [m1] at h3
          simp only [show Nat.beq 1 1 = true from rfl, cond_true, cond_false] at h3
          refine ⟨by simp only []; omega, ?_, hv.buf.le h4, hv.amt, hv.stored.congr rfl rfl rfl rfl rfl⟩
          simp only [hyp]
          exact hv.seg.le h3
        · have b1 : Nat.beq v.moved 1 = false := by
            cases hb : Nat.beq v.moved 1
            · rfl
            · exact absurd (Nat.eq_of_beq_eq_true hb) m1
          rw [b1] at h3
          simp only [cond_false] at h3
          have hyp := hv.back m0 m1
          refine ⟨by simp only []; omega, ?_, hv.buf.le h4, hv.amt, hv.stored.congr rfl rfl rfl rfl rfl⟩
          simp only [hyp]
          rw [seg_self]
          exact ClsOK.le (a := 0) TokenText.nil h3

theorem brk_stored {d : Bytes} {k : Nat} {x y : Ctx} (h : Reach d k x) (hs : step d k x = .brk y) :
    Stored y := by
  obtain ⟨c, r, y, hc, hp, hm, h1, h2, he, _, _, rfl⟩ := step_brk hs
  obtain ⟨v, hv, _, _⟩ := row_text (reach_inv h).state (reach_text h) hc hm h1 h2 he
  exact hv.stored.congr rfl rfl rfl rfl rfl

/-! ### Start line -/

/-- What has been read of the start line. -/
def ShapeOK : Nat → Msg → Prop
  | 0, m => m.method = [] ∧ m.request = none ∧ m.status = 0
  | 1, m => m.method ≠ [] ∧ m.request = none ∧ m.status = 0
  | 2, m => m.method ≠ [] ∧ m.request ≠ none ∧ m.status = 0
  | 3, m => m.method = [] ∧ m.request = none ∧ 0 ≤ m.status ∧ m.status < 10
  | 4, m => m.method = [] ∧ m.request = none ∧ 0 ≤ m.status ∧ m.status < 100
  | 5, m => m.method = [] ∧ m.request = none ∧ 0 ≤ m.status ∧ m.status < 1000
  | _, m => (m.method ≠ [] ∧ m.request ≠ none ∧ m.status = 0) ∨
      (m.method = [] ∧ m.request = none ∧ 0 ≤ m.status ∧ m.status < 1000)

/-- Effect of an action on the shape; `first` says that no action precedes it in the row. -/
def shexec (k lo hi : Nat) (a : MAct) (s : Nat) : Option Nat :=
  match a with
  | .method => bif Nat.beq s 0 && Nat.ble 3 (inv k).mkd then some 1 else none
  | .requestURI => bif Nat.beq s 1 then some 2 else none
  | .statusCode =>
    bif Nat.ble 48 lo && Nat.ble hi 57 then
      (match s with | 0 => some 3 | 3 => some 4 | 4 => some 5 | _ => none) else none
  | _ => some s

def shexecs (k lo hi : Nat) : List MAct → Nat → Option Nat
  | [], s => some s
  | a :: l, s => (shexec k lo hi a s).bind (shexecs k lo hi l)

def isMethod : MAct → Bool
  | .method => true
  | _ => false

def isStatus : MAct → Bool
  | .statusCode => true
  | _ => false

/-- `Method` and `StatusCode` come alone in their rows. -/
def aloneOK : List MAct → Bool
  | [] => true
  | [_] => true
  | l => l.all fun a => !isMethod a && !isStatus a

def checkShape (k : Nat) (r : Row) : Bool :=
  aloneOK r.acts &&
  match shexecs k r.lo r.hi r.acts (shape k) with
  | none => false
  | some s =>
    bif Nat.beq r.tgt 781 then Nat.beq s 6
    else Nat.beq s (shape r.tgt) || (Nat.beq (shape r.tgt) 6 && (Nat.beq s 2 || Nat.beq s 5))

theorem shape_all : ∀ k, k < 765 → ∀ r ∈ rows k, checkShape k r = true := by decide +kernel

theorem ShapeOK.congr {s : Nat} {m n : Msg} (h : ShapeOK s m) (h1 : n.method = m.method)
    (h2 : n.request = m.request) (h3 : n.status = m.status) : ShapeOK s n := by
  match s, h with
  | 0, h | 1, h | 2, h | 3, h | 4, h | 5, h | _ + 6, h =>
    simp only [ShapeOK] at h ⊢
    rw [h1, h2, h3]; exact h

/-- Actions that change the start line. -/
def starts : MAct → Bool
  | .method | .requestURI | .statusCode => true
  | _ => false

theorem eff_starts {d : Bytes} {a : MAct} {x : Ctx} (h : starts a = false) :
    (eff d a x).msg.method = x.msg.method ∧ (eff d a x).msg.request = x.msg.request ∧
      (eff d a x).msg.status = x.msg.status := by
  cases a
  case method | requestURI | statusCode => simp [starts] at h
  case value => simp only [eff]; cases x.value <;> exact ⟨rfl, rfl, rfl⟩
  case addr => simp only [eff]; cases x.addrp <;> exact ⟨rfl, rfl, rfl⟩
  all_goals exact ⟨rfl, rfl, rfl⟩

theorem wrap64_small {z : Int} (h1 : -2 ^ 63 ≤ z) (h2 : z < 2 ^ 63) : wrap64 z = z := by
  unfold wrap64
  rw [Int.bmod_eq_of_le] <;> omega

theorem dec64_digit {n : Int} {c : UInt8} (h0 : 0 ≤ n) (h1 : n < 1000) (h2 : 48 ≤ c.toNat)
    (h3 : c.toNat ≤ 57) : 0 ≤ dec64 n c ∧ dec64 n c < n * 10 + 10 := by
  unfold dec64
  rw [wrap64_small (z := n * 10) (by omega) (by omega), wrap64_small (by omega) (by omega)]
  omega

theorem shape_exec {d : Bytes} {k lo hi : Nat} {a : MAct} {s s' : Nat} {x y : Ctx} {c : UInt8}
    (hx : Inv d k x) (hc : d[x.p]? = some c) (hr : InRange lo hi c)
    (hs : ShapeOK s x.msg) (h : shexec k lo hi a s = some s') (he : exec d a x = .ok y) :
    ShapeOK s' y.msg := by
  have hq := (List.getElem?_eq_some_iff.1 hc).1
  have hy := exec_ok he
  cases ha : starts a
  · obtain ⟨e1, e2, e3⟩ := eff_starts (d := d) (x := x) ha
    rw [← hy] at e1 e2 e3
    have : s' = s := by
      cases a <;> first | exact (Option.some.inj h).symm | simp [starts] at ha
    rw [this]
    exact hs.congr e1 e2 e3
  · cases a <;> simp [starts] at ha
    case method =>
      simp only [shexec] at h
      cases hb : Nat.beq s 0 && Nat.ble 3 (inv k).mkd <;> rw [hb] at h <;> cases h
      simp only [Bool.and_eq_true, Nat.beq_eq, Nat.ble_eq] at hb
      rw [hb.1] at hs
      rw [hy]
      refine ⟨?_, hs.2⟩
      have hm := hx.sat.mkd
      intro e
      have : (seg d x.mark x.p).length = 0 := by
        rw [show seg d x.mark x.p = [] from e]; rfl
      rw [seg_length (by omega)] at this
      omega
    case requestURI =>
      simp only [shexec] at h
      cases hb : Nat.beq s 1 <;> rw [hb] at h <;> cases h
      rw [Nat.beq_eq] at hb
      rw [hb] at hs
      refine ⟨?_, ?_, ?_⟩
      · rw [hy]; exact hs.1
      · simp only [exec, Res.bind_eq] at he
        obtain ⟨t, _, he⟩ := Res.bind_ok_iff.1 he
        obtain ⟨u, _, he⟩ := Res.bind_ok_iff.1 he
        cases he; simp
      · rw [hy]; exact hs.2.2
    case statusCode =>
      simp only [shexec] at h
      cases hb : Nat.ble 48 lo && Nat.ble hi 57 <;> rw [hb] at h
      · cases h
      · simp only [Bool.and_eq_true, Nat.ble_eq] at hb
        have hdig : 48 ≤ c.toNat ∧ c.toNat ≤ 57 := by rcases hr.mem with h | h <;> omega
        have hst : y.msg.status = dec64 x.msg.status c := by
          rw [hy]; simp only [eff, List.getD, hc, Option.getD_some]
        have hme : y.msg.method = x.msg.method ∧ y.msg.request = x.msg.request := by rw [hy]; exact ⟨rfl, rfl⟩
        simp only [cond_true] at h
        split at h <;> cases h
        · obtain ⟨a1, a2, a3⟩ := hs
          have := dec64_digit (n := x.msg.status) (c := c) (by omega) (by omega) hdig.1 hdig.2
          exact ⟨by rw [hme.1, a1], by rw [hme.2, a2], by rw [hst]; omega, by rw [hst]; omega⟩
        · obtain ⟨a1, a2, a3, a4⟩ := hs
          have := dec64_digit (n := x.msg.status) (c := c) (by omega) (by omega) hdig.1 hdig.2
          exact ⟨by rw [hme.1, a1], by rw [hme.2, a2], by rw [hst]; omega, by rw [hst]; omega⟩
        · obtain ⟨a1, a2, a3, a4⟩ := hs
          have := dec64_digit (n := x.msg.status) (c := c) (by omega) (by omega) hdig.1 hdig.2
          exact ⟨by rw [hme.1, a1], by rw [hme.2, a2], by rw [hst]; omega, by rw [hst]; omega⟩

/-- Actions other than `Method` and `StatusCode` need no fact about the position. -/
theorem shape_exec' {d : Bytes} {k lo hi : Nat} {a : MAct} {s s' : Nat} {x y : Ctx}
    (hs : ShapeOK s x.msg) (h : shexec k lo hi a s = some s') (he : exec d a x = .ok y)
    (h1 : isMethod a = false) (h2 : isStatus a = false) :
    ShapeOK s' y.msg := by
  have hy := exec_ok he
  cases ha : starts a
  · obtain ⟨e1, e2, e3⟩ := eff_starts (d := d) (x := x) ha
    rw [← hy] at e1 e2 e3
    have : s' = s := by
      cases a <;> first | exact (Option.some.inj h).symm | simp [starts] at ha
    rw [this]
    exact hs.congr e1 e2 e3
  · cases a <;> simp [starts] at ha
    case method => simp [isMethod] at h1
    case statusCode => simp [isStatus] at h2
    case requestURI =>
      simp only [shexec] at h
      cases hb : Nat.beq s 1 <;> rw [hb] at h <;> cases h
      rw [Nat.beq_eq] at hb
      rw [hb] at hs
      refine ⟨?_, ?_, ?_⟩
      · rw [hy]; exact hs.1
      · simp only [exec, Res.bind_eq] at he
        obtain ⟨t, _, he⟩ := Res.bind_ok_iff.1 he
        obtain ⟨u, _, he⟩ := Res.bind_ok_iff.1 he
        cases he; simp
      · rw [hy]; exact hs.2.2

theorem shape_execs' {d : Bytes} {k lo hi : Nat} {l : List MAct} {s s' : Nat} {x y : Ctx}
    (hs : ShapeOK s x.msg) (h : shexecs k lo hi l s = some s') (he : execs d l x = .ok y)
    (h1 : l.all (fun a => !isMethod a && !isStatus a) = true) :
    ShapeOK s' y.msg := by
  induction l generalizing s x with
  | nil => cases h; cases he; exact hs
  | cons a l ih =>
    simp only [shexecs] at h
    cases ha : shexec k lo hi a s with
    | none => simp [ha] at h
    | some w =>
      rw [ha] at h
      simp only [execs, Res.bind_eq] at he
      obtain ⟨z, hz, he⟩ := Res.bind_ok_iff.1 he
      simp only [List.all_cons, Bool.and_eq_true, Bool.not_eq_true'] at h1
      exact ih (shape_exec' hs ha hz h1.1.1 h1.1.2) h he h1.2

theorem row_shape {d : Bytes} {k : Nat} {x y : Ctx} {c : UInt8} {r : Row} (hx : Inv d k x)
    (h : ShapeOK (shape k) x.msg)
    (hc : d[x.p]? = some c) (hm : r ∈ rows k) (h1 : r.lo ≤ symbol d k x.p c)
    (h2 : symbol d k x.p c ≤ r.hi) (he : execs d r.acts x = .ok y) :
    ShapeOK (bif Nat.beq r.tgt 781 then 6 else shape r.tgt) y.msg := by
  have hr : InRange r.lo r.hi c := by
    rcases symbol_cases d k x.p c with e | ⟨e1, e2⟩
    · rw [e] at h1 h2; exact ⟨.inl ⟨h1, h2⟩⟩
    · exact ⟨.inr ⟨by omega, e2⟩⟩
  have ht := shape_all k hx.state r hm
  simp only [checkShape, Bool.and_eq_true] at ht
  obtain ⟨hal, ht⟩ := ht
  cases hv : shexecs k r.lo r.hi r.acts (shape k) with
  | none => simp [hv] at ht
  | some s =>
    simp only [hv] at ht
    have hs : ShapeOK s y.msg := by
      cases hl : r.acts with
      | nil => rw [hl] at hv he; cases hv; cases he; exact h
      | cons a l =>
        cases l with
        | nil =>
          rw [hl] at hv he
          simp only [shexecs] at hv
          simp only [execs, Res.bind_eq] at he
          obtain ⟨z, hz, he⟩ := Res.bind_ok_iff.1 he
          cases he
          cases hsx : shexec k r.lo r.hi a (shape k) with
          | none => simp [hsx] at hv
          | some w =>
            simp [hsx] at hv
            subst hv
            exact shape_exec hx hc hr h hsx hz
        | cons b l =>
          rw [hl] at hal
          exact shape_execs' h hv he (by rw [hl]; exact hal)
    cases ht7 : Nat.beq r.tgt 781
    · rw [ht7] at ht
      simp only [cond_false, Bool.or_eq_true, Bool.and_eq_true, Nat.beq_eq] at ht ⊢
      rcases ht with rfl | ⟨h6, h25⟩
      · exact hs
      · rw [h6]
        rcases h25 with rfl | rfl
        · exact .inl hs
        · exact .inr hs
    · rw [ht7] at ht
      simp only [cond_true, Nat.beq_eq] at ht ⊢
      rw [← ht]; exact hs

theorem reach_shape {d : Bytes} {k : Nat} {x : Ctx} (h : Reach d k x) : ShapeOK (shape k) x.msg := by
  induction h with
  | init => exact ⟨rfl, rfl, rfl⟩
  | @step k x k' x' hr hs ih =>
    obtain ⟨c, r, y, hc, hp, hm, h1, h2, he, rfl, ht, _, rfl⟩ := step_cont hs
    have := row_shape (reach_inv hr) ih hc hm h1 h2 he
    have b0 : Nat.beq r.tgt 781 = false := by
      cases hb : Nat.beq r.tgt 781
      · rfl
      · exact absurd (Nat.eq_of_beq_eq_true hb) ht
    rw [b0] at this
    exact this

theorem brk_shape {d : Bytes} {k : Nat} {x y : Ctx} (h : Reach d k x) (hs : step d k x = .brk y) :
    ShapeOK 6 y.msg := by
  obtain ⟨c, r, y, hc, hp, hm, h1, h2, he, ht, _, rfl⟩ := step_brk hs
  have := row_shape (reach_inv h) (reach_shape h) hc hm h1 h2 he
  rw [ht] at this
  exact this

end Gosip.Sip.MsgM
