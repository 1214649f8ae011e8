import Verif.Sip.ForwardStart
import Verif.Spec.RoundTrip

/-!
# The text of a whole message, read
-/

namespace Gosip.Sip.MsgM
open Spec

instance (n : Bytes) : Decidable (IsName n) := inferInstanceAs (Decidable (_ ∧ _))

/-- A text of header lines, with the assignments they make. -/
def Piece (t : Bytes) (us : List Upd) : Prop :=
  ∃ ls, t = ls.flatMap (· ++ CRLF) ∧ (∀ L ∈ ls, HeaderLine L) ∧ Reads ls us

theorem Piece.nil : Piece [] [] := ⟨[], rfl, by simp, .nil⟩

theorem Piece.append {a b : Bytes} {u v : List Upd} (h : Piece a u) (g : Piece b v) : Piece (a ++ b) (u ++ v) := by
  obtain ⟨l, rfl, h1, h2⟩ := h
  obtain ⟨l', rfl, g1, g2⟩ := g
  refine ⟨l ++ l', by simp, ?_, h2.append g2⟩
  intro L hL
  rcases List.mem_append.1 hL with hL | hL
  · exact h1 L hL
  · exact g1 L hL

theorem Piece.line {n v t : Bytes} {us : List Upd} (e : t = n ++ b!": " ++ v ++ b!"\r\n")
    (h : HeaderLine (headerLine n [] (32 :: v)) ∧ Line (headerLine n [] (32 :: v)) us) : Piece t us := by
  refine ⟨[headerLine n [] (32 :: v)], ?_, by simpa using h.1, by simpa using Reads.cons h.2 .nil⟩
  rw [e]
  simp [headerLine, CRLF]

/-- Pieces, one after the other. -/
inductive Pieces : List Bytes → List (List Upd) → Prop
  | nil : Pieces [] []
  | cons {t : Bytes} {us : List Upd} {ts : List Bytes} {l : List (List Upd)} :
      Piece t us → Pieces ts l → Pieces (t :: ts) (us :: l)

theorem Pieces.flatten {ts : List Bytes} {l : List (List Upd)} (h : Pieces ts l) : Piece ts.flatten l.flatten := by
  induction h with
  | nil => exact .nil
  | cons h _ ih => exact h.append ih

/-! ### Assignments -/

/-- A text header, when it is written. -/
def strUs (f : SField) (v : Bytes) : List Upd := if v ≠ [] then [.hdr f v] else []

/-- A string assigned when it is not empty. -/
def strSet (h : SField → Bytes) (f : SField) (v : Bytes) : SField → Bytes := fun g => if g = f ∧ v ≠ [] then v else h g

theorem apps_str (x : Core) (f : SField) (v : Bytes) : apps x (strUs f v) = { x with msg.hdr := strSet x.msg.hdr f v } := by
  unfold strUs
  by_cases h : v = []
  · rw [if_neg (by simpa using h)]
    have : strSet x.msg.hdr f v = x.msg.hdr := by funext g; simp [strSet, h]
    rw [this]; rfl
  · rw [if_pos h]
    have : strSet x.msg.hdr f v = setAt x.msg.hdr f v := by funext g; simp [strSet, setAt, h]
    rw [this]; rfl

theorem apps_addr (x : Core) (f : AField) (as : List Addr) :
    apps x (as.map (.addr f)) = { x with msg.addrs := setAt x.msg.addrs f (x.msg.addrs f ++ as) } := by
  induction as generalizing x with
  | nil =>
    have : setAt x.msg.addrs f (x.msg.addrs f ++ []) = x.msg.addrs := by
      funext g; by_cases h : g = f <;> simp [setAt, h]
    simp only [List.map_nil, apps_nil, this]
  | cons a as ih =>
    rw [List.map_cons, apps_cons, ih]
    have : setAt (setAt x.msg.addrs f (x.msg.addrs f ++ [a])) f (setAt x.msg.addrs f (x.msg.addrs f ++ [a]) f ++ as) =
        setAt x.msg.addrs f (x.msg.addrs f ++ a :: as) := by
      funext g; by_cases h : g = f <;> simp [setAt, h]
    simp only [Upd.app, this]

theorem apps_vias (x : Core) (vs : List Via) : apps x (vs.map .via) = { x with msg.via := x.msg.via ++ vs } := by
  induction vs generalizing x with
  | nil => simp [apps_nil]
  | cons v vs ih => rw [List.map_cons, apps_cons, ih]; simp [Upd.app]

theorem apps_xheaders (x : Core) (l : Pairs) :
    apps x (l.reverse.map fun p => .xheader p.1 p.2) = { x with msg.xheader := l ++ x.msg.xheader } := by
  induction l with
  | nil => rfl
  | cons p l ih =>
    rw [List.reverse_cons, List.map_append, apps_append, ih]
    rfl

theorem wrap_nat {n : Int} (h0 : 0 ≤ n) (h : n < 2 ^ 63) : wrap64 n.toNat = n := by
  rw [Int.toNat_of_nonneg h0]
  unfold wrap64; rw [Int.bmod_def]; omega

theorem dec64_natDec {d : UInt8} {ds : Bytes} {n : Nat} (e : natDec n = d :: ds) :
    ds.foldl dec64 (dec64 0 d) = wrap64 n := by
  have hd := natDec_isDigit n
  rw [e] at hd
  rw [dec64_digits d ds hd, ← e, decVal_natDec]

theorem apps_number {e0 e1 : UInt8 → List Upd} {set : Core → Int → Core}
    (h0 : ∀ x d, apps x (e0 d) = set x (dec64 0 d)) (h1 : ∀ x z d, apps (set x z) (e1 d) = set x (dec64 z d)) (x : Core) (n : Nat) :
    apps x (numUs e0 e1 n) = set x (wrap64 n) := by
  unfold numUs
  cases e : natDec n with
  | nil => exact absurd e (natDec_ne_nil n)
  | cons d ds =>
    show apps x (e0 d ++ ds.flatMap e1) = _
    rw [← dec64_natDec e, apps_append, h0]
    generalize dec64 0 d = z
    clear e
    induction ds generalizing z with
    | nil => rfl
    | cons c ds ih => rw [List.flatMap_cons, apps_append, h1, ih]; rfl

/-! ### The header lines -/

theorem piece_str {n v : Bytes} {f : SField} (hn : IsName n) (hh : headerOf n = some (.text f)) (hv : TextOK v) :
    Piece (strLine n v) (strUs f v) := by
  unfold strLine strUs
  split
  · exact .line rfl (line_value hn hh hv)
  · exact .nil

theorem piece_addr {n : Bytes} {f : AField} {as : List Addr} (hn : IsName n) (hh : headerOf n = some (.address f))
    (ha : ∀ a ∈ as, AddrOK a) : Piece (addrLine n as) (as.map (.addr f)) := by
  unfold addrLine
  split
  · next h => exact .line rfl (line_addrs hn hh h ha)
  · next h => rw [Classical.not_not.1 h]; exact .nil

theorem piece_vias {vs : List Via} (h : ∀ v ∈ vs, ViaOK v) : Piece (viaLines vs) ((vs.map viaRead).map .via) := by
  induction vs with
  | nil => exact .nil
  | cons v vs ih =>
    have p : Piece (b!"Via: " ++ v.text ++ b!"\r\n") [.via (viaRead v)] :=
      .line (n := b!"Via") rfl (line_via (by decide +kernel) (by decide +kernel) (h v List.mem_cons_self))
    exact p.append (ih fun w hw => h w (List.mem_cons_of_mem _ hw))

/-- `RetryAfter`, which is not the name of the header. -/
def retryUs (v : Bytes) : List Upd := if v ≠ [] then [.xheader b!"RetryAfter" v] else []

theorem piece_retry {v : Bytes} (hv : TextOK v) : Piece (strLine b!"RetryAfter" v) (retryUs v) := by
  unfold strLine retryUs
  split
  · refine .line rfl (line_extension (by decide +kernel) (by decide +kernel) ?_ hv)
    rintro ⟨_, h⟩
    revert h
    decide +kernel
  · exact .nil

theorem apps_retry (x : Core) (v : Bytes) :
    apps x (retryUs v) = { x with msg.xheader := (if v = [] then [] else [(b!"RetryAfter", v)]) ++ x.msg.xheader } := by
  unfold retryUs
  by_cases h : v = []
  · rw [if_neg (by simpa using h), if_pos h]; rfl
  · rw [if_pos h, if_neg h]; rfl

theorem piece_xheaders {l : Pairs} (h : ∀ p ∈ l, IsName p.1 ∧ headerOf p.1 = none ∧ ¬ StubName p.1 ∧ TextOK p.2) :
    Piece (xheaderText l) (l.reverse.map fun p => .xheader p.1 p.2) := by
  induction l with
  | nil => exact .nil
  | cons p l ih =>
    obtain ⟨h1, h2, h3, h4⟩ := h p List.mem_cons_self
    rw [List.reverse_cons, List.map_append]
    have := (ih fun w hw => h w (List.mem_cons_of_mem _ hw)).append
      (.line (t := p.1 ++ b!": " ++ p.2 ++ b!"\r\n") rfl (line_extension h1 h2 h3 h4))
    have e : sanitized tokenc p.1 = p.1 := sanitized_token h1.2
    obtain ⟨n, v⟩ := p
    simpa [xheaderText, e] using this

theorem piece_num {n t : Bytes} {h : Header} {k : Nat} (hn : IsName n) (hh : headerOf n = some h) (hnum : numeric h = true)
    (e : t = n ++ b!": " ++ natDec k ++ b!"\r\n") :
    Piece t (numUs (numUpd h (n.map lower)).1 (numUpd h (n.map lower)).2 k) :=
  .line e (line_number hn hh hnum)

/-- `Max-Forwards`, when it is written. -/
def maxForwardsUs (m : Msg) : List Upd :=
  if !m.isResponse then numUs (fun c => [.maxForwards0, .maxForwards c]) (fun c => [.maxForwards c])
      (if m.maxForwards = 0 then 70 else m.maxForwards.toNat) else []

/-- `Expires`, when it is written. -/
def expiresUs (m : Msg) : List Upd :=
  if m.expires > 0 ∨ m.method = b!"REGISTER" ∨ m.cseqMethod = b!"REGISTER" then
    numUs (fun c => [.expires0, .expires c]) (fun c => [.expires c]) m.expires.toNat
  else []

/-- `Min-Expires`, when it is written. -/
def minExpiresUs (m : Msg) : List Upd :=
  if m.minExpires > 0 then numUs (fun c => [.minExpires0, .minExpires c]) (fun c => [.minExpires c]) m.minExpires.toNat else []

theorem itoa_toNat {n : Int} (h : 0 ≤ n) : itoa n = natDec n.toNat := by
  rw [← itoa_nat, Int.toNat_of_nonneg h]

theorem piece_maxForwards {gen : Bytes} {m : Msg} (h : MsgOK gen m) : Piece (maxForwardsLine m) (maxForwardsUs m) := by
  unfold maxForwardsLine maxForwardsUs
  rcases h.start with r | r
  · have e : m.isResponse = false := by have := r.status; simp [Msg.isResponse]; omega
    have h1 := r.maxForwards
    simp only [e, Bool.not_false, if_true]
    refine piece_num (n := b!"Max-Forwards") (h := .maxForwards) (by decide +kernel) (by decide +kernel) rfl ?_
    split
    · decide +kernel
    · rw [itoa_toNat (by omega)]; rfl
  · have e : m.isResponse = true := by have := r.status; simp [Msg.isResponse]; omega
    rw [e]
    exact .nil

theorem piece_expires {gen : Bytes} {m : Msg} (h : MsgOK gen m) : Piece (expiresLine m) (expiresUs m) := by
  unfold expiresLine expiresUs
  rw [itoa_toNat h.expires.1]
  split
  · exact piece_num (n := b!"Expires") (h := .expires) (by decide +kernel) (by decide +kernel) rfl rfl
  · exact .nil

theorem piece_minExpires {gen : Bytes} {m : Msg} (h : MsgOK gen m) : Piece (minExpiresLine m) (minExpiresUs m) := by
  unfold minExpiresLine minExpiresUs
  rw [itoa_toNat h.minExpires.1]
  split
  · exact piece_num (n := b!"Min-Expires") (h := .minExpires) (by decide +kernel) (by decide +kernel) rfl rfl
  · exact .nil

theorem piece_cseq {gen : Bytes} {m : Msg} (h : MsgOK gen m) :
    Piece (b!"CSeq: " ++ itoa m.cseq ++ b!" " ++ m.cseqMethod ++ b!"\r\n")
      ((natDec m.cseq.toNat).map .cseq ++ [.cseqMethod m.cseqMethod]) := by
  refine .line (n := b!"CSeq") (v := natDec m.cseq.toNat ++ 32 :: m.cseqMethod) ?_
    (line_cseq (by decide +kernel) (by decide +kernel) h.cseqMethod)
  rw [itoa_toNat h.cseq.1]
  simp

/-- The assignments made by the header lines. -/
def headUs (m : Msg) : List (List Upd) :=
  [(m.addrs .from).map (.addr .from),
   (m.addrs .to).map (.addr .to),
   (m.via.map viaRead).map .via,
   (m.addrs .route).map (.addr .route),
   (m.addrs .recordRoute).map (.addr .recordRoute),
   (m.addrs .contact).map (.addr .contact),
   [.callID m.callID],
   (natDec m.cseq.toNat).map .cseq ++ [.cseqMethod m.cseqMethod],
   strUs .userAgent (m.hdr .userAgent),
   maxForwardsUs m,
   strUs .accept (m.hdr .accept),
   strUs .acceptEncoding (m.hdr .acceptEncoding),
   strUs .acceptLanguage (m.hdr .acceptLanguage),
   strUs .alertInfo (m.hdr .alertInfo),
   strUs .allow (m.hdr .allow),
   strUs .allowEvents (m.hdr .allowEvents),
   strUs .authenticationInfo (m.hdr .authenticationInfo),
   strUs .authorization (m.hdr .authorization),
   strUs .callInfo (m.hdr .callInfo),
   strUs .contentDisposition (m.hdr .contentDisposition),
   strUs .contentEncoding (m.hdr .contentEncoding),
   strUs .contentLanguage (m.hdr .contentLanguage),
   strUs .date (m.hdr .date),
   strUs .errorInfo (m.hdr .errorInfo),
   strUs .event (m.hdr .event),
   expiresUs m,
   strUs .inReplyTo (m.hdr .inReplyTo),
   strUs .mimeVersion (m.hdr .mimeVersion),
   minExpiresUs m,
   strUs .organization (m.hdr .organization),
   (m.addrs .pAssertedIdentity).map (.addr .pAssertedIdentity),
   strUs .priority (m.hdr .priority),
   strUs .proxyAuthenticate (m.hdr .proxyAuthenticate),
   strUs .proxyAuthorization (m.hdr .proxyAuthorization),
   strUs .proxyRequire (m.hdr .proxyRequire),
   strUs .referTo (m.hdr .referTo),
   strUs .referredBy (m.hdr .referredBy),
   (m.addrs .remotePartyID).map (.addr .remotePartyID),
   strUs .replyTo (m.hdr .replyTo),
   strUs .require (m.hdr .require),
   retryUs (m.hdr .retryAfter),
   strUs .server (m.hdr .server),
   strUs .subject (m.hdr .subject),
   strUs .supported (m.hdr .supported),
   strUs .timestamp (m.hdr .timestamp),
   strUs .unsupported (m.hdr .unsupported),
   strUs .warning (m.hdr .warning),
   strUs .wwwAuthenticate (m.hdr .wwwAuthenticate),
   m.xheader.reverse.map fun p => .xheader p.1 p.2]

theorem pieces_head {gen : Bytes} {m : Msg} (h : MsgOK gen m) : Pieces (headerLines m) (headUs m) :=
  .cons (.line (n := b!"From") rfl (line_addrs (by decide +kernel) (by decide +kernel) h.from_ (h.addrs _))) <|
  .cons (.line (n := b!"To") rfl (line_addrs (by decide +kernel) (by decide +kernel) h.to (h.addrs _))) <|
  .cons (piece_vias h.via) <|
  .cons (piece_addr (by decide +kernel) (by decide +kernel) (h.addrs _)) <|
  .cons (piece_addr (by decide +kernel) (by decide +kernel) (h.addrs _)) <|
  .cons (piece_addr (by decide +kernel) (by decide +kernel) (h.addrs _)) <|
  .cons (.line (n := b!"Call-ID") rfl (line_callID (by decide +kernel) (by decide +kernel) h.callID)) <|
  .cons (piece_cseq h) <|
  .cons (piece_str (by decide +kernel) (by decide +kernel) (h.hdr _ (by decide))) <|
  .cons (piece_maxForwards h) <|
  .cons (piece_str (by decide +kernel) (by decide +kernel) (h.hdr _ (by decide))) <|
  .cons (piece_str (by decide +kernel) (by decide +kernel) (h.hdr _ (by decide))) <|
  .cons (piece_str (by decide +kernel) (by decide +kernel) (h.hdr _ (by decide))) <|
  .cons (piece_str (by decide +kernel) (by decide +kernel) (h.hdr _ (by decide))) <|
  .cons (piece_str (by decide +kernel) (by decide +kernel) (h.hdr _ (by decide))) <|
  .cons (piece_str (by decide +kernel) (by decide +kernel) (h.hdr _ (by decide))) <|
  .cons (piece_str (by decide +kernel) (by decide +kernel) (h.hdr _ (by decide))) <|
  .cons (piece_str (by decide +kernel) (by decide +kernel) (h.hdr _ (by decide))) <|
  .cons (piece_str (by decide +kernel) (by decide +kernel) (h.hdr _ (by decide))) <|
  .cons (piece_str (by decide +kernel) (by decide +kernel) (h.hdr _ (by decide))) <|
  .cons (piece_str (by decide +kernel) (by decide +kernel) (h.hdr _ (by decide))) <|
  .cons (piece_str (by decide +kernel) (by decide +kernel) (h.hdr _ (by decide))) <|
  .cons (piece_str (by decide +kernel) (by decide +kernel) (h.hdr _ (by decide))) <|
  .cons (piece_str (by decide +kernel) (by decide +kernel) (h.hdr _ (by decide))) <|
  .cons (piece_str (by decide +kernel) (by decide +kernel) (h.hdr _ (by decide))) <|
  .cons (piece_expires h) <|
  .cons (piece_str (by decide +kernel) (by decide +kernel) (h.hdr _ (by decide))) <|
  .cons (piece_str (by decide +kernel) (by decide +kernel) (h.hdr _ (by decide))) <|
  .cons (piece_minExpires h) <|
  .cons (piece_str (by decide +kernel) (by decide +kernel) (h.hdr _ (by decide))) <|
  .cons (piece_addr (by decide +kernel) (by decide +kernel) (h.addrs _)) <|
  .cons (piece_str (by decide +kernel) (by decide +kernel) (h.hdr _ (by decide))) <|
  .cons (piece_str (by decide +kernel) (by decide +kernel) (h.hdr _ (by decide))) <|
  .cons (piece_str (by decide +kernel) (by decide +kernel) (h.hdr _ (by decide))) <|
  .cons (piece_str (by decide +kernel) (by decide +kernel) (h.hdr _ (by decide))) <|
  .cons (piece_str (by decide +kernel) (by decide +kernel) (h.hdr _ (by decide))) <|
  .cons (piece_str (by decide +kernel) (by decide +kernel) (h.hdr _ (by decide))) <|
  .cons (piece_addr (by decide +kernel) (by decide +kernel) (h.addrs _)) <|
  .cons (piece_str (by decide +kernel) (by decide +kernel) (h.hdr _ (by decide))) <|
  .cons (piece_str (by decide +kernel) (by decide +kernel) (h.hdr _ (by decide))) <|
  .cons (piece_retry (h.hdr _ (by decide))) <|
  .cons (piece_str (by decide +kernel) (by decide +kernel) (h.hdr _ (by decide))) <|
  .cons (piece_str (by decide +kernel) (by decide +kernel) (h.hdr _ (by decide))) <|
  .cons (piece_str (by decide +kernel) (by decide +kernel) (h.hdr _ (by decide))) <|
  .cons (piece_str (by decide +kernel) (by decide +kernel) (h.hdr _ (by decide))) <|
  .cons (piece_str (by decide +kernel) (by decide +kernel) (h.hdr _ (by decide))) <|
  .cons (piece_str (by decide +kernel) (by decide +kernel) (h.hdr _ (by decide))) <|
  .cons (piece_str (by decide +kernel) (by decide +kernel) (h.hdr _ (by decide))) <|
  .cons (piece_xheaders h.xheader) <|
  .nil

end Gosip.Sip.MsgM
