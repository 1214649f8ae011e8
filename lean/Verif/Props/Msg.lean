import Verif.Sip.MsgText
import Verif.Sip.MsgLinear
import Verif.Sip.MsgErrorLemmas
import Verif.Props.Sdp

/-!
# Properties C07–C10, C56: parsing of messages
-/

namespace Gosip.Props
open Sip Spec MsgM

/-! ## Common facts -/

/-- The loop never runs out of fuel and never panics. -/
theorem run_ok (d : Bytes) : (∃ y, run d (fuel d) 1 (initCtx d) = .done y) ∨
    ∃ e, run d (fuel d) 1 (initCtx d) = .stop e := by
  have h1 := run_ends (inv_init d) (measure_le (d := d))
  have h2 := run_cases (d := d) (n := fuel d) .init
  cases h : run d (fuel d) 1 (initCtx d) with
  | done y => exact .inl ⟨y, rfl⟩
  | stop e => exact .inr ⟨e, rfl⟩
  | outOfFuel => exact absurd h h1
  | panic =>
    rw [h] at h2
    obtain ⟨k, x, hr, hs⟩ := h2
    have := step_good (reach_inv hr)
    rw [hs] at this; exact this.elim

theorem finish_safe {d : Bytes} {y : Ctx} (hp : y.p ≤ d.length) : finish d y ≠ .panic := by
  unfold finish
  split
  · split
    · simp
    · rw [slice_ok hp (Nat.le_refl _), Res.bind_eq, Res.ok_bind]
      split
      · have := C19_sdp_parse_total ((d.take d.length).drop y.p)
        cases h : Sdp.parse ((d.take d.length).drop y.p) <;> simp_all
      · simp
  · simp

theorem done_facts {d : Bytes} {y : Ctx} (h : run d (fuel d) 1 (initCtx d) = .done y) :
    ∃ k x, Reach d k x ∧ step d k x = .brk y ∧ y.p ≤ d.length ∧
      ∀ f, ∀ a ∈ y.msg.addrs f, a.uri ≠ none := by
  have h2 := run_cases (d := d) (n := fuel d) .init
  rw [h] at h2
  obtain ⟨k, x, hr, hs⟩ := h2
  have := step_good (reach_inv hr)
  rw [hs] at this
  exact ⟨k, x, hr, hs, this.1, this.2.2⟩

/-- An accepted message comes from a completed run. -/
theorem parse_ok {d : Bytes} {m : Msg} (h : parseMsg d = .ok m) :
    ∃ y, run d (fuel d) 1 (initCtx d) = .done y ∧ finish d y = .ok m := by
  unfold parseMsg parseWith at h
  rcases run_ok d with ⟨y, hy⟩ | ⟨e, hy⟩ <;> rw [hy] at h
  · exact ⟨y, hy, h⟩
  · cases h

/-- The epilogue changes nothing but the payload. -/
theorem finish_msg {d : Bytes} {y : Ctx} {m : Msg} (h : finish d y = .ok m) :
    ∃ p, m = { y.msg with payload := p } ∧
      (p = y.msg.payload ∨ (∃ b, p = some (.misc y.ctype b)) ∨ ∃ s, p = some (.sdp s)) := by
  unfold finish at h
  split at h
  · split at h
    · cases h
    · rw [Res.bind_eq] at h
      obtain ⟨b, _, h⟩ := Res.bind_ok_iff.1 h
      split at h
      · cases hs : Sdp.parse b with
        | ok ms => rw [hs] at h; cases h; exact ⟨_, rfl, .inr (.inr ⟨ms, rfl⟩)⟩
        | err e => rw [hs] at h; cases h
        | panic => rw [hs] at h; cases h
      · cases h; exact ⟨_, rfl, .inr (.inl ⟨b, rfl⟩)⟩
  · cases h; exact ⟨_, rfl, .inl rfl⟩

/-! ## C07 -/

/-- **C07.** On every byte slice `ParseMsg` returns a message or an error: no index or slice is out of
range and no nil pointer is dereferenced (these are the outcome `panic` of the model). -/
theorem C07_parseMsg_never_panics (d : Bytes) : (∃ m, parseMsg d = .ok m) ∨ ∃ e, parseMsg d = .err e := by
  unfold parseMsg parseWith
  rcases run_ok d with ⟨y, hy⟩ | ⟨e, hy⟩ <;> rw [hy]
  · obtain ⟨_, _, _, _, hp, _⟩ := done_facts hy
    have := finish_safe hp
    simp only [Option.getD_some]
    cases h : finish d y with
    | ok m => exact .inl ⟨m, rfl⟩
    | err e => exact .inr ⟨e, rfl⟩
    | panic => exact absurd h this
  · exact .inr ⟨e, rfl⟩

/-- Each kind of outcome occurs. -/
example : (∃ m, parseMsg b!"SIP/2.0 200 OK\r\nf:a <sip:b>;c,sip:d\r\nl:2\r\n\r\nhi" = .ok m) ∧
    parseMsg b!"SIP/2.0 200 OK\r\nf" = .err (.incomplete b!"SIP/2.0 200 OK\r\nf") ∧
    parseMsg b!"SIP/2.0 200 OK\r\nf:;" = .err (.parse b!"SIP/2.0 200 OK\r\nf:;" 18) ∧
    parseMsg b!"X y SIP/2.0\r\n\r\n" = .err (.uri (.incomplete b!"y")) ∧
    parseMsg b!"SIP/2.0 200 OK\r\nl:2\r\n\r\nh" = .err (.contentLength 2 1) := by
  refine ⟨?_, ?_, ?_, ?_, ?_⟩
  · have h : (match parseMsg b!"SIP/2.0 200 OK\r\nf:a <sip:b>;c,sip:d\r\nl:2\r\n\r\nhi" with
      | .ok _ => true | _ => false) = true := by decide +kernel
    split at h
    · exact ⟨_, by assumption⟩
    · cases h
  all_goals decide +kernel

/-! ## C08 -/

/-- **C08.** On every byte slice the loop of `ParseMsg` stops after at most `10·n + 1` passes, where `n` is
the number of bytes, although some passes consume no byte (`fhold`, `gxh`) and some go back
(`fexec mark`): with that many passes or more the result is always the same. -/
theorem C08_parseMsg_terminates (d : Bytes) (n : Nat) (h : 10 * d.length + 1 ≤ n) :
    parseWith n d = some (parseMsg d) := by
  have h1 := run_linear h
  have h2 := run_ends (inv_init d) (measure_le (d := d))
  have h3 : run d n 1 (initCtx d) = run d (fuel d) 1 (initCtx d) := by
    rcases Nat.le_total n (fuel d) with hn | hn
    · exact (run_mono h1 hn).symm
    · exact run_mono h2 hn
  unfold parseMsg parseWith
  rw [h3]
  cases hr : run d (fuel d) 1 (initCtx d) <;> simp_all

/-- A message whose parse goes back (an unquoted display name, an extension header). -/
example : ∃ m, parseMsg b!"SIP/2.0 200 OK\r\nFrom: A B <sip:b>\r\nX: y\r\n\r\n" = .ok m ∧
    m.addrs .from = [{ display := b!"A B", uri := some { scheme := b!"sip", host := b!"b" } }] ∧
    m.xheader = [(b!"X", b!"y")] := by
  refine ⟨{ versionMajor := 2, status := 200, phrase := b!"OK",
            addrs := setAt (fun _ => []) .from
              [{ display := b!"A B", uri := some { scheme := b!"sip", host := b!"b" } }],
            xheader := [(b!"X", b!"y")] }, ?_, ?_, ?_⟩ <;> decide +kernel

/-! ## C09 -/

/-- **C09.** No text in an accepted message, apart from the reason phrase and the components of URIs (which
are escaped when written), can start a new line: tokens contain token characters only; Call-ID, Via
hosts and the content type contain neither CR nor LF; header values, extension header values, parameter
values and display names contain CR and LF only in folds. -/
theorem C09_no_smuggling (d : Bytes) (m : Msg) (h : parseMsg d = .ok m) : NoSmuggling m := by
  obtain ⟨y, hy, hf⟩ := parse_ok h
  obtain ⟨k, x, hr, hs, _⟩ := done_facts hy
  have hst := brk_stored hr hs
  obtain ⟨p, rfl, hp⟩ := finish_msg hf
  refine ⟨hst.method, hst.cseqMethod, hst.callID, hst.hdr, hst.xheader, hst.vias, hst.addrs, ?_⟩
  intro t b hb
  rcases hp with rfl | ⟨b', rfl⟩ | ⟨s, rfl⟩
  · exact absurd hb (by rw [hst.payload]; simp)
  · cases hb; exact hst.ctype
  · cases hb

/-- A folded value is accepted and kept. -/
example : ∃ m, parseMsg b!"SIP/2.0 200 OK\r\nX: a\r\n b\r\nSubject: c\r\n\td\r\n\r\n" = .ok m ∧
    m.xheader = [(b!"X", b!"a\r\n b")] ∧ m.hdr .subject = b!"c\r\n\td" := by
  refine ⟨{ versionMajor := 2, status := 200, phrase := b!"OK",
            hdr := setAt (fun _ => []) .subject b!"c\r\n\td",
            xheader := [(b!"X", b!"a\r\n b")] }, ?_, ?_, ?_⟩ <;> decide +kernel

/-- The reason phrase is excluded above for cause: its percent escapes are decoded by the parser and not
encoded by the serialiser, so a response can carry a header past the parser that appears when the message
is written again. -/
theorem C09_phrase_smuggles :
    ∃ d m m', parseMsg d = .ok m ∧ m.xheader = [] ∧ parseMsg (m.text []) = .ok m' ∧
      m'.xheader = [(b!"Evil", b!"1")] := by
  refine ⟨b!"SIP/2.0 200 OK%0D%0AEvil: 1\r\nt:sip:a\r\nf:sip:a\r\ni:b\r\nCSeq: 1 X\r\n\r\n",
    { versionMajor := 2, status := 200, phrase := b!"OK\r\nEvil: 1", callID := b!"b", cseq := 1,
      cseqMethod := b!"X",
      addrs := setAt (setAt (fun _ => []) .to [{ uri := some { scheme := b!"sip", host := b!"a" } }])
        .from [{ uri := some { scheme := b!"sip", host := b!"a" } }] },
    { versionMajor := 2, status := 200, phrase := b!"OK", callID := b!"b", cseq := 1,
      cseqMethod := b!"X", xheader := [(b!"Evil", b!"1")],
      addrs := setAt (setAt (fun _ => []) .to [{ uri := some { scheme := b!"sip", host := b!"a" } }])
        .from [{ uri := some { scheme := b!"sip", host := b!"a" } }] }, ?_, rfl, ?_, rfl⟩
  · decide +kernel
  · rw [show Msg.text [] _ = b!"SIP/2.0 200 OK\r\nEvil: 1\r\nFrom: <sip:a>\r\nTo: <sip:a>\r\nCall-ID: b\r\nCSeq: 1 X\r\nContent-Length: 0\r\n\r\n" by decide +kernel]
    decide +kernel

/-! ## C10 -/

/-- **C10 (partial).** An accepted message is either a request, with a non-empty method, a request URI and
status 0, or a response, with neither method nor request URI and a status of three digits; and every
address in it has a URI. What is missing from the full claim: the status can be below 100
(`C10_status_below_100`). -/
theorem C10_request_or_response_partial (d : Bytes) (m : Msg) (h : parseMsg d = .ok m) :
    ((m.method ≠ [] ∧ m.request ≠ none ∧ m.status = 0) ∨
      (m.method = [] ∧ m.request = none ∧ 0 ≤ m.status ∧ m.status ≤ 999)) ∧
    ∀ f, ∀ a ∈ m.addrs f, a.uri ≠ none := by
  obtain ⟨y, hy, hf⟩ := parse_ok h
  obtain ⟨k, x, hr, hs, _, hu⟩ := done_facts hy
  obtain ⟨p, rfl, _⟩ := finish_msg hf
  refine ⟨?_, hu⟩
  rcases brk_shape hr hs with h | ⟨h1, h2, h3, h4⟩
  · exact .inl h
  · exact .inr ⟨h1, h2, h3, by show y.msg.status ≤ 999; omega⟩

example : ∃ m, parseMsg b!"OPTIONS sip:a SIP/2.0\r\n\r\n" = .ok m ∧ m.method = b!"OPTIONS" := by
  refine ⟨{ versionMajor := 2, method := b!"OPTIONS", request := some { scheme := b!"sip", host := b!"a" } },
    ?_, rfl⟩
  decide +kernel

/-- The full claim of C10 is false: a response with status 000 is accepted, and is then taken for a request
(`IsResponse` tests `Status > 0`) without a request URI. -/
theorem C10_status_below_100 : ∃ d m, parseMsg d = .ok m ∧ m.status = 0 ∧ m.method = [] ∧ m.request = none ∧
    m.isResponse = false := by
  refine ⟨b!"SIP/2.0 000 x\r\n\r\n", { versionMajor := 2, phrase := b!"x" }, ?_, rfl, rfl, rfl, rfl⟩
  decide +kernel

/-! ## C56 -/

/-- **C56.** A parse error carries the message itself and the offset of one of its bytes. -/
theorem C56_offset_inside (d e : Bytes) (p : Nat) (h : parseMsg d = .err (.parse e p)) :
    e = d ∧ p < d.length := by
  unfold parseMsg parseWith at h
  rcases run_ok d with ⟨y, hy⟩ | ⟨e', hy⟩ <;> rw [hy] at h
  · simp only [Option.getD_some] at h
    unfold finish at h
    split at h
    · split at h
      · cases h
      · rename_i hcl
        obtain ⟨_, _, _, _, hp, _⟩ := done_facts hy
        rw [slice_ok hp (Nat.le_refl _), Res.bind_eq, Res.ok_bind] at h
        split at h
        · split at h <;> cases h
        · cases h
    · cases h
  · cases h
    have h2 := run_cases (d := d) (n := fuel d) .init
    rw [hy] at h2
    obtain ⟨k, x, hr, hs⟩ := h2
    have := step_good (reach_inv hr)
    rw [hs] at this
    rcases this with h | ⟨q, hq, h⟩ | ⟨u, h⟩
    · cases h
    · cases h; exact ⟨rfl, hq⟩
    · cases h

theorem extent_join {ls : List Bytes} (h : ls ≠ []) : extent ls = (joinCRLF ls).length + 2 := by
  induction ls with
  | nil => exact absurd rfl h
  | cons l ls ih =>
    by_cases hl : ls = []
    · subst hl; simp [extent, joinCRLF]
    · rw [joinCRLF_cons hl]
      have := ih hl
      simp only [extent, List.map_cons, List.sum_cons, List.length_append, List.length_cons] at this ⊢
      simp; omega

theorem joinCRLF_append {a b : List Bytes} (ha : a ≠ []) (hb : b ≠ []) :
    joinCRLF (a ++ b) = joinCRLF a ++ b!"\r\n" ++ joinCRLF b := by
  induction a with
  | nil => exact absurd rfl ha
  | cons x a ih =>
    by_cases h : a = []
    · subst h; rw [List.singleton_append, joinCRLF_cons hb]; simp [joinCRLF]
    · rw [List.cons_append, joinCRLF_cons (by simp [h]), joinCRLF_cons h, ih h]; simp

/-- **C56.** For every message and every offset, in range or not: the error text is a first line with line
and column numbers, followed by the message with its lines separated by LF. If the offset is that of a
byte of a line, the numbers are those of that byte, and a caret below it is inserted after the line.
Otherwise (the offset is negative, past the end, or that of a line end) the numbers are 0 and there is no
caret. -/
theorem C56_error_text (msg : Bytes) (off : Int) :
    (∃ before line after col, Located msg off before line after col ∧
      parseErrorText msg off = b!"Error in SIP message at line " ++ natDec (before.length + 1) ++ b!" offset " ++
        natDec col ++ b!":\n" ++ withCaret before line after col) ∨
    ((off < 0 ∨ (msg.length : Int) ≤ off ∨
        ∃ a b, msg = a ++ b!"\r\n" ++ b ∧ (off = a.length ∨ off = a.length + 1)) ∧
      ∃ text, Shown msg text ∧
        parseErrorText msg off = b!"Error in SIP message at line 0 offset 0:\n" ++ text) := by
  obtain ⟨hj, hn⟩ := splitCRLF_spec msg
  have hne := splitCRLF_ne_nil msg
  by_cases hneg : off < 0
  · right
    refine ⟨.inl hneg, joinLF (splitCRLF msg), ⟨_, hne, hj.symm, hn, rfl⟩, ?_⟩
    unfold parseErrorText
    rw [errLoop_after hneg]
    have h1 : natDec 0 = b!"0" := by decide
    have h2 : itoa 0 = b!"0" := by decide
    simp only [h1, h2]; simp
  · rcases errLoop_cases (off := off) (ls := splitCRLF msg) (i := 0) (line := 0) (o := 0) (lo := 0) (by omega) with
      ⟨before, l, after, col, e1, e2, e3, e4⟩ | ⟨h1, e4⟩
    · left
      refine ⟨before, l, after, col, ⟨by rw [← e1, hj], by rw [← e1]; exact hn, e2, by
        simp only [extent] at e3; omega⟩, ?_⟩
      unfold parseErrorText
      rw [e4]
      simp only [itoa_nat, Nat.zero_add]
    · right
      refine ⟨.inr ?_, joinLF (splitCRLF msg), ⟨_, hne, hj.symm, hn, rfl⟩, ?_⟩
      · rcases h1 with ⟨before, after, b1, b2, b3, b4⟩ | h1
        · right
          refine ⟨joinCRLF before, joinCRLF after, by rw [← joinCRLF_append b1 b2, ← b3, hj], ?_⟩
          have := extent_join b1
          omega
        · left; rw [hj] at h1; omega
      · unfold parseErrorText
        rw [e4]
        have h1 : natDec 0 = b!"0" := by decide
        have h2 : itoa 0 = b!"0" := by decide
        simp only [h1, h2]; simp

/-- Both cases occur: byte 5 of a message of three lines, and the line end at byte 2. -/
example : parseErrorText b!"ab\r\ncd\r\nef" 5 =
      b!"Error in SIP message at line 2 offset 1:\nab\ncd\n ^\nef" ∧
    parseErrorText b!"ab\r\ncd\r\nef" 2 = b!"Error in SIP message at line 0 offset 0:\nab\ncd\nef" := by
  decide +kernel

end Gosip.Props
