import Verif.Sdp.Accept
import Verif.Sdp.New

/-!
# Properties C19–C22: session descriptions
-/

namespace Gosip.Props
open Sdp Spec

/-- **C19.** `sdp.Parse` returns for every string, without an out-of-range access. -/
theorem C19_sdp_parse_total (s : Bytes) : (∃ d, parse s = .ok d) ∨ (∃ e, parse s = .err e) := by
  cases h : parse s with
  | ok d => exact .inl ⟨d, rfl⟩
  | err e => exact .inr ⟨e, rfl⟩
  | panic => exact absurd h (parse_ne_panic s)

/-- Both outcomes occur. -/
example : parse b!"v=0\r\na=x\r\nc=IN" = .err .connLine := by decide +kernel

/-- A text with everything in it. -/
def sampleText : Bytes :=
  b!"v=0\r\no=u 1 2 IN IP6 ::1\r\nc=IN IP4 1.2.3.4\r\nb=AS:64\r\na=rtpmap:101 telephone-event/8000\r\nm=audio 7000/2 RTP/AVP 8 101 0\r\na=fmtp:101 0-16\r\na=rtpmap:0 X/1/2\r\na=rtpmap:0 Y/3\r\na=silenceSupp:off\r\na=sendonly\r\nq=\r\n"

def sampleSdp : SDP :=
  { origin := ⟨b!"u", b!"1", b!"2", b!"::1"⟩, addr := b!"1.2.3.4", session := b!"pokémon", time := b!"0 0",
    audio := some ⟨b!"RTP/AVP", 7000, [⟨8, b!"PCMA", 8000, [], []⟩,
      ⟨101, b!"telephone-event", 8000, [], b!"0-16"⟩, ⟨0, b!"X", 1, b!"2", []⟩]⟩,
    sendOnly := true, attrs := [(b!"silenceSupp", b!"off")], other := [(b!"b", b!"AS:64")] }

theorem sample_parse : parse sampleText = .ok sampleSdp := by decide +kernel

example : parse b!"v=0\r\no=- 1 1 IN IP4 1.2.3.4\r\ns=-\r\nc=IN IP4 1.2.3.4\r\nt=0 0\r\nm=audio 32898 RTP/AVP 0 101\r\na=rtpmap:101 telephone-event/8000\r\na=ptime:20\r\n" =
  .ok { origin := ⟨b!"-", b!"1", b!"1", b!"1.2.3.4"⟩, addr := b!"1.2.3.4", session := b!"-", time := b!"0 0",
        audio := some ⟨b!"RTP/AVP", 32898, [⟨0, b!"PCMU", 8000, [], []⟩,
          ⟨101, b!"telephone-event", 8000, [], []⟩]⟩, ptime := 20 } := by decide +kernel

/-- **C20.** A parsed description comes from a text of lines, and is usable: the origin is that of
the last `o=` line and its address is not multicast; the connection address is that of the first
`c=` line and is not multicast; there is audio or video, and every media has at least one codec and
every codec a name. -/
theorem C20_sdp_usable {s : Bytes} {d : SDP} (h : parse s = .ok d) :
    (∃ ls, s = b!"v=0\r\n" ++ joinCRLF ls ∧ (∀ l ∈ ls, NoCRLF l) ∧
      (∃ v, (values 99 (pairs ls)).head? = some v ∧ ConnValue v d.addr) ∧
      (∃ v, (values 111 (pairs ls)).getLast? = some v ∧ OriginValue v d.origin)) ∧
    47 ∉ d.addr ∧ 47 ∉ d.origin.addr ∧
    (d.audio ≠ none ∨ d.video ≠ none) ∧
    ∀ m, d.audio = some m ∨ d.video = some m → m.codecs ≠ [] ∧ ∀ c ∈ m.codecs, c.name ≠ [] := by
  obtain ⟨ls, e, hl, _, hd, hm, _⟩ := parse_spec h
  refine ⟨⟨ls, e, hl, hd.conn, hd.origin⟩, ?_, ?_, hm, ?_⟩
  · obtain ⟨v, _, _, _, _, _, h2⟩ := hd.conn; exact h2
  · obtain ⟨v, _, _, _, _, _, h2⟩ := hd.origin; exact h2
  · have key : ∀ type m, MediaOf (pairs ls) type (some m) → m.codecs ≠ [] ∧ ∀ c ∈ m.codecs, c.name ≠ [] := by
      rintro type m ⟨v, _, _, _, _, pts, _, _, _, _, hne, hlen, hc⟩
      refine ⟨?_, ?_⟩
      · intro e0; rw [e0] at hlen; simp at hlen; exact hne hlen
      · intro c hcm
        obtain ⟨i, hi⟩ := List.mem_iff_getElem?.1 hcm
        have hlt : i < pts.length := by
          rw [hlen]; exact (List.getElem?_eq_some_iff.1 hi).1
        exact (hc i _ c (List.getElem?_eq_getElem hlt) hi).2.named
    rintro m (e | e)
    · have := hd.audio; rw [e] at this; exact key _ m this
    · have := hd.video; rw [e] at this; exact key _ m this

example : 47 ∉ sampleSdp.addr := (C20_sdp_usable sample_parse).2.1

/-- An address that is not multicast may still be missing: `c=IN IP4 ` is accepted, and the blank
address is then written as a fixed one. -/
theorem C20_blank_address_accepted :
    ∃ s d, parse s = .ok d ∧ d.addr = [] ∧ ∃ d', parse (d.text b!"1") = .ok d' ∧ d'.addr = b!"69.28.157.198" :=
  ⟨b!"v=0\r\no=u 1 2 IN IP4 h\r\nc=IN IP4 \r\nm=audio 1 RTP/AVP 0\r\n", _, rfl, rfl, _, rfl, rfl⟩

/-- **C21.** All of a parsed description is what its lines say (`Described`); in particular
(`MediaOf`, `MediaValue`, `CodecOf`) the codecs of a media correspond in order to the payload types on
the last `m=` line of its type, each one is described by the first rtpmap with its number, and by the
IANA table only when there is none (or it has an empty name). -/
theorem C21_sdp_described {s : Bytes} {d : SDP} (h : parse s = .ok d) :
    ∃ ls, s = b!"v=0\r\n" ++ joinCRLF ls ∧ (∀ l ∈ ls, NoCRLF l) ∧ Described ls d := by
  obtain ⟨ls, e, hl, _, hd, _⟩ := parse_spec h
  exact ⟨ls, e, hl, hd⟩

/-- **C21 (both directions).** `sdp.Parse` accepts exactly the texts that describe a session: after the
version line, at least two lines, every origin line readable, and audio or video; the result is the
session described. -/
theorem C21_sdp_iff (s : Bytes) (d : SDP) : parse s = .ok d ↔
    ∃ ls, s = b!"v=0\r\n" ++ joinCRLF ls ∧ (∀ l ∈ ls, NoCRLF l) ∧ 2 ≤ ls.length ∧ Described ls d ∧
      (∀ v ∈ values 111 (pairs ls), ∃ o, OriginValue v o) ∧ (d.audio ≠ none ∨ d.video ≠ none) := by
  constructor
  · intro h
    obtain ⟨ls, e, hl, h2, hd, hm, _⟩ := parse_spec h
    refine ⟨ls, e, hl, h2, hd, ?_, hm⟩
    rw [parse_eff, e] at h
    have hpre : hasPrefix b!"v=0\r\n" (b!"v=0\r\n" ++ joinCRLF ls) = true := (hasPrefix_iff _ _).2 ⟨_, rfl⟩
    have hdrop : List.drop 5 (b!"v=0\r\n" ++ joinCRLF ls) = joinCRLF ls := by simp
    rw [hpre, hdrop, splitCRLF_joinCRLF hl (by intro e; simp [e] at h2)] at h
    simp only [Bool.not_true, Bool.false_eq_true, if_false, if_neg (Nat.not_lt.2 h2)] at h
    rw [Res.bind_eq, Res.bind_ok_iff] at h
    obtain ⟨st, h1, _⟩ := h
    exact linesEff_origins h1
  · rintro ⟨ls, rfl, hl, h2, hd, ho, hm⟩
    exact parse_of hl h2 hd ho hm

/-- The text of a phone that is not gosip's. -/
example : ∃ ls, sampleText = b!"v=0\r\n" ++ joinCRLF ls ∧ (∀ l ∈ ls, NoCRLF l) ∧ 2 ≤ ls.length ∧ Described ls sampleSdp ∧
    (∀ v ∈ values 111 (pairs ls), ∃ o, OriginValue v o) ∧ (sampleSdp.audio ≠ none ∨ sampleSdp.video ≠ none) :=
  (C21_sdp_iff _ _).1 sample_parse

/-- The lines of a text are determined by it. -/
theorem C21_lines_unique {ls ls' : List Bytes} (h : ∀ l ∈ ls, NoCRLF l) (h' : ∀ l ∈ ls', NoCRLF l)
    (hn : ls ≠ []) (hn' : ls' ≠ []) (e : joinCRLF ls = joinCRLF ls') : ls = ls' := by
  rw [← splitCRLF_joinCRLF h hn, e, splitCRLF_joinCRLF h' hn']

/-- The codecs of the parsed media, one per payload type of the `m=` line, in order, for a reader who
wants only that part. -/
theorem C21_codec_order {s : Bytes} {d : SDP} {m : Media} (h : parse s = .ok d) (hm : d.audio = some m) :
    ∃ ls portText ptTexts, s = b!"v=0\r\n" ++ joinCRLF ls ∧
      b!"m=audio " ++ joinByte 32 (portText :: m.proto :: ptTexts) ∈ ls ∧
      ptTexts.length = m.codecs.length ∧
      ∀ (i : Nat) (t : Bytes) (c : Codec), ptTexts[i]? = some t → m.codecs[i]? = some c → Numeral t c.pt.toNat := by
  obtain ⟨ls, e, hl, hd⟩ := C21_sdp_described h
  have ha := hd.audio
  rw [hm] at ha
  obtain ⟨v, hv, _, pt, cnt, pts, e2, h32, _, _, hne, hlen, hc⟩ := ha
  refine ⟨ls, pt ++ cnt, pts, e, ?_, ?_⟩
  · have h1 := List.mem_of_getLast? hv
    unfold fields at h1
    obtain ⟨w, hw, e3⟩ := List.mem_filterMap.1 h1
    unfold strip at e3
    split at e3
    · rename_i hp
      obtain ⟨r, hr⟩ := List.isPrefixOf_iff_prefix.1 hp
      simp at e3
      unfold values pairs at hw
      obtain ⟨p, hpf, rfl⟩ := List.mem_map.1 hw
      obtain ⟨hp1, hp2⟩ := List.mem_filter.1 hpf
      obtain ⟨l, hl', e4⟩ := List.mem_filterMap.1 hp1
      obtain ⟨e5, _⟩ := keyValue_some (k := p.1) (v := p.2) e4
      simp at hp2
      rw [hp2, ← hr] at e5
      rw [← hr] at e3
      simp at e3
      rw [← e2, ← e3]
      simp at e5 ⊢
      rw [← e5]; exact hl'
    · simp at e3
  · exact ⟨hlen, fun i t c h1 h2 => (hc i t c h1 h2).1⟩

example : ∃ ls portText ptTexts, sampleText = b!"v=0\r\n" ++ joinCRLF ls ∧
    b!"m=audio " ++ joinByte 32 (portText :: b!"RTP/AVP" :: ptTexts) ∈ ls ∧
    ptTexts.length = 3 ∧ ∀ (i : Nat) (t : Bytes) (c : Codec), ptTexts[i]? = some t →
      [⟨8, b!"PCMA", 8000, [], []⟩, ⟨101, b!"telephone-event", 8000, [], b!"0-16"⟩, ⟨0, b!"X", 1, b!"2", []⟩][i]? = some c →
      Numeral t c.pt.toNat := C21_codec_order sample_parse rfl

/-- **C22.** Parsing the text of any well-formed description gives it back. -/
theorem C22_sdp_round_trip (gen : Bytes) (d : SDP) (h : WellFormed d) : parse (d.text gen) = .ok d :=
  parse_text gen d h

/-- **C22 (second form).** A description read from any text, with nothing left blank, can be written
and read again. -/
theorem C22_sdp_reparse (gen : Bytes) {s : Bytes} {d : SDP} (h : parse s = .ok d) (nb : NoBlanks d) :
    parse (d.text gen) = .ok d :=
  parse_text gen d (reparse_wf h nb)

theorem sample_noBlanks : NoBlanks sampleSdp where
  addr := by decide
  origin := by decide
  proto := by rintro m (h | h) <;> simp [sampleSdp] at h; subst h; decide
  direction := by decide
  attrs := by decide +kernel

example : WellFormed sampleSdp := reparse_wf sample_parse sample_noBlanks

/-- Why the conditions are needed: a media without codecs is written as a line that cannot be read. -/
theorem C22_no_codecs_unreadable :
    let d : SDP := { sampleSdp with audio := some { proto := b!"RTP/AVP", port := 7000 } }
    parse (d.text b!"1") = .err .mLine := by decide +kernel

/-- Why the conditions are needed: of two directions only one is written. -/
theorem C22_both_directions_lost :
    let d : SDP := { sampleSdp with sendOnly := true, recvOnly := true }
    parse (d.text b!"1") = .ok { d with recvOnly := false } := by decide +kernel

/-- Why the conditions are needed: other lines with an empty value are not read back. -/
theorem C22_empty_other_lost :
    let d : SDP := { sampleSdp with other := [(b!"b", [])] }
    parse (d.text b!"1") = .ok { d with other := [] } := by decide +kernel

/-- Why the conditions are needed: two codecs with the same number become the same codec. -/
theorem C22_same_number_lost :
    let c1 : Codec := { pt := 96, name := b!"a", rate := 1 }
    let c2 : Codec := { pt := 96, name := b!"b", rate := 1 }
    let d : SDP := { sampleSdp with audio := some { proto := b!"RTP/AVP", port := 7000, codecs := [c1, c2] } }
    parse (d.text b!"1") =
      .ok { d with audio := some { proto := b!"RTP/AVP", port := 7000, codecs := [c1, c1] } } := by decide +kernel

/-- **C22 (blank fields).** What is left blank is written, and read back, as the value `String()` puts in:
user `-`, identifier and version `gen`, address 69.28.157.198, time `0 0`, protocol RTP/AVP. Everything else
is read back unchanged. -/
theorem C22_blanks_filled {gen : Bytes} (hg : gen ≠ []) (d : SDP) (h : WellFormed (d.filled gen)) :
    parse (d.text gen) = .ok (d.filled gen) := by
  rw [← text_filled hg gen d]
  exact parse_text gen _ h

/-- The ready-made codecs fit on their lines, and no two of them have the same number. -/
theorem C75_codecs_ok : (∀ c ∈ [ulawCodec, dtmfCodec, opus], CodecOK c) ∧
    ∀ c ∈ [ulawCodec, dtmfCodec, opus], ∀ c' ∈ [ulawCodec, dtmfCodec, opus], c.pt = c'.pt → c = c' := by
  have plain {t : Bytes} (h : 13 ∉ t) : NoCRLF t := by
    intro a b e; exact h (by rw [e]; simp)
  refine ⟨fun c hc => ?_, by decide⟩
  simp only [List.mem_cons, List.not_mem_nil, or_false] at hc
  rcases hc with rfl | rfl | rfl <;>
    exact ⟨⟨by decide, by decide, plain (by decide)⟩, ⟨by decide, by decide⟩, ⟨by decide, plain (by decide)⟩, plain (by decide)⟩

/-- **C75.** A description made by `sdp.New` for an address and codecs that fit on a line: the other
side reads this address and port, these codecs in this order, both directions, and nothing else. -/
theorem C75_new_read (gen ip : Bytes) (port : Int) (k : Fin (2 ^ 32 - 1)) (codecs : List Codec)
    (hip : ip ≠ [] ∧ 32 ∉ ip ∧ 47 ∉ ip ∧ NoCRLF ip) (hp : 0 ≤ port ∧ port < 65536) (hc : codecs ≠ [])
    (hok : ∀ c ∈ codecs, CodecOK c) (hcons : ∀ c ∈ codecs, ∀ c' ∈ codecs, c.pt = c'.pt → c = c') :
    ∃ d m, parse ((new ip port (Util.generateOriginID k) codecs).text gen) = .ok d ∧
      d.addr = ip ∧ d.origin = ⟨b!"-", Util.generateOriginID k, Util.generateOriginID k, ip⟩ ∧
      d.audio = some m ∧ (m.port.toNat : Int) = port ∧ m.proto = b!"RTP/AVP" ∧ m.codecs = codecs ∧
      d.video = none ∧ d.sendOnly = false ∧ d.recvOnly = false ∧ d.attrs = [] ∧ d.other = [] ∧ d.ptime = 0 ∧
      d.time = b!"0 0" ∧ d.session = b!"my people call themselves dark angels" := by
  obtain ⟨hip0, hip1, hip2, hip3⟩ := hip
  have hid : Util.generateOriginID k ≠ [] := natDec_ne_nil _
  have hdig : ∀ c ∈ Util.generateOriginID k, isDigit c = true := natDec_isDigit _
  have hsp : 32 ∉ Util.generateOriginID k := fun h => absurd (hdig 32 h) (by decide)
  have plain {t : Bytes} (h : 13 ∉ t) : NoCRLF t := by
    intro a b e; exact h (by rw [e]; simp)
  have hcr : NoCRLF (Util.generateOriginID k) := plain fun h => absurd (hdig 13 h) (by decide)
  have e : (new ip port (Util.generateOriginID k) codecs).filled b!"1" =
      { addr := ip
        origin := ⟨b!"-", Util.generateOriginID k, Util.generateOriginID k, ip⟩
        audio := some ⟨b!"RTP/AVP", UInt16.ofInt port, codecs⟩
        session := b!"my people call themselves dark angels"
        time := b!"0 0" } := by
    unfold new SDP.filled
    simp only [orElse, if_neg hip0, if_neg hid, Option.map]
    rfl
  have wf : WellFormed ((new ip port (Util.generateOriginID k) codecs).filled b!"1") := by
    rw [e]
    refine ⟨⟨List.cons_ne_nil _ _, ?_⟩, ⟨List.cons_ne_nil _ _, ?_⟩,
      ⟨hip0, hip1, hip2, hip3⟩, ?_, hip2, .inl (by simp), ?_, (fun m h => nomatch h), ?_,
      ⟨Int.le_refl 0, show (0 : Int) < 2 ^ 63 by decide⟩, (fun h => nomatch h.1), (fun a h => nomatch h),
      fun a h => nomatch h⟩
    · show NoCRLF b!"my people call themselves dark angels"
      exact plain (by decide)
    · show NoCRLF b!"0 0"
      exact plain (by decide)
    · intro t ht
      simp only [List.mem_cons, List.not_mem_nil, or_false] at ht
      rcases ht with rfl | rfl | rfl | rfl
      · exact ⟨by decide, by decide, plain (by decide)⟩
      · exact ⟨hid, hsp, hcr⟩
      · exact ⟨hid, hsp, hcr⟩
      · exact ⟨hip0, hip1, hip3⟩
    · intro m hm
      cases hm
      exact ⟨show b!"RTP/AVP" ≠ [] ∧ 32 ∉ b!"RTP/AVP" ∧ NoCRLF b!"RTP/AVP" from
        ⟨by decide, by decide, plain (by decide)⟩, hc, hok⟩
    · simpa [allCodecs] using hcons
  have ht : (new ip port (Util.generateOriginID k) codecs).text gen =
      (new ip port (Util.generateOriginID k) codecs).text b!"1" := by
    unfold SDP.text Origin.text new
    simp only [if_neg hid]
  refine ⟨(new ip port (Util.generateOriginID k) codecs).filled b!"1", ⟨b!"RTP/AVP", UInt16.ofInt port, codecs⟩,
    ?_, ?_⟩
  · rw [ht, ← text_filled (by decide) b!"1"]
    exact parse_text _ _ wf
  · rw [e]
    refine ⟨rfl, rfl, rfl, ?_, rfl, rfl, rfl, rfl, rfl, rfl, rfl, rfl, rfl, rfl⟩
    show ((UInt16.ofInt port).toNat : Int) = port
    rw [UInt16.ofInt, UInt16.toNat_ofNat']
    omega

example : ∃ d m, parse ((new b!"10.0.0.1" 7078 (Util.generateOriginID 99) [ulawCodec, dtmfCodec]).text []) = .ok d ∧
    d.addr = b!"10.0.0.1" ∧ d.audio = some m ∧ (m.port.toNat : Int) = 7078 ∧ m.codecs = [ulawCodec, dtmfCodec] := by
  obtain ⟨d, m, h, h1, _, h2, h3, _, h4, _⟩ := C75_new_read [] b!"10.0.0.1" 7078 99 [ulawCodec, dtmfCodec]
    ⟨by decide, by decide, by decide, fun a b e => absurd (show 13 ∈ b!"10.0.0.1" by rw [e]; simp) (by decide)⟩
    ⟨by decide, by decide⟩ (by simp) (fun c hc => C75_codecs_ok.1 c (by revert hc; simp; exact fun h => h.elim .inl (.inr ∘ .inl)))
    (by decide)
  exact ⟨d, m, h, h1, h2, h3, h4⟩

/-- A port outside the range of 16 bits is cut to them. -/
theorem C75_port_cut (ip id : Bytes) (port : Int) (codecs : List Codec) (m : Media)
    (h : (new ip port id codecs).audio = some m) : (m.port.toNat : Int) = port % 65536 := by
  cases h
  show ((UInt16.ofInt port).toNat : Int) = port % 65536
  rw [UInt16.ofInt, UInt16.toNat_ofNat']
  omega

end Gosip.Props
