import Verif.Sdp.RoundTrip
import Verif.Util.Ident

/-!
# `sdp.New`, and what is written for the fields left blank
-/

namespace Gosip.Sdp
open Sip (isIPv6)

/-- `sdp.New` (`sdp/sdp.go:101-115`): `ip` is what `addr.IP.String()` returns, `port` is `addr.Port`
(converted to `uint16`), `id` is what `util.GenerateOriginID` returns. The copy of the codecs is the
list itself (value semantics); the capacity of `Attrs` is not modelled. -/
def new (ip : Bytes) (port : Int) (id : Bytes) (codecs : List Codec) : SDP :=
  { addr := ip
    origin := { id := id, version := id, addr := ip }
    audio := some { proto := b!"RTP/AVP", port := UInt16.ofInt port, codecs := codecs } }

/-- `ULAWCodec` (`sdp/codecs.go:36`). -/
def ulawCodec : Codec := { pt := 0, name := b!"PCMU", rate := 8000 }

/-- `DTMFCodec` (`sdp/codecs.go:37`). -/
def dtmfCodec : Codec := { pt := 101, name := b!"telephone-event", rate := 8000, fmtp := b!"0-16" }

/-- `Opus` (`sdp/codecs.go:38`). -/
def opus : Codec := { pt := 111, name := b!"opus", rate := 48000, param := b!"2" }

/-- A text, or another one if it is blank. -/
def orElse (t other : Bytes) : Bytes := if t = [] then other else t

theorem orElse_ne {t other : Bytes} (h : other ≠ []) : orElse t other ≠ [] := by
  unfold orElse; split <;> assumption

/-- The description a reader sees: what is blank has the values that the writer puts in. -/
def SDP.filled (gen : Bytes) (d : SDP) : SDP :=
  { d with
    origin := { user := orElse d.origin.user b!"-"
                id := orElse d.origin.id gen
                version := orElse d.origin.version (orElse d.origin.id gen)
                addr := orElse d.origin.addr b!"69.28.157.198" }
    addr := orElse d.addr b!"69.28.157.198"
    session := orElse d.session b!"my people call themselves dark angels"
    time := orElse d.time b!"0 0"
    audio := d.audio.map fun m => { m with proto := orElse m.proto b!"RTP/AVP" }
    video := d.video.map fun m => { m with proto := orElse m.proto b!"RTP/AVP" } }

theorem isIPv6_orElse (t : Bytes) : isIPv6 (orElse t b!"69.28.157.198") = isIPv6 t := by
  unfold orElse
  split
  · rename_i h; subst h; decide
  · rfl

theorem orElse_orElse {t x y : Bytes} (hx : x ≠ []) : orElse (orElse t x) y = orElse t x := by
  rw [orElse, if_neg (orElse_ne hx)]

theorem media_filled (type : Bytes) (m : Media) :
    Media.text type { m with proto := orElse m.proto b!"RTP/AVP" } = Media.text type m := by
  have h : orElse m.proto b!"RTP/AVP" ≠ [] := orElse_ne (by decide)
  unfold Media.text
  simp only [if_neg h]
  rfl

theorem origin_filled {gen : Bytes} (hg : gen ≠ []) (g : Bytes) (o : Origin) :
    Origin.text g { user := orElse o.user b!"-", id := orElse o.id gen,
                    version := orElse o.version (orElse o.id gen),
                    addr := orElse o.addr b!"69.28.157.198" } = Origin.text gen o := by
  have hi : orElse o.id gen ≠ [] := orElse_ne hg
  have hv : orElse o.version (orElse o.id gen) ≠ [] := orElse_ne hi
  have hu : orElse o.user b!"-" ≠ [] := orElse_ne (by decide)
  have ha : orElse o.addr b!"69.28.157.198" ≠ [] := orElse_ne (by decide)
  unfold Origin.text
  simp only [if_neg hi, if_neg hv, if_neg hu, if_neg ha, isIPv6_orElse]
  rfl

/-- The same text is written for a description and for what its reader sees. -/
theorem text_filled {gen : Bytes} (hg : gen ≠ []) (g : Bytes) (d : SDP) : (d.filled gen).text g = d.text gen := by
  have hs : orElse d.session b!"my people call themselves dark angels" ≠ [] := orElse_ne (by decide)
  have ht : orElse d.time b!"0 0" ≠ [] := orElse_ne (by decide)
  have ha : orElse d.addr b!"69.28.157.198" ≠ [] := orElse_ne (by decide)
  unfold SDP.text SDP.filled
  simp only [origin_filled hg, if_neg hs, if_neg ht, if_neg ha, isIPv6_orElse]
  cases d.audio <;> cases d.video <;> simp only [Option.map, media_filled] <;> rfl

end Gosip.Sdp
