import Verif.Spec.Dialog

/-!
# What a request takes over from the message that the application gave

Used for C93.
-/

namespace Gosip.Spec
open Sip

/-- The list of addresses `l'` is `l`, or `l` where the first address had no tag and has got one. -/
def WithTag (l l' : List Addr) : Prop :=
  l' = l ∨ ∃ a more t, l = a :: more ∧ NoParam a.param b!"tag" ∧ l' = { a with param := (b!"tag", t) :: a.param } :: more

/-- `m` carries what was given as `i`: caller (to which a tag is added), callee, identifiers and headers are as given
unless they were not given at all; the other addresses (Record-Route, P-Asserted-Identity, …), expiry times, extension
headers and so on are as given in any case. The target, Via, Route, Contact, Max-Forwards and body are not spoken of. -/
structure Carries (i m : Msg) : Prop where
  caller : i.addrs .from ≠ [] → WithTag (i.addrs .from) (m.addrs .from)
  callee : i.addrs .to ≠ [] → m.addrs .to = i.addrs .to
  callID : i.callID ≠ [] → m.callID = i.callID
  cseq : i.cseq ≠ 0 → m.cseq = i.cseq
  cseqMethod : i.cseqMethod ≠ [] → m.cseqMethod = i.cseqMethod
  addrs : ∀ f, f ≠ .from → f ≠ .to → f ≠ .contact → f ≠ .route → m.addrs f = i.addrs f
  hdr : ∀ f, f ≠ .userAgent ∨ i.hdr f ≠ [] → m.hdr f = i.hdr f
  rest : m = { i with
    request := m.request, via := m.via, addrs := m.addrs, callID := m.callID, cseq := m.cseq, cseqMethod := m.cseqMethod,
    maxForwards := m.maxForwards, hdr := m.hdr, payload := m.payload }

end Gosip.Spec
