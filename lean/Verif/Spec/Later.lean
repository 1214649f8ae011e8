import Verif.Dialog.Machine

/-!
# Specification of undisturbed dialogs

What a dialog does from some moment on.
-/

namespace Gosip.Spec
open Dialog

/-- The world as it is from time `k` on. -/
def later (w : World) (k : Nat) : World :=
  { w with
    clock := fun n => w.clock (n + k)
    ids := fun n => w.ids (n + k)
    origin := fun n => w.origin (n + k)
    resolver := fun n => w.resolver (n + k)
    dial := fun n => w.dial (n + k)
    listen := fun n => w.listen (n + k)
    write := fun n => w.write (n + k)
    frees := fun n => w.frees (n + k) }

/-- The dialog from some state on, until it ends. -/
def finish (w : World) (evs : List Event) (s : St) : Run :=
  let r := loop w evs ⟨s, .go⟩
  match r.c with
  | .stop => cleanup w r.s
  | _ => r

end Gosip.Spec
