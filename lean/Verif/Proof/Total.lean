import Verif.Spec.Alike
import Verif.Proof.Knot

/-! # Every well-formed type has a parser that returns -/

namespace Verif.Links
open Nom Spec Source

theorem guarded_of {α : Type} {T : RTy} {g : G α} {v : α → Val} (h : TypeOf T g v) : Guarded true g false := by
  induction h with
  | option _ ih => exact .opt ih
  | vec _ ih => exact .many0 ih
  | box _ ih => exact ih
  | pair _ _ ih ih' => exact .bindF ih fun _ => .bindF ih' fun _ => .ret
  | triple _ _ _ ih ih' ih'' => exact .bindF ih fun _ => .bindF ih' fun _ => .bindF ih'' fun _ => .ret
  | mayBeNull _ ih => exact .bindF ih fun _ => inferInstance
  | _ => first
    | exact Guarded.toFalse inferInstance
    | exact inferInstance

theorem returns_of {α : Type} {T : RTy} {g : G α} {v : α → Val} (h : TypeOf T g v) (s : Str) : g.parse s ≠ .diverge := by
  intro e
  have := G.parse_fine (guarded_of h) s
  rw [e] at this
  exact this

end Verif.Links
