import Verif.Spec.Shape
import Verif.Spec.PyConv
import Verif.Spec.Line

/-!
Specification of what pickling keeps.
-/
namespace Bark.PGeo.Spec
open Shape Shape.Spec

/-- the distances of a polygon are its sizes measured from the center along the axes of the map, whatever way it is turned -/
def Measured (s : Poly) : Prop :=
  (∃ m, IsMax Prod.fst s.pts m ∧ s.front = |m - s.center.x|) ∧
  (∃ m, IsMax (fun p => -p.1) s.pts m ∧ s.rear = |-m - s.center.x|) ∧
  (∃ m, IsMax Prod.snd s.pts m ∧ s.right = |m - s.center.y|) ∧
  (∃ m, IsMax (fun p => -p.2) s.pts m ∧ s.left = |-m - s.center.y|)

/-- a closed ring, clockwise -/
def Ring (ps : List Pt) : Prop := Closed ps ∧ turn ps ≤ 0

/-- a behaviour model as it is after pickling: a model of the same class with the copied data, or still none -/
def Restored {A : Type} (copy : Py.BCls → A → A) (o o' : Option (Py.Obj Py.BCls A)) : Prop :=
  match o with
  | none => o' = none
  | some m => o' = some ⟨m.cls, copy m.cls m.data, none⟩

end Bark.PGeo.Spec
