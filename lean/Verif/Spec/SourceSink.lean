import Verif.Model.SourceSink
import Verif.Spec.MapIf

/-! Vocabulary of C217. -/
namespace Bark.Sink.Spec
open Bark.Sink

variable {F : Type}

/-- the value is the number `x`, written with or without a fraction -/
def IsNum (ofInt : Int → F) (v : Val F) (x : F) : Prop := v = .num x ∨ ∃ i, v = .int i ∧ x = ofInt i

/-- the value starts with the coordinates of the point `p` -/
def IsPoint (ofInt : Int → F) (v : Val F) (p : F × F) : Prop := ∃ x y r, v = .list (x :: y :: r) ∧ IsNum ofInt x p.1 ∧ IsNum ofInt y p.2

/-- the value starts with the points `a` and `b` -/
def TwoPoints (ofInt : Int → F) (v : Val F) (a b : F × F) : Prop := ∃ p q r, v = .list (p :: q :: r) ∧ IsPoint ofInt p a ∧ IsPoint ofInt q b

/-- the very first number of the value is written with a fraction -/
def Fraction (v : Val F) : Prop := ∃ x p r, v = .list (.list (.num x :: p) :: r)

/-- the value is the list of these road ids -/
def IsRoads (v : Val F) (ids : List Nat) : Prop := v = .list (ids.map fun i : Nat => Val.int (i : Int)) ∧ ∀ i ∈ ids, i < 4294967296

end Bark.Sink.Spec
