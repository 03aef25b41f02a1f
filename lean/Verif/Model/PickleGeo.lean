import Verif.Model.Shape
import Verif.Model.Line
import Verif.Model.PyConv
import Verif.Model.Interpolate

/-!
Model of the remaining `py::pickle` definitions of `bark/python_wrapper`: points, lines, polygons, safety polygons, road
corridors, prediction settings, observers and the interpolating execution model. As in `Model/Pickle.lean`
`pickle.dumps`/`loads` is the identity on Python values; it raises for an object whose class defines no pickling.
-/
namespace Bark.PGeo
open Shape

/-- geometry.cpp:45-51: a point is stored as its two coordinates -/
def copyPoint (p : Shape.Pt) : Shape.Pt :=
  let t := (p.1, p.2)
  (t.1, t.2)

/-- geometry.cpp:169-171: a line is stored as the array of its points -/
def lineState (l : Ln.Line) : List Ln.Pt := l.pts

/-- geometry.cpp:172-180: the points are added one after the other to an empty line -/
noncomputable def lineOf (ps : List Ln.Pt) : Ln.Line := ps.foldl Ln.addPoint Ln.empty

/-- geometry.cpp:168-180 -/
noncomputable def copyLine (l : Ln.Line) : Ln.Line := lineOf (lineState l)

/-- geometry.cpp:234-236 and polygon.hpp:186-195 `ToArray`: a polygon is stored as its points and its center -/
def polyState (s : Poly) : List Shape.Pt × Pose := (s.pts, s.center)

/-- geometry.cpp:237-242: the polygon is constructed from center and points -/
noncomputable def polyOf (big : ℝ) (t : List Shape.Pt × Pose) : Poly := ofPoints big t.2 t.1

/-- geometry.cpp:233-242 -/
noncomputable def copyPoly (big : ℝ) (s : Poly) : Poly := polyOf big (polyState s)

/-- safety_polygon.hpp:39-52 -/
@[ext] structure SafetyPoly where
  left : ℝ
  right : ℝ
  lon : ℝ
  polygon : Poly
  agent : Nat
  current : ℝ

/-- evaluation.cpp:138-150: the six members in their order; the polygon is pickled itself -/
noncomputable def copySafety (big : ℝ) (s : SafetyPoly) : SafetyPoly :=
  let t := (s.left, s.right, s.lon, copyPoly big s.polygon, s.agent, s.current)
  ⟨t.1, t.2.1, t.2.2.1, t.2.2.2.1, t.2.2.2.2.1, t.2.2.2.2.2⟩

/-- road_corridor.hpp:159-166; `dir = none`: the member is not initialised -/
structure Corridor (R C D : Type) where
  roads : List (Nat × R)
  unique : List C
  byLane : List (Nat × C)
  polygon : Poly
  ids : List Nat
  dir : Option D

/-- map.cpp:101-104 followed by `pickle.dumps`: roads and lane corridors are objects of classes without pickling
(map.cpp:118-130 and 136-175), so that it raises as soon as there is one -/
def corridorState {R C D : Type} (c : Corridor R C D) : Res (List (Nat × R) × List C × List (Nat × C) × List Shape.Pt × Pose) :=
  if c.roads = [] ∧ c.unique = [] ∧ c.byLane = [] then .ok (c.roads, c.unique, c.byLane, polyState c.polygon)
  else .error .thrown

/-- map.cpp:105-116: a new corridor with the four members set -/
noncomputable def corridorOf {R C D : Type} (big : ℝ) (t : List (Nat × R) × List C × List (Nat × C) × List Shape.Pt × Pose) :
    Corridor R C D :=
  ⟨t.1, t.2.1, t.2.2.1, polyOf big t.2.2.2, [], none⟩

/-- map.cpp:100-116 -/
noncomputable def copyCorridor {R C D : Type} (big : ℝ) (c : Corridor R C D) : Res (Corridor R C D) :=
  (corridorState c).map (corridorOf big)

/-- prediction_settings.hpp:54-59; `agents` is the `std::set` in ascending order -/
structure Settings (A : Type) where
  ego : Option (Py.Obj Py.BCls A)
  dflt : Option (Py.Obj Py.BCls A)
  specific : Option (Py.Obj Py.BCls A)
  agents : List Nat

/-- `std::set(v.begin(), v.end())`: insertion into an ordered list without repetition -/
def setInsert (n : Nat) : List Nat → List Nat
  | [] => [n]
  | m :: l => if n < m then n :: m :: l else if n = m then m :: l else m :: setInsert n l

/-- prediction_settings.cpp:20-29: the constructor, whose second argument is the default and whose third the specific model -/
def mkSettings {A : Type} (e d s : Option (Py.Obj Py.BCls A)) (agents : List Nat) : Settings A :=
  ⟨e, d, s, agents.foldl (fun l n => setInsert n l) []⟩

/-- prediction.cpp:20-39 -/
def copySettings {A : Type} (copy : Py.BCls → A → A) (p : Settings A) : Res (Settings A) := do
  let t0 ← Py.behaviorToPython p.ego
  let t1 ← Py.behaviorToPython p.dflt
  let t2 ← Py.behaviorToPython p.specific
  let e ← Py.pythonToBehavior copy t0
  let d ← Py.pythonToBehavior copy t1
  let s ← Py.pythonToBehavior copy t2
  pure (mkSettings e d s p.agents)

/-- the two observer classes of observer.cpp:26-58 -/
inductive ObsCls where
  | none
  | parametric
  deriving DecidableEq

/-- observer_model.hpp:40-73: parameters and the agents it observes for (empty: all) -/
structure Obs (P : Type) where
  cls : ObsCls
  params : P
  only : List Nat

/-- observer_model.hpp:42-44: the constructor -/
def mkObs {P : Type} (c : ObsCls) (p : P) : Obs P := ⟨c, p, []⟩

/-- observer.cpp:32-41 and 49-58; `conv` is `PythonToParams ∘ ParamsToPython` (C38) -/
def copyObs {P : Type} (conv : P → Res P) (o : Obs P) : Res (Obs P) :=
  match o.cls with
  | .none => (conv o.params).map (mkObs .none)
  | .parametric => (conv o.params).map (mkObs .parametric)

/-- execution_model.hpp:30-34: a new execution model -/
def freshExec (V : Type) : Interp.Exec V := ⟨none, [], .valid⟩

/-- execution.cpp:37-45: only the name of the class is stored -/
def copyExec {V : Type} (_ : Interp.Exec V) : Res (Interp.Exec V) :=
  let s := "ExecutionModelInterpolate"
  if s ≠ "ExecutionModelInterpolate" then .error .thrown else .ok (freshExec V)

end Bark.PGeo
