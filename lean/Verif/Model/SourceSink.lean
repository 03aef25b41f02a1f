import Verif.Model.MapIf

/-!
Model of the route of a source in `ConfigurableScenarioGeneration`: `get_road_corridor_from_source_sink`
(configurable_scenario_generation.py:457-489, called at 132 for every entry of the configuration), on top of the model of the map interface.
-/
namespace Bark.Sink
open Bark.MapIf

variable {K : Type} [LinearOrder K] {F : Type}

/-- a value of the JSON configuration. Booleans are ints in Python (`isinstance(True, int)`); strings, null and objects are `other`. -/
inductive Val (F : Type) where
  | int (i : Int)
  | num (x : F)
  | other
  | list (l : List (Val F))

/-- pybind's conversion to `XodrRoadId` (opendrive/commons.hpp:25: uint32_t); anything else is a TypeError -/
def roadId : Val F → Option Nat
  | .int i => if 0 ≤ i ∧ i < 4294967296 then some i.toNat else none
  | _ => none

/-- conversion of a list to `std::vector<XodrRoadId>` -/
def roadIds (l : List (Val F)) : Option (List Nat) := l.mapM roadId

/-- pybind's conversion to a coordinate of a `Point2d` -/
def coord (ofInt : Int → F) : Val F → Option F
  | .int i => some (ofInt i)
  | .num x => some x
  | _ => none

/-- configurable_scenario_generation.py:475-476 `Point2d(p[0], p[1])`; too few entries are an IndexError, entries that are no numbers a TypeError -/
def point (ofInt : Int → F) : Val F → Option (F × F)
  | .list (x :: y :: _) => do
    let a ← coord ofInt x
    let b ← coord ofInt y
    some (a, b)
  | _ => none

/-- configurable_scenario_generation.py:462-465: road ids. `GenerateRoadCorridor` for road ids (python_wrapper/world/map.cpp:44-47, map_interface.hpp:105)
returns nothing, so `road_corridor` is None afterwards and line 484-486 raises. -/
def byRoads (e : Env K (F × F)) (s : MI K (F × F)) (l : List (Val F)) : MI K (F × F) × Res (Corr K) :=
  match roadIds l with
  | none => (s, .error .thrown)
  | some ids =>
    match generate e s ids .forward with
    | .error f => (s, .error f)
    | .ok s' => (s', .error .thrown)

/-- configurable_scenario_generation.py:466-479: two points; 484-486: no corridor raises. The goal region is a rectangle with center (0, 0), moved to the end point,
so its center is the end point. -/
def byPoints (e : Env K (F × F)) (ofInt : Int → F) (s : MI K (F × F)) (v w : Val F) : MI K (F × F) × Res (Corr K) :=
  match point ofInt v, point ofInt w with
  | some a, some b =>
    match generateTo e s a b with
    | .error f => (s, .error f)
    | .ok (s', some c) => (s', .ok c)
    | .ok (s', none) => (s', .error .thrown)
  | _, _ => (s, .error .thrown)

/-- configurable_scenario_generation.py:457-489 `get_road_corridor_from_source_sink`: the map interface afterwards and the corridor. The first coordinate must be a
float (468); everything else raises (480-482), and so does indexing an empty list (463, 468) or a missing end point (476). -/
def routeOf (e : Env K (F × F)) (ofInt : Int → F) (s : MI K (F × F)) : Val F → MI K (F × F) × Res (Corr K)
  | .list (.int i :: l) => byRoads e s (.int i :: l)
  | .list (.list (.num x :: p) :: q :: _) => byPoints e ofInt s (.list (.num x :: p)) q
  | _ => (s, .error .thrown)

end Bark.Sink
