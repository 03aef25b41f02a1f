import Verif.Model.Basic
import Mathlib.Analysis.SpecialFunctions.Trigonometric.Basic
import Mathlib.Order.Nat

/-!
Model of `bark/models/observer/observer_model_parametric.cpp`. States over the reals (exact arithmetic); only the current state of an
agent is kept; the distributions are deterministic samplers with an abstract state (`draw`), whose numbers are arbitrary.
The pointer side (the world is cloned for every observation) is `observeParametric` in `Model/Heap`.
-/
namespace Bark.Obs
open Bark

/-- state.hpp: time, position, heading, velocity -/
structure St where
  t : ℝ
  x : ℝ
  y : ℝ
  th : ℝ
  v : ℝ

/-- the two deviation distributions of the observer -/
structure Dists (D : Type) where
  ego : D
  others : D

/-- a world, seen by the observer: current states by agent id and the spatial index of the last index update
(world.hpp:216-227, reference points only) -/
structure World where
  agents : OMap Nat St
  index : List (Nat × ℝ × ℝ)

section
variable {D : Type} (draw : D → List ℝ × D)

/-- observer_model_parametric.cpp:76-82: the state after adding a deviation; fewer than four numbers are read out of range
(`BARK_EXPECT_TRUE` in line 74 only prints) -/
noncomputable def deviate (s : St) (d : List ℝ) : Res St :=
  match d with
  | d0 :: d1 :: d2 :: d3 :: _ => .ok
      { s with
        x := s.x + (d0 * Real.cos s.th + d1 * Real.sin s.th)
        y := s.y + (d0 * Real.sin s.th + d1 * Real.cos s.th)
        th := s.th + d2
        v := s.v + d3 }
  | _ => .error .ub

/-- observer_model_parametric.cpp:62-65: the loop over the other agents, in order of their ids -/
noncomputable def others : List (Nat × St) → D → Res (List (Nat × St) × D)
  | [], d => .ok ([], d)
  | (i, s) :: rest, d => do
    let s' ← deviate s (draw d).1
    let r ← others rest (draw d).2
    .ok ((i, s') :: r.1, r.2)

/-- observer_model_parametric.cpp:54-58: is this agent's observation deviated? -/
def deviates (only : List Nat) (i : Nat) : Bool := only.isEmpty || decide (i ∈ only)

/-- observer_model_parametric.cpp:43-68 `Observe` for agent `i`; `only` is `observe_only_for_agents_`. The index is the cloned
world's and is not updated. An unknown id throws (59). -/
noncomputable def observe (only : List Nat) (w : World) (i : Nat) (ds : Dists D) : Res (World × Dists D) :=
  if deviates only i = true then
    match OMap.find i w.agents with
    | none => .error .thrown
    | some s => do
      let s' ← deviate s (draw ds.ego).1
      let r ← others draw (OMap.erase i w.agents) ds.others
      .ok ({ w with agents := OMap.insert i s' r.1 }, { ego := (draw ds.ego).2, others := r.2 })
  else .ok (w, ds)

end
end Bark.Obs
