import Verif.Spec.Later
import Verif.Model.Traffic

/-! Vocabulary of C215 for traffic of the classic IDM: trajectories, behaviours and execution models `τ` later. -/
namespace Bark.Later
open Bark Bark.Flow

/-- the state vector `τ` later: only the time changes -/
def row (τ : ℝ) (x : V5) : V5 := (x.1 + τ, x.2)

/-- the behaviour `τ` later: all times of its last trajectory change -/
def beh (τ : ℝ) (b : Beh) : Beh := ⟨b.status, b.traj.map (List.map (row τ)), b.action⟩

/-- the execution model `τ` later: the times of its state and of its trajectory change -/
def exec (τ : ℝ) (e : Res (Interp.Exec V5)) : Res (Interp.Exec V5) := e.map (fun e => ⟨e.state.map (row τ), e.traj.map (row τ), e.status⟩)

/-- boxes and nearest searches are about positions, not about times -/
structure NoClock {Box Lane : Type} (u : Setup Box Lane) : Prop where
  envelope : ∀ sh (t t' : ℝ) y, u.envelope sh (t, y) = u.envelope sh (t', y)
  nearest : ∀ (t t' : ℝ) y, u.nearest (t, y) = u.nearest (t', y)

end Bark.Later
