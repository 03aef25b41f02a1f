import Verif.Model.Viewer

/-! What the viewer properties (C185-C189) mean. -/

namespace Bark.View.Spec
open Bark.View

section
variable {K : Type} [Field K] [LinearOrder K]

/-- the middle of a range is the point -/
def Centred (v : Range K) (p : K × K) : Prop := v.x.1 + v.x.2 = 2 * p.1 ∧ v.y.1 + v.y.2 = 2 * p.2

/-- width and height of a range -/
def HasSize (v : Range K) (w h : K) : Prop := v.x.2 - v.x.1 = w ∧ v.y.2 - v.y.1 = h

/-- a point is in the range shown -/
def Shows (v : Range K) (p : K × K) : Prop := v.x.1 ≤ p.1 ∧ p.1 ≤ v.x.2 ∧ v.y.1 ≤ p.2 ∧ p.2 ≤ v.y.2

/-- `p` is in the box with lower left corner `b.1` and upper right corner `b.2` -/
def InBox (b : (K × K) × (K × K)) (p : K × K) : Prop := b.1.1 ≤ p.1 ∧ p.1 ≤ b.2.1 ∧ b.1.2 ≤ p.2 ∧ p.2 ≤ b.2.2

/-- the agents drawn as evaluated in a call: those given, if the first of them is in the world -/
def Evaluated (f : Frame K) (i : Nat) : Prop :=
  ∃ e l, f.evalIds = some (e :: l) ∧ e ∈ f.world.agents ∧ i ∈ e :: l

/-- the world shown in a call: what the first evaluated agent has sensed, if it is in the world and has sensed one, else the true
world -/
def Shown (f : Frame K) (s : Scene K) : Prop :=
  (∃ e l, f.evalIds = some (e :: l) ∧ e ∈ f.world.agents ∧ f.sensed e = some s) ∨
  (s = f.world ∧ ∀ e l, f.evalIds = some (e :: l) → e ∈ f.world.agents → f.sensed e = none)

/-- something sensed is shown -/
def FromSensors (f : Frame K) : Prop :=
  ∃ e l s, f.evalIds = some (e :: l) ∧ e ∈ f.world.agents ∧ f.sensed e = some s

end

/-- the images of a directory under the numbers `0 .. n-1`, and no others, in order -/
def Numbered {W : Type} (fs : List (Nat × W)) (ws : List W) : Prop :=
  (fs.map Prod.fst).Nodup ∧ ∀ k w, (k, w) ∈ fs ↔ ws[k]? = some w

/-- the primitives under a name -/
def under {P : Type} (b : Buffer P) (name : String) : List P := (b.lookup name).getD []

end Bark.View.Spec
