import Verif.Model.Line
import Mathlib.Algebra.Order.Floor.Ring
import Mathlib.Analysis.SpecialFunctions.Trigonometric.Basic

/-!
Model of `bark/world/opendrive/plan_view.{hpp,cpp}` over ℝ.  The self-intersection check only logs and is
not modelled.  The clothoid `odrSpiral` is an arbitrary function of the arc length here (modelled in `Model/Spiral`).
`int`/`size_t` overflow for more than 2^31 samples is not modelled, except that a negative count converted
to `size_t` (plan_view.cpp:36) is a loop that does not end.
-/
namespace Bark.PV
open Bark.Ln

/-- conversion `double` → `int` (truncation towards zero) -/
noncomputable def trunc (x : ℝ) : ℤ := if 0 ≤ x then ⌊x⌋ else ⌈x⌉

/-- `fmod` -/
noncomputable def fmod (x y : ℝ) : ℝ := x - trunc (x / y) * y

/-- plan_view.hpp:68-70: data members -/
structure PlanView where
  line : Line
  length : ℝ

/-- plan_view.hpp:26 constructor -/
noncomputable def PlanView.new : PlanView := ⟨Ln.empty, 0⟩

/-- repeated `reference_line_.AddPoint(p)` -/
noncomputable def addAll (l : Line) (ps : List Pt) : Line := ps.foldl addPoint l

/-- arc lengths visited by the loop plan_view.cpp:36-40 (`n` = `num_points`) followed by plan_view.cpp:41-45 -/
noncomputable def lineSamples (length sInc : ℝ) (n : ℕ) : List ℝ :=
  (List.range (n + 1)).map (fun i : ℕ => (i : ℝ) * sInc) ++
    (if (n : ℝ) * sInc < length then [length] else [])

/-- point of a straight line, plan_view.cpp:37-38, 42-43 -/
noncomputable def linePoint (p : Pt) (h s : ℝ) : Pt := (p.1 + s * Real.cos h, p.2 + s * Real.sin h)

/-- plan_view.cpp:28-55 `AddLine`; division by zero before the conversion to `int` is undefined -/
noncomputable def addLine (v : PlanView) (p : Pt) (h length sInc : ℝ) : Res PlanView :=
  if sInc = 0 then .error .ub
  else if trunc (length / sInc) < 0 then .error .diverges
  else
    let l := addAll v.line ((lineSamples length sInc (trunc (length / sInc)).toNat).map (linePoint p h))
    .ok ⟨l, Ln.length l.pts⟩

/-- the loop plan_view.cpp:66-71 and 101-107: arc lengths at which points are added; `fuel` iterations -/
noncomputable def sampleLoop (length : ℝ) : ℕ → ℝ → ℝ → Res (List ℝ)
  | 0, _, _ => .error .diverges
  | fuel + 1, s, sInc =>
      if s ≤ length then
        let sInc' := if length - s < sInc ∧ length - s > 0 then length - s else sInc
        (sampleLoop length fuel (s + sInc') sInc').map (fun l => s :: l)
      else .ok []

/-- plan_view.cpp:57-81 `AddSpiral`; `pos s` is the result of `odrSpiral` at `s` -/
noncomputable def addSpiral (fuel : ℕ) (v : PlanView) (pos : ℝ → Pt) (length sInc : ℝ) : Res PlanView :=
  (sampleLoop length fuel 0 sInc).map (fun ss =>
    let l := addAll v.line (ss.map pos)
    ⟨l, Ln.length l.pts⟩)

/-- plan_view.cpp:83-92 `CalcArcPosition`; with zero curvature `2 / 0 * sin 0` is not a number -/
noncomputable def calcArcPosition (s h c : ℝ) : Res Pt :=
  if c = 0 then .error .nan
  else
    let hdg := fmod h (2 * Real.pi) - Real.pi / 2
    let a := 2 / c * Real.sin (s * c / 2)
    let alpha := (Real.pi - s * c) / 2 - hdg
    .ok (-1 * a * Real.cos alpha, a * Real.sin alpha)

/-- point added by plan_view.cpp:102-103 -/
noncomputable def arcPoint (p : Pt) (h c s : ℝ) : Res Pt :=
  (calcArcPosition s h c).map (fun d => (p.1 + d.1, p.2 + d.2))

/-- plan_view.cpp:94-115 `AddArc`: `length_` is not updated -/
noncomputable def addArc (fuel : ℕ) (v : PlanView) (p : Pt) (h length c sInc : ℝ) : Res PlanView := do
  let ss ← sampleLoop length fuel 0 sInc
  let ps ← ss.mapM (arcPoint p h c)
  .ok ⟨addAll v.line ps, v.length⟩

/-- plan_view.cpp:117-123 `ApplyOffsetTransform` -/
noncomputable def applyOffset (v : PlanView) (x y h : ℝ) : PlanView :=
  ⟨translate (rotate v.line h) x y, v.length⟩

end Bark.PV
