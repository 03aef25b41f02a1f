import Verif.Model.GoalLimits

/-!
Model of the functions of `bark/geometry/line.hpp` that build new lines from two lines, and of
`SignedDistance`.  boost's `intersection` of two lines (`inter`), its test for self-intersection (`selfX`)
and `simplify` (`simp`) are parameters.
-/
namespace Bark.Ln

/-- line.hpp:464-466 `GetNearestPoint` -/
noncomputable def nearestPoint (l : Line) (p : Pt) : Res Pt := do
  let r ← nearest l p
  .ok r.1

/-- line.hpp:467-469 `GetNearestS` -/
noncomputable def nearestS (l : Line) (p : Pt) : Res ℝ := do
  let r ← nearest l p
  .ok r.2.1

/-- body of the loop line.hpp:644-649 -/
noncomputable def middle (l : Line) (p : Pt) : Res Pt := do
  let q ← nearestPoint l p
  .ok ((p.1 + q.1) / 2, (p.2 + q.2) / 2)

/-- line.hpp:629-651 `ComputeCenterLine` -/
noncomputable def computeCenterLine (outer inner : Line) : Res Line :=
  let more := if outer.pts.length < inner.pts.length then inner else outer
  let less := if outer.pts.length < inner.pts.length then outer else inner
  do
    let ps ← more.pts.mapM (middle less)
    .ok (ps.foldl addPoint empty)

/-- smallest squared distance of `p` to the segments of a polyline (boost `distance` is its root) -/
noncomputable def lineDist2 : List Pt → Pt → ℝ
  | a :: b :: c :: l, p => min (segDist2 a b p) (lineDist2 (b :: c :: l) p)
  | [a, b], p => segDist2 a b p
  | [a], p => dist2 p a
  | [], _ => 0

/-- line.hpp:492-503 `SignedDistance` -/
noncomputable def signedDistance (rnd : ℝ → ℝ) (l : Line) (p : Pt) (orientation : ℝ) : Res ℝ := do
  let q ← nearestPoint l p
  let diff := Angle.signedAngleDiff rnd orientation (Dyn.atan2 (q.2 - p.2) (q.1 - p.1))
  let sign : ℝ := if diff > 0 then 1 else if diff < 0 then -1 else 0
  .ok (Real.sqrt (lineDist2 l.pts p) * sign)

/-- line.hpp:517-527 and 529-539: the part of a line kept when the lines cross at arc length `s` of it -/
noncomputable def keptPart (l : Line) (s : ℝ) : Res Line :=
  if s / Ln.length l.pts < 3 / 10 then lineFromSInterval l s (Ln.length l.pts)
  else if s / Ln.length l.pts > 7 / 10 then lineFromSInterval l 0 s
  else .ok l

/-- line.hpp:505-551: the lines joined, before cleaning up -/
noncomputable def joined (inter : List Pt → List Pt → List Pt) (l m : Line) : Res Line :=
  match inter l.pts m.pts with
  | [x] => do
    let s1 ← nearestS l x
    let s2 ← nearestS m x
    let a ← keptPart l s1
    let b ← keptPart m s2
    .ok (appendLinestring a b)
  | _ => .ok (appendLinestring l m)

/-- line.hpp:505-565 `AppendLinesNoIntersect` -/
noncomputable def appendNoIntersect (inter : List Pt → List Pt → List Pt) (selfX : List Pt → Bool)
    (simp : List Pt → List Pt) (l m : Line) : Res Line := do
  let o ← joined inter l m
  let o' := removeDuplicates o
  .ok (if selfX o'.pts then simplify simp o' else o')

/-- line.hpp:567-596 `ConcatenateLinestring`: which of the two lines is reversed; the end points of an empty
line are undefined -/
noncomputable def concatOrient (l m : Line) : Res (Line × Line) :=
  match l.pts.head?, l.pts.getLast?, m.pts.head?, m.pts.getLast? with
  | some f, some e, some f', some e' =>
    let ff := pdist f f'
    let fl := pdist f e'
    let lf := pdist e f'
    let ll := pdist e e'
    .ok (if ff ≤ min fl (min lf ll) then (reverse l, m)
      else if fl ≤ min ff (min lf ll) then (reverse l, reverse m)
      else if lf ≤ min ff (min fl ll) then (l, m)
      else (l, reverse m))
  | _, _, _, _ => .error .ub

/-- line.hpp:567-596 `ConcatenateLinestring` -/
noncomputable def concatenate (inter : List Pt → List Pt → List Pt) (selfX : List Pt → Bool)
    (simp : List Pt → List Pt) (l m : Line) : Res Line := do
  let o ← concatOrient l m
  appendNoIntersect inter selfX simp o.1 o.2

end Bark.Ln
