import Verif.Model.Basic
import Verif.Model.Dynamics
import Mathlib.Analysis.Real.Sqrt

/-!
Model of `bark/geometry/line.hpp` (2D lines) over ℝ. Binary searches (`std::upper_bound`, `std::lower_bound`) are modelled
by linear search, which agrees with them on sorted tables.
-/
namespace Bark.Ln

/-- commons.hpp:33 `Point2d` -/
abbrev Pt := ℝ × ℝ

/-- commons.hpp:75-79 `Distance` (and boost's cartesian point distance) -/
noncomputable def pdist (a b : Pt) : ℝ := Real.sqrt ((a.1 - b.1) * (a.1 - b.1) + (a.2 - b.2) * (a.2 - b.2))

/-- line.hpp:32-151 `Line_t`: the points `obj_` and the arc length table `s_` -/
structure Line where
  pts : List Pt
  s : List ℝ

/-- the loop line.hpp:137-142 of `RecomputeS` -/
noncomputable def sLoop (last : Pt) (acc : ℝ) : List Pt → List ℝ
  | [] => []
  | q :: l => (acc + pdist q last) :: sLoop q (acc + pdist q last) l

/-- line.hpp:124-145 `RecomputeS`: the table for the given points -/
noncomputable def table : List Pt → List ℝ
  | [] => []
  | [_] => [0]
  | p :: l => sLoop p 0 (p :: l)

/-- line.hpp:124-145 `RecomputeS` -/
noncomputable def recomputeS (l : Line) : Line := { l with s := table l.pts }

/-- line.hpp:34-36 default constructor -/
def empty : Line := ⟨[], []⟩

/-- line.hpp:155-160 constructor from an array of points -/
noncomputable def ofArray (ps : List Pt) : Line := recomputeS ⟨ps, []⟩

/-- line.hpp:45-47 `AddPoint` -/
noncomputable def addPoint (l : Line) (p : Pt) : Line := recomputeS { l with pts := l.pts ++ [p] }

/-- line.hpp:49-54 `AddPoints` -/
noncomputable def addPoints (l : Line) (ps : List Pt) : Line :=
  recomputeS (ps.foldl (fun l p => { l with pts := l.pts ++ [p] }) l)

/-- boost `length` -/
noncomputable def length : List Pt → ℝ
  | a :: b :: l => pdist a b + length (b :: l)
  | _ => 0

/-- line.hpp:65-68 `AppendLinestring` -/
noncomputable def appendLinestring (l m : Line) : Line := recomputeS { l with pts := l.pts ++ m.pts }

/-- line.hpp:84-86 `Reverse`: only the points -/
def reverse (l : Line) : Line := { l with pts := l.pts.reverse }

open Classical in
/-- boost `unique`: drop consecutive duplicates -/
noncomputable def unique : List Pt → List Pt
  | a :: b :: l => if a = b then unique (b :: l) else a :: unique (b :: l)
  | l => l

/-- line.hpp:147-150 `RemoveDuplicates` -/
noncomputable def removeDuplicates (l : Line) : Line := recomputeS { l with pts := unique l.pts }

/-- line.hpp:196-203 `Rotate` (boost rotates clockwise by `hdg`) -/
noncomputable def rotate (l : Line) (h : ℝ) : Line :=
  recomputeS ⟨l.pts.map (fun p => (Real.cos h * p.1 + Real.sin h * p.2, -Real.sin h * p.1 + Real.cos h * p.2)), []⟩

/-- line.hpp:205-211 `Translate`: the result's table stays empty -/
def translate (l : Line) (x y : ℝ) : Line := ⟨l.pts.map (fun p => (p.1 + x, p.2 + y)), []⟩

/-- line.hpp:213-218 `Simplify`; `f` is boost's `simplify` -/
noncomputable def simplify (f : List Pt → List Pt) (l : Line) : Line := recomputeS ⟨f l.pts, []⟩

/-- `std::upper_bound`: index of the first entry greater than `x`, the size if there is none -/
noncomputable def upperBound (s : List ℝ) (x : ℝ) : Nat := s.findIdx (fun y => decide (x < y))

/-- `std::lower_bound`: index of the first entry not less than `x` -/
noncomputable def lowerBound (s : List ℝ) (x : ℝ) : Nat := s.findIdx (fun y => decide (x ≤ y))

/-- line.hpp:230-239 `GetSegmentEndIdx` -/
noncomputable def segmentEndIdx (l : Line) (s : ℝ) : Int :=
  if upperBound l.s s < l.s.length then upperBound l.s s else (l.s.length : Int) - 1

/-- `std::vector::at` with an `int` (negative numbers become huge) -/
def at' {α : Type} (l : List α) (i : Int) : Res α :=
  if i < 0 then .error .thrown
  else match l[i.toNat]? with
    | some x => .ok x
    | none => .error .thrown

/-- `std::vector::back` -/
def back {α : Type} (l : List α) : Res α :=
  match l.getLast? with
  | some x => .ok x
  | none => .error .ub

/-- the point at fraction `t` from `a` to `b` -/
def lerp (a b : Pt) (t : ℝ) : Pt := (a.1 + t * (b.1 - a.1), a.2 + t * (b.2 - a.2))

open Classical in
/-- line.hpp:292-318 `GetPointAtS`. Interpolating on a segment without length divides by zero. -/
noncomputable def pointAtS (l : Line) (s : ℝ) : Res Pt :=
  if l.pts.length ≤ 1 then .ok (0, 0)
  else if s ≤ 0 then at' l.pts 0
  else do
    let e ← back l.s
    if e ≤ s then at' l.pts ((l.pts.length : Int) - 1)
    else do
      let i := segmentEndIdx l s
      let s0 ← at' l.s (i - 1)
      let s1 ← at' l.s i
      let a ← at' l.pts (i - 1)
      let b ← at' l.pts i
      if s1 - s0 = 0 then .error .nan else .ok (lerp a b ((s - s0) / (s1 - s0)))

/-- direction of the segment from `a` to `b` -/
noncomputable def segAngle (a b : Pt) : ℝ := Dyn.atan2 (b.2 - a.2) (b.1 - a.1)

/-- line.hpp:241-247 `CheckSForSegmentIntersection` -/
noncomputable def atCorner (l : Line) (s : ℝ) : Bool := segmentEndIdx l s != (lowerBound l.s s : Int)

/-- line.hpp:320-353 `GetTangentAngleAtS` -/
noncomputable def tangentAngleAtS (l : Line) (s : ℝ) : Res ℝ := do
  let e ← back l.s
  if e ≤ s then do
    let p1 ← at' l.pts ((l.pts.length : Int) - 2)
    let p2 ← at' l.pts ((l.pts.length : Int) - 1)
    .ok (segAngle p1 p2)
  else if s ≤ 0 then do
    let p1 ← at' l.pts 0
    let p2 ← at' l.pts 1
    .ok (segAngle p1 p2)
  else if atCorner l s then do
    let p1 ← at' l.pts (segmentEndIdx l s - 2)
    let p2 ← at' l.pts (segmentEndIdx l s - 1)
    let p3 ← at' l.pts (segmentEndIdx l s)
    .ok (Dyn.atan2 (1 / 2 * (Real.sin (segAngle p1 p2) + Real.sin (segAngle p2 p3)))
      (1 / 2 * (Real.cos (segAngle p1 p2) + Real.cos (segAngle p2 p3))))
  else do
    let p1 ← at' l.pts (segmentEndIdx l s - 1)
    let p2 ← at' l.pts (segmentEndIdx l s)
    .ok (segAngle p1 p2)

/-- scalar product of `p - a` and `b - a` -/
def dot (a b p : Pt) : ℝ := (p.1 - a.1) * (b.1 - a.1) + (p.2 - a.2) * (b.2 - a.2)

/-- squared length of the segment -/
def len2 (a b : Pt) : ℝ := (b.1 - a.1) * (b.1 - a.1) + (b.2 - a.2) * (b.2 - a.2)

/-- squared distance of points -/
def dist2 (a b : Pt) : ℝ := (a.1 - b.1) * (a.1 - b.1) + (a.2 - b.2) * (a.2 - b.2)

open Classical in
/-- boost `comparable_distance` between a segment and a point (strategy `projected_point`) -/
noncomputable def segDist2 (a b p : Pt) : ℝ :=
  if dot a b p ≤ 0 then dist2 p a
  else if len2 a b ≤ dot a b p then dist2 p b
  else dist2 p (lerp a b (dot a b p / len2 a b))

/-- `d < best`, where `best = none` is the initial `highest()` -/
def better (d : ℝ) : Option ℝ → Prop
  | none => True
  | some m => d < m

open Classical in
/-- the loop line.hpp:399-408: index of the first closest segment; `best = none` is the initial `highest()` -/
noncomputable def nearestLoop (p : Pt) : List Pt → Nat → Option ℝ → Nat → Nat
  | a :: b :: l, i, best, bi =>
    if better (segDist2 a b p) best then
      nearestLoop p (b :: l) (i + 1) (some (segDist2 a b p)) i
    else nearestLoop p (b :: l) (i + 1) best bi
  | _, _, _, bi => bi

open Classical in
/-- line.hpp:411-463, the projection of `p` on the found segment; on a segment without length the fraction is 0/0. -/
noncomputable def projectOn (a b : Pt) (s0 s1 : ℝ) (i : Nat) (p : Pt) : Res (Pt × ℝ × Nat) :=
  let den := a.1 * a.1 - 2 * a.1 * b.1 + a.2 * a.2 - 2 * a.2 * b.2 + b.1 * b.1 + b.2 * b.2
  if den = 0 then .error .nan
  else
    let lam := -(a.1 * b.1 + a.2 * b.2 + a.1 * p.1 + a.2 * p.2 - b.1 * p.1 - b.2 * p.2 - a.1 * a.1 - a.2 * a.2) / den
    if lam < 0 then .ok (a, s0, i)
    else if 1 < lam then .ok (b, s1, i)
    else
      let q1 := (p.1 * a.1 * a.1 - a.1 * a.2 * b.2 + p.2 * a.1 * a.2 - 2 * p.1 * a.1 * b.1 + a.1 * b.2 * b.2
        - p.2 * a.1 * b.2 + a.2 * a.2 * b.1 - a.2 * b.1 * b.2 - p.2 * a.2 * b.1 + p.1 * b.1 * b.1
        + p.2 * b.1 * b.2) / den
      let q2 := (a.1 * a.1 * b.2 - a.1 * a.2 * b.1 + p.1 * a.1 * a.2 - a.1 * b.1 * b.2 - p.1 * a.1 * b.2
        + p.2 * a.2 * a.2 + a.2 * b.1 * b.1 - p.1 * a.2 * b.1 - 2 * p.2 * a.2 * b.2 + p.1 * b.1 * b.2
        + p.2 * b.2 * b.2) / den
      .ok ((q1, q2), (1 - lam) * s0 + lam * s1, i)

/-- line.hpp:385-463 `GetNearestPointAndS` -/
noncomputable def nearest (l : Line) (p : Pt) : Res (Pt × ℝ × Nat) :=
  match l.pts with
  | [] => .ok ((0, 0), 0, 0)
  | [a] => .ok (a, 0, 0)
  | _ => do
    let a ← at' l.pts (nearestLoop p l.pts 0 none 0 : Nat)
    let b ← at' l.pts (nearestLoop p l.pts 0 none 0 + 1 : Nat)
    let s0 ← at' l.s (nearestLoop p l.pts 0 none 0 : Nat)
    let s1 ← at' l.s (nearestLoop p l.pts 0 none 0 + 1 : Nat)
    projectOn a b s0 s1 (nearestLoop p l.pts 0 none 0) p

/-- line.hpp:70-78 `GetPointsInSInterval`; copying a reversed range is undefined -/
noncomputable def pointsInSInterval (l : Line) (b e : ℝ) : Res (List Pt) :=
  let bi := upperBound l.s b
  let ei := lowerBound l.s e
  if ei < bi then .error .ub else .ok ((l.pts.drop bi).take (ei - bi))

/-- line.hpp:363-372 `GetLineFromSInterval` -/
noncomputable def lineFromSInterval (l : Line) (b e : ℝ) : Res Line := do
  let p ← pointAtS l b
  let ps ← pointsInSInterval l b e
  let q ← pointAtS l e
  .ok (addPoint (ps.foldl addPoint (addPoint empty p)) q)

/-- the operations that modify a line or derive one from it -/
inductive Op where
  | addPoint (p : Pt)
  | addPoints (ps : List Pt)
  | append (other : Line)
  | removeDuplicates
  | rotate (h : ℝ)
  | simplify (f : List Pt → List Pt)
  | reverse
  | translate (x y : ℝ)

/-- one operation -/
noncomputable def apply (l : Line) : Op → Line
  | .addPoint p => Ln.addPoint l p
  | .addPoints ps => Ln.addPoints l ps
  | .append m => appendLinestring l m
  | .removeDuplicates => Ln.removeDuplicates l
  | .rotate h => Ln.rotate l h
  | .simplify f => Ln.simplify f l
  | .reverse => Ln.reverse l
  | .translate x y => Ln.translate l x y

/-- a sequence of operations -/
noncomputable def run (l : Line) (ops : List Op) : Line := ops.foldl apply l

end Bark.Ln
