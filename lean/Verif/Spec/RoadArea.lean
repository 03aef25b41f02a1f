import Verif.Model.RoadArea
import Mathlib.Data.Set.Lattice

/-! What a user expects of the areas of lanes, junctions and roads. -/
namespace Bark.Areas.Spec
open Bark
variable {P K : Type}

/-- contract of boost: `area` are the points of a polygon. Orientation does not matter, the parts of a union are together the points of both,
and filling the holes takes nothing away. -/
structure Exact (L : Lib P K) (area : Reg P → Set P) : Prop where
  correct : ∀ p, area (L.correct p) = area p
  nothing : area ⟨[], []⟩ = ∅
  union : ∀ p q x, (∃ m ∈ L.union (L.correct p) (L.correct q), x ∈ area m) ↔ x ∈ area p ∨ x ∈ area q
  fill : ∀ p, area p ⊆ area ⟨p.outer, []⟩

/-- joining the polygons one after the other to `a` gives a single polygon each time, or nothing as long as all are empty -/
def OnePiece (L : Lib P K) : Reg P → List (Reg P) → Prop
  | _, [] => True
  | a, p :: ps => (∃ m, L.union (L.correct a) (L.correct p) = [m] ∧ OnePiece L m ps) ∨ (L.union (L.correct a) (L.correct p) = [] ∧ OnePiece L (L.correct a) ps)

/-- `q` is `p` grown (or shrunk) by `d` and without its holes; nothing if that does not give exactly one polygon -/
def Grown (L : Lib P K) (d : K) (p q : Reg P) : Prop :=
  (∃ m, L.buffer (L.correct p) d = [m] ∧ q = ⟨m.outer, []⟩) ∨ ((∀ m, L.buffer (L.correct p) d ≠ [m]) ∧ q = ⟨[], []⟩)

/-- `p` is the polygon of a lane for driving in the junction -/
def InJunction (junc : Nat → Option Nat) (jid : Nat) (verts : List (RG.Vert × Option (List P))) (p : List P) : Prop :=
  ∃ v, (v, some p) ∈ verts ∧ junc v.lane.id = some jid ∧ v.lane.driving = true

/-- the outline of the area between two lines: along the inner one, back along the outer one, to the start -/
def Between (inner outer ring : List P) : Prop :=
  ∃ a, inner.head? = some a ∧ ring = inner ++ outer.reverse ++ [a]

end Bark.Areas.Spec
