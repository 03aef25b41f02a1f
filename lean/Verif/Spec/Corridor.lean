import Verif.Model.Corridor

/-!
Vocabulary for the statements about road and lane corridors.
-/
namespace Bark.Cor.Spec

/-- `l` is the sequence of lanes met when following the next-lane links from `p` to the end -/
inductive Chain (next : Ptr → Option Ptr) : Ptr → List Ptr → Prop
  | last {p : Ptr} (h : next p = none) : Chain next p [p]
  | step {p q : Ptr} {l : List Ptr} (h : next p = some q) (t : Chain next q l) : Chain next p (p :: l)

/-- `p` is a lane of one of the roads -/
def IsLane (rs : CRoads) (p : Ptr) (l : CLane) : Prop :=
  ∃ ls : OMap Nat CLane, (p.1, ls) ∈ rs ∧ (p.2, l) ∈ ls

/-- a lane one can drive on: of type driving and not the reference lane -/
def Drivable (rs : CRoads) (p : Ptr) : Prop := ∃ l, IsLane rs p l ∧ l.driving = true ∧ l.pos ≠ 0

/-- the roads and lanes are `std::map`s, lane ids are unique over all roads, next-lane pointers point to lanes of the roads -/
structure Valid (rs : CRoads) : Prop where
  roads : OMap.Sorted rs
  lanes : ∀ r ls, (r, ls) ∈ rs → OMap.Sorted ls
  ids : ∀ p q l l', IsLane rs p l → IsLane rs q l' → p.2 = q.2 → p = q
  next : ∀ p l q, IsLane rs p l → l.next = some q → ∃ l', IsLane rs q l'

/-- appending a lane makes the centre line longer -/
def Growing {K : Type} [LT K] (cl : List Ptr → K) : Prop := ∀ s q, s ≠ [] → cl s < cl (s ++ [q])

/-- the lanes of a lane corridor in the order of arc length -/
def lanesOf {K : Type} (s : RC K) (c : Nat) : List Ptr := ((s.store[c]?).getD []).map Prod.snd

end Bark.Cor.Spec
