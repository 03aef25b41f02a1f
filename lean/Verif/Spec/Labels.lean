import Verif.Model.Labels
import Verif.Spec.World

/-!
Specification vocabulary for label functions.
-/
namespace Bark.Spec
open Bark Labels

section
variable {K Pos Ln : Type}

/-- The lane corridor a position belongs to: the first one (in the order of the road corridor) whose
polygon the position touches. -/
def OnCorridor (R : Road K Pos Ln) (p : Pos) (c : Nat) : Prop :=
  ∃ pre post, R.rc.unique = pre ++ c :: post ∧ R.hit c p = true ∧ ∀ x ∈ pre, R.hit x p = false

/-- The lane (of that corridor) a position is within. -/
def OnLane (R : Road K Pos Ln) (p : Pos) (c : Nat) (l : Cor.Ptr) (d : Cor.CLane) : Prop :=
  OnCorridor R p c ∧ (∃ lanes pre post x, R.rc.store[c]? = some lanes ∧ lanes = pre ++ (x, l) :: post ∧
    R.inLane l p = true ∧ ∀ y ∈ pre, R.inLane y.2 p = false) ∧
  ∃ road, OMap.find l.1 R.roads = some road ∧ OMap.find l.2 road = some d

/-- Two lane corridors, possibly of different road corridors, consist of the same lanes (compared by
their centre lines) at the same arc lengths. -/
def SameLanes (R R' : Road K Pos Ln) (c c' : Nat) : Prop :=
  List.Forall₂ (fun x y => x.1 = y.1 ∧ R.line x.2 = R'.line y.2)
    ((R.rc.store[c]?).getD []) ((R'.rc.store[c']?).getD [])

end
end Bark.Spec
