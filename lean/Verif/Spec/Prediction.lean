import Verif.Model.Prediction

/-! Specification vocabulary for C48, C92, C93. -/
namespace Bark.Pred
set_option linter.unusedSectionVars false
section
variable {K B : Type} [Field K] [LinearOrder K] [IsStrictOrderedRing K]

/-- no dangling pointers, agents ordered by id -/
structure Wf (h : Heap B) (w : ObsWorld K) : Prop where
  sorted : OMap.Sorted w.agents
  beh : ∀ i a, OMap.find i w.agents = some a → (h.mem a.beh).isSome
  bound : ∀ r, (h.mem r).isSome → r < h.next

/-- an agent takes part: its model is running and its first valid time is reached -/
def Active (eps : K) (h : Heap B) (w : ObsWorld K) (a : Agent K) : Prop :=
  (∃ b, h.mem a.beh = some b ∧ b.status = .valid) ∧ a.firstValid ≤ w.time + eps

/-- the model of `a'` is a new object (not in the heap `h`) with contents `b` -/
def NewModel (h h' : Heap B) (a' : Agent K) (b : Beh B) : Prop := h.next ≤ a'.beh ∧ h'.mem a'.beh = some b

/-- all objects of `h` are untouched in `h'` -/
def Untouched (h h' : Heap B) : Prop := ∀ r, r < h.next → h'.mem r = h.mem r

end
end Bark.Pred
