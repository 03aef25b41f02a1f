import Verif.Model.Goals

/-! Specification of sequential goals. -/
namespace Bark.Spec

/-- the conditions `ps` have been met, in this order, at different queries among `xs`: some
subsequence of the queries meets them one by one -/
def MetInOrder {A : Type} (ps : List (A → Bool)) (xs : List A) : Prop :=
  ∃ ys : List A, ys.Sublist xs ∧ List.Forall₂ (fun p y => p y = true) ps ys

/-- `Plan h gs f ps`: the goals at the addresses `gs`, to be met one after the other, are trees built of
simple goals and sequential goals, no sequential goal object occurs twice in them (`f` lists them), and
the simple goals not yet met are `ps`, from left to right.  A sequential goal that has met its first
`done` parts still needs the parts from position `done` on. -/
inductive Plan {A : Type} (h : Goal.Heap A) : List Nat → List Nat → List (A → Bool) → Prop
  | nil : Plan h [] [] []
  | leaf {g : Nat} {gs f : List Nat} {p : A → Bool} {ps : List (A → Bool)} :
      h[g]? = some (.leaf p) → Plan h gs f ps → Plan h (g :: gs) f (p :: ps)
  | seq {g done : Nat} {subs gs f₁ f₂ : List Nat} {ps₁ ps₂ : List (A → Bool)} :
      h[g]? = some (.seq subs ((done : Int) - 1)) → done < subs.length →
      Plan h (subs.drop done) f₁ ps₁ → Plan h gs f₂ ps₂ →
      g ∉ f₁ → (∀ a ∈ g :: f₁, a ∉ f₂) →
      Plan h (g :: gs) (g :: f₁ ++ f₂) (ps₁ ++ ps₂)

/-- no goal contains itself, directly or indirectly; all referenced goals exist and no sequence is empty -/
def WellFormed {A : Type} (h : Goal.Heap A) : Prop :=
  ∃ rank : Nat → Nat, ∀ (g : Nat) (subs : List Nat) (last : Int), h[g]? = some (.seq subs last) →
    subs ≠ [] ∧ -1 ≤ last ∧ last < subs.length ∧ ∀ s ∈ subs, rank s < rank g ∧ s < h.length

end Bark.Spec
