import Verif.Model.Pickle
import Verif.Spec.Goals
import Mathlib.Data.List.Forall2

/-!
Specification vocabulary for pickling.
-/
namespace Bark.Spec
open Bark

/-- The simple conditions the goals at the addresses `gs` are built of, from left to right, whether or
not they have been met already; no sequence is empty. -/
inductive Conditions {A : Type} (h : Goal.Heap A) : List Nat → List (A → Bool) → Prop
  | nil : Conditions h [] []
  | leaf {g : Nat} {gs : List Nat} {p : A → Bool} {ps : List (A → Bool)} :
      h[g]? = some (.leaf p) → Conditions h gs ps → Conditions h (g :: gs) (p :: ps)
  | seq {g : Nat} {last : Int} {subs gs : List Nat} {ps₁ ps₂ : List (A → Bool)} :
      h[g]? = some (.seq subs last) → subs ≠ [] → Conditions h subs ps₁ → Conditions h gs ps₂ →
      Conditions h (g :: gs) (ps₁ ++ ps₂)

open Pickle in
/-- Two primitives of the same class with the same configuration, parameters compared with `same`. -/
inductive SamePrim {P K : Type} (same : P → P → Prop) : Prim P K → Prim P K → Prop
  | stay {p p' : P} {a : K} : same p p' → SamePrim same (.stay p a) (.stay p' a)
  | other {c : Py.PCls} {p p' : P} : same p p' → SamePrim same (.other c p) (.other c p')

open Pickle in
/-- Two behaviours of the same class with the same configuration: parameters (compared with `same`),
trajectory, primitives, inner behaviours, responses and limits.  What planning changes is not compared. -/
inductive SameConfig {P K T Act R L : Type} (same : P → P → Prop) :
    Beh P K T Act R L → Beh P K T Act R L → Prop
  | plain {c p p' d d'} : same p p' → SameConfig same (.plain c p d) (.plain c p' d')
  | static {p p' t d d'} : same p p' → SameConfig same (.static p t d) (.static p' t d')
  | macro {r p p' ps ps' d d'} : same p p' → List.Forall₂ (SamePrim same) ps ps' →
      SameConfig same (.macro r p ps d) (.macro r p' ps' d')
  | safety {p p' i i' d d'} : same p p' → SameConfig same i i' →
      SameConfig same (.safety p i d) (.safety p' i' d')
  | rss {p p' n n' s s' q l d d'} : same p p' → SameConfig same n n' → SameConfig same s s' →
      SameConfig same (.rss p n s q l d) (.rss p' n' s' q l d')

end Bark.Spec
