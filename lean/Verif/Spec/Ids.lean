import Verif.Model.Ids

/-!
Specification vocabulary for object ids, in terms of the operation history alone.
-/
namespace Bark.Ids.Spec
open Bark.Ids

/-- The origin of every object created by a history, in order of creation: an object made by a
constructor (or by unpickling) is its own origin, a clone has the origin of what it was cloned
from.  `acc` lists the origins of the objects that exist already. -/
def origins : List Nat → List Op → List Nat
  | acc, [] => acc
  | acc, .construct :: os => origins (acc ++ [acc.length]) os
  | acc, .clone h :: os => origins (acc ++ [(acc[h]?).getD acc.length]) os
  | acc, .setId _ _ :: os => origins acc os
  | acc, .restore _ :: os => origins (acc ++ [acc.length]) os

/-- The history only constructs and clones. -/
def Plain (os : List Op) : Prop := ∀ o ∈ os, o = .construct ∨ ∃ h, o = .clone h

/-- How many constructor calls a history makes. -/
def constructions (os : List Op) : Nat :=
  (os.filter (fun o => match o with | .construct => true | .restore _ => true | _ => false)).length

/-- Every id that the history writes explicitly is smaller than `n`. -/
def WritesBelow (n : Nat) (os : List Op) : Prop :=
  ∀ o ∈ os, (∀ h i, o = .setId h i → i < n) ∧ (∀ i, o = .restore i → i < n)

end Bark.Ids.Spec
