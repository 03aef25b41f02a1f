import Verif.Model.Rss

/-!
Specification vocabulary for the RSS-conformant behaviour.
-/
namespace Bark.Rss.Spec
open Bark.Rss
variable {W C M T A L K : Type}

/-- The object `r` of `s` is well formed: its pointers lead somewhere, it has planned before (its
initial lane corridor is set) and both inner models are lane tracking models; the nominal model and
the model inside the safety behaviour are different objects. -/
structure Ready (P : Plug W C M T A L K) (s : Sys C M T A L K) (r : Nat) (o : Obj C T A L K)
    (f : Safe C T A) (mn ms : M) : Prop where
  obj : s.objs[r]? = some o
  safe : s.safes[o.safety]? = some f
  nominal : s.models[o.nominal]? = some mn
  inner : s.models[f.model]? = some ms
  distinct : o.nominal ≠ f.model
  planned : o.initial.isSome
  corridor : f.initial.isSome
  ltn : P.laneTracking mn = true
  lts : P.laneTracking ms = true

/-- A set of accelerations is the interval between two numbers. -/
def IsInterval (lo hi : ℝ) (S : Set ℝ) : Prop := ∀ a, a ∈ S ↔ lo ≤ a ∧ a ≤ hi

end Bark.Rss.Spec
