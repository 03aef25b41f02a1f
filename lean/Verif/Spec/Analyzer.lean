import Verif.Model.Analyzer
import Mathlib.Data.List.Forall2

/-!
Specification vocabulary for the analysis of results (C163–C166).
-/
namespace Bark.Anl.Spec

variable {V : Type}

/-- pandas sorts: the same rows, in ascending order of the key -/
def Sorts (srt : Sorter V) : Prop :=
  ∀ key l, (srt key l).Perm l ∧ (srt key l).Pairwise fun a b => key a ≤ key b

/-- the last place of `x` in `l` is not after the last place of `y` -/
def NotAfter (l : List ℕ) (x y : ℕ) : Prop :=
  ∃ (i j : Nat), l[i]? = some x ∧ l[j]? = some y ∧ (∀ k, i < k → l[k]? ≠ some x) ∧ (∀ k, j < k → l[k]? ≠ some y) ∧ i ≤ j

/-- every configuration occurs in one row only -/
def Distinct (df : List (Row V)) : Prop := df.Pairwise fun a b => a.config ≠ b.config

/-- the row is asked for -/
structure Meets (criteria : List (Row V → Bool)) (scens inConfigs : List ℕ) (r : Row V) : Prop where
  crit : ∀ f ∈ criteria, f r = true
  scen : scens ≠ [] → r.scen ∈ scens
  conf : inConfigs ≠ [] → r.config ∈ inConfigs

/-- configuration `c` was run on scenario `s` -/
def RanOn (df : List (Row V)) (c s : ℕ) : Prop := ∃ r ∈ df, r.config = c ∧ r.scen = s

/-- entry of a history shown in step `k` (counted from 0): in order, then the last one -/
def entry {S : Type} (h : List S) (k : ℕ) : Option (ℕ × S) := (h[min k (h.length - 1)]?).map fun s => (min k (h.length - 1), s)

end Bark.Anl.Spec
