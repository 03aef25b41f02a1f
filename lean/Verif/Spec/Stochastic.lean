import Verif.Model.Stochastic

/-! Specification vocabulary for C47, C88-C91: sample streams of a distribution object and the time line of yielding intents. -/
namespace Bark.Stoch
set_option linter.unusedSectionVars false

section
variable {R K : Type} [Field K] [LinearOrder K] [IsStrictOrderedRing K]
variable (g : Gen R K) (q : K → K → K → K)

/-- the object after `n` samples -/
def drawn (d : Dist R K) : Nat → Dist R K
  | 0 => d
  | n + 1 => (sample g q (drawn d n)).2

/-- the `n`-th number (from 0) a distribution object yields -/
def stream (d : Dist R K) (n : Nat) : K := (sample g q (drawn g q d n)).1

end

/-- The world times `ts` of the planning calls are cut into episodes `0 … m`, the `i`-th beginning with call `p i`: an episode ends
with the first call that is at least its duration `dur i` later than its beginning. -/
structure Episodes {K : Type} [Field K] [LinearOrder K] (dur : Nat → K) (ts : List K) (m : Nat) (p : Nat → Nat) : Prop where
  first : p 0 = 0
  inc : ∀ i, i < m → p i < p (i + 1)
  last : p m < ts.length
  stay : ∀ i, i ≤ m → ∀ j, p i < j → (i < m → j < p (i + 1)) → j < ts.length → ts.getD j 0 - ts.getD (p i) 0 < dur i
  change : ∀ i, i < m → dur i ≤ ts.getD (p (i + 1)) 0 - ts.getD (p i) 0

/-- even episodes last as the numbers of the first stream say, odd ones as those of the second -/
def alternate {K : Type} (a b : Nat → K) (i : Nat) : K := if i % 2 = 0 then a (i / 2) else b (i / 2)

end Bark.Stoch
