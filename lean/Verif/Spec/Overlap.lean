import Verif.Model.Overlap
import Verif.Model.ScenGen

/-! Specification vocabulary for the resolution of overlaps (C133). -/
namespace Bark.Gen.Spec
variable {A : Type}

/-- agent `x` exists -/
def Valid (ls : List (List A)) (x : Id) : Prop := ∃ l, ls[x.1]? = some l ∧ x.2 < l.length

/-- what the tree and the polygon test must provide: the tree reports exactly the agents whose boxes overlap, colliding
agents have overlapping boxes, and colliding is symmetric -/
structure Geometry (ls : List (List A)) (near : Id → List Id) (col : Id → Id → Bool) : Prop where
  valid : ∀ x o, o ∈ near x → Valid ls o
  complete : ∀ x o, Valid ls x → Valid ls o → col x o = true → o ∈ near x
  symm : ∀ x o, col x o = col o x

/-- the agents of source number `i` that are kept, in order -/
def survivors (keep : Id → Bool) (i : Nat) (l : List A) : List A :=
  (l.zipIdx.filter fun p => keep (i, p.2)).map Prod.fst

/-- the configuration has weights for the two descriptions, in this or in the other order, and they are floating point
numbers -/
def Weighted {K D : Type} (table : Dict (D × D) (Weight K × Weight K)) (d1 d2 : D) : Prop :=
  ∃ a b, ((d1, d2), (Weight.float a, Weight.float b)) ∈ table ∨ ((d2, d1), (Weight.float a, Weight.float b)) ∈ table

/-- and it has no others for them -/
def OnlyFloats {K D : Type} (table : Dict (D × D) (Weight K × Weight K)) (d1 d2 : D) : Prop :=
  ∀ v, ((d1, d2), v) ∈ table ∨ ((d2, d1), v) ∈ table → ∃ a b, v = (Weight.float a, Weight.float b)

/-- the weights configured for two descriptions: under their own order if there is an entry, otherwise under the other
order, swapped -/
def WeightsOf {K D : Type} (table : Dict (D × D) (Weight K × Weight K)) (d1 d2 : D) (a b : K) : Prop :=
  ((d1, d2), (Weight.float a, Weight.float b)) ∈ table ∨
    ((∀ v, ((d1, d2), v) ∉ table) ∧ ((d2, d1), (Weight.float b, Weight.float a)) ∈ table)

/-- agent `x` is removed when the pair `p` with weights `a`, `b` is decided by the sample `u`: up to `a` the first is
removed, from there up to `a + b` the second, beyond that both -/
def LosesDraw {K : Type} [LT K] [LE K] [Add K] (a b u : K) (p : Id × Id) (x : Id) : Prop :=
  (x = p.1 ∧ (u ≤ a ∨ a + b < u)) ∨ (x = p.2 ∧ a < u)

end Bark.Gen.Spec
