import Verif.Model.Primitives

/-!
Specification vocabulary for macro actions (C50, C94–C96).
-/
namespace Bark.Mac.Spec
open Bark Bark.Mac
variable {K C A T : Type} [LinearOrder K]

/-- a primitive can be carried out in this situation when the ego is heading for corridor `c` -/
def Enabled (v : View K C) (c : C) (p : Prim K) : Prop :=
  match p.kind with
  | .stay => v.accMin ≤ p.acc ∧ p.acc ≤ v.accMax
  | .left => ∃ l, (v.sides c).1 = some l ∧ p.minLen ≤ v.remaining l
  | .right => ∃ l, (v.sides c).2 = some l ∧ p.minLen ≤ v.remaining l
  | .gap => True

/-- the corridor a lane-keeping or lane-changing primitive leads to from `c` -/
def Leads (v : View K C) (c : C) (p : Prim K) (c' : C) : Prop :=
  match p.kind with
  | .stay => c' = c
  | .left => (v.sides c).1 = some c' ∨ ((v.sides c).1 = none ∧ c' = c)
  | .right => (v.sides c).2 = some c' ∨ ((v.sides c).2 = none ∧ c' = c)
  | .gap => v.lane = some c'

/-- the corridor the behaviour heads for before planning -/
def Heading (v : View K C) (b : Beh C A T) (c : C) : Prop :=
  b.target = some c ∨ (b.target = none ∧ v.lane = some c)

/-- every pointer to a primitive is good -/
def Good (h : Heap K A T) (b : Beh C A T) : Prop := ∀ r ∈ b.prims, (h r).isSome = true

/-- the list `vs` consists, in increasing order, of the positions of the enabled primitives -/
def EnabledList (h : Heap K A T) (v : View K C) (c : C) (b : Beh C A T) (vs : List Nat) : Prop :=
  vs.Pairwise (· < ·) ∧ ∀ i, i ∈ vs ↔ ∃ r o, b.prims[i]? = some r ∧ h r = some o ∧ Enabled v c o.prim

end Bark.Mac.Spec
