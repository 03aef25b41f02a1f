import Verif.Model.Heap

/-! Specification vocabulary for C11. -/
namespace Bark.Ptr
variable {V : Type}

/-- `r` can be reached from one of `roots` by following pointers in `h` -/
inductive Reach (h : Heap V) (roots : List Ref) : Ref → Prop where
  | root {r} : r ∈ roots → Reach h roots r
  | step {r o x} : Reach h roots r → h.mem r = some o → x ∈ o.refs → Reach h roots x

/-- everything a holder of the world object can get at directly -/
def WorldR.roots (w : WorldR) : List Ref := w.agents.map Prod.snd ++ w.extra

/-- A program run by somebody who knows the pointers in `K`: it writes only to known objects and only
stores known pointers; what it allocates becomes known. -/
def Confined (K : Ref → Prop) (h : Heap V) : List (HeapOp V) → Prop
  | [] => True
  | .write r o :: ops => K r ∧ (∀ x ∈ o.refs, K x) ∧ Confined K (execOp h (.write r o)) ops
  | .alloc o :: ops => (∀ x ∈ o.refs, K x) ∧
      Confined (fun r => K r ∨ r = h.next) (execOp h (.alloc o)) ops

/-- the agents of `w` and the models they own -/
def Owned (h : Heap V) (w : WorldR) (r : Ref) : Prop :=
  (∃ i, (i, r) ∈ w.agents) ∨ ∃ i a o, (i, a) ∈ w.agents ∧ h.mem a = some o ∧ r ∈ o.own

/-- no dangling pointers -/
def Valid (h : Heap V) : Prop :=
  (∀ r o, h.mem r = some o → r < h.next ∧ ∀ x ∈ o.refs, (h.mem x).isSome)

/-- `S` contains everything that is shared by design (`extra`, the agents' shared pointers, the inner
pointers of models), is closed under following pointers, and has no way back to the agents and models
owned by `w`. -/
structure NoWayBack (h : Heap V) (w : WorldR) (S : Ref → Prop) : Prop where
  extra : ∀ x ∈ w.extra, S x
  agentShared : ∀ i a o, (i, a) ∈ w.agents → h.mem a = some o → ∀ x ∈ o.shared, S x
  inner : ∀ i a o, (i, a) ∈ w.agents → h.mem a = some o → ∀ m ∈ o.own, ∀ om, h.mem m = some om →
    ∀ x ∈ om.refs, S x
  closed : ∀ r o, S r → h.mem r = some o → ∀ x ∈ o.refs, S x
  old : ∀ r, S r → r < h.next
  disjoint : ∀ r, S r → ¬ Owned h w r

end Bark.Ptr
