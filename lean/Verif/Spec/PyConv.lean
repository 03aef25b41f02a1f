import Verif.Model.PyConv

/-!
Which classes the Python conversion supports and how they are called, written down independently of
the two chains of comparisons.
-/
namespace Bark.Py.Spec
open Bark.Py

/-- Every behaviour class of the library except the continuous motion primitives. -/
def BSupported : BCls → Prop
  | .mpContinuousActions => False
  | .foreign _ => False
  | _ => True

/-- The four goal definitions of the library. -/
def GSupported : GCls → Prop
  | .foreign _ => False
  | _ => True

/-- The two single track models. -/
def DSupported : DCls → Prop
  | .singleTrackModel | .singleTrackSteeringRateModel => True
  | _ => False

/-- The four primitives of the library. -/
def PSupported : PCls → Prop
  | .foreign _ => False
  | _ => True

/-- The label functions of the library except four. -/
def LSupported : LCls → Prop
  | .constant | .denseTraffic | .egoAccelerate | .relSpeed | .foreign _ => False
  | _ => True

/-- What a user of a conversion relies on: exactly the supported classes are converted; the way back
yields an object of the same class with the data the copy constructor of that class makes of the
original's; nothing but a name given out by the conversion is accepted on the way back; and different
classes have different names. -/
structure Faithful {C A : Type} (supported : C → Prop) (copy : C → A → A)
    (toPy : Option (Obj C A) → Res (Item C A × String))
    (fromPy : Item C A × String → Res (Option (Obj C A))) : Prop where
  round : ∀ o, supported o.cls → ∃ t, toPy (some o) = .ok t ∧ t.1 = .obj o ∧
    fromPy t = .ok (some ⟨o.cls, copy o.cls o.data, none⟩)
  unsupported : ∀ o, ¬ supported o.cls → ∀ t, toPy (some o) ≠ .ok t
  unknown : ∀ t, (∀ o t', toPy o = .ok t' → t'.2 ≠ t.2) → ∀ r, fromPy t ≠ .ok r
  distinct : ∀ o o' t t', toPy (some o) = .ok t → toPy (some o') = .ok t' →
    (t.2 = t'.2 ↔ o.cls = o'.cls)

end Bark.Py.Spec
