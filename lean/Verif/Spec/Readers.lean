import Verif.Model.Readers
import Verif.Spec.PServer

/-!
Specification for C192: what a configuration says, and how the readers of a scenario are chained. Only data types (and the
readers as functions) are taken from the model.
-/
namespace Bark.Read.Spec
open Bark.PS Bark.PS.Spec Bark.Par

variable {A : Type}

/-- the configuration says `v` for `k`: stored, or not stored and `v` is the documented default -/
def Says (s : Srv A) (k : Str) (dflt v : Val A) : Prop := Has s k v ∨ ((¬ ∃ w, Has s k w) ∧ v = dflt)

/-- the section `k` of the configuration: the stored server, or an empty one if there is none -/
def Section (s : Srv A) (k : Str) (c : Srv A) : Prop := Says s k (.child .nil) (.child c)

/-- a constructor that never fails and never changes a stored value (it adds the values it falls back to) -/
def Gentle (f : Srv A → Res (Srv A)) : Prop :=
  ∀ c, ∃ c', f c = .ok c' ∧ ∀ p v, At c p v → IsValue v → At c' p v

/-- after the call everything outside the keys `ks` is stored as before -/
def Untouched (ks : List Str) (s s' : Srv A) : Prop := ∀ k v, k ∉ ks → (Has s' k v ↔ Has s k v)

section
variable {σ S Gm B E D O C Kw Obs : Type}

/-- the models of one source came from its readers, one after the other -/
def FromReaders (merge : Kw → Kw → Kw) (r : SourceReaders σ S Gm B E D O C Kw) (kw : Kw) (x : Gen.Source S Gm B E D O C) (w w' : σ) : Prop :=
  ∃ k1 w1 k2 w2 k3 w3 k4 w4,
    r.behaviors x.corridor x.states kw w = .ok ((x.behaviors, k1), w1) ∧
    r.executions x.corridor x.states (merge kw k1) w1 = .ok ((x.executions, k2), w2) ∧
    r.dynamics x.corridor x.states (merge (merge kw k1) k2) w2 = .ok ((x.dynamics, k3), w3) ∧
    r.controlled x.corridor x.states (merge (merge (merge kw k1) k2) k3) w3 = .ok ((x.controlled, k4), w4) ∧
    r.goals x.corridor x.states x.controlled (merge (merge (merge (merge kw k1) k2) k3) k4) w4 = .ok (x.goals, w')

/-- states of all sources, read one after the other -/
inductive StatesRead : List (SourceReaders σ S Gm B E D O C Kw) → σ → List (C × List S × List Gm × Kw) → σ → Prop
  | nil (w : σ) : StatesRead [] w [] w
  | cons {r : SourceReaders σ S Gm B E D O C Kw} {rs : List (SourceReaders σ S Gm B E D O C Kw)} {w w1 w2 : σ} {c : C} {ss : List S}
      {gs : List Gm} {kw : Kw} {xs : List (C × List S × List Gm × Kw)} :
      r.corridor = .ok c → r.states c w = .ok ((ss, gs, kw), w1) → StatesRead rs w1 xs w2 →
      StatesRead (r :: rs) w ((c, ss, gs, kw) :: xs) w2

/-- models of all sources with agents, read one after the other -/
inductive ModelsRead (merge : Kw → Kw → Kw) : List (SourceReaders σ S Gm B E D O C Kw) → List (C × List S × List Gm × Kw) → σ →
    List (Gen.Source S Gm B E D O C) → σ → Prop
  | nil (w : σ) : ModelsRead merge [] [] w [] w
  | skip {r : SourceReaders σ S Gm B E D O C Kw} {rs : List (SourceReaders σ S Gm B E D O C Kw)} {w w' : σ} {c : C} {gs : List Gm}
      {kw : Kw} {ys : List (C × List S × List Gm × Kw)} {xs : List (Gen.Source S Gm B E D O C)} :
      ModelsRead merge rs ys w xs w' → ModelsRead merge (r :: rs) ((c, [], gs, kw) :: ys) w xs w'
  | cons {r : SourceReaders σ S Gm B E D O C Kw} {rs : List (SourceReaders σ S Gm B E D O C Kw)} {w w1 w2 : σ} {kw : Kw}
      {ys : List (C × List S × List Gm × Kw)} {x : Gen.Source S Gm B E D O C} {xs : List (Gen.Source S Gm B E D O C)} :
      x.states ≠ [] → FromReaders merge r kw x w w1 → ModelsRead merge rs ys w1 xs w2 →
      ModelsRead merge (r :: rs) ((x.corridor, x.states, x.geometries, kw) :: ys) w (x :: xs) w2

end
end Bark.Read.Spec
