import Verif.Model.Window

/-! Specification vocabulary for the search with a moving window (C138). -/
namespace Bark.Win.Spec

/-- vehicle `id` is recorded during the whole window -/
def Covers (trs : List Tr) (ws we : Int) (id : Nat) : Prop := ∃ t ∈ trs, t.id = id ∧ t.first ≤ ws ∧ we ≤ t.last

/-- at the beginning of the window the vehicle is inside the road, on lane `p` first, and, if so configured, on this lane
only -/
def CountsOn (lanesAt : Nat → Int → Res (List Nat)) (within : Nat → Int → Bool) (c : Cfg) (ws : Int) (id p : Nat) : Prop :=
  within id ws = true ∧ ∃ ps, lanesAt id ws = .ok (p :: ps) ∧ (c.onlyOneLane = true → ps = [])

/-- a possible selection for the window: at least the wanted number of different vehicles on every lane -/
def Enough (lanesAt : Nat → Int → Res (List Nat)) (within : Nat → Int → Bool) (c : Cfg) (trs : List Tr) (ws : Int) : Prop :=
  (∃ id, Covers trs ws (ws + c.windowLength) id) ∧
  ∀ (p m : Nat), c.minimum[p]? = some m → ∃ ids : List Nat, ids.Nodup ∧ m ≤ ids.length ∧
    ∀ id ∈ ids, Covers trs ws (ws + c.windowLength) id ∧ CountsOn lanesAt within c ws id p

end Bark.Win.Spec
