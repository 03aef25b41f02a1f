import Verif.Model.MapIf
import Verif.Spec.RoadPath
import Mathlib.Data.List.Forall2

/-!
Vocabulary for the statements about the map interface.
-/
namespace Bark.MapIf.Spec

variable {K : Type} [LinearOrder K] {P : Type}

/-- contract of a k-nearest query: `L` are `min k n` of the items, none of the others is nearer than one of them; the order is
not specified -/
def KNearest {α D : Type} [LE D] (d : α → D) (k : Nat) (items L : List α) : Prop :=
  ∃ rest, (L ++ rest).Perm items ∧ L.length = min k items.length ∧ ∀ x ∈ L, ∀ y ∈ rest, d x ≤ d y

/-- the spatial index answers nearest queries with respect to the distance `d` of a chord to a point -/
def Index {D : Type} [LE D] (e : Env K P) (d : P × P → P → D) : Prop :=
  ∀ k p items, KNearest (fun x => d x.1 p) k items (e.knn k p items)

/-- no two routes (road ids and direction) have the same hash -/
def NoCollision (e : Env K P) : Prop := ∀ dir ids dir' ids', e.hash dir ids = e.hash dir' ids' → dir = dir' ∧ ids = ids'

/-- `c` is the corridor along the roads `ids` in map `m` with lane graph `g`: its roads are the linked roads of the route, its
lane corridors those computed from them, starting with the first road -/
structure Along (e : Env K P) (m : RG.XMap) (g : RG.Graph) (full : Bool) (ids : List Nat) (dir : RG.Dir) (c : Corr K) : Prop where
  roads : Cor.corridorRoads m g ids = .ok c.roads
  lanes : ∃ first, ids.head? = some first ∧ Cor.calcAll c.roads e.len e.fuel first = .ok c.lanes
  ids : c.ids = ids
  dir : c.dir = dir
  junctions : c.junctions = full

/-- a call that only asks for a corridor -/
def Asks : Op K P → Prop
  | .generate _ _ => True
  | .generateTo _ _ => True
  | _ => False

/-- the call asks for the corridor along `ids`: directly, or because that is the route it finds on the interface `s` -/
def Requests (e : Env K P) (s : MI K P) (ids : List Nat) (dir : RG.Dir) : Op K P → Prop
  | .generate ids' dir' => ids' = ids ∧ dir' = dir
  | .generateTo a b => ∃ s' c, generateTo e s a b = .ok (s', some c) ∧ c.ids = ids ∧ c.dir = dir
  | _ => False

/-- the interface after the first map was set: no corridors yet -/
structure Fresh (s : MI K P) (m : RG.XMap) (g : RG.Graph) : Prop where
  map : s.map = some m
  graph : s.graph = some g
  none : s.corridors = []

/-- lane `l` is a driving lane of the index whose chord is nearest to the point -/
def NearestDriving {D : Type} [LE D] (s : MI K P) (d : P × P → P → D) (p : P) (l : RG.Lane) : Prop :=
  ∃ c, (c, l) ∈ s.rtree ∧ l.driving = true ∧ ∀ c' l', (c', l') ∈ s.rtree → l'.driving = true → d c p ≤ d c' p

/-- `ids` lists the roads of the lanes `ls`, lane by lane -/
def RoadsOf (g : RG.Graph) (ls ids : List Nat) : Prop :=
  List.Forall₂ (fun l r => ∃ v ∈ g.verts, v.lane.id = l ∧ v.road = r) ls ids

end Bark.MapIf.Spec
