import Verif.Props.MapIf
import Verif.Spec.SourceSink

/-! C217: the route of a source. -/
namespace Bark.Sink
open Bark.MapIf Bark.MapIf.Spec Bark.Sink.Spec

variable {K : Type} [LinearOrder K] {F D : Type} [LinearOrder D] {e : Env K (F × F)} {ofInt : Int → F}

theorem coord_num {v : Val F} {x : F} : coord ofInt v = some x ↔ IsNum ofInt v x := by
  unfold IsNum
  cases v with
  | int i =>
    constructor
    · intro h; cases h; exact Or.inr ⟨i, rfl, rfl⟩
    · rintro (h | ⟨j, h, rfl⟩)
      · cases h
      · cases h; rfl
  | num y =>
    constructor
    · intro h; cases h; exact Or.inl rfl
    · rintro (h | ⟨j, h, -⟩)
      · cases h; rfl
      · cases h
  | other => exact ⟨(fun h => by cases h), by rintro (h | ⟨j, h, -⟩) <;> cases h⟩
  | list l => exact ⟨(fun h => by cases h), by rintro (h | ⟨j, h, -⟩) <;> cases h⟩

theorem point_is {v : Val F} {p : F × F} : point ofInt v = some p ↔ IsPoint ofInt v p := by
  constructor
  · intro h
    unfold point at h
    split at h
    · rename_i x y r
      cases hx : coord ofInt x with
      | none => rw [hx] at h; cases h
      | some a =>
        cases hy : coord ofInt y with
        | none => rw [hx, hy] at h; cases h
        | some b =>
          rw [hx, hy] at h
          cases h
          exact ⟨x, y, r, rfl, coord_num.1 hx, coord_num.1 hy⟩
    · cases h
  · rintro ⟨x, y, r, rfl, h1, h2⟩
    show ((coord ofInt x).bind fun a => (coord ofInt y).bind fun b => some (a, b)) = some p
    rw [coord_num.2 h1, coord_num.2 h2]
    rfl

/-- two points: the answer is that of the map interface -/
theorem route_points {v : Val F} {a b : F × F} (h : TwoPoints ofInt v a b) (hf : Fraction v) (s : MI K (F × F)) :
    routeOf e ofInt s v = match generateTo e s a b with
      | .error f => (s, .error f)
      | .ok (s', some c) => (s', .ok c)
      | .ok (s', none) => (s', .error .thrown) := by
  obtain ⟨p, q, r, rfl, h1, h2⟩ := h
  obtain ⟨x, p', r', h3⟩ := hf
  cases h3
  show byPoints e ofInt s _ q = _
  unfold byPoints
  rw [point_is.2 h1, point_is.2 h2]
  rfl

theorem get_generate {s s' : MI K (F × F)} {ids : List Nat} {dir : RG.Dir} (hne : ids ≠ []) (h : generate e s ids dir = .ok s') : ∃ c, get e s' ids dir = some c := by
  unfold generate at h
  split at h
  · rename_i hs
    cases h
    exact Option.isSome_iff_exists.1 hs
  · split at h
    · exact absurd rfl hne
    · split at h
      · rename_i m g hm hg
        cases hb : build e m g s.full _ _ dir with
        | error f => rw [hb] at h; cases h
        | ok c =>
          rw [hb] at h
          cases h
          refine ⟨c, ?_⟩
          unfold MapIf.get
          rw [OMap.find_insert, if_pos rfl]
      · cases h

/-- C217, given by two points of which the first coordinate has a fraction: without driving lane and if the driving lane nearest to the second point cannot be reached
from the one nearest to the first point, the generation raises and the map is left as it was; otherwise the source gets the corridor along the roads of a cheapest
drivable way, if that can be made -/
theorem C217_route_partial {d : (F × F) × (F × F) → F × F → D} (hx : Index e d) {s : MI K (F × F)} {g : RG.Graph} (hg : s.graph = some g) (hu : RG.Spec.UniqueIds g)
    (hdij : ∀ a, RG.Spec.DijkstraMap (RG.Spec.VEdge g RG.drivingE RG.drivingV) (RG.Spec.VertOk g RG.drivingV) a (e.dij g a))
    (hin : ∀ c l, (c, l) ∈ s.rtree → ∃ v ∈ g.verts, v.lane = l) (hnil : ∀ dir, get e s [] dir = none) {v : Val F} {a b : F × F} (h : TwoPoints ofInt v a b)
    (hf : Fraction v) :
    ((∀ c l, (c, l) ∈ s.rtree → l.driving = false) → routeOf e ofInt s v = (s, .error .thrown)) ∧
    ((∃ c l, (c, l) ∈ s.rtree ∧ l.driving = true) →
      ∃ la lb, NearestDriving s d a la ∧ NearestDriving s d b lb ∧
        (¬ RG.Spec.Reach (RG.Spec.DriveEdge g) la.id lb.id → routeOf e ofInt s v = (s, .error .thrown)) ∧
        (RG.Spec.Reach (RG.Spec.DriveEdge g) la.id lb.id →
          ∃ ls ids, RG.Spec.Cheapest (RG.Spec.DriveEdge g) la.id lb.id ls ∧ RoadsOf g ls ids ∧
            ((∀ s', generate e s ids la.dir = .ok s' → ∃ c, routeOf e ofInt s v = (s', .ok c) ∧ get e s' ids la.dir = some c) ∧
             (∀ f, generate e s ids la.dir = .error f → routeOf e ofInt s v = (s, .error f))))) := by
  obtain ⟨k1, k2⟩ := C112_route hx hg hu hdij hin hnil a b
  refine ⟨fun h0 => by rw [route_points h hf, k1 h0], fun h0 => ?_⟩
  obtain ⟨la, lb, n1, n2, c1, c2⟩ := k2 h0
  refine ⟨la, lb, n1, n2, fun h1 => by rw [route_points h hf, c1 h1], fun h1 => ?_⟩
  obtain ⟨ls, ids, q1, q2, q3, q4, q5⟩ := c2 h1
  refine ⟨ls, ids, q1, q2, fun s' hs => ?_, fun f hs => by rw [route_points h hf, q5 f hs]⟩
  obtain ⟨c, hc⟩ := get_generate q3 hs
  exact ⟨c, by rw [route_points h hf, q4 s' hs, hc], hc⟩

/-- a source only ever gets a corridor if it is given by two points, the very first number with a fraction -/
theorem C217_only {s s' : MI K (F × F)} {v : Val F} {c : Corr K} (h : routeOf e ofInt s v = (s', .ok c)) :
    (∃ a b, TwoPoints ofInt v a b ∧ generateTo e s a b = .ok (s', some c)) ∧ Fraction v := by
  unfold routeOf at h
  split at h
  · unfold byRoads at h
    split at h
    · cases h
    · split at h <;> cases h
  · rename_i x p q r
    refine ⟨?_, x, p, q :: r, rfl⟩
    unfold byPoints at h
    split at h
    · rename_i a b h1 h2
      refine ⟨a, b, ⟨_, _, _, rfl, point_is.1 h1, point_is.1 h2⟩, ?_⟩
      split at h
      · cases h
      · rename_i heq; cases h; exact heq
      · cases h
    · cases h
  · cases h

theorem roads_conv {ids : List Nat} (h : ∀ i ∈ ids, i < 4294967296) : roadIds (F := F) (ids.map fun i : Nat => Val.int (i : Int)) = some ids := by
  unfold roadIds
  induction ids with
  | nil => rfl
  | cons i l ih =>
    have hi := h i (by simp)
    rw [List.map_cons, List.mapM_cons]
    have : roadId (F := F) (.int i) = some i := by
      show (if (0 : Int) ≤ i ∧ (i : Int) < 4294967296 then some (i : Int).toNat else none) = some i
      rw [if_pos ⟨by omega, by omega⟩, Int.toNat_natCast]
    rw [this, ih fun j hj => h j (by simp [hj])]
    rfl

theorem road_first (s : MI K (F × F)) (i : Nat) (l : List Nat) :
    routeOf e ofInt s (.list ((i :: l).map fun i : Nat => Val.int (i : Int))) = byRoads e s ((i :: l).map fun i : Nat => Val.int (i : Int)) := by
  rw [List.map_cons]
  rfl

theorem by_roads {s s' : MI K (F × F)} {ids : List Nat} (h : ∀ i ∈ ids, i < 4294967296) (hs : generate e s ids .forward = .ok s') :
    byRoads e s (ids.map fun i : Nat => Val.int (i : Int)) = (s', .error .thrown) := by
  unfold byRoads
  rw [roads_conv h]
  dsimp only
  rw [hs]

/-- Violation: given by road ids a source never gets a corridor: the corridor is made and kept by the map, and then the generation raises -/
theorem C217_roads_violated (s : MI K (F × F)) {v : Val F} {ids : List Nat} (hv : IsRoads v ids) (hne : ids ≠ []) :
    (∀ s' c, routeOf e ofInt s v ≠ (s', .ok c)) ∧
    (∀ s', generate e s ids .forward = .ok s' → routeOf e ofInt s v = (s', .error .thrown) ∧ ∃ c, get e s' ids .forward = some c) := by
  obtain ⟨rfl, hlt⟩ := hv
  constructor
  · intro s' c h
    obtain ⟨-, x, p, r, h⟩ := C217_only h
    cases ids with
    | nil => exact hne rfl
    | cons i l => cases h
  · intro s' hs
    refine ⟨?_, get_generate hne hs⟩
    cases ids with
    | nil => exact absurd rfl hne
    | cons i l => exact (road_first s i l).trans (by_roads hlt hs)

/-- Violation: whether two points are accepted depends on how the first number is written -/
theorem C217_whole_violated {s s' : MI K (F × F)} {i : Int} {p q : List (Val F)} {c : Corr K} (h : routeOf e ofInt s (.list (.list (.num (ofInt i) :: p) :: q)) = (s', .ok c)) :
    routeOf e ofInt s (.list (.list (.int i :: p) :: q)) = (s, .error .thrown) ∧
      ∀ a b, TwoPoints ofInt (.list (.list (.num (ofInt i) :: p) :: q)) a b → TwoPoints ofInt (.list (.list (.int i :: p) :: q)) a b := by
  refine ⟨rfl, ?_⟩
  rintro a b ⟨p', q', r', h0, ⟨x, y, t, h1, n1, n2⟩, h2⟩
  cases h0
  cases h1
  refine ⟨_, _, _, rfl, ⟨_, _, _, rfl, Or.inr ⟨i, rfl, ?_⟩, n2⟩, h2⟩
  rcases n1 with n1 | ⟨j, n1, -⟩
  · exact (Val.num.inj n1).symm
  · cases n1

/-- an interface of the map of one lane; its index has one entry -/
def soleEnv : Env Nat (Int × Int) where
  hash _ ids := ids.length
  len _ := 0
  fuel := 1
  dij _ _ b := b
  line _ := [(0, 0), (10, 0)]
  touch _ _ := some true
  knn k _ l := l.take k

/-- the map of one lane -/
def sole : MI Nat (Int × Int) := ⟨some lone, some loneGraph, [(((0, 0), (10, 0)), ⟨1, -1, true, .forward, 0, 0⟩)], [], false, false⟩

/-- a source from (2, 0) to (8, 1) gets the corridor along road 1; with the first number written as a whole number it raises -/
example : (∃ s' c, routeOf soleEnv id sole (.list [.list [.num 2, .int 0], .list [.num 8, .num 1]]) = (s', .ok c) ∧ c.ids = [1]) ∧
    routeOf soleEnv id sole (.list [.list [.int 2, .int 0], .list [.num 8, .num 1]]) = (sole, .error .thrown) :=
  ⟨⟨_, _, rfl, rfl⟩, rfl⟩

theorem sole_index : Index soleEnv (fun _ _ => (0 : Nat)) := by
  intro k p items
  exact ⟨items.drop k, by rw [show soleEnv.knn k p items = items.take k from rfl, List.take_append_drop], List.length_take, fun _ _ _ _ => le_refl _⟩

/-- the other hypotheses of `C217_route_partial` are met -/
example : RG.Spec.UniqueIds loneGraph ∧ (∀ c l, (c, l) ∈ sole.rtree → ∃ v ∈ loneGraph.verts, v.lane = l) ∧ (∀ dir, MapIf.get soleEnv sole [] dir = none) ∧
    (∃ c l, (c, l) ∈ sole.rtree ∧ l.driving = true) ∧ RG.Spec.Reach (RG.Spec.DriveEdge loneGraph) 1 1 ∧
    (∀ a, RG.Spec.DijkstraMap (RG.Spec.VEdge loneGraph RG.drivingE RG.drivingV) (RG.Spec.VertOk loneGraph RG.drivingV) a (soleEnv.dij loneGraph a)) := by
  refine ⟨?_, ?_, fun _ => rfl, ⟨_, _, List.mem_singleton.2 rfl, rfl⟩, ?_, ?_⟩
  · simp [RG.Spec.UniqueIds, loneGraph]
  · intro c l h
    cases List.mem_singleton.1 h
    exact ⟨_, List.mem_singleton.2 rfl, rfl⟩
  · exact ⟨_, _, .here 1⟩
  · intro a v _ hne
    refine ⟨fun _ => rfl, ?_⟩
    rintro d ⟨⟨l, h⟩, -⟩
    cases h with
    | here => exact absurd rfl hne
    | step h => obtain ⟨e, he, -⟩ := h; cases he

/-- given by the id of its road it raises, though the map has the corridor then -/
example : routeOf soleEnv id sole (.list [.int 1]) = ((routeOf soleEnv id sole (.list [.int 1])).1, .error .thrown) ∧
    ∃ c, MapIf.get soleEnv (routeOf soleEnv id sole (.list [.int 1])).1 [1] .forward = some c := by
  have hv : IsRoads (F := Int) (.list [.int 1]) [1] := ⟨rfl, by simp⟩
  obtain ⟨s', h⟩ : ∃ s', generate soleEnv sole [1] .forward = .ok s' := ⟨_, rfl⟩
  obtain ⟨h1, h2⟩ := (C217_roads_violated (ofInt := id) sole hv (by simp)).2 s' h
  rw [h1]
  exact ⟨rfl, h2⟩

end Bark.Sink
