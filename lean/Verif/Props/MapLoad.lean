import Verif.Props.MapIf
import Verif.Spec.Corridor
import Mathlib.Data.List.Sort
import Mathlib.Logic.Equiv.List
import Mathlib.Algebra.Order.Field.Rat

/-!
C114: loading a map; concrete interfaces for C111–C114.
-/
namespace Bark.MapIf
open Bark.MapIf.Spec

set_option linter.unusedSectionVars false

variable {K : Type} [LinearOrder K] {P : Type} {e : Env K P}

/-! ### C114 -/

theorem entries_ok (m : List RG.Lane) (hl : ∀ l ∈ m, e.line l.id ≠ []) :
    ∃ t, m.mapM (entry e) = .ok t ∧ ∀ c l, (c, l) ∈ t ↔
      l ∈ m ∧ (e.line l.id).head? = some c.1 ∧ (e.line l.id).getLast? = some c.2 := by
  induction m with
  | nil => exact ⟨[], rfl, by simp⟩
  | cons x m ih =>
    obtain ⟨t, h1, h2⟩ := ih (fun l h => hl l (by simp [h]))
    have hx := hl x (by simp)
    cases hh : (e.line x.id).head? with
    | none => exact absurd (List.head?_eq_none_iff.1 hh) hx
    | some a =>
      cases hb : (e.line x.id).getLast? with
      | none => exact absurd (List.getLast?_eq_none_iff.1 hb) hx
      | some b =>
        have he : entry e x = .ok ((a, b), x) := by
          unfold entry chord
          rw [hh, hb]; rfl
        refine ⟨((a, b), x) :: t, ?_, ?_⟩
        · rw [List.mapM_cons, he, Res.ok_bind, h1, Res.ok_bind]; rfl
        · intro c l
          rw [List.mem_cons, h2]
          constructor
          · rintro (h | ⟨h3, h4⟩)
            · obtain ⟨rfl, rfl⟩ := Prod.mk.inj h
              exact ⟨by simp, hh, hb⟩
            · exact ⟨by simp [h3], h4⟩
          · rintro ⟨h3, h4, h5⟩
            rcases List.mem_cons.1 h3 with rfl | h3
            · left
              rw [hh] at h4; rw [hb] at h5
              cases h4; cases h5; rfl
            · exact Or.inr ⟨h3, h4, h5⟩

/-- Setting a map whose lane graph can be generated and whose lanes all have points: the call succeeds; the interface then has the
map, its lane graph with a vertex for every lane of the map and no other, and an index of exactly the lanes off position 0, each
with the chord of its line. -/
theorem C114_load (s : MI K P) {m : RG.XMap} {g : RG.Graph} (hg : RG.generate m = .ok g)
    (hl : ∀ r sec l, RG.Spec.LaneIn m r sec l → e.line l.id ≠ []) :
    ∃ s', setMap e s m = (s', .ok ()) ∧ step e s (.map m) = s' ∧ s'.map = some m ∧ s'.graph = some g ∧
      (∀ r l, (∃ v ∈ g.verts, v.road = r ∧ v.lane = l) ↔ ∃ sec, RG.Spec.LaneIn m r sec l) ∧
      (∀ c l, (c, l) ∈ s'.rtree ↔ (∃ r sec, RG.Spec.LaneIn m r sec l) ∧ l.pos ≠ 0 ∧
        (e.line l.id).head? = some c.1 ∧ (e.line l.id).getLast? = some c.2) := by
  have hv : g.verts = m.lanes := (RG.generate_same hg).1.trans (RG.base_verts m)
  have hlanes : ∀ r l, (∃ v ∈ m.lanes, v.road = r ∧ v.lane = l) ↔ ∃ sec, RG.Spec.LaneIn m r sec l := by
    intro r l
    unfold RG.XMap.lanes RG.Spec.LaneIn
    constructor
    · rintro ⟨v, hv, rfl, rfl⟩
      obtain ⟨⟨r, road⟩, h1, h2⟩ := List.mem_flatMap.1 hv
      obtain ⟨sec, h3, h4⟩ := List.mem_flatMap.1 h2
      obtain ⟨l, h5, rfl⟩ := List.mem_map.1 h4
      exact ⟨sec, road, h1, h3, h5⟩
    · rintro ⟨sec, road, h1, h2, h3⟩
      exact ⟨⟨r, l⟩, List.mem_flatMap.2 ⟨(r, road), h1, List.mem_flatMap.2 ⟨sec, h2, List.mem_map.2 ⟨l, h3, rfl⟩⟩⟩, rfl, rfl⟩
  obtain ⟨t, h1, h2⟩ := entries_ok (e := e) ((m.lanes.map (fun v => v.lane)).filter (fun l => decide (l.pos ≠ 0))) (by
    intro l h
    obtain ⟨h, _⟩ := List.mem_filter.1 h
    obtain ⟨v, hv, rfl⟩ := List.mem_map.1 h
    obtain ⟨sec, hs⟩ := (hlanes v.road v.lane).1 ⟨v, hv, rfl, rfl⟩
    exact hl _ _ _ hs)
  have hset : setMap e s m = ({ s with map := some m, graph := some g, rtree := t }, .ok ()) := by
    unfold setMap entries
    rw [hg]
    simp only
    rw [h1]
  refine ⟨{ s with map := some m, graph := some g, rtree := t }, hset, ?_, rfl, rfl, ?_, ?_⟩
  · show (setMap e s m).1 = _
    rw [hset]
  · intro r l; rw [hv]; exact hlanes r l
  · intro c l
    simp only
    rw [h2, List.mem_filter, List.mem_map]
    constructor
    · rintro ⟨⟨⟨v, hv, rfl⟩, hp⟩, h3, h4⟩
      obtain ⟨sec, hs⟩ := (hlanes v.road v.lane).1 ⟨v, hv, rfl, rfl⟩
      exact ⟨⟨_, sec, hs⟩, by simpa using hp, h3, h4⟩
    · rintro ⟨⟨r, sec, hs⟩, hp, h3, h4⟩
      obtain ⟨v, hv, _, rfl⟩ := (hlanes r l).2 ⟨sec, hs⟩
      exact ⟨⟨⟨v, hv, rfl⟩, by simpa using hp⟩, h3, h4⟩

/-- Violation: a map whose lane graph cannot be generated is half taken over: the interface has the new map, but the old lane
graph, index and corridors. -/
theorem C114_failed_load_violated (s : MI K P) {m : RG.XMap} {f : Fault} (hg : RG.generate m = .error f) :
    (setMap e s m).2 = .error f ∧ (step e s (.map m)).map = some m ∧ (step e s (.map m)).graph = s.graph ∧
      (step e s (.map m)).rtree = s.rtree := by
  have : setMap e s m = ({ s with map := some m }, .error f) := by unfold setMap; rw [hg]
  refine ⟨by rw [this], ?_, ?_, ?_⟩ <;> (show _ = _; unfold step; simp only; rw [this])

/-- a map with a junction that names a road which is not there: its graph cannot be generated -/
example : RG.generate ⟨[(1, ⟨[[⟨1, -1, true, .forward, 0, 0⟩]], 1000000, false, 1000000, false⟩)], [⟨1, 7, [(-1, -1)]⟩]⟩ =
    .error .thrown := rfl

/-- Violation: once a table was loaded, a map set later is not used by agents: every agent is given the corridor of the table, and
its own route is replaced, whatever the map and the agent. -/
theorem C114_table_sticks_violated (s : MI K P) (zero : K) {l : List P} (hl : l ≠ []) (m : RG.XMap) (a : Agent K P) :
    agentCorridor e (step e (step e s (.csv zero l)) (.map m)) a =
      .ok (step e (step e s (.csv zero l)) (.map m),
        { a with ids := [0], dir := .forward, corr := some (csvCorr zero) }, true) := by
  obtain ⟨c, hc⟩ : ∃ c, chord l = .ok c := by
    unfold chord
    cases hh : l.head? with
    | none => exact absurd (List.head?_eq_none_iff.1 hh) hl
    | some a =>
      cases hb : l.getLast? with
      | none => exact absurd (List.getLast?_eq_none_iff.1 hb) hl
      | some b => exact ⟨(a, b), rfl⟩
  have h1 : setCsv e s zero l = .ok { s with
      map := some ⟨[(0, ⟨[[csvLane]], 1000000, false, 1000000, false⟩)], []⟩
      graph := some ⟨[⟨0, csvLane⟩], []⟩
      rtree := [(c, csvLane)]
      corridors := OMap.insert (e.hash .forward [0]) (csvCorr zero) s.corridors
      csv := true } := by
    unfold setCsv; rw [hc]; rfl
  have h2 : ∀ s1 : MI K P, s1.csv = true → (step e s1 (.map m)).csv = true ∧ (step e s1 (.map m)).corridors = s1.corridors := by
    intro s1 hs
    show (setMap e s1 m).1.csv = true ∧ _ = _
    have : (step e s1 (.map m)) = (setMap e s1 m).1 := rfl
    rw [this]
    unfold setMap
    cases RG.generate m with
    | error f => exact ⟨hs, rfl⟩
    | ok g =>
      cases entries e m with
      | error f => exact ⟨hs, rfl⟩
      | ok t => exact ⟨hs, rfl⟩
  have h3 : (step e s (.csv zero l)).csv = true ∧
      OMap.find (e.hash .forward [0]) (step e s (.csv zero l)).corridors = some (csvCorr zero) := by
    have : step e s (.csv zero l) = match setCsv e s zero l with
      | .ok s' => s'
      | .error _ => s := rfl
    rw [this, h1]
    exact ⟨rfl, by simp only; rw [OMap.find_insert, if_pos rfl]⟩
  obtain ⟨h4, h5⟩ := h2 _ h3.1
  generalize step e (step e s (.csv zero l)) (.map m) = S at *
  unfold agentCorridor get
  rw [if_pos h4, h5, h3.2]
  rfl

/-- Turning the table flag off (or on) after a load decides which corridor agents get and changes nothing else: with it off, the
agent's route is searched in the map again; and replacing the lane graph is a replacement of the lane graph only. -/
theorem C114_setters (s : MI K P) (b : Bool) (g : RG.Graph) (a : Agent K P) :
    (b = false → agentCorridor e (step e s (.fromCsv b)) a = agentCorridor e { s with csv := false } a) ∧
    (b = true → s.csv = true → agentCorridor e (step e s (.fromCsv b)) a = agentCorridor e s a) ∧
    ((step e s (.fromCsv b)).csv = true ↔ b = true) ∧
    ((step e s (.fromCsv b)).map = s.map ∧ (step e s (.fromCsv b)).graph = s.graph ∧ (step e s (.fromCsv b)).rtree = s.rtree ∧
      (step e s (.fromCsv b)).corridors = s.corridors ∧ (step e s (.fromCsv b)).full = s.full) ∧
    (step e s (.graph g)).graph = some g ∧ (step e s (.graph g)).map = s.map ∧ (step e s (.graph g)).rtree = s.rtree ∧
    (step e s (.graph g)).corridors = s.corridors ∧ (step e s (.graph g)).full = s.full ∧ (step e s (.graph g)).csv = s.csv := by
  refine ⟨?_, ?_, ?_, ⟨rfl, rfl, rfl, rfl, rfl⟩, rfl, rfl, rfl, rfl, rfl, rfl⟩
  · rintro rfl; rfl
  · rintro rfl h
    have : step e s (.fromCsv true) = s := by
      show { s with csv := true } = s
      cases s; simp_all
    rw [this]
  · exact Iff.rfl

/-- A table loaded into an interface gives every agent the one road of the table in forward direction; an empty table is read out
of bounds. -/
theorem C114_table (s : MI K P) (zero : K) (l : List P) (a : Agent K P) :
    (l = [] → setCsv e s zero l = .error .ub) ∧
    (l ≠ [] → ∃ s', setCsv e s zero l = .ok s' ∧ agentCorridor e s' a =
      .ok (s', { a with ids := [0], dir := .forward, corr := some (csvCorr zero) }, true) ∧
      Cor.Spec.lanesOf (csvCorr zero).lanes 0 = [(0, 0)] ∧
      s'.rtree.map (fun x => (some x.1.1, some x.1.2, x.2.id)) = [(l.head?, l.getLast?, 0)] ∧
      (s'.graph.map (fun g => g.verts.map (fun v => (v.road, v.lane.id, v.lane.pos, v.lane.driving)))) =
        some [(0, 0, -1, true)] ∧ (s'.map.map (fun m => m.lanes.map (fun v => (v.road, v.lane.id)))) = some [(0, 0)]) := by
  constructor
  · rintro rfl; rfl
  · intro hl
    cases hh : l.head? with
    | none => exact absurd (List.head?_eq_none_iff.1 hh) hl
    | some x =>
      cases hb : l.getLast? with
      | none => exact absurd (List.getLast?_eq_none_iff.1 hb) hl
      | some y =>
        have hc : chord l = .ok (x, y) := by unfold chord; rw [hh, hb]
        refine ⟨{ s with
          map := some ⟨[(0, ⟨[[csvLane]], 1000000, false, 1000000, false⟩)], []⟩
          graph := some ⟨[⟨0, csvLane⟩], []⟩
          rtree := [((x, y), csvLane)]
          corridors := OMap.insert (e.hash .forward [0]) (csvCorr zero) s.corridors
          csv := true }, ?_, ?_, rfl, rfl, rfl, rfl⟩
        · unfold setCsv; rw [hc]; rfl
        · unfold agentCorridor get
          rw [if_pos rfl]
          simp only
          rw [OMap.find_insert, if_pos rfl]
          rfl

/-! ### Concrete interfaces -/

/-- a k-nearest query by sorting -/
def sortKnn {α D : Type} [LinearOrder D] (d : α → D) (k : Nat) (items : List α) : List α :=
  (items.insertionSort (fun x y => d x ≤ d y)).take k

theorem sortKnn_nearest {α D : Type} [LinearOrder D] (d : α → D) (k : Nat) (items : List α) :
    KNearest d k items (sortKnn d k items) := by
  haveI : Std.Total (fun x y : α => d x ≤ d y) := ⟨fun x y => le_total _ _⟩
  haveI : IsTrans α (fun x y : α => d x ≤ d y) := ⟨fun x y z => le_trans⟩
  refine ⟨(items.insertionSort (fun x y => d x ≤ d y)).drop k, ?_, ?_, ?_⟩
  · unfold sortKnn
    rw [List.take_append_drop]
    exact List.perm_insertionSort _ items
  · unfold sortKnn
    rw [List.length_take, List.length_insertionSort]
  · intro x hx y hy
    have hp := List.pairwise_insertionSort (fun x y : α => d x ≤ d y) items
    rw [← List.take_append_drop k (items.insertionSort _)] at hp
    exact (List.pairwise_append.1 hp).2.2 x hx y hy

/-- The contracts assumed of the spatial index and of the shortest-path search can be met, for every distance. -/
theorem C112_contracts_satisfiable {D : Type} [LinearOrder D] (e : Env K P) (d : P × P → P → D) :
    ∃ e' : Env K P, e'.hash = e.hash ∧ e'.line = e.line ∧ e'.touch = e.touch ∧ Index e' d ∧
      ∀ g a, RG.Spec.DijkstraMap (RG.Spec.VEdge g RG.drivingE RG.drivingV) (RG.Spec.VertOk g RG.drivingV) a (e'.dij g a) := by
  classical
  refine ⟨{ e with
    knn := fun k p items => sortKnn (fun x => d x.1 p) k items
    dij := fun g a => Classical.choose (RG.C33_contract_satisfiable (RG.Spec.VEdge g RG.drivingE RG.drivingV) a) },
    rfl, rfl, rfl, ?_, ?_⟩
  · intro k p items
    exact sortKnn_nearest _ k items
  · intro g a v _ hne
    exact Classical.choose_spec (RG.C33_contract_satisfiable (RG.Spec.VEdge g RG.drivingE RG.drivingV) a) v trivial hne

/-- squared distance of a point to a segment -/
def segDist2 (s : (ℚ × ℚ) × (ℚ × ℚ)) (p : ℚ × ℚ) : ℚ :=
  let ux := s.2.1 - s.1.1
  let uy := s.2.2 - s.1.2
  let n := ux * ux + uy * uy
  let t := if n = 0 then 0 else max 0 (min 1 (((p.1 - s.1.1) * ux + (p.2 - s.1.2) * uy) / n))
  let x := s.1.1 + t * ux - p.1
  let y := s.1.2 + t * uy - p.2
  x * x + y * y

/-- an environment over rational points: straight lanes `i` (with `i ≠ 21`) of length 1 beside each other, and lane 21 with a
hairpin bend, whose ends are far from the bend; only lane 21 touches the origin -/
def bendEnv : Env ℕ (ℚ × ℚ) where
  hash dir ids := Encodable.encode (ids, decide (dir = .forward), decide (dir = .both))
  len l := l.length
  fuel := 10
  dij _ _ _ := 0
  line i := if i = 21 then [(100, -1), (0, 0), (100, 1)] else [((i : ℚ), 2), ((i : ℚ), 3)]
  touch i p := if p = (0, 0) then some (decide (i = 21)) else some false
  knn k p items := sortKnn (fun x => segDist2 x.1 p) k items

/-- a road with lanes 1, …, n, all driving -/
def wide (n : Nat) : RG.XMap :=
  ⟨[(1, ⟨[(List.range n).map (fun i => ⟨i + 1, -(i + 1 : Int), true, .forward, 0, 0⟩)], 1000000, false, 1000000, false⟩)], []⟩

/-- the interface after loading `wide n` -/
def wideMI (n : Nat) : MI ℕ (ℚ × ℚ) := (setMap bendEnv MI.new (wide n)).1

theorem bend_noCollision : NoCollision bendEnv := by
  intro dir ids dir' ids' h
  have := Encodable.encode_injective h
  simp only [Prod.mk.injEq, decide_eq_decide] at this
  obtain ⟨h1, h2, h3⟩ := this
  refine ⟨?_, h1⟩
  cases dir <;> cases dir' <;> simp_all

theorem bend_index : Index bendEnv segDist2 := by
  intro k p items
  have h : bendEnv.knn k p items = sortKnn (fun x => segDist2 x.1 p) k items := rfl
  rw [h]
  exact sortKnn_nearest (fun x : Entry (ℚ × ℚ) => segDist2 x.1 p) k items

/-- Violation: a point in the bend of a lane whose ends are far away, with 20 other lanes near it: the lane is in the index and in
the graph and touches the point, yet no lane is found there; asking for the lane nearest to the point gives lane 1, which does not
touch it. -/
theorem C113_bend_violated :
    (findLane bendEnv (wideMI 21) (0, 0)) = .ok none ∧
    bendEnv.touch 21 (0, 0) = some true ∧ ((wideMI 21).rtree.map (fun x => x.2.id)).contains 21 = true ∧
    ((wideMI 21).graph.map (fun g => g.verts.any (fun v => v.lane.id == 21))) = some true ∧
    laneAtPolygon bendEnv (wideMI 21) (0, 0) = some 1 ∧ bendEnv.touch 1 (0, 0) = some false := by
  decide +kernel

/-- with one lane less beside it, it is found -/
example : (findLane { bendEnv with line := fun i => bendEnv.line (if i = 20 then 21 else i), touch := fun i => bendEnv.touch (if i = 20 then 21 else i) }
    (setMap { bendEnv with line := fun i => bendEnv.line (if i = 20 then 21 else i) } MI.new (wide 20)).1 (0, 0)).map (fun o => o.map (fun l => l.id)) =
    .ok (some 20) := by
  decide +kernel

/-- Violation: the route from lane 2 to the lane 1 beside it names their road twice -/
theorem C112_road_twice_violated :
    (generateTo { bendEnv with dij := fun _ _ _ => 1 } (wideMI 2) (2, 2) (1, 2)).map (fun r => r.2.map (fun c => c.ids)) = .ok (some [1, 1]) := by
  decide +kernel

/-- a history: the interface is new apart from its map; after the requests the cache has the corridors of both routes and not that
of a route nobody asked for -/
example : Fresh (wideMI 2) (wide 2) (match RG.generate (wide 2) with | .ok g => g | .error _ => ⟨[], []⟩) := ⟨rfl, rfl, rfl⟩

example : let s := [Op.generate [1] .forward, .generateTo (2, 2) (1, 2)].foldl (step { bendEnv with dij := fun _ _ _ => 1 }) (wideMI 2)
    (get bendEnv s [1] .forward).map (fun c => (c.ids, c.lanes.unique.length)) = some ([1], 2) ∧
    (get bendEnv s [1, 1] .forward).map (fun c => (c.ids, c.lanes.unique.length)) = some ([1, 1], 2) ∧
    (get bendEnv s [1] .backward).isNone = true := by
  decide +kernel

/-- an agent whose goal cannot be reached (there is no lane at all) -/
example : (agentCorridor bendEnv (wideMI 0) ⟨(0, 0), some (5, 5), [], .forward, none⟩).map (fun r => r.2.2) = .error .ub := by
  decide +kernel

end Bark.MapIf
