import Verif.Spec.RoadPath
import Verif.Props.RoadLinks
import Mathlib.Data.Finset.Card
import Mathlib.Data.Finset.Range
import Mathlib.Data.Finset.Filter
import Mathlib.Order.WellFounded

namespace Bark.RG
open Spec

section route
variable {E : Nat → Nat → Nat → Prop}

theorem Route.snoc {a b c w k : Nat} {l : List Nat} (r : Route E a b l k) (h : E b c w) :
    Route E a c (l ++ [c]) (k + w) := by
  induction r with
  | here a => simpa using Route.step h (Route.here c)
  | step h' _ ih => have := Route.step h' (ih h); rw [Nat.add_assoc]; simpa using this

theorem Route.unsnoc {a b k : Nat} {l : List Nat} (r : Route E a b l k) :
    (a = b ∧ l = [a] ∧ k = 0) ∨
      ∃ c l' k' w, Route E a c l' k' ∧ E c b w ∧ l = l' ++ [b] ∧ k = k' + w := by
  induction r with
  | here a => exact .inl ⟨rfl, rfl, rfl⟩
  | @step a b c w k l h r ih =>
    right
    rcases ih with ⟨rfl, rfl, rfl⟩ | ⟨d, l', k', w', r', h', rfl, rfl⟩
    · exact ⟨a, [a], 0, w, .here a, h, rfl, by omega⟩
    · exact ⟨d, a :: l', w + k', w', .step h r', h', rfl, by omega⟩

theorem Route.head {a b k : Nat} {l : List Nat} (r : Route E a b l k) : l.head? = some a := by
  cases r <;> rfl

theorem Route.last {a b k : Nat} {l : List Nat} (r : Route E a b l k) : l.getLast? = some b := by
  rcases Route.unsnoc r with ⟨rfl, rfl, _⟩ | ⟨_, _, _, _, _, _, rfl, _⟩ <;> simp

theorem dist_exists {a b : Nat} (h : Reach E a b) : ∃ d, Dist E a b d := by
  classical
  obtain ⟨l, k, r⟩ := h
  have hex : ∃ k l, Route E a b l k := ⟨k, l, r⟩
  refine ⟨Nat.find hex, Nat.find_spec hex, ?_⟩
  intro l' k' r'
  exact Nat.find_min' hex ⟨l', r'⟩

theorem dist_unique {a b d d' : Nat} (h : Dist E a b d) (h' : Dist E a b d') : d = d' := by
  obtain ⟨⟨l, r⟩, m⟩ := h
  obtain ⟨⟨l', r'⟩, m'⟩ := h'
  exact Nat.le_antisymm (m _ _ r') (m' _ _ r)

/-- such a predecessor map exists for every graph and start node -/
theorem C33_contract_satisfiable (E : Nat → Nat → Nat → Prop) (s : Nat) :
    ∃ p, DijkstraMap E (fun _ => True) s p := by
  classical
  have key : ∀ v, ∃ q, v ≠ s → (¬ Reach E s v → q = v) ∧
      (∀ d, Dist E s v d → ∃ w d', E q v w ∧ Dist E s q d' ∧ d = d' + w) := by
    intro v
    by_cases hv : v = s
    · exact ⟨v, fun h => absurd hv h⟩
    by_cases hr : Reach E s v
    · obtain ⟨d, hd⟩ := dist_exists hr
      obtain ⟨⟨l, r⟩, hm⟩ := hd
      rcases Route.unsnoc r with ⟨h, _⟩ | ⟨c, l', k', w, r', h', rfl, rfl⟩
      · exact absurd h.symm hv
      · refine ⟨c, fun _ => ⟨fun h => absurd hr h, ?_⟩⟩
        intro d hd
        refine ⟨w, k', h', ⟨⟨l', r'⟩, ?_⟩, ?_⟩
        · intro l'' k'' r''
          have := hm _ _ (Route.snoc r'' h')
          omega
        · exact dist_unique hd ⟨⟨_, r⟩, hm⟩
    · refine ⟨v, fun _ => ⟨fun _ => rfl, ?_⟩⟩
      intro d hd
      obtain ⟨⟨l, r⟩, _⟩ := hd
      exact absurd ⟨l, _, r⟩ hr
  choose p hp using key
  exact ⟨p, fun v _ hv => hp v hv⟩

end route

section walk
variable {E : Nat → Nat → Nat → Prop} {ok : Nat → Prop} {s n : Nat} {p : Nat → Nat}

open Classical in
/-- nodes below `n` that are closer to `s` than `v` -/
noncomputable def nearer (E : Nat → Nat → Nat → Prop) (s n v : Nat) : Nat :=
  ((Finset.range n).filter (fun u => ∃ d d', Dist E s u d ∧ Dist E s v d' ∧ d < d')).card

theorem nearer_le (v : Nat) : nearer E s n v ≤ n := by
  classical
  unfold nearer
  calc _ ≤ (Finset.range n).card := Finset.card_filter_le _ _
    _ = n := Finset.card_range n

theorem nearer_lt {u v d d' : Nat} (hu : u < n) (h1 : Dist E s u d) (h2 : Dist E s v d') (h : d < d') :
    nearer E s n u < nearer E s n v := by
  classical
  unfold nearer
  apply Finset.card_lt_card
  rw [Finset.ssubset_iff_of_subset]
  · refine ⟨u, ?_, ?_⟩
    · simp only [Finset.mem_filter, Finset.mem_range]; exact ⟨hu, d, d', h1, h2, h⟩
    · simp only [Finset.mem_filter, Finset.mem_range, not_and]
      rintro _ ⟨a, b, ha, hb, hab⟩
      have := dist_unique ha hb; omega
  · intro x
    simp only [Finset.mem_filter, Finset.mem_range]
    rintro ⟨hx, a, b, ha, hb, hab⟩
    refine ⟨hx, a, d', ha, h2, ?_⟩
    have := dist_unique hb h1; omega

/-- steps back along the predecessor map, abstractly -/
theorem back_step (hp : DijkstraMap E ok s p) (hw : ∀ {a b w}, E a b w → 0 < w) (hok : ∀ {a b w}, E a b w → ok a ∧ a < n)
    {v d : Nat} (hv : ok v) (hne : v ≠ s) (hd : Dist E s v d) :
    p v ≠ v ∧ ok (p v) ∧ ∃ w d', E (p v) v w ∧ Dist E s (p v) d' ∧ d = d' + w ∧ nearer E s n (p v) < nearer E s n v := by
  obtain ⟨w, d', h1, h2, h3⟩ := (hp v hv hne).2 d hd
  have hw' := hw h1
  refine ⟨?_, (hok h1).1, w, d', h1, h2, h3, nearer_lt (hok h1).2 h2 hd (by omega)⟩
  intro e
  rw [e] at h2
  have := dist_unique h2 hd
  omega

theorem walkBack_spec (g : Graph) (hp : DijkstraMap E ok s p) (hw : ∀ {a b w}, E a b w → 0 < w)
    (hok : ∀ {a b w}, E a b w → ok a ∧ a < n) : ∀ (fuel v d : Nat), ok v → Dist E s v d → nearer E s n v ≤ fuel →
    ∃ L r, walkBack g p s fuel v = some L ∧ Route E s v r d ∧
      (L ++ [(idAt g s).getD 0]).reverse = r.map (fun x => (idAt g x).getD 0) := by
  intro fuel
  induction fuel with
  | zero =>
    intro v d hv hd hle
    by_cases hne : v = s
    · subst hne
      have : Dist E v v 0 := ⟨⟨[v], .here v⟩, fun _ _ _ => Nat.zero_le _⟩
      rw [dist_unique hd this]
      exact ⟨[], [v], rfl, .here v, rfl⟩
    · obtain ⟨_, _, _, _, _, _, _, h⟩ := back_step (n := n) hp hw hok hv hne hd
      omega
  | succ m ih =>
    intro v d hv hd hle
    by_cases hne : v = s
    · subst hne
      have : Dist E v v 0 := ⟨⟨[v], .here v⟩, fun _ _ _ => Nat.zero_le _⟩
      rw [dist_unique hd this]
      exact ⟨[], [v], by simp [walkBack], .here v, rfl⟩
    · obtain ⟨h1, h2, w, d', h3, h4, h5, h6⟩ := back_step (n := n) hp hw hok hv hne hd
      obtain ⟨L, r, e1, e2, e3⟩ := ih (p v) d' h2 h4 (by omega)
      refine ⟨(idAt g v).getD 0 :: L, r ++ [v], ?_, ?_, ?_⟩
      · simp [walkBack, hne, h1, e1]
      · rw [h5]; exact Route.snoc e2 h3
      · rw [List.map_append, ← e3]; simp

theorem walkSub_spec (g : Graph) (hp : DijkstraMap E ok s p) (hw : ∀ {a b w}, E a b w → 0 < w)
    (hok : ∀ {a b w}, E a b w → ok a ∧ a < n) : ∀ (fuel v d : Nat), ok v → Dist E s v d → nearer E s n v ≤ fuel →
    ∃ L r, walkSub g p s fuel v = .ok (some L) ∧ Route E s v r d ∧
      (L ++ [(idAt g s).getD 0]).reverse = r.map (fun x => (idAt g x).getD 0) := by
  intro fuel
  induction fuel with
  | zero =>
    intro v d hv hd hle
    by_cases hne : v = s
    · subst hne
      have : Dist E v v 0 := ⟨⟨[v], .here v⟩, fun _ _ _ => Nat.zero_le _⟩
      rw [dist_unique hd this]
      exact ⟨[], [v], by simp [walkSub], .here v, rfl⟩
    · obtain ⟨_, _, _, _, _, _, _, h⟩ := back_step (n := n) hp hw hok hv hne hd
      omega
  | succ m ih =>
    intro v d hv hd hle
    by_cases hne : v = s
    · subst hne
      have : Dist E v v 0 := ⟨⟨[v], .here v⟩, fun _ _ _ => Nat.zero_le _⟩
      rw [dist_unique hd this]
      exact ⟨[], [v], by simp [walkSub], .here v, rfl⟩
    · obtain ⟨h1, h2, w, d', h3, h4, h5, h6⟩ := back_step (n := n) hp hw hok hv hne hd
      obtain ⟨L, r, e1, e2, e3⟩ := ih (p v) d' h2 h4 (by omega)
      refine ⟨(idAt g v).getD 0 :: L, r ++ [v], ?_, ?_, ?_⟩
      · simp [walkSub, hne, h1, e1, Except.map]
      · rw [h5]; exact Route.snoc e2 h3
      · rw [List.map_append, ← e3]; simp

end walk

section
variable {g : Graph} {okE : Graph → Edge → Bool} {okV : Vert → Bool}

theorem visible_iff {e : Edge} : visible g okE okV e = true ↔
    okE g e = true ∧ ∃ a b, g.verts[e.src]? = some a ∧ g.verts[e.dst]? = some b ∧ okV a = true ∧ okV b = true := by
  unfold visible
  cases h1 : g.verts[e.src]? with
  | none => simp
  | some a =>
    cases h2 : g.verts[e.dst]? with
    | none => simp
    | some b => simp

theorem vedge_pos {a b w : Nat} (h : VEdge g okE okV a b w) : 0 < w := by
  obtain ⟨e, _, _, _, _, rfl⟩ := h
  unfold weight; split_ifs <;> omega

theorem vedge_ok {a b w : Nat} (h : VEdge g okE okV a b w) :
    (VertOk g okV a ∧ a < g.verts.length) ∧ VertOk g okV b ∧ b < g.verts.length := by
  obtain ⟨e, _, h1, rfl, rfl, _⟩ := h
  obtain ⟨_, x, y, hx, hy, ox, oy⟩ := visible_iff.1 h1
  exact ⟨⟨⟨x, hx, ox⟩, (List.getElem?_eq_some_iff.1 hx).1⟩, ⟨y, hy, oy⟩, (List.getElem?_eq_some_iff.1 hy).1⟩

theorem vertex_unique (hu : UniqueIds g) {v : Nat} {x : Vert} (hx : g.verts[v]? = some x) :
    lookup g x.lane.id = some v := by
  obtain ⟨w, hw'⟩ := lookup_known (List.mem_of_getElem? hx)
  obtain ⟨y, hy, e⟩ := lookup_some hw'
  have hlt := (List.getElem?_eq_some_iff.1 hx).1
  have hlt2 := (List.getElem?_eq_some_iff.1 hy).1
  have : v = w := by
    apply (List.Nodup.getElem_inj_iff hu (i := v) (j := w) (hi := by simpa using hlt) (hj := by simpa using hlt2)).1
    have f1 := (List.getElem?_eq_some_iff.1 hx).2
    have f2 := (List.getElem?_eq_some_iff.1 hy).2
    simp [f1, f2, e]
  rw [this]; exact hw'

theorem route_ids {a b k : Nat} {l : List Nat} (r : Route (VEdge g okE okV) a b l k) :
    ∀ {x y : Nat}, idAt g a = some x → idAt g b = some y →
      Route (LEdge g okE okV) x y (l.map (fun v => (idAt g v).getD 0)) k := by
  induction r with
  | here a => intro x y h1 h2; rw [h1] at h2; cases h2; simp [h1]; exact .here x
  | @step a b c w k l h r ih =>
    intro x y h1 h2
    obtain ⟨e, he, hv, rfl, rfl, rfl⟩ := h
    obtain ⟨o, u, v, hu, hv', ou, ov⟩ := visible_iff.1 hv
    have hb : idAt g e.dst = some v.lane.id := by simp [idAt, hv']
    have ha : u.lane.id = x := by simpa [idAt, hu] using h1
    have := ih hb h2
    simp only [List.map_cons, h1, Option.getD_some]
    exact .step ⟨e, he, o, rfl, u, v, hu, hv', ou, ov, ha, rfl⟩ this

theorem route_verts (hu : UniqueIds g) {x y k : Nat} {l : List Nat} (r : Route (LEdge g okE okV) x y l k) :
    ∀ {a b : Nat}, lookup g x = some a → lookup g y = some b → ∃ l', Route (VEdge g okE okV) a b l' k := by
  induction r with
  | here x => intro a b h1 h2; rw [h1] at h2; cases h2; exact ⟨[a], .here a⟩
  | @step x z y w k l h r ih =>
    intro a b h1 h2
    obtain ⟨e, he, o, rfl, u, v, hu', hv', ou, ov, rfl, rfl⟩ := h
    have e1 := vertex_unique hu hu'
    rw [h1] at e1; cases e1
    obtain ⟨l', r'⟩ := ih (vertex_unique hu hv') h2
    exact ⟨e.src :: l', .step ⟨e, he, visible_iff.2 ⟨o, u, v, hu', hv', ou, ov⟩, rfl, rfl, rfl⟩ r'⟩

theorem inFiltered_iff {id : Nat} : inFiltered g okV id = true ↔ LaneOk g okV id := by
  unfold inFiltered LaneOk
  simp [List.any_eq_true]

theorem laneOk_vert (hu : UniqueIds g) {id : Nat} (h : LaneOk g okV id) : ∃ v, lookup g id = some v ∧ VertOk g okV v := by
  obtain ⟨x, hx, rfl, ho⟩ := h
  obtain ⟨v, hlt, e⟩ := List.mem_iff_getElem.1 hx
  have : g.verts[v]? = some x := by rw [List.getElem?_eq_getElem hlt, e]
  exact ⟨v, vertex_unique hu this, x, this, ho⟩

/-- **Lane path search.** With unique lane ids and a shortest-path search that meets its contract, `FindPath` returns the empty
path exactly if one of the lanes is not in the filtered graph or the goal cannot be reached; any other answer is a sequence of
lanes from start to goal, joined by edges of the filtered graph, of minimal cost. -/
theorem C33_find_path (hu : UniqueIds g) {p : Nat → Nat → Nat}
    (hp : ∀ a, DijkstraMap (VEdge g okE okV) (VertOk g okV) a (p a)) (s t : Nat) :
    (findPath g okV p s t = [] ↔ ¬ (LaneOk g okV s ∧ LaneOk g okV t ∧ Reach (LEdge g okE okV) s t)) ∧
    (findPath g okV p s t ≠ [] → Cheapest (LEdge g okE okV) s t (findPath g okV p s t)) := by
  by_cases hs : LaneOk g okV s
  swap
  · have : findPath g okV p s t = [] := by
      unfold findPath
      split
      · rw [if_neg]; intro h; simp only [Bool.and_eq_true] at h; exact hs (inFiltered_iff.1 h.1)
      · rfl
    simp [this, hs]
  by_cases ht : LaneOk g okV t
  swap
  · have : findPath g okV p s t = [] := by
      unfold findPath
      split
      · rw [if_neg]; intro h; simp only [Bool.and_eq_true] at h; exact ht (inFiltered_iff.1 h.2)
      · rfl
    simp [this, ht]
  obtain ⟨a, ha, oa⟩ := laneOk_vert hu hs
  obtain ⟨b, hb, ob⟩ := laneOk_vert hu ht
  have ea := idAt_lookup ha
  have eb := idAt_lookup hb
  have hf : findPath g okV p s t =
      match walkBack g (p a) a g.verts.length b with
      | some l => (l ++ [(idAt g a).getD 0]).reverse
      | none => [] := by
    unfold findPath
    rw [ha, hb]
    simp only [inFiltered_iff.2 hs, inFiltered_iff.2 ht, Bool.and_self, if_true]
    cases walkBack g (p a) a g.verts.length b <;> rfl
  by_cases hr : Reach (VEdge g okE okV) a b
  · obtain ⟨d, hd⟩ := dist_exists hr
    obtain ⟨L, r, e1, e2, e3⟩ := walkBack_spec (n := g.verts.length) g (hp a) vedge_pos (fun h => (vedge_ok h).1)
      g.verts.length b d ob hd (nearer_le b)
    have hne : findPath g okV p s t ≠ [] := by rw [hf, e1]; simp
    have hroute : Route (LEdge g okE okV) s t (findPath g okV p s t) d := by
      rw [hf, e1]
      simp only
      rw [e3]
      exact route_ids e2 ea eb
    refine ⟨⟨fun h => absurd h hne, fun h => absurd ⟨hs, ht, _, _, hroute⟩ h⟩, fun _ => ⟨d, hroute, ?_⟩⟩
    intro l' k' r'
    obtain ⟨l'', r''⟩ := route_verts hu r' ha hb
    exact hd.2 _ _ r''
  · have hne : b ≠ a := by
      rintro rfl; exact hr ⟨[b], 0, .here b⟩
    have hself := (hp a b ob hne).1 hr
    have hpos : 0 < g.verts.length := lt_of_le_of_lt (Nat.zero_le _) (lookup_lt ha)
    have hw : walkBack g (p a) a g.verts.length b = none := by
      obtain ⟨n, hn⟩ : ∃ n, g.verts.length = n + 1 := ⟨g.verts.length - 1, by omega⟩
      rw [hn]; simp [walkBack, hne, hself]
    have he : findPath g okV p s t = [] := by rw [hf, hw]
    refine ⟨⟨fun _ => ?_, fun _ => he⟩, fun h => absurd he h⟩
    rintro ⟨_, _, l, k, r⟩
    obtain ⟨l', r'⟩ := route_verts hu r ha hb
    exact hr ⟨l', k, r'⟩

theorem weight_cost (t : Ty) : weight t = cost t := by cases t <;> rfl

theorem ledge_drive : LEdge g drivingE drivingV = DriveEdge g := by
  funext x y w
  apply propext
  unfold LEdge DriveEdge EdgeBetween
  simp only [weight_cost]
  constructor
  · rintro ⟨e, he, _, hw, a, b, ha, hb, oa, ob, h⟩
    exact ⟨e, he, trivial, hw, a, b, ha, hb, oa, ob, h⟩
  · rintro ⟨e, he, _, hw, a, b, ha, hb, oa, ob, h⟩
    refine ⟨e, he, ?_, hw, a, b, ha, hb, oa, ob, h⟩
    unfold drivingE
    rw [ha, hb]
    simp [oa, ob]

theorem ledge_road : LEdge g roadE (fun _ => true) = RoadEdge g := by
  funext x y w
  apply propext
  unfold LEdge RoadEdge EdgeBetween roadE
  simp [weight_cost]

theorem ledge_sub (types : List Ty) (lanes : List Nat) : LEdge g (subE types) (subV lanes) = SubEdge g types lanes := by
  funext x y w
  apply propext
  unfold LEdge SubEdge EdgeBetween subE subV
  simp [weight_cost]

theorem laneOk_drive {i : Nat} : LaneOk g drivingV i ↔ HasLane g (fun l => l.driving = true) i := Iff.rfl

theorem laneOk_sub {lanes : List Nat} {i : Nat} : LaneOk g (subV lanes) i ↔ HasLane g (fun l => l.id ∈ lanes) i := by
  unfold LaneOk HasLane subV
  simp

/-- `FindDrivableLanePath`: additionally every lane of the answer is a driving lane -/
theorem C33_drivable_path (hu : UniqueIds g) {p : Nat → Nat → Nat}
    (hp : ∀ a, DijkstraMap (VEdge g drivingE drivingV) (VertOk g drivingV) a (p a)) (s t : Nat) :
    (findDrivableLanePath g p s t = [] ↔
      ¬ (HasLane g (fun l => l.driving = true) s ∧ HasLane g (fun l => l.driving = true) t ∧ Reach (DriveEdge g) s t)) ∧
    (findDrivableLanePath g p s t ≠ [] →
      Cheapest (DriveEdge g) s t (findDrivableLanePath g p s t) ∧
      ∀ j ∈ findDrivableLanePath g p s t, HasLane g (fun l => l.driving = true) j) := by
  rw [← ledge_drive]
  simp only [← laneOk_drive]
  obtain ⟨h1, h2⟩ := C33_find_path hu hp s t
  refine ⟨h1, fun hne => ⟨h2 hne, ?_⟩⟩
  have hs : LaneOk g drivingV s := by
    by_contra hc
    exact hne (h1.2 (fun h => hc h.1))
  obtain ⟨k, r, _⟩ := h2 hne
  have : ∀ {a b l k}, Route (LEdge g drivingE drivingV) a b l k → LaneOk g drivingV a → ∀ j ∈ l, LaneOk g drivingV j := by
    intro a b l k r
    induction r with
    | here a => intro ha j hj; simp at hj; rw [hj]; exact ha
    | @step a b c w k l h r ih =>
      intro ha j hj
      rcases List.mem_cons.1 hj with rfl | hj
      · exact ha
      · obtain ⟨e, _, _, _, x, y, _, hy, _, oy, _, rfl⟩ := h
        exact ih ⟨y, List.mem_of_getElem? hy, rfl, oy⟩ j hj
  exact this r hs

/-! ### C65 -/

theorem foldr_ok {α β : Type} (L : List α) (h : α → Res (List β)) (f : α → List β) (hf : ∀ a ∈ L, h a = .ok (f a)) :
    L.foldr (fun ab acc => do
      let x ← h ab
      let y ← acc
      .ok (x ++ y)) (.ok []) = (.ok (L.flatMap f) : Res (List β)) := by
  induction L with
  | nil => rfl
  | cons a L ih =>
    rw [List.foldr_cons, ih (fun a ha => hf a (List.mem_cons_of_mem _ ha)), hf a (by simp)]
    rfl

theorem mem_fVerts {v : Nat} : v ∈ fVerts g okV ↔ VertOk g okV v := by
  unfold fVerts VertOk
  simp only [List.mem_filter, List.mem_range]
  constructor
  · rintro ⟨hlt, h⟩
    rw [List.getElem?_eq_getElem hlt] at h
    exact ⟨_, List.getElem?_eq_getElem hlt, by simpa using h⟩
  · rintro ⟨x, hx, ho⟩
    exact ⟨(List.getElem?_eq_some_iff.1 hx).1, by simp [hx, ho]⟩

theorem pathTo_spec {p : Nat → Nat} {a b : Nat} (hp : DijkstraMap (VEdge g okE okV) (VertOk g okV) a p)
    (oa : VertOk g okV a) (ob : VertOk g okV b) :
    (Reach (VEdge g okE okV) a b → ∃ r d, Route (VEdge g okE okV) a b r d ∧ Dist (VEdge g okE okV) a b d ∧
      pathTo g p a b = .ok [r.map (fun x => (idAt g x).getD 0)]) ∧
    (¬ Reach (VEdge g okE okV) a b → pathTo g p a b = .ok []) := by
  constructor
  · intro hr
    obtain ⟨d, hd⟩ := dist_exists hr
    obtain ⟨L, r, e1, e2, e3⟩ := walkSub_spec (n := g.verts.length) g hp vedge_pos (fun h => (vedge_ok h).1)
      g.verts.length b d ob hd (nearer_le b)
    refine ⟨r, d, e2, hd, ?_⟩
    unfold pathTo
    rw [e1, ← e3]
    rfl
  · intro hr
    have hne : b ≠ a := by
      rintro rfl; exact hr ⟨[b], 0, .here b⟩
    have hself := (hp b ob hne).1 hr
    obtain ⟨x, hx, _⟩ := oa
    have hpos := (List.getElem?_eq_some_iff.1 hx).1
    unfold pathTo
    obtain ⟨n, hn⟩ : ∃ n, g.verts.length = n + 1 := ⟨g.verts.length - 1, by omega⟩
    rw [hn]; simp [walkSub, hne, hself, Except.map]

theorem vert_id {v : Nat} (h : VertOk g okV v) : ∃ i, idAt g v = some i ∧ LaneOk g okV i := by
  obtain ⟨x, hx, ho⟩ := h
  exact ⟨x.lane.id, by simp [idAt, hx], x, List.mem_of_getElem? hx, rfl, ho⟩

theorem lookup_of_idAt (hu : UniqueIds g) {v i : Nat} (h : idAt g v = some i) : lookup g i = some v := by
  unfold idAt at h
  cases hx : g.verts[v]? with
  | none => rw [hx] at h; cases h
  | some x => rw [hx] at h; simp at h; rw [← h]; exact vertex_unique hu hx

theorem ledge_iff (hu : UniqueIds g) {a b i j : Nat} (ha : lookup g i = some a) (hb : lookup g j = some b) (w : Nat) :
    LEdge g okE okV i j w ↔ VEdge g okE okV a b w := by
  constructor
  · rintro ⟨e, he, o, rfl, x, y, hx, hy, ox, oy, rfl, rfl⟩
    have e1 := vertex_unique hu hx
    have e2 := vertex_unique hu hy
    rw [ha] at e1; rw [hb] at e2; cases e1; cases e2
    exact ⟨e, he, visible_iff.2 ⟨o, x, y, hx, hy, ox, oy⟩, rfl, rfl, rfl⟩
  · rintro ⟨e, he, hv, rfl, rfl, rfl⟩
    obtain ⟨o, x, y, hx, hy, ox, oy⟩ := visible_iff.1 hv
    have e1 := idAt_lookup ha
    have e2 := idAt_lookup hb
    exact ⟨e, he, o, rfl, x, y, hx, hy, ox, oy, by simpa [idAt, hx] using e1, by simpa [idAt, hy] using e2⟩

/-- lanes without predecessor in the filtered graph -/
def SrcF (g : Graph) (types : List Ty) (lanes : List Nat) (s : Nat) : Prop :=
  LaneOk g (subV lanes) s ∧ ∀ x w, ¬ LEdge g (subE types) (subV lanes) x s w

/-- lanes without successor in the filtered graph -/
def SnkF (g : Graph) (types : List Ty) (lanes : List Nat) (t : Nat) : Prop :=
  LaneOk g (subV lanes) t ∧ ∀ x w, ¬ LEdge g (subE types) (subV lanes) t x w

theorem all_paths_filtered (hu : UniqueIds g) (types : List Ty) (lanes : List Nat) {p : Nat → Nat → Nat}
    (hp : ∀ a, DijkstraMap (VEdge g (subE types) (subV lanes)) (VertOk g (subV lanes)) a (p a)) :
    ∃ P, findAllPaths g types lanes p = .ok P ∧
      (∀ l ∈ P, ∃ s t, SrcF g types lanes s ∧ SnkF g types lanes t ∧
        Cheapest (LEdge g (subE types) (subV lanes)) s t l) ∧
      (∀ s t, SrcF g types lanes s → SnkF g types lanes t → Reach (LEdge g (subE types) (subV lanes)) s t →
        ∃ l ∈ P, Cheapest (LEdge g (subE types) (subV lanes)) s t l) ∧
      P.Pairwise (fun l l' => ¬ (l.head? = l'.head? ∧ l.getLast? = l'.getLast?)) := by
  classical
  let vis := g.edges.filter (visible g (subE types) (subV lanes))
  let sources := (fVerts g (subV lanes)).filter (fun v => !vis.any (fun e => e.dst == v))
  let sinks := (fVerts g (subV lanes)).filter (fun v => !vis.any (fun e => e.src == v))
  let f : Nat × Nat → List (List Nat) := fun ab =>
    match pathTo g (p ab.1) ab.1 ab.2 with
    | .ok l => l
    | .error _ => []
  have hsrc : ∀ a, a ∈ sources ↔ VertOk g (subV lanes) a ∧ ∀ x w, ¬ VEdge g (subE types) (subV lanes) x a w := by
    intro a
    simp only [sources, List.mem_filter, mem_fVerts, Bool.not_eq_true', List.any_eq_false, vis]
    refine and_congr_right (fun _ => ?_)
    constructor
    · rintro h x w ⟨e, he, hv, _, rfl, _⟩
      exact h e ⟨he, hv⟩ (by simp)
    · rintro h e ⟨he, hv⟩ hd
      exact h e.src _ ⟨e, he, hv, rfl, by simpa using hd, rfl⟩
  have hsnk : ∀ a, a ∈ sinks ↔ VertOk g (subV lanes) a ∧ ∀ x w, ¬ VEdge g (subE types) (subV lanes) a x w := by
    intro a
    simp only [sinks, List.mem_filter, mem_fVerts, Bool.not_eq_true', List.any_eq_false, vis]
    refine and_congr_right (fun _ => ?_)
    constructor
    · rintro h x w ⟨e, he, hv, rfl, _, _⟩
      exact h e ⟨he, hv⟩ (by simp)
    · rintro h e ⟨he, hv⟩ hd
      exact h e.dst _ ⟨e, he, hv, by simpa using hd, rfl, rfl⟩
  have hS : ∀ a i, a ∈ sources → idAt g a = some i → SrcF g types lanes i := by
    intro a i ha hi
    obtain ⟨oa, h⟩ := (hsrc a).1 ha
    obtain ⟨i', h1, h2⟩ := vert_id oa
    rw [hi] at h1; cases h1
    refine ⟨h2, fun x w hl => ?_⟩
    obtain ⟨e, he, o, rfl, u, v, hu', hv', ou, ov, rfl, rfl⟩ := hl
    have := vertex_unique hu hv'
    rw [lookup_of_idAt hu hi] at this; cases this
    exact h e.src _ ⟨e, he, visible_iff.2 ⟨o, u, v, hu', hv', ou, ov⟩, rfl, rfl, rfl⟩
  have hT : ∀ a i, a ∈ sinks → idAt g a = some i → SnkF g types lanes i := by
    intro a i ha hi
    obtain ⟨oa, h⟩ := (hsnk a).1 ha
    obtain ⟨i', h1, h2⟩ := vert_id oa
    rw [hi] at h1; cases h1
    refine ⟨h2, fun x w hl => ?_⟩
    obtain ⟨e, he, o, rfl, u, v, hu', hv', ou, ov, rfl, rfl⟩ := hl
    have := vertex_unique hu hu'
    rw [lookup_of_idAt hu hi] at this; cases this
    exact h e.dst _ ⟨e, he, visible_iff.2 ⟨o, u, v, hu', hv', ou, ov⟩, rfl, rfl, rfl⟩
  have hcheap : ∀ a b i j r d, idAt g a = some i → idAt g b = some j →
      Route (VEdge g (subE types) (subV lanes)) a b r d → Dist (VEdge g (subE types) (subV lanes)) a b d →
      Cheapest (LEdge g (subE types) (subV lanes)) i j (r.map (fun x => (idAt g x).getD 0)) := by
    intro a b i j r d hi hj hr hd
    refine ⟨d, route_ids hr hi hj, ?_⟩
    intro l' k' r'
    obtain ⟨l'', r''⟩ := route_verts hu r' (lookup_of_idAt hu hi) (lookup_of_idAt hu hj)
    exact hd.2 _ _ r''
  have hpairs : ∀ ab ∈ sources.flatMap (fun a => sinks.map (fun b => (a, b))), ab.1 ∈ sources ∧ ab.2 ∈ sinks := by
    intro ab h
    obtain ⟨a, ha, h⟩ := List.mem_flatMap.1 h
    obtain ⟨b, hb, rfl⟩ := List.mem_map.1 h
    exact ⟨ha, hb⟩
  refine ⟨(sources.flatMap (fun a => sinks.map (fun b => (a, b)))).flatMap f, ?_, ?_, ?_, ?_⟩
  · refine foldr_ok _ (fun ab => pathTo g (p ab.1) ab.1 ab.2) f ?_
    intro ab hab
    obtain ⟨h1, h2⟩ := hpairs ab hab
    obtain ⟨c1, c2⟩ := pathTo_spec (hp ab.1) ((hsrc _).1 h1).1 ((hsnk _).1 h2).1
    by_cases hr : Reach (VEdge g (subE types) (subV lanes)) ab.1 ab.2
    · obtain ⟨r, d, _, _, e⟩ := c1 hr
      simp only [f, e]
    · simp only [f, c2 hr]
  · intro l hl
    obtain ⟨ab, hab, hl⟩ := List.mem_flatMap.1 hl
    obtain ⟨h1, h2⟩ := hpairs ab hab
    obtain ⟨c1, c2⟩ := pathTo_spec (hp ab.1) ((hsrc _).1 h1).1 ((hsnk _).1 h2).1
    obtain ⟨i, hi, _⟩ := vert_id ((hsrc _).1 h1).1
    obtain ⟨j, hj, _⟩ := vert_id ((hsnk _).1 h2).1
    by_cases hr : Reach (VEdge g (subE types) (subV lanes)) ab.1 ab.2
    · obtain ⟨r, d, hr, hd, e⟩ := c1 hr
      simp only [f, e, List.mem_singleton] at hl
      subst hl
      exact ⟨i, j, hS _ _ h1 hi, hT _ _ h2 hj, hcheap _ _ _ _ _ _ hi hj hr hd⟩
    · simp [f, c2 hr] at hl
  · rintro s t ⟨hs, hs'⟩ ⟨ht, ht'⟩ ⟨l, k, hr⟩
    obtain ⟨a, ha, oa⟩ := laneOk_vert hu hs
    obtain ⟨b, hb, ob⟩ := laneOk_vert hu ht
    have has : a ∈ sources := by
      refine (hsrc a).2 ⟨oa, fun x w hv => ?_⟩
      obtain ⟨i, hi, _⟩ := vert_id (vedge_ok hv).1.1
      exact hs' i w ((ledge_iff hu (lookup_of_idAt hu hi) ha w).2 hv)
    have hbs : b ∈ sinks := by
      refine (hsnk b).2 ⟨ob, fun x w hv => ?_⟩
      obtain ⟨i, hi, _⟩ := vert_id (vedge_ok hv).2.1
      exact ht' i w ((ledge_iff hu hb (lookup_of_idAt hu hi) w).2 hv)
    obtain ⟨l', r'⟩ := route_verts hu hr ha hb
    obtain ⟨r, d, hr, hd, e⟩ := (pathTo_spec (hp a) oa ob).1 ⟨l', k, r'⟩
    refine ⟨r.map (fun x => (idAt g x).getD 0), ?_, hcheap _ _ _ _ _ _ (idAt_lookup ha) (idAt_lookup hb) hr hd⟩
    refine List.mem_flatMap.2 ⟨(a, b), List.mem_flatMap.2 ⟨a, has, List.mem_map.2 ⟨b, hbs, rfl⟩⟩, ?_⟩
    simp [f, e]
  · have hone : ∀ ab ∈ sources.flatMap (fun a => sinks.map (fun b => (a, b))), f ab = [] ∨ ∃ l, f ab = [l] ∧
        l.head? = idAt g ab.1 ∧ l.getLast? = idAt g ab.2 := by
      intro ab hab
      obtain ⟨h1, h2⟩ := hpairs ab hab
      obtain ⟨c1, c2⟩ := pathTo_spec (hp ab.1) ((hsrc _).1 h1).1 ((hsnk _).1 h2).1
      obtain ⟨i, hi, _⟩ := vert_id ((hsrc _).1 h1).1
      obtain ⟨j, hj, _⟩ := vert_id ((hsnk _).1 h2).1
      by_cases hr : Reach (VEdge g (subE types) (subV lanes)) ab.1 ab.2
      · obtain ⟨r, d, hr, hd, e⟩ := c1 hr
        refine Or.inr ⟨r.map (fun x => (idAt g x).getD 0), by simp only [f, e], ?_, ?_⟩
        · rw [List.head?_map, Route.head hr]; simp [hi]
        · rw [List.getLast?_map, Route.last hr]; simp [hj]
      · exact Or.inl (by simp only [f, c2 hr])
    have hnd : (sources.flatMap (fun a => sinks.map (fun b => (a, b)))).Nodup := by
      have h1 : sources.Nodup := (List.nodup_range.filter _).filter _
      have h2 : sinks.Nodup := (List.nodup_range.filter _).filter _
      refine List.nodup_flatMap.2 ⟨fun a _ => h2.map (fun x y h => (Prod.mk.inj h).2), h1.imp ?_⟩
      intro a b hab
      simp only [Function.onFun, List.disjoint_left, List.mem_map]
      rintro _ ⟨x, _, rfl⟩ ⟨y, _, e⟩
      exact hab (Prod.mk.inj e).1.symm
    refine List.pairwise_flatMap.2 ⟨fun ab hab => ?_, List.Pairwise.imp_of_mem ?_ hnd⟩
    · rcases hone ab hab with h | ⟨l, h, _⟩ <;> simp [h]
    · rintro ab cd hab hcd hne l hl l' hl' ⟨e1, e2⟩
      obtain ⟨h1, h2⟩ := hpairs ab hab
      obtain ⟨h3, h4⟩ := hpairs cd hcd
      obtain ⟨i, hi, _⟩ := vert_id ((hsrc _).1 h1).1
      obtain ⟨j, hj, _⟩ := vert_id ((hsnk _).1 h2).1
      rcases hone ab hab with h | ⟨m, h, ha, hb⟩
      · simp [h] at hl
      rcases hone cd hcd with h' | ⟨m', h', hc, hd⟩
      · simp [h'] at hl'
      rw [h, List.mem_singleton] at hl
      rw [h', List.mem_singleton] at hl'
      subst hl; subst hl'
      rw [ha, hc, hi] at e1
      rw [hb, hd, hj] at e2
      refine hne (Prod.ext ?_ ?_)
      · have u1 := lookup_of_idAt hu hi
        rw [lookup_of_idAt hu e1.symm] at u1
        exact (Option.some.inj u1).symm
      · have u1 := lookup_of_idAt hu hj
        rw [lookup_of_idAt hu e2.symm] at u1
        exact (Option.some.inj u1).symm

/-- **All paths of a subgraph.** With unique ids and a search that meets its contract the call returns; every path returned is a
cheapest way from a lane without predecessor to a lane without successor, and for every such pair that is connected there is
one, and only one. -/
theorem C65_all_paths (hu : UniqueIds g) (types : List Ty) (lanes : List Nat) {p : Nat → Nat → Nat}
    (hp : ∀ a, DijkstraMap (VEdge g (subE types) (subV lanes)) (VertOk g (subV lanes)) a (p a)) :
    ∃ P, findAllPaths g types lanes p = .ok P ∧
      (∀ l ∈ P, ∃ s t, Source g types lanes s ∧ Sink g types lanes t ∧
        Cheapest (SubEdge g types lanes) s t l) ∧
      (∀ s t, Source g types lanes s → Sink g types lanes t → Reach (SubEdge g types lanes) s t →
        ∃ l ∈ P, Cheapest (SubEdge g types lanes) s t l) ∧
      P.Pairwise (fun l l' => ¬ (l.head? = l'.head? ∧ l.getLast? = l'.getLast?)) := by
  have e1 : ∀ s, SrcF g types lanes s ↔ Source g types lanes s := by
    intro s; unfold SrcF Source; rw [ledge_sub, laneOk_sub]
  have e2 : ∀ s, SnkF g types lanes s ↔ Sink g types lanes s := by
    intro s; unfold SnkF Sink; rw [ledge_sub, laneOk_sub]
  rw [← ledge_sub]
  simp only [← e1, ← e2]
  exact all_paths_filtered hu types lanes hp

/-- Violation: on a graph generated from a map, where lane links run in both directions, the only "paths" along lane links are
single lanes that are linked to no lane of the subset. (`ComputeAllPathBoundaries` asks exactly this.) -/
theorem C65_generated_only_isolated {m : XMap} (hw : WellFormed m) (hc : Complete m) (hg : generate m = .ok g)
    (lanes : List Nat) {p : Nat → Nat → Nat}
    (hp : ∀ a, DijkstraMap (VEdge g (subE [.laneSucc]) (subV lanes)) (VertOk g (subV lanes)) a (p a)) {P : List (List Nat)}
    (h : findAllPaths g [.laneSucc] lanes p = .ok P) {l : List Nat} (hl : l ∈ P) : ∃ s, l = [s] := by
  have hverts : g.verts = m.lanes := (generate_same hg).1.trans (base_verts m)
  have hu : UniqueIds g := by unfold UniqueIds; rw [hverts]; exact hw.ids
  obtain ⟨P', h1, h2, _⟩ := all_paths_filtered hu [.laneSucc] lanes hp
  rw [h1] at h; cases h
  obtain ⟨s, t, hs, _, k, r, _⟩ := h2 l hl
  cases r with
  | here => exact ⟨s, rfl⟩
  | @step _ b _ w k l he r =>
    exfalso
    obtain ⟨e, he, o, rfl, u, v, hu', hv', ou, ov, rfl, rfl⟩ := he
    have hty : e.ty = .laneSucc := by simpa [subE] using o
    have h3 : HasEdge g .laneSucc u.lane.id v.lane.id :=
      ⟨e.src, e.dst, vertex_unique hu hu', vertex_unique hu hv', by rw [← hty]; exact he⟩
    have h4 : HasEdge g .laneSucc v.lane.id u.lane.id := by
      rw [generated_edges hw hc hg] at h3 ⊢
      obtain ⟨a, b, ht, hp⟩ := h3
      exact ⟨a, b, ht, by unfold Pair at hp ⊢; tauto⟩
    obtain ⟨x, y, hx, hy, he'⟩ := h4
    rw [vertex_unique hu hv'] at hx; cases hx
    rw [vertex_unique hu hu'] at hy; cases hy
    exact hs.2 v.lane.id _ ⟨_, he', by simp [subE], rfl, v, u, hv', hu', ov, ou, rfl, rfl⟩

/-! ### Road paths and C34 -/

/-- `FindRoadPath` between two roads with a reference lane: it is empty iff the reference lanes are not connected by road links;
otherwise it lists the roads of a cheapest chain of reference lanes, starting and ending with the given roads. -/
theorem C33_road_path (hu : UniqueIds g) {p : Nat → Nat → Nat}
    (hp : ∀ a, DijkstraMap (VEdge g roadE (fun _ => true)) (VertOk g (fun _ => true)) a (p a)) {s t a b : Nat}
    (ha : planViewForRoad g s = some a) (hb : planViewForRoad g t = some b) :
    ∃ R, findRoadPath g p s t = .ok R ∧
      (R = [] ↔ ¬ Reach (RoadEdge g) a b) ∧
      (R ≠ [] → R.head? = some s ∧ R.getLast? = some t ∧
        ∃ l, Cheapest (RoadEdge g) a b l ∧
          l.map (fun i => roadForLane g i) = R.map (fun r => Except.ok r)) := by
  rw [← ledge_road]
  have hpl : ∀ {r i}, planViewForRoad g r = some i → LaneOk g (fun _ => true) i ∧ roadForLane g i = .ok r := by
    intro r i h
    unfold planViewForRoad at h
    cases hf : g.verts.find? (fun v => decide (v.road = r ∧ v.lane.pos = 0)) with
    | none => rw [hf] at h; cases h
    | some v =>
      rw [hf] at h; simp at h; subst h
      have hm := List.mem_of_find?_eq_some hf
      have hr := List.find?_some hf
      refine ⟨⟨v, hm, rfl, rfl⟩, ?_⟩
      obtain ⟨k, hlt, e⟩ := List.mem_iff_getElem.1 hm
      have hk : g.verts[k]? = some v := by rw [List.getElem?_eq_getElem hlt, e]
      unfold roadForLane
      rw [vertexOf_lookup (vertex_unique hu hk), hk]
      simp only [decide_eq_true_eq] at hr
      simp [hr.1]
  obtain ⟨oa, ra⟩ := hpl ha
  obtain ⟨ob, rb⟩ := hpl hb
  obtain ⟨h1, h2⟩ := C33_find_path hu hp a b
  have hroad : ∀ {i}, LaneOk g (fun _ => true) i → ∃ r, roadForLane g i = .ok r := by
    rintro i ⟨v, hm, rfl, _⟩
    obtain ⟨k, hlt, e⟩ := List.mem_iff_getElem.1 hm
    have hk : g.verts[k]? = some v := by rw [List.getElem?_eq_getElem hlt, e]
    exact ⟨v.road, by unfold roadForLane; rw [vertexOf_lookup (vertex_unique hu hk), hk]⟩
  have hmap : ∀ (l : List Nat), (∀ i ∈ l, LaneOk g (fun _ => true) i) →
      ∃ R : List Nat, l.mapM (roadForLane g) = .ok R ∧ l.map (fun i => roadForLane g i) = R.map (fun r => Except.ok r) := by
    intro l
    induction l with
    | nil => intro _; exact ⟨[], rfl, rfl⟩
    | cons i l ih =>
      intro h
      obtain ⟨R, e1, e2⟩ := ih (fun i hi => h i (List.mem_cons_of_mem _ hi))
      obtain ⟨r, hr⟩ := hroad (h i (by simp))
      refine ⟨r :: R, ?_, by simp [hr, e2]⟩
      rw [List.mapM_cons, hr, e1]; rfl
  have hok : ∀ i ∈ findPath g (fun _ => true) p a b, LaneOk g (fun _ => true) i := by
    intro i hi
    have hne : findPath g (fun _ => true) p a b ≠ [] := by intro e; rw [e] at hi; simp at hi
    obtain ⟨k, r, _⟩ := h2 hne
    have : ∀ {x y l k}, Route (LEdge g roadE (fun _ => true)) x y l k → LaneOk g (fun _ => true) x →
        ∀ j ∈ l, LaneOk g (fun _ => true) j := by
      intro x y l k r
      induction r with
      | here a => intro ha j hj; simp at hj; rw [hj]; exact ha
      | @step a b c w k l h r ih =>
        intro ha j hj
        rcases List.mem_cons.1 hj with rfl | hj
        · exact ha
        · obtain ⟨e, _, _, _, x, y, _, hy, _, oy, _, rfl⟩ := h
          exact ih ⟨y, List.mem_of_getElem? hy, rfl, oy⟩ j hj
    exact this r oa i hi
  obtain ⟨R, e1, e2⟩ := hmap _ hok
  have hlen : R.length = (findPath g (fun _ => true) p a b).length := by
    have := congrArg List.length e2; simp at this; exact this.symm
  refine ⟨R, ?_, ?_, ?_⟩
  · unfold findRoadPath; rw [ha, hb]; exact e1
  · rw [← List.length_eq_zero_iff, hlen, List.length_eq_zero_iff, h1]
    simp [oa, ob]
  · intro hne
    have hne' : findPath g (fun _ => true) p a b ≠ [] := by
      intro e; rw [e] at hlen; exact hne (List.length_eq_zero_iff.1 hlen)
    have hch := h2 hne'
    refine ⟨?_, ?_, _, hch, e2⟩
    · obtain ⟨k, r, _⟩ := hch
      have := Route.head r
      have h3 := congrArg List.head? e2
      rw [List.head?_map, List.head?_map, this] at h3
      cases hR : R.head? with
      | none => rw [hR] at h3; simp at h3
      | some x => rw [hR] at h3; simp [ra] at h3; rw [h3]
    · obtain ⟨k, r, _⟩ := hch
      have := Route.last r
      have h3 := congrArg List.getLast? e2
      rw [List.getLast?_map, List.getLast?_map, this] at h3
      cases hR : R.getLast? with
      | none => rw [hR] at h3; simp at h3
      | some x => rw [hR] at h3; simp [rb] at h3; rw [h3]

theorem directions_spec (g : Graph) (road : Nat) :
    directionsForRoad g road = ((g.verts.filter (fun v => decide (v.road = road))).map (fun v => v.lane.dir), false) := by
  unfold directionsForRoad
  have : ∀ (L : List Vert) (acc : List Dir × Bool),
      L.foldl (fun acc v => if v.road = road then (acc.1 ++ [v.lane.dir], acc.2) else acc) acc =
        (acc.1 ++ (L.filter (fun v => decide (v.road = road))).map (fun v => v.lane.dir), acc.2) := by
    intro L
    induction L with
    | nil => intro acc; simp
    | cons v L ih =>
      intro acc
      rw [List.foldl_cons, ih]
      by_cases h : v.road = road <;> simp [h]
  rw [this]; simp

/-- Violation: asking for a corridor by start and end road gives the null pointer on every map and for all roads, also when the
road path between them exists and the start road has lanes. -/
theorem C34_violated {C : Type} (build : List Nat → Dir → C) (g : Graph) (p : Nat → Nat → Nat) (s t : Nat)
    {R : List Nat} (hR : findRoadPath g p s t = .ok R) : corridorByRoadIds build g p s t = .ok none := by
  unfold corridorByRoadIds
  rw [hR, Res.ok_bind, directions_spec]
  rfl

/-! ### C68: queries with a lane id that does not exist -/

/-- Violation: asking for the successors, predecessors, neighbours or road of a lane that does not exist silently gives the
answer for the first lane of the graph; on a graph without lanes it is undefined. -/
theorem C68_unknown_lane_violated {id : Nat} (h : lookup g id = none) :
    (∀ first, (g.verts[0]?).map (fun v => v.lane.id) = some first →
      successors g id = successors g first ∧ predecessors g id = predecessors g first ∧
      innerNeighbor g id = innerNeighbor g first ∧ outerNeighbor g id = outerNeighbor g first ∧
      roadForLane g id = roadForLane g first) ∧
    (g.verts = [] → successors g id = .error .ub ∧ roadForLane g id = .error .ub) := by
  have h0 : vertexOf g id = 0 := by simp [vertexOf, h]
  constructor
  · intro first hf
    have hv : vertexOf g first = 0 := by
      cases hx : g.verts[0]? with
      | none => rw [hx] at hf; cases hf
      | some x =>
        rw [hx] at hf; simp at hf
        unfold vertexOf lookup
        cases hg : g.verts with
        | nil => rfl
        | cons y ys => rw [hg] at hx; simp at hx; subst hx; simp [List.findIdx?_cons, hf]
    unfold successors predecessors innerNeighbor outerNeighbor neighbor roadForLane
    rw [h0, hv]
    exact ⟨rfl, rfl, rfl, rfl, rfl⟩
  · intro hg
    unfold successors outs roadForLane
    rw [h0, hg]; simp

/-- the null pointer of `GetLanePtr` and the answer `false` of `GetVertexByLaneId` do tell unknown lanes -/
theorem C68_lane_lookup (hu : UniqueIds g) (id : Nat) (l : Lane) :
    getLane g id = some l ↔ ∃ v ∈ g.verts, v.lane = l ∧ l.id = id := by
  constructor
  · intro h
    unfold getLane at h
    cases hv : lookup g id with
    | none => rw [hv] at h; cases h
    | some v =>
      rw [hv] at h
      obtain ⟨x, hx, e⟩ := lookup_some hv
      simp only [hx, Option.map_some, Option.some.injEq] at h
      exact ⟨x, List.mem_of_getElem? hx, h, by rw [← h]; exact e⟩
  · rintro ⟨v, hv, rfl, rfl⟩
    obtain ⟨k, hlt, e⟩ := List.mem_iff_getElem.1 hv
    have hk : g.verts[k]? = some v := by rw [List.getElem?_eq_getElem hlt, e]
    unfold getLane
    rw [vertex_unique hu hk]; simp [hk]

end
end Bark.RG
