import Verif.Spec.RoadArea
import Verif.Props.RoadExamples

/-! C207 (areas of lanes) and C208 (areas of junctions and road corridors). -/
namespace Bark.Areas
open Bark Bark.Areas.Spec Bark.RG Bark.RG.Spec
set_option linter.unusedSectionVars false
variable {P K : Type}

section Lanes
variable {m : XMap} {g : Graph} {r : Nat} {s : List Lane} {l : Lane}

theorem boundaries_known (hw : WellFormed m) (hg : generate m = .ok g) (hl : LaneIn m r s l) :
    ∃ o, laneBoundaries g l.id = .ok (o, l) ∧ ∀ i, o = some i ↔ i ∈ s ∧ Towards l.pos i.pos := by
  have hs := generate_same hg
  obtain ⟨v, hk⟩ := known hw hs hl
  obtain ⟨o, ho, hi⟩ := inner_spec hw hs hl
  have hv : g.verts[vertexOf g l.id]? = some ⟨r, l⟩ := by
    unfold vertexOf
    rw [hk.vertex]
    exact hk.vert
  obtain ⟨road, h1, h2, h3⟩ := hl
  have hlane : ∀ i ∈ s, getLane g i.id = some i := fun i h => getLane_known hw hs ⟨road, h1, h2, h⟩
  unfold laneBoundaries
  rw [hv, ho]
  cases o with
  | none =>
    refine ⟨none, rfl, fun i => ⟨(fun h => by cases h), fun ⟨h, ht⟩ => ?_⟩⟩
    have := (hi i.id).2 ⟨i, h, rfl, ht⟩
    cases this
  | some j =>
    obtain ⟨i, hm, hj, ht⟩ := (hi j).1 rfl
    refine ⟨some i, ?_, fun k => ⟨fun h => ?_, fun ⟨hk1, hk2⟩ => ?_⟩⟩
    · subst hj
      simp only [hlane i hm]
    · cases h
      exact ⟨hm, ht⟩
    · have := (hi k.id).2 ⟨k, hk1, rfl, hk2⟩
      have e : j = k.id := Option.some.inj this
      have h4 := hlane i hm
      have h5 := hlane k hk1
      rw [hj, e] at h4
      exact h4.symm.trans h5

/-- **C207: the boundaries of a lane.** In the graph of a map, the outer boundary of a lane is the lane itself and the inner one is the lane
next to it towards the reference line, if there is one. -/
theorem C207_boundaries (hw : WellFormed m) (hg : generate m = .ok g) (hl : LaneIn m r s l) :
    (∀ i ∈ s, Towards l.pos i.pos → laneBoundaries g l.id = .ok (some i, l)) ∧
    ((∀ i ∈ s, ¬ Towards l.pos i.pos) → laneBoundaries g l.id = .ok (none, l)) := by
  obtain ⟨o, ho, hi⟩ := boundaries_known hw hg hl
  refine ⟨fun i hm ht => ?_, fun hn => ?_⟩
  · rw [ho, (hi i).2 ⟨hm, ht⟩]
  · rw [ho]
    cases o with
    | none => rfl
    | some i => exact absurd ((hi i).1 rfl).2 (hn i ((hi i).1 rfl).1)

/-- **C207: the area of a lane.** It is outlined by the line of the next lane towards the reference line and the lane's own line backwards,
and closed. A lane without such a neighbour has no area; one whose neighbour has no points is undefined. -/
theorem C207_lane (line : Nat → List P) (hw : WellFormed m) (hg : generate m = .ok g) (hl : LaneIn m r s l) :
    (∀ i ∈ s, Towards l.pos i.pos → line i.id ≠ [] → ∃ ring, lanePolygon g line l.id = .ok (some ring) ∧ Between (line i.id) (line l.id) ring) ∧
    (∀ i ∈ s, Towards l.pos i.pos → line i.id = [] → lanePolygon g line l.id = .error .ub) ∧
    ((∀ i ∈ s, ¬ Towards l.pos i.pos) → lanePolygon g line l.id = .ok none) := by
  obtain ⟨h1, h2⟩ := C207_boundaries hw hg hl
  refine ⟨fun i hm ht hne => ?_, fun i hm ht he => ?_, fun hn => ?_⟩
  · unfold lanePolygon
    rw [h1 i hm ht]
    cases hi : line i.id with
    | nil => exact absurd hi hne
    | cons a t => simp only [hi]; exact ⟨_, rfl, a, rfl, rfl⟩
  · unfold lanePolygon
    rw [h1 i hm ht]
    simp only [he]
  · unfold lanePolygon
    rw [h2 hn]

/-- **C207: routes.** The boundaries of a route are those of its lanes, in order. -/
theorem C207_route (hw : WellFormed m) (hg : generate m = .ok g) (ls : List Lane) (hl : ∀ l ∈ ls, ∃ r s, LaneIn m r s l) :
    ∃ b, routeBoundaries g (ls.map (fun l => l.id)) = .ok b ∧ b.2 = ls ∧ b.1.length = ls.length ∧
      ∀ (k : Nat) (l : Lane) r s, ls[k]? = some l → LaneIn m r s l → ∀ i, b.1[k]? = some (some i) ↔ i ∈ s ∧ Towards l.pos i.pos := by
  induction ls with
  | nil => exact ⟨_, rfl, rfl, rfl, fun k l r s h => by simp at h⟩
  | cons x ls ih =>
    obtain ⟨b, hb, e2, e1, hk⟩ := ih (fun l h => hl l (List.mem_cons_of_mem _ h))
    obtain ⟨rx, sx, hx⟩ := hl x List.mem_cons_self
    obtain ⟨o, ho, hi⟩ := boundaries_known hw hg hx
    refine ⟨(o :: b.1, x :: b.2), ?_, by rw [e2], by simp [e1], ?_⟩
    · rw [List.map_cons, routeBoundaries, ho]
      simp only [hb]
    · intro k l r s hl' hin i
      cases k with
      | zero =>
        simp only [List.getElem?_cons_zero, Option.some.injEq] at hl' ⊢
        subst hl'
        obtain ⟨o', ho', hi'⟩ := boundaries_known hw hg hin
        rw [ho] at ho'
        have : o = o' := by simpa using ho'
        rw [this]
        exact hi' i
      | succ k => exact hk k l r s hl' hin i

/-- **C207: stored areas.** If the areas of all vertices of the graph of a map can be determined, every lane of the map other than the
reference lines has its own area stored, in the order of the lanes; reference lines have none. -/
theorem C207_stored (line : Nat → List P) (vs : List Vert) (ps : List (Option (List P))) (h : polygons g line vs = .ok ps) :
    List.Forall₂ (fun (v : Vert) p => (v.lane.pos = 0 → p = none) ∧ (v.lane.pos ≠ 0 → lanePolygon g line v.lane.id = .ok p)) vs ps := by
  induction vs generalizing ps with
  | nil => cases h; exact .nil
  | cons v vs ih =>
    unfold polygons at h
    split at h
    · cases h
    · next p hp =>
      split at h
      · cases h
      · next qs hq =>
        cases h
        refine .cons ?_ (ih qs hq)
        unfold vertexPolygon at hp
        split_ifs at hp with h0
        · exact ⟨fun e => absurd e h0, fun _ => hp⟩
        · refine ⟨fun _ => ?_, fun e => absurd e h0⟩
          simpa using hp.symm

/-- **C207: nothing goes wrong.** If the lines of all lanes have points, the areas of all vertices are determined. -/
theorem C207_all (line : Nat → List P) (hw : WellFormed m) (hg : generate m = .ok g) (hl : ∀ r s l, LaneIn m r s l → line l.id ≠ []) :
    ∃ ps, polygons g line g.verts = .ok ps := by
  have hv : ∀ v ∈ g.verts, ∃ s, LaneIn m v.road s v.lane := by
    intro v h
    rw [(generate_same hg).1, base_verts] at h
    exact mem_lanes.1 h
  revert hv
  generalize g.verts = vs
  intro hv
  induction vs with
  | nil => exact ⟨_, rfl⟩
  | cons v vs ih =>
    obtain ⟨ps, hps⟩ := ih (fun x h => hv x (List.mem_cons_of_mem _ h))
    obtain ⟨s, hs⟩ := hv v List.mem_cons_self
    obtain ⟨h1, _, h3⟩ := C207_lane line hw hg hs
    have : ∃ p, vertexPolygon g line v.lane = .ok p := by
      unfold vertexPolygon
      split_ifs
      · by_cases hn : ∃ i ∈ s, Towards v.lane.pos i.pos
        · obtain ⟨i, hi, ht⟩ := hn
          obtain ⟨road, r1, r2, _⟩ := hs
          obtain ⟨ring, hr, _⟩ := h1 i hi ht (hl _ _ _ ⟨road, r1, r2, hi⟩)
          exact ⟨_, hr⟩
        · push Not at hn
          exact ⟨_, h3 hn⟩
      · exact ⟨_, rfl⟩
    obtain ⟨p, hp⟩ := this
    refine ⟨p :: ps, ?_⟩
    unfold polygons
    rw [hp]
    simp only [hps]

/-- **C207: replacing an area.** Setting the area of a known lane changes that lane's only, setting that of an unknown one changes nothing
and says so. -/
theorem C207_set (hw : WellFormed m) (hg : generate m = .ok g) (polys : List (Option (List P))) (hlen : polys.length = g.verts.length)
    (id : Nat) (p : List P) :
    ((∀ v ∈ g.verts, v.lane.id ≠ id) → setPolygon g polys id p = (false, polys)) ∧
    (∀ (k : Nat) v, g.verts[k]? = some v → v.lane.id = id →
      (setPolygon g polys id p).1 = true ∧ (setPolygon g polys id p).2[k]? = some (some p) ∧
      ∀ j, j ≠ k → (setPolygon g polys id p).2[j]? = polys[j]?) := by
  refine ⟨fun hn => ?_, fun k v hk hv => ?_⟩
  · have : lookup g id = none := by
      unfold lookup
      rw [List.findIdx?_eq_none_iff]
      intro v h
      simpa using hn v h
    unfold setPolygon
    rw [this]
  · have hi : idAt g k = some id := by
      unfold idAt
      rw [hk]
      simp [hv]
    have hl := vertex_of_id hw ((generate_same hg).1.trans (base_verts m)) hi
    unfold setPolygon
    rw [hl]
    have hlt : k < polys.length := by
      rw [hlen]
      exact (List.getElem?_eq_some_iff.1 hk).1
    refine ⟨rfl, ?_, fun j hj => ?_⟩
    · simp [List.getElem?_set_self hlt]
    · exact List.getElem?_set_ne (Ne.symm hj)

/-- non-vacuity: the outermost lane of the demonstration map is bounded by the lane next to it -/
example : ∃ g, generate (demo 2) = .ok g ∧
    ∃ ring, lanePolygon g (fun k => [(k, 0), (k, 1)]) 4 = .ok (some ring) ∧ ring = [(3, 0), (3, 1), (4, 1), (4, 0), (3, 0)] := by
  obtain ⟨g, hg⟩ := C32_generation_succeeds (demo_wellFormed (second := 2) (by omega)) (demo_complete 2)
  have hl : LaneIn (demo 2) 1 (demoSection 0) ⟨4, -2, true, .forward, -2, -2⟩ :=
    demo_laneIn.2 (.inl ⟨rfl, rfl, by simp [demoSection]⟩)
  obtain ⟨h1, _⟩ := C207_lane (fun k => [(k, 0), (k, 1)]) (demo_wellFormed (second := 2) (by omega)) hg hl
  obtain ⟨ring, hr, a, ha, e⟩ := h1 ⟨3, -1, true, .forward, -1, -1⟩ (by simp [demoSection]) (.inr ⟨by norm_num, by norm_num⟩) (by simp)
  refine ⟨g, hg, ring, hr, ?_⟩
  simp only [List.head?_cons, Option.some.injEq] at ha
  rw [e, ← ha]
  rfl

end Lanes

/-! ### joining -/
variable {L : Lib P K} {area : Reg P → Set P}

theorem concat_one {a p m : Reg P} (h : L.union (L.correct a) (L.correct p) = [m]) : concat L a p = m := by
  unfold concat
  rw [h]

theorem join_area (hx : Exact L area) : ∀ (ps : List (Reg P)) (a : Reg P), OnePiece L a ps →
    ∀ x, x ∈ area (ps.foldl (concat L) a) ↔ x ∈ area a ∨ ∃ p ∈ ps, x ∈ area p := by
  intro ps
  induction ps with
  | nil => intro a _ x; simp
  | cons p ps ih =>
    intro a ha x
    rcases ha with ⟨m, hm, hps⟩ | ⟨hm, hps⟩
    · rw [List.foldl_cons, concat_one hm, ih m hps]
      have := hx.union a p x
      rw [hm] at this
      simp only [List.mem_singleton, exists_eq_left] at this
      rw [this]
      simp only [List.mem_cons, exists_eq_or_imp, or_assoc]
    · have hc : concat L a p = L.correct a := by
        unfold concat
        rw [hm]
      rw [List.foldl_cons, hc, ih _ hps, hx.correct]
      have := hx.union a p x
      rw [hm] at this
      simp only [List.not_mem_nil, false_and, exists_false, false_iff, not_or] at this
      simp only [List.mem_cons, exists_eq_or_imp, this, false_or]

/-- the polygons of the lanes for driving in the junction, in the order of the vertices -/
theorem junction_fold (junc : Nat → Option Nat) (jid : Nat) (vs : List (Vert × Option (List P))) (a : Reg P) :
    vs.foldl (junctionStep L junc jid) a =
      ((vs.filterMap (fun x => if junc x.1.lane.id = some jid ∧ x.1.lane.driving = true then x.2 else none)).map (fun p => (⟨p, []⟩ : Reg P))).foldl
        (concat L) a := by
  induction vs generalizing a with
  | nil => rfl
  | cons x vs ih =>
    rw [List.foldl_cons, ih]
    unfold junctionStep
    rw [List.filterMap_cons]
    split_ifs with h
    · cases hx : x.2 with
      | none => rfl
      | some p => rfl
    · rfl

/-- **C208: the area of a junction**, where joining its lanes one after the other (in the order of the graph) always gives one polygon: it is
the outline of the area of exactly the lanes for driving of that junction, and covers each of them. -/
theorem C208_junction_partial (hx : Exact L area) (junc : Nat → Option Nat) (g : Graph) (polys : List (Option (List P))) (jid : Nat)
    (ps : List (List P))
    (hps : ps = (g.verts.zip polys).filterMap (fun x => if junc x.1.lane.id = some jid ∧ x.1.lane.driving = true then x.2 else none))
    (h1 : OnePiece L ⟨[], []⟩ (ps.map (fun p => ⟨p, []⟩))) :
    (∃ u, (∀ x, x ∈ area u ↔ ∃ p, InJunction junc jid (g.verts.zip polys) p ∧ x ∈ area ⟨p, []⟩) ∧
      junctionArea L junc g polys jid = ⟨u.outer, []⟩) ∧
    ∀ p, InJunction junc jid (g.verts.zip polys) p → area ⟨p, []⟩ ⊆ area (junctionArea L junc g polys jid) := by
  have hmem : ∀ p, p ∈ ps ↔ InJunction junc jid (g.verts.zip polys) p := by
    intro p
    rw [hps, List.mem_filterMap]
    constructor
    · rintro ⟨⟨v, q⟩, hv, hq⟩
      split_ifs at hq with hc
      subst hq
      exact ⟨v, hv, hc.1, hc.2⟩
    · rintro ⟨v, hv, hc⟩
      exact ⟨(v, some p), hv, by rw [if_pos hc]⟩
  have key : ∃ u, (∀ x, x ∈ area u ↔ ∃ p, InJunction junc jid (g.verts.zip polys) p ∧ x ∈ area ⟨p, []⟩) ∧
      junctionArea L junc g polys jid = ⟨u.outer, []⟩ := by
    refine ⟨_, fun x => ?_, rfl⟩
    rw [junction_fold, ← hps]
    unfold Reg.new
    rw [join_area hx _ _ h1, hx.nothing]
    simp only [Set.mem_empty_iff_false, false_or, List.mem_map, exists_exists_and_eq_and, hmem]
  refine ⟨key, fun p hp x hxp => ?_⟩
  obtain ⟨u, hu, e⟩ := key
  rw [e]
  exact hx.fill u ((hu x).2 ⟨p, hp, hxp⟩)

/-- **C208 is violated** for a junction of two lanes that do not form one polygon: only the first part of the union is kept, and a point of a
lane that is in another part only is not in the area of its junction. -/
theorem C208_junction_violated (hx : Exact L area) (junc : Nat → Option Nat) (g : Graph) (polys : List (Option (List P))) (jid : Nat)
    {p q : List P} {a b : Reg P} {c : List (Reg P)}
    (hps : (g.verts.zip polys).filterMap (fun x => if junc x.1.lane.id = some jid ∧ x.1.lane.driving = true then x.2 else none) = [p, q])
    (h0 : ∃ m, L.union (L.correct ⟨[], []⟩) (L.correct ⟨p, []⟩) = [m] ∧ L.union (L.correct m) (L.correct ⟨q, []⟩) = a :: b :: c)
    {x : P} (hb : x ∈ area b) (ha : x ∉ area ⟨a.outer, []⟩) :
    (∃ r, InJunction junc jid (g.verts.zip polys) r ∧ x ∈ area ⟨r, []⟩) ∧ x ∉ area (junctionArea L junc g polys jid) := by
  obtain ⟨m, e1, e2⟩ := h0
  have hmem : ∀ r, r ∈ [p, q] → InJunction junc jid (g.verts.zip polys) r := by
    intro r hr
    rw [← hps, List.mem_filterMap] at hr
    obtain ⟨⟨v, s⟩, hv, hs⟩ := hr
    split_ifs at hs with hc
    subst hs
    exact ⟨v, hv, hc.1, hc.2⟩
  constructor
  · have u2 := (hx.union m ⟨q, []⟩ x).1 (by rw [e2]; exact ⟨b, by simp, hb⟩)
    rcases u2 with h | h
    · have u1 := (hx.union ⟨[], []⟩ ⟨p, []⟩ x).1 (by rw [e1]; exact ⟨m, by simp, h⟩)
      rw [hx.nothing] at u1
      rcases u1 with h' | h'
      · exact absurd h' (by simp)
      · exact ⟨p, hmem p (by simp), h'⟩
    · exact ⟨q, hmem q (by simp), h⟩
  · unfold junctionArea
    rw [junction_fold, hps]
    simp only [List.map_cons, List.map_nil, List.foldl_cons, List.foldl_nil]
    have : concat L (concat L Reg.new ⟨p, []⟩) ⟨q, []⟩ = a := by
      rw [show concat L Reg.new ⟨p, []⟩ = m from concat_one e1]
      unfold concat
      rw [e2]
    rw [this]
    exact ha

/-! ### road corridors -/

theorem grown_buffer (d : K) (p : Reg P) : Grown L d p (bufferNew L p d).2 := by
  unfold bufferNew
  split
  · next m h => exact .inl ⟨m, h, rfl⟩
  · next h => exact .inr ⟨h, rfl⟩

/-- **Enlarging.** Enlarging a polygon succeeds exactly if the result is one piece, and then gives the outline of this piece; else nothing
is written. -/
theorem C208_enlarge (d : K) (p : Reg P) :
    ((bufferNew L p d).1 = true ↔ ∃ m, L.buffer (L.correct p) d = [m]) ∧
    (∀ m, L.buffer (L.correct p) d = [m] → (bufferNew L p d).2 = ⟨m.outer, []⟩) ∧
    ((bufferNew L p d).1 = false → (bufferNew L p d).2 = ⟨[], []⟩) := by
  unfold bufferNew
  split
  · next m h => exact ⟨⟨fun _ => ⟨m, h⟩, fun _ => rfl⟩, fun m' h' => by rw [h, List.cons.injEq] at h'; rw [h'.1], fun h => by cases h⟩
  · next h => exact ⟨⟨fun h => by (cases h), fun ⟨m, hm⟩ => absurd hm (h m)⟩, fun m hm => absurd hm (h m), fun _ => rfl⟩

theorem grown_unique {d : K} {p q : Reg P} (h : Grown L d p q) : (bufferNew L p d).2 = q := by
  rcases h with ⟨m, h, rfl⟩ | ⟨h, rfl⟩
  · unfold bufferNew
    rw [h]
  · unfold bufferNew
    split
    · next m e => exact absurd e (h m)
    · rfl

theorem merged_eq {d : K} {corrs : List (List (CLane P))} {gs : List (Reg P)}
    (hg : List.Forall₂ (fun l q => Grown L d l.poly q) corrs.flatten gs) (a : Reg P) :
    corrs.foldl (fun a lanes => lanes.foldl (fun a l => concat L a (bufferNew L l.poly d).2) a) a = gs.foldl (concat L) a := by
  have h1 : corrs.foldl (fun a lanes => lanes.foldl (fun a l => concat L a (bufferNew L l.poly d).2) a) a =
      corrs.flatten.foldl (fun a l => concat L a (bufferNew L l.poly d).2) a := by
    rw [List.foldl_flatten]
  rw [h1]
  clear h1
  generalize corrs.flatten = ls at hg
  induction hg generalizing a with
  | nil => rfl
  | cons h _ ih => rw [List.foldl_cons, List.foldl_cons, grown_unique h, ih]

/-- **C208: the area of a road corridor**, where joining the grown lanes always gives one polygon: the joined area is exactly that of the
grown lanes (a lane that does not grow to one polygon contributes nothing), and the road's area is that area shrunk, without holes - or no
area at all if shrinking does not leave exactly one polygon. -/
theorem C208_road_partial [Neg K] (hx : Exact L area) (d : K) (corrs : List (List (CLane P))) (gs : List (Reg P))
    (hg : List.Forall₂ (fun l q => Grown L d l.poly q) corrs.flatten gs) (h1 : OnePiece L ⟨[], []⟩ gs) :
    (roadPolygon L d corrs).1 = true ∧
    ∃ u, (∀ x, x ∈ area u ↔ ∃ q ∈ gs, x ∈ area q) ∧ Grown L (-d) u (roadPolygon L d corrs).2 := by
  refine ⟨rfl, gs.foldl (concat L) ⟨[], []⟩, fun x => ?_, ?_⟩
  · rw [join_area hx _ _ h1, hx.nothing]
    simp
  · unfold roadPolygon
    dsimp only
    rw [merged_eq hg]
    exact grown_buffer _ _

/-- **C208: the road covers its lanes**, where in addition every lane grows to one polygon, shrinking the joined area leaves one polygon, and
takes nothing of a lane away whose grown area is in it. -/
theorem C208_covers_partial [Neg K] (hx : Exact L area) (d : K) (corrs : List (List (CLane P))) (gs : List (Reg P))
    (hg : List.Forall₂ (fun l q => ∃ m, L.buffer (L.correct l.poly) d = [m] ∧ q = ⟨m.outer, []⟩) corrs.flatten gs)
    (h1 : OnePiece L ⟨[], []⟩ gs)
    (h2 : ∀ u, (∀ x, x ∈ area u ↔ ∃ q ∈ gs, x ∈ area q) → ∃ s, L.buffer (L.correct u) (-d) = [s] ∧
      ∀ p q, q ∈ gs → Grown L d p q → area q ⊆ area u → area p ⊆ area s) :
    ∀ c ∈ corrs, ∀ l ∈ c, area l.poly ⊆ area (roadPolygon L d corrs).2 := by
  have hg' : List.Forall₂ (fun l q => Grown L d l.poly q) corrs.flatten gs := hg.imp (fun _ _ h => .inl h)
  obtain ⟨_, u, hu, hr⟩ := C208_road_partial hx d corrs gs hg' h1
  obtain ⟨s, hs, hk⟩ := h2 u hu
  intro c hc l hl
  have hl' : l ∈ corrs.flatten := List.mem_flatten.2 ⟨c, hc, hl⟩
  obtain ⟨q, hq, hlq⟩ : ∃ q ∈ gs, Grown L d l.poly q := by
    clear h2 hk hr hu h1 hg hl
    generalize corrs.flatten = ls at hg' hl'
    induction hg' with
    | nil => simp at hl'
    | cons h _ ih =>
      rcases List.mem_cons.1 hl' with rfl | h'
      · exact ⟨_, List.mem_cons_self, h⟩
      · obtain ⟨q, hq, e⟩ := ih h'
        exact ⟨q, List.mem_cons_of_mem _ hq, e⟩
  have h3 := hk l.poly q hq hlq (fun x hx' => (hu x).2 ⟨q, hq, hx'⟩)
  rcases hr with ⟨m, e, e'⟩ | ⟨e, _⟩
  · rw [hs] at e
    cases e
    rw [e']
    exact h3.trans (hx.fill s)
  · exact absurd hs (e s)

/-- **C208 is violated** where shrinking the joined area leaves several polygons, or none: the road has no area, although success is
reported. -/
theorem C208_split_violated [Neg K] (hx : Exact L area) (d : K) (corrs : List (List (CLane P))) (gs : List (Reg P))
    (hg : List.Forall₂ (fun l q => Grown L d l.poly q) corrs.flatten gs) (h1 : OnePiece L ⟨[], []⟩ gs)
    (h2 : ∀ u, (∀ x, x ∈ area u ↔ ∃ q ∈ gs, x ∈ area q) → ∀ m, L.buffer (L.correct u) (-d) ≠ [m]) :
    (roadPolygon L d corrs).1 = true ∧ area (roadPolygon L d corrs).2 = ∅ := by
  obtain ⟨h0, u, hu, hr⟩ := C208_road_partial hx d corrs gs hg h1
  refine ⟨h0, ?_⟩
  rcases hr with ⟨m, e, _⟩ | ⟨_, e⟩
  · exact absurd e (h2 u hu m)
  · rw [e]
    exact hx.nothing

/-- **C208: which junctions are added.** The junctions of a road corridor are those of its lanes. -/
theorem C208_junctions (junc : Nat → Option Nat) (corrs : List (List (CLane P))) (j : Nat) :
    j ∈ junctionIds junc corrs ↔ ∃ c ∈ corrs, ∃ l ∈ c, junc l.id = some j := by
  simp only [junctionIds, List.mem_flatMap, List.mem_filterMap]

/-- the area `r'` is the area `r` with `j` added: both grown by `d`, joined and shrunk again -/
def Added [Neg K] (L : Lib P K) (area : Reg P → Set P) (d : K) (r j r' : Reg P) : Prop :=
  ∃ a b, Grown L d r a ∧ Grown L d j b ∧ ∀ m, L.union (L.correct a) (L.correct b) = [m] →
    (∀ x, x ∈ area m ↔ x ∈ area a ∨ x ∈ area b) ∧ Grown L (-d) m r'

/-- **C208: full junction areas.** Unless full junction areas are asked for, the area of a generated corridor is that of its lanes; otherwise
the areas of the junctions of its lanes are added to it one after the other. -/
theorem C208_full [Field K] (hx : Exact L area) (junc : Nat → Option Nat) (g : Graph) (polys : List (Option (List P)))
    (corrs : List (List (CLane P))) :
    corridorArea L junc g polys false corrs = (roadPolygon L (3 / 10) corrs).2 ∧
    ∃ rs : List (Reg P), rs.head? = some (roadPolygon L (3 / 10) corrs).2 ∧ rs.getLast? = some (corridorArea L junc g polys true corrs) ∧
      rs.length = (junctionIds junc corrs).length + 1 ∧
      ∀ (k : Nat) r r' j, rs[k]? = some r → rs[k + 1]? = some r' → (junctionIds junc corrs)[k]? = some j →
        Added L area (1 / 10) r (junctionArea L junc g polys j) r' := by
  refine ⟨rfl, ?_⟩
  unfold corridorArea
  rw [if_pos rfl]
  generalize (roadPolygon L (3 / 10) corrs).2 = r0
  generalize junctionIds junc corrs = js
  induction js generalizing r0 with
  | nil => exact ⟨[r0], rfl, rfl, rfl, fun k r r' j _ h2 => by simp at h2⟩
  | cons i js ih =>
    obtain ⟨rs, e1, e2, e3, hk⟩ := ih (addPolygon L (1 / 10) r0 (junctionArea L junc g polys i))
    refine ⟨r0 :: rs, rfl, ?_, by simp [e3], ?_⟩
    · rw [List.foldl_cons]
      cases rs with
      | nil => simp at e1
      | cons y ys => rw [List.getLast?_cons_cons]; exact e2
    · intro k r r' j h1 h2 h3
      cases k with
      | zero =>
        simp only [List.getElem?_cons_zero, Option.some.injEq, zero_add, List.getElem?_cons_succ] at h1 h2 h3
        rw [← List.head?_eq_getElem?, e1, Option.some.injEq] at h2
        subst h1 h2 h3
        refine ⟨_, _, grown_buffer _ _, grown_buffer _ _, fun m hm => ⟨fun x => ?_, ?_⟩⟩
        · have := hx.union (bufferNew L r0 (1 / 10)).2 (bufferNew L (junctionArea L junc g polys i) (1 / 10)).2 x
          rw [hm] at this
          simpa using this
        · unfold addPolygon
          rw [concat_one hm]
          exact grown_buffer _ _
      | succ k => exact hk k r r' j h1 h2 h3

/-! ### non-vacuity: areas on a line -/

/-- the interval a region stands for -/
def iv (r : Reg ℚ) : Option (ℚ × ℚ) :=
  match r.outer with
  | [a, b] => if a ≤ b then some (a, b) else none
  | _ => none

/-- the points of a region on the line -/
def seg (r : Reg ℚ) : Set ℚ := {x | ∃ a b, iv r = some (a, b) ∧ a ≤ x ∧ x ≤ b}

/-- union and buffer of intervals; with `cut`, shrinking tears what is longer than that apart -/
def lineLib (cut : ℚ) : Lib ℚ ℚ where
  correct := id
  union p q :=
    match iv p, iv q with
    | none, none => []
    | none, some _ => [q]
    | some _, none => [p]
    | some (a, b), some (c, d) => if c ≤ b ∧ a ≤ d then [⟨[min a c, max b d], []⟩] else [p, q]
  buffer p d :=
    match iv p with
    | none => []
    | some (a, b) =>
      if b + d < a - d then []
      else if d < 0 ∧ cut < b - a then [⟨[a - d, (a + b) / 2], []⟩, ⟨[(a + b) / 2, b + d], []⟩]
      else [⟨[a - d, b + d], []⟩]

theorem iv_le {r : Reg ℚ} {a b : ℚ} (h : iv r = some (a, b)) : a ≤ b := by
  unfold iv at h
  split at h
  · split_ifs at h with hab
    cases h
    exact hab
  · cases h

theorem iv_pair {a b : ℚ} (h : a ≤ b) (t : List (List ℚ)) : iv ⟨[a, b], t⟩ = some (a, b) := if_pos h

theorem lineLib_exact (cut : ℚ) : Exact (lineLib cut) seg where
  correct _ := rfl
  nothing := by
    ext x
    simp [seg, iv]
  fill p := fun x h => h
  union p q x := by
    simp only [lineLib, id]
    cases hp : iv p with
    | none =>
      have h1 : x ∉ seg p := by rintro ⟨a, b, e, _⟩; rw [hp] at e; cases e
      cases hq : iv q with
      | none =>
        have h2 : x ∉ seg q := by rintro ⟨a, b, e, _⟩; rw [hq] at e; cases e
        simp [h1, h2]
      | some _ => simp [h1]
    | some ab =>
      obtain ⟨a, b⟩ := ab
      have hab := iv_le hp
      have h1 : x ∈ seg p ↔ a ≤ x ∧ x ≤ b := by simp [seg, hp]
      cases hq : iv q with
      | none =>
        have h2 : x ∉ seg q := by rintro ⟨a, b, e, _⟩; rw [hq] at e; cases e
        simp [h2]
      | some cd =>
        obtain ⟨c, d⟩ := cd
        have hcd := iv_le hq
        have h2 : x ∈ seg q ↔ c ≤ x ∧ x ≤ d := by simp [seg, hq]
        dsimp only
        split_ifs with hj
        · have hm : min a c ≤ max b d := (min_le_left _ _).trans (hab.trans (le_max_left _ _))
          have h3 : x ∈ seg ⟨[min a c, max b d], []⟩ ↔ min a c ≤ x ∧ x ≤ max b d := by simp [seg, iv_pair hm]
          simp only [List.mem_singleton, exists_eq_left, h1, h2, h3, min_le_iff, le_max_iff]
          constructor
          · rintro ⟨ha | hc, hb | hd⟩
            · exact .inl ⟨ha, hb⟩
            · by_cases h : x ≤ b
              · exact .inl ⟨ha, h⟩
              · exact .inr ⟨by linarith [hj.1], hd⟩
            · by_cases h : x ≤ d
              · exact .inr ⟨hc, h⟩
              · exact .inl ⟨by linarith [hj.2], hb⟩
            · exact .inr ⟨hc, hd⟩
          · rintro (⟨ha, hb⟩ | ⟨hc, hd⟩)
            · exact ⟨.inl ha, .inl hb⟩
            · exact ⟨.inr hc, .inr hd⟩
        · simp

theorem seg_interval {u : Reg ℚ} {a b : ℚ} (hab : a ≤ b) (h : ∀ x, x ∈ seg u ↔ a ≤ x ∧ x ≤ b) : iv u = some (a, b) := by
  obtain ⟨c, d, e, h1, h2⟩ := (h a).2 ⟨le_refl a, hab⟩
  have hcd := iv_le e
  have hx : ∀ x, x ∈ seg u ↔ c ≤ x ∧ x ≤ d := fun x => by simp [seg, e]
  obtain ⟨h3, h4⟩ := (hx b).1 ((h b).2 ⟨hab, le_refl b⟩)
  have h5 := (h c).1 ((hx c).2 ⟨le_refl c, hcd⟩)
  have h6 := (h d).1 ((hx d).2 ⟨hcd, le_refl d⟩)
  rw [e, le_antisymm h1 h5.1, le_antisymm h6.2 h4]

/-- two lanes that touch, of a corridor -/
def twoOnLine : List (List (CLane ℚ)) := [[⟨1, ⟨[0, 4], []⟩⟩], [⟨2, ⟨[4, 8], []⟩⟩]]

/-- the two lanes grown by 3/10 -/
def twoGrown : List (Reg ℚ) := [⟨[-3 / 10, 43 / 10], []⟩, ⟨[37 / 10, 83 / 10], []⟩]

theorem twoGrown_spec (cut : ℚ) : List.Forall₂ (fun l q => ∃ m, (lineLib cut).buffer ((lineLib cut).correct l.poly) (3 / 10) = [m] ∧
    q = ⟨m.outer, []⟩) twoOnLine.flatten twoGrown := by
  refine .cons ⟨⟨[0 - 3 / 10, 4 + 3 / 10], []⟩, ?_, ?_⟩ (.cons ⟨⟨[4 - 3 / 10, 8 + 3 / 10], []⟩, ?_, ?_⟩ .nil)
  · simp only [lineLib, id, iv_pair (show (0 : ℚ) ≤ 4 by norm_num)]; norm_num
  · norm_num
  · simp only [lineLib, id, iv_pair (show (4 : ℚ) ≤ 8 by norm_num)]; norm_num
  · norm_num

theorem twoGrown_one (cut : ℚ) : OnePiece (lineLib cut) ⟨[], []⟩ twoGrown := by
  refine .inl ⟨⟨[-3 / 10, 43 / 10], []⟩, ?_, .inl ⟨⟨[-3 / 10, 83 / 10], []⟩, ?_, trivial⟩⟩
  · simp only [lineLib, id, iv_pair (show (-3 / 10 : ℚ) ≤ 43 / 10 by norm_num)]; rfl
  · simp only [lineLib, id, iv_pair (show (-3 / 10 : ℚ) ≤ 43 / 10 by norm_num), iv_pair (show (37 / 10 : ℚ) ≤ 83 / 10 by norm_num)]
    norm_num

theorem twoGrown_area (x : ℚ) : (∃ q ∈ twoGrown, x ∈ seg q) ↔ -3 / 10 ≤ x ∧ x ≤ 83 / 10 := by
  have h1 : x ∈ seg ⟨[-3 / 10, 43 / 10], []⟩ ↔ -3 / 10 ≤ x ∧ x ≤ 43 / 10 := by
    simp [seg, iv_pair (show (-3 / 10 : ℚ) ≤ 43 / 10 by norm_num)]
  have h2 : x ∈ seg ⟨[37 / 10, 83 / 10], []⟩ ↔ 37 / 10 ≤ x ∧ x ≤ 83 / 10 := by
    simp [seg, iv_pair (show (37 / 10 : ℚ) ≤ 83 / 10 by norm_num)]
  simp only [twoGrown, List.mem_cons, List.not_mem_nil, or_false, exists_eq_or_imp, exists_eq_left, h1, h2]
  constructor
  · rintro (⟨h, h'⟩ | ⟨h, h'⟩)
    · exact ⟨h, by linarith⟩
    · exact ⟨by linarith, h'⟩
  · rintro ⟨h, h'⟩
    by_cases hx : x ≤ 43 / 10
    · exact .inl ⟨h, hx⟩
    · exact .inr ⟨by linarith, h'⟩

/-- the road of the two lanes covers both -/
example : ∀ c ∈ twoOnLine, ∀ l ∈ c, seg l.poly ⊆ seg (roadPolygon (lineLib 100) (3 / 10) twoOnLine).2 := by
  refine C208_covers_partial (lineLib_exact 100) (3 / 10) twoOnLine twoGrown (twoGrown_spec 100) (twoGrown_one 100) ?_
  intro u hu
  have hi : iv u = some (-3 / 10, 83 / 10) := seg_interval (by norm_num) (fun x => (hu x).trans (twoGrown_area x))
  refine ⟨⟨[-3 / 10 - -(3 / 10), 83 / 10 + -(3 / 10)], []⟩, ?_, ?_⟩
  · simp only [lineLib, id, hi]
    norm_num
  · intro p q hq hg hsub x hx
    obtain ⟨a, b, e, ha, hb⟩ := hx
    have hab := iv_le e
    have hbuf : (lineLib 100).buffer ((lineLib 100).correct p) (3 / 10) = [⟨[a - 3 / 10, b + 3 / 10], []⟩] := by
      simp only [lineLib, id, e]
      rw [if_neg (by linarith), if_neg (by norm_num)]
    rcases hg with ⟨m, h, rfl⟩ | ⟨h, _⟩
    · rw [hbuf] at h
      cases h
      have hle : a - 3 / 10 ≤ b + 3 / 10 := by linarith
      have h1 := hsub (show a - 3 / 10 ∈ seg ⟨[a - 3 / 10, b + 3 / 10], []⟩ from ⟨_, _, iv_pair hle _, le_refl _, hle⟩)
      have h2 := hsub (show b + 3 / 10 ∈ seg ⟨[a - 3 / 10, b + 3 / 10], []⟩ from ⟨_, _, iv_pair hle _, hle, le_refl _⟩)
      obtain ⟨a1, b1, e1, g1, _⟩ := h1
      obtain ⟨a2, b2, e2, _, g2⟩ := h2
      rw [hi] at e1 e2
      cases e1
      cases e2
      exact ⟨_, _, iv_pair (by norm_num) _, by linarith, by linarith⟩
    · exact absurd hbuf (h _)

/-- with a library that tears the joined area apart when it is shrunk, the road has no area -/
example : seg (roadPolygon (lineLib 5) (3 / 10) twoOnLine).2 = ∅ := by
  refine (C208_split_violated (lineLib_exact 5) (3 / 10) twoOnLine twoGrown ((twoGrown_spec 5).imp (fun _ _ h => .inl h)) (twoGrown_one 5) ?_).2
  intro u hu m
  have hi : iv u = some (-3 / 10, 83 / 10) := seg_interval (by norm_num) (fun x => (hu x).trans (twoGrown_area x))
  simp only [lineLib, id, hi]
  norm_num

/-- a graph of three lanes for driving in one junction, the third not touching the others -/
def threeLanes (xs : List Nat) : Graph := ⟨xs.map (fun k => ⟨1, ⟨k, (k : Int), true, .forward, 0, 0⟩⟩), []⟩

/-- the area of a junction of two touching lanes covers both -/
example : seg ⟨[4, 8], []⟩ ⊆ seg (junctionArea (lineLib 100) (fun _ => some 7) (threeLanes [1, 2]) [some [0, 4], some [4, 8]] 7) := by
  refine (C208_junction_partial (lineLib_exact 100) (fun _ => some 7) (threeLanes [1, 2]) [some [0, 4], some [4, 8]] 7 [[0, 4], [4, 8]]
    ?_ ?_).2 [4, 8] ?_
  · rfl
  · refine .inl ⟨⟨[0, 4], []⟩, ?_, .inl ⟨⟨[0, 8], []⟩, ?_, trivial⟩⟩
    · simp only [lineLib, id, iv_pair (show (0 : ℚ) ≤ 4 by norm_num)]; rfl
    · simp only [lineLib, id, iv_pair (show (0 : ℚ) ≤ 4 by norm_num), iv_pair (show (4 : ℚ) ≤ 8 by norm_num)]; norm_num
  · exact ⟨_, List.mem_cons_of_mem _ List.mem_cons_self, rfl, rfl⟩

/-- that of two lanes that do not touch does not contain the second -/
example : (6 : ℚ) ∉ seg (junctionArea (lineLib 100) (fun _ => some 7) (threeLanes [1, 2]) [some [0, 4], some [5, 8]] 7) := by
  refine (C208_junction_violated (lineLib_exact 100) (fun _ => some 7) (threeLanes [1, 2]) [some [0, 4], some [5, 8]] 7 (p := [0, 4])
    (q := [5, 8]) (a := ⟨[0, 4], []⟩) (b := ⟨[5, 8], []⟩) (c := []) rfl ⟨⟨[0, 4], []⟩, ?_, ?_⟩ ?_ ?_).2
  · simp only [lineLib, id, iv_pair (show (0 : ℚ) ≤ 4 by norm_num)]; rfl
  · simp only [lineLib, id, iv_pair (show (0 : ℚ) ≤ 4 by norm_num), iv_pair (show (5 : ℚ) ≤ 8 by norm_num)]; norm_num
  · exact ⟨5, 8, iv_pair (by norm_num) _, by norm_num, by norm_num⟩
  · rintro ⟨a, b, e, h1, h2⟩
    rw [iv_pair (by norm_num)] at e
    cases e
    norm_num at h2

end Bark.Areas
