import Verif.Model.PickleGeo
import Verif.Spec.PickleGeo
import Verif.Props.Shape2
import Verif.Props.Line
import Verif.Props.PyConv
import Mathlib.Tactic.LinearCombination

/-!
C190: pickled geometry, maps, settings, observers and execution models.
-/
namespace Bark.PGeo
open Shape Shape.Spec Spec

/-! ### points and lines -/

theorem C190_point (p : Shape.Pt) : copyPoint p = p := rfl

theorem lineOf_eq (ps : List Ln.Pt) : lineOf ps = ⟨ps, Ln.table ps⟩ := by
  have h : ∀ (qs : List Ln.Pt) (l : Ln.Line), l.s = Ln.table l.pts → (qs.foldl Ln.addPoint l) = ⟨l.pts ++ qs, Ln.table (l.pts ++ qs)⟩ := by
    intro qs
    induction qs with
    | nil => intro l hl; cases l; simp only [List.foldl_nil, List.append_nil]; simp only at hl; rw [hl]
    | cons q qs ih =>
      intro l hl
      rw [List.foldl_cons, ih _ rfl]
      simp [Ln.addPoint, Ln.recomputeS]
  have := h ps Ln.empty rfl
  simpa [lineOf, Ln.empty] using this

theorem tableRight_unique {l m : Ln.Line} (hl : Ln.Spec.TableRight l) (hm : Ln.Spec.TableRight m) (h : l.pts = m.pts) : l = m := by
  cases l with | mk lp ls =>
  cases m with | mk mp ms =>
  obtain ⟨a1, a2⟩ := hl
  obtain ⟨b1, b2⟩ := hm
  simp only at h a1 a2 b1 b2
  subst h
  congr 1
  refine List.ext_getElem (by omega) ?_
  intro i h1 h2
  rw [a2 i h1, b2 i h2]

/-- C190: a pickled line has the same points and a right table of arc lengths; it is the same line exactly if the table of the
original was right -/
theorem C190_line (l : Ln.Line) :
    (copyLine l).pts = l.pts ∧ Ln.Spec.TableRight (copyLine l) ∧ (copyLine l = l ↔ Ln.Spec.TableRight l) := by
  have e : copyLine l = Ln.recomputeS l := lineOf_eq l.pts
  have ht : Ln.Spec.TableRight (copyLine l) := by rw [e]; exact Ln.tableRight_recompute l
  refine ⟨by rw [e]; rfl, ht, fun h => h ▸ ht, fun h => ?_⟩
  exact tableRight_unique ht h (by rw [e]; rfl)

/-- C190: so a reversed line, whose table is stale, measures differently once it was pickled -/
theorem C190_line_reversed_violated : ∃ l : Ln.Line, Ln.Spec.TableRight l ∧ copyLine (Ln.reverse l) ≠ Ln.reverse l := by
  refine ⟨Ln.ofArray [(0, 0), (1, 0), (3, 0)], Ln.tableRight_recompute _, ?_⟩
  intro h
  have ht := ((C190_line _).2.2).1 h
  obtain ⟨_, h2⟩ := ht
  have hs : (Ln.reverse (Ln.ofArray [(0, 0), (1, 0), (3, 0)])).s = [0, 1, 3] := by
    simp only [Ln.reverse, Ln.ofArray, Ln.recomputeS, Ln.table, Ln.sLoop, Ln.pdist]
    norm_num
    rw [show (4 : ℝ) = 2 ^ 2 by norm_num, Real.sqrt_sq (by norm_num)]
    norm_num
  have hlen : 1 < (Ln.reverse (Ln.ofArray [(0, 0), (1, 0), (3, 0)])).s.length := by rw [hs]; simp
  have h3 := h2 1 hlen
  simp only [hs] at h3
  simp only [Ln.reverse, Ln.ofArray, Ln.recomputeS, Ln.length, Ln.pdist, List.reverse_cons, List.reverse_nil, List.nil_append,
    List.cons_append, List.take_succ_cons, List.take_zero] at h3
  norm_num at h3
  rw [show (4 : ℝ) = 2 ^ 2 by norm_num, Real.sqrt_sq (by norm_num)] at h3
  norm_num at h3

/-! ### polygons -/

theorem copyPoly_eq (big : ℝ) (s : Poly) : copyPoly big s = ofPoints big s.center s.pts := rfl

theorem correct_idem (ps : List Shape.Pt) : correct (correct ps) = correct ps := by
  by_cases h : 2 < ps.length
  · obtain ⟨_, h2, h3, _⟩ := C155_constructed 0 ⟨0, 0, 0⟩ ps h
    exact C155_kept 0 ⟨0, 0, 0⟩ (correct ps) h2 h3
  · have e : correct ps = ps := (C155_degenerate 0 ⟨0, 0, 0⟩ ps (by omega)).1
    rw [e, e]

/-- C190: a polygon as constructed is kept by pickling, with its distances -/
theorem C190_polygon (big : ℝ) (c : Pose) (ps : List Shape.Pt) :
    copyPoly big (ofPoints big c ps) = ofPoints big c ps := by
  rw [copyPoly_eq]
  show updateDistances big _ = updateDistances big _
  have : (ofPoints big c ps).pts = correct ps := rfl
  rw [this, correct_idem]
  rfl

theorem neg_max {big : ℝ} {ps : List Shape.Pt} (f : Shape.Pt → ℝ) (h : ps ≠ []) :
    IsMax (fun p => -f p) ps (-(lo big (ps.map f))) := by
  obtain ⟨a, b⟩ := lo_ne big (l := ps.map f) (by simpa using h)
  obtain ⟨p, hp, e⟩ := List.mem_map.1 a
  refine ⟨⟨p, hp, by simp only; rw [e]⟩, fun q hq => ?_⟩
  have := b _ (List.mem_map_of_mem (f := f) hq)
  simp only
  linarith

theorem pos_max {big : ℝ} {ps : List Shape.Pt} (f : Shape.Pt → ℝ) (h : ps ≠ []) :
    IsMax f ps (hi big (ps.map f)) := by
  obtain ⟨a, b⟩ := hi_ne big (l := ps.map f) (by simpa using h)
  obtain ⟨p, hp, e⟩ := List.mem_map.1 a
  exact ⟨⟨p, hp, e⟩, fun q hq => b _ (List.mem_map_of_mem (f := f) hq)⟩

theorem ring_ne {ps : List Shape.Pt} (h : Ring ps) : ps ≠ [] := by
  obtain ⟨⟨p, mid, rfl⟩, _⟩ := h
  simp

/-- C190: any polygon whose outline is a closed clockwise ring keeps outline and center; its distances are measured anew -/
theorem C190_polygon_ring (big : ℝ) (s : Poly) (h : Ring s.pts) :
    (copyPoly big s).pts = s.pts ∧ (copyPoly big s).center = s.center ∧ Measured (copyPoly big s) := by
  have e : (copyPoly big s).pts = s.pts := C155_kept big s.center s.pts h.1 h.2
  have hne : (copyPoly big s).pts ≠ [] := by rw [e]; exact ring_ne h
  refine ⟨e, rfl, ⟨_, pos_max (big := big) Prod.fst hne, rfl⟩, ⟨_, neg_max (big := big) Prod.fst hne, ?_⟩,
    ⟨_, pos_max (big := big) Prod.snd hne, rfl⟩, ⟨_, neg_max (big := big) Prod.snd hne, ?_⟩⟩
  · rw [neg_neg]; rfl
  · rw [neg_neg]; rfl

theorem turn_affine (a b c d e g : ℝ) (f : Shape.Pt → Shape.Pt) (hf : ∀ p, f p = (a * p.1 + b * p.2 + e, c * p.1 + d * p.2 + g)) :
    ∀ (mid : List Shape.Pt) (p q : Shape.Pt), turn ((p :: mid ++ [q]).map f) = (a * d - b * c) * turn (p :: mid ++ [q]) +
      (e * (c * (q.1 - p.1) + d * (q.2 - p.2)) - g * (a * (q.1 - p.1) + b * (q.2 - p.2))) := by
  intro mid
  induction mid with
  | nil => intro p q; simp only [List.cons_append, List.nil_append, List.map_cons, List.map_nil, turn, hf]; ring
  | cons m mid ih =>
    intro p q
    have := ih m q
    simp only [List.cons_append, List.map_cons, turn] at this ⊢
    rw [this, hf p, hf m]
    ring

theorem ring_affine {a b c d e g : ℝ} (f : Shape.Pt → Shape.Pt) (hf : ∀ p, f p = (a * p.1 + b * p.2 + e, c * p.1 + d * p.2 + g))
    (hd : a * d - b * c = 1) {ps : List Shape.Pt} (h : Ring ps) : Ring (ps.map f) := by
  obtain ⟨⟨p, mid, rfl⟩, ht⟩ := h
  refine ⟨⟨f p, mid.map f, by simp⟩, ?_⟩
  rw [turn_affine a b c d e g f hf, hd]
  simp only [sub_self, mul_zero, add_zero, one_mul]
  exact ht

theorem ring_transform {s : Poly} (h : Ring s.pts) (q : Pose) : Ring (transform s q).pts := by
  refine ring_affine (a := Real.cos q.a) (b := -Real.sin q.a) (c := Real.sin q.a) (d := Real.cos q.a)
    (e := s.center.x + q.x - Real.cos q.a * s.center.x + Real.sin q.a * s.center.y)
    (g := s.center.y + q.y - Real.sin q.a * s.center.x - Real.cos q.a * s.center.y) _ (fun p => ?_) ?_ h
  · simp only [shift, clockwise, Real.cos_neg, Real.sin_neg]
    ext <;> simp only <;> ring
  · nlinarith [Real.sin_sq_add_cos_sq q.a]

/-- C190: the outline of a vehicle placed anywhere keeps outline and pose; if it is not turned, everything -/
theorem C190_polygon_placed (big : ℝ) (c : Pose) (ps : List Shape.Pt) (h : 2 < ps.length) (q : Pose) :
    let s := transform (ofPoints big c ps) q
    (copyPoly big s).pts = s.pts ∧ (copyPoly big s).center = s.center ∧ Measured (copyPoly big s) ∧
    (q.a = 0 → copyPoly big s = s) := by
  intro s
  obtain ⟨_, h2, h3, _⟩ := C155_constructed big c ps h
  have hr : Ring (ofPoints big c ps).pts := ⟨h2, h3⟩
  have hr' : Ring s.pts := ring_transform hr q
  obtain ⟨k1, k2, k3⟩ := C190_polygon_ring big s hr'
  refine ⟨k1, k2, k3, fun hq => ?_⟩
  have hne : (ofPoints big c ps).pts ≠ [] := ring_ne hr
  have hpts : s.pts = (ofPoints big c ps).pts.map (shift q.x q.y) := by
    show List.map _ _ = _
    refine List.map_congr_left fun p _ => ?_
    simp only [shift, clockwise, hq, neg_zero, Real.cos_zero, Real.sin_zero]
    ext <;> simp only <;> ring
  have fx : s.pts.map Prod.fst = ((ofPoints big c ps).pts.map Prod.fst).map (· + q.x) := by
    rw [hpts]; simp [List.map_map, Function.comp_def, shift]
  have fy : s.pts.map Prod.snd = ((ofPoints big c ps).pts.map Prod.snd).map (· + q.y) := by
    rw [hpts]; simp [List.map_map, Function.comp_def, shift]
  have L : ∀ (l : List ℝ) (t : ℝ), l ≠ [] → lo big (l.map (· + t)) = lo big l + t := by
    intro l t hl
    obtain ⟨a, b⟩ := lo_ne big hl
    refine lo_eq (List.mem_map.2 ⟨_, a, rfl⟩) ?_
    intro y hy
    obtain ⟨z, hz, rfl⟩ := List.mem_map.1 hy
    linarith [b z hz]
  have H : ∀ (l : List ℝ) (t : ℝ), l ≠ [] → hi big (l.map (· + t)) = hi big l + t := by
    intro l t hl
    obtain ⟨a, b⟩ := hi_ne big hl
    refine hi_eq (List.mem_map.2 ⟨_, a, rfl⟩) ?_
    intro y hy
    obtain ⟨z, hz, rfl⟩ := List.mem_map.1 hy
    linarith [b z hz]
  have nx : (ofPoints big c ps).pts.map Prod.fst ≠ [] := by simpa using hne
  have ny : (ofPoints big c ps).pts.map Prod.snd ≠ [] := by simpa using hne
  have sx : s.center.x = c.x + q.x := rfl
  have sy : s.center.y = c.y + q.y := rfl
  have e1 : (copyPoly big s).rear = |lo big ((copyPoly big s).pts.map Prod.fst) - s.center.x| := rfl
  have e2 : (copyPoly big s).front = |hi big ((copyPoly big s).pts.map Prod.fst) - s.center.x| := rfl
  have e3 : (copyPoly big s).left = |lo big ((copyPoly big s).pts.map Prod.snd) - s.center.y| := rfl
  have e4 : (copyPoly big s).right = |hi big ((copyPoly big s).pts.map Prod.snd) - s.center.y| := rfl
  have g1 : s.rear = |lo big ((ofPoints big c ps).pts.map Prod.fst) - c.x| := rfl
  have g2 : s.front = |hi big ((ofPoints big c ps).pts.map Prod.fst) - c.x| := rfl
  have g3 : s.left = |lo big ((ofPoints big c ps).pts.map Prod.snd) - c.y| := rfl
  have g4 : s.right = |hi big ((ofPoints big c ps).pts.map Prod.snd) - c.y| := rfl
  refine Poly.ext k1 k2 ?_ ?_ ?_ ?_
  · rw [e2, g2, k1, fx, H _ _ nx, sx]; congr 1; ring
  · rw [e1, g1, k1, fx, L _ _ nx, sx]; congr 1; ring
  · rw [e3, g3, k1, fy, L _ _ ny, sy]; congr 1; ring
  · rw [e4, g4, k1, fy, H _ _ ny, sy]; congr 1; ring

/-- C190: the outline of a car turned by 90 degrees loses its length by pickling -/
theorem C190_turned_violated (big w r : ℝ) (hw : 0 < w) (hr : 0 < r) :
    (transform (generateCarRectangle big w r) ⟨0, 0, Real.pi / 2⟩).front = w + r ∧
    (copyPoly big (transform (generateCarRectangle big w r) ⟨0, 0, Real.pi / 2⟩)).front = r := by
  obtain ⟨hp, hc, hf, _⟩ := C155_car_rectangle big w r hw.le hr
  refine ⟨hf, ?_⟩
  have hring : Ring (generateCarRectangle big w r).pts := by
    rw [hp]
    refine ⟨⟨(-r, -r), [(-r, r), (w + r, r), (w + r, -r)], rfl⟩, ?_⟩
    simp only [turn]
    nlinarith
  obtain ⟨k1, k2, ⟨m, hm, k3⟩, _⟩ := C190_polygon_ring big _ (ring_transform hring ⟨0, 0, Real.pi / 2⟩)
  rw [k3, k2]
  have hcx : (transform (generateCarRectangle big w r) ⟨0, 0, Real.pi / 2⟩).center.x = 0 := by
    show (generateCarRectangle big w r).center.x + 0 = 0
    rw [hc]; simp
  rw [hcx]
  have hpts : (transform (generateCarRectangle big w r) ⟨0, 0, Real.pi / 2⟩).pts =
      [(r, -r), (-r, -r), (-r, w + r), (r, w + r), (r, -r)] := by
    simp only [transform, hp, hc, List.map_cons, List.map_nil, shift, clockwise, Real.cos_neg, Real.sin_neg, Real.cos_pi_div_two,
      Real.sin_pi_div_two]
    norm_num
  rw [k1, hpts] at hm
  have : m = r := by
    obtain ⟨⟨p, hp1, hp2⟩, hall⟩ := hm
    have h1 := hall (r, -r) (by simp)
    simp only [List.mem_cons, List.not_mem_nil, or_false] at hp1
    rcases hp1 with rfl | rfl | rfl | rfl | rfl <;> simp only at hp2 h1 <;> linarith
  rw [this, sub_zero, abs_of_pos hr]

/-- C190: a safety polygon keeps its distances and its agent; its polygon is kept as polygons are -/
theorem C190_safety_polygon (big : ℝ) (s : SafetyPoly) :
    (copySafety big s).left = s.left ∧ (copySafety big s).right = s.right ∧ (copySafety big s).lon = s.lon ∧
    (copySafety big s).agent = s.agent ∧ (copySafety big s).current = s.current ∧
    (copySafety big s).polygon = copyPoly big s.polygon := ⟨rfl, rfl, rfl, rfl, rfl, rfl⟩

/-! ### corridors, settings, observers, execution models -/

/-- C190: a road corridor can only be pickled if it has neither roads nor lane corridors; nothing but its polygon is then kept -/
theorem C190_corridor_partial {R C D : Type} (big : ℝ) (c : Corridor R C D) :
    ((∃ c', copyCorridor big c = .ok c') ↔ c.roads = [] ∧ c.unique = [] ∧ c.byLane = []) ∧
    ∀ c', copyCorridor big c = .ok c' → c'.roads = [] ∧ c'.unique = [] ∧ c'.byLane = [] ∧
      c'.polygon = copyPoly big c.polygon ∧ c'.ids = [] ∧ c'.dir = none := by
  unfold copyCorridor corridorState
  by_cases h : c.roads = [] ∧ c.unique = [] ∧ c.byLane = []
  · rw [if_pos h]
    refine ⟨⟨fun _ => h, fun _ => ⟨_, rfl⟩⟩, ?_⟩
    intro c' hc'
    simp only [Except.map, Except.ok.injEq] at hc'
    subst hc'
    exact ⟨h.1, h.2.1, h.2.2, rfl, rfl, rfl⟩
  · rw [if_neg h]
    refine ⟨⟨fun ⟨c', h'⟩ => by simp [Except.map] at h', fun h' => absurd h' h⟩, ?_⟩
    intro c' h'
    simp [Except.map] at h'

/-- C190: so no corridor made for an agent, which has roads, can be pickled -/
theorem C190_corridor_violated {R C D : Type} (big : ℝ) (c : Corridor R C D) (n : Nat) (r : R) (h : (n, r) ∈ c.roads) :
    copyCorridor big c = .error .thrown := by
  unfold copyCorridor corridorState
  rw [if_neg]
  · rfl
  · rintro ⟨h1, _⟩
    rw [h1] at h; simp at h

theorem setInsert_last (n : Nat) (l : List Nat) (h : ∀ m ∈ l, m < n) : setInsert n l = l ++ [n] := by
  induction l with
  | nil => rfl
  | cons m l ih =>
    have hm := h m (by simp)
    unfold setInsert
    rw [if_neg (by omega), if_neg (by omega), ih (fun x hx => h x (by simp [hx]))]
    rfl

theorem fold_sorted : ∀ (l acc : List Nat), (acc ++ l).Pairwise (· < ·) →
    l.foldl (fun l n => setInsert n l) acc = acc ++ l := by
  intro l
  induction l with
  | nil => intro acc _; simp
  | cons n l ih =>
    intro acc h
    rw [List.foldl_cons, setInsert_last, ih]
    · simp
    · simpa using h
    · intro m hm
      exact (List.pairwise_append.1 h).2.2 m hm n (by simp)

theorem mem_setInsert (k n : Nat) (l : List Nat) : k ∈ setInsert n l ↔ k = n ∨ k ∈ l := by
  induction l with
  | nil => simp [setInsert]
  | cons m l ih =>
    unfold setInsert
    split_ifs with h1 h2
    · simp
    · subst h2; simp
    · simp only [List.mem_cons, ih]; tauto

theorem behavior_restored {A : Type} [Inhabited A] (copy : Py.BCls → A → A) (o : Option (Py.Obj Py.BCls A))
    (h : ∀ m, o = some m → Py.Spec.BSupported m.cls) :
    ∃ t o', Py.behaviorToPython o = .ok t ∧ Py.pythonToBehavior copy t = .ok o' ∧ Restored copy o o' := by
  cases o with
  | none => exact ⟨(.text "None", "None"), none, rfl, rfl, rfl⟩
  | some m =>
    obtain ⟨t, h1, _, h3⟩ := (Py.C54_behavior copy).round m (h m rfl)
    exact ⟨t, _, h1, h3, rfl⟩

/-- C190: prediction settings keep which models are used for whom: the models, of supported classes or absent, in their roles
and the set of agents -/
theorem C190_settings {A : Type} [Inhabited A] (copy : Py.BCls → A → A) (p : Settings A) (hs : p.agents.Pairwise (· < ·))
    (h : ∀ m, some m ∈ [p.ego, p.dflt, p.specific] → Py.Spec.BSupported m.cls) :
    ∃ p', copySettings copy p = .ok p' ∧ Restored copy p.ego p'.ego ∧ Restored copy p.dflt p'.dflt ∧
      Restored copy p.specific p'.specific ∧ p'.agents = p.agents := by
  obtain ⟨t0, e, a1, a2, a3⟩ := behavior_restored copy p.ego (fun m hm => h m (by simp [hm]))
  obtain ⟨t1, d, b1, b2, b3⟩ := behavior_restored copy p.dflt (fun m hm => h m (by simp [hm]))
  obtain ⟨t2, s, c1, c2, c3⟩ := behavior_restored copy p.specific (fun m hm => h m (by simp [hm]))
  refine ⟨mkSettings e d s p.agents, ?_, a3, b3, c3, ?_⟩
  · unfold copySettings
    rw [a1, b1, c1]
    simp only [Bind.bind, Except.bind]
    rw [a2, b2, c2]
    rfl
  · exact fold_sorted p.agents [] (by simpa using hs)

theorem setInsert_sorted (n : Nat) (l : List Nat) (h : l.Pairwise (· < ·)) : (setInsert n l).Pairwise (· < ·) := by
  induction l with
  | nil => simp [setInsert]
  | cons m l ih =>
    rw [List.pairwise_cons] at h
    unfold setInsert
    split_ifs with h1 h2
    · rw [List.pairwise_cons, List.pairwise_cons]
      refine ⟨?_, h⟩
      intro k hk
      rcases List.mem_cons.1 hk with rfl | hk
      · exact h1
      · exact h1.trans (h.1 k hk)
    · exact List.pairwise_cons.2 h
    · refine List.pairwise_cons.2 ⟨?_, ih h.2⟩
      intro k hk
      rcases (mem_setInsert k n l).1 hk with rfl | hk
      · omega
      · exact h.1 k hk

/-- C190: settings made from a list of agents apply to exactly the agents of the list, held once each and in order -/
theorem C190_settings_made {A : Type} (e d s : Option (Py.Obj Py.BCls A)) (agents : List Nat) :
    (mkSettings e d s agents).ego = e ∧ (mkSettings e d s agents).dflt = d ∧ (mkSettings e d s agents).specific = s ∧
    (mkSettings e d s agents).agents.Pairwise (· < ·) ∧ ∀ k, k ∈ (mkSettings e d s agents).agents ↔ k ∈ agents := by
  have hsort : ∀ (l acc : List Nat), acc.Pairwise (· < ·) → (l.foldl (fun l n => setInsert n l) acc).Pairwise (· < ·) := by
    intro l
    induction l with
    | nil => intro acc h; exact h
    | cons n l ih => intro acc h; exact ih _ (setInsert_sorted n acc h)
  refine ⟨rfl, rfl, rfl, hsort agents [] List.Pairwise.nil, fun k => ?_⟩
  have : ∀ (l acc : List Nat), k ∈ l.foldl (fun l n => setInsert n l) acc ↔ k ∈ l ∨ k ∈ acc := by
    intro l
    induction l with
    | nil => simp
    | cons n l ih => intro acc; rw [List.foldl_cons, ih, mem_setInsert]; simp only [List.mem_cons]; tauto
  have h := this agents []
  simp only [List.not_mem_nil, or_false] at h
  exact h

/-- C190: an observer keeps its class and its parameters, as parameters are converted, and observes for all agents -/
theorem C190_observer_partial {P : Type} (conv : P → Res P) (o o' : Obs P) (h : copyObs conv o = .ok o') :
    o'.cls = o.cls ∧ conv o.params = .ok o'.params ∧ o'.only = [] := by
  unfold copyObs at h
  cases hc : o.cls <;> rw [hc] at h <;> cases hp : conv o.params <;> rw [hp] at h <;>
    simp only [Except.map, reduceCtorEq, Except.ok.injEq] at h <;> subst h <;> exact ⟨rfl, rfl, rfl⟩

/-- C190: so an observer restricted to some agents comes back unrestricted -/
theorem C190_observer_violated {P : Type} (conv : P → Res P) (o : Obs P) (h : o.only ≠ []) : copyObs conv o ≠ .ok o := by
  intro e
  exact h (C190_observer_partial conv o o e).2.2

/-- C190: an execution model comes back as a new one: valid, without state and trajectory -/
theorem C190_execution_partial {V : Type} (e : Interp.Exec V) :
    ∃ e', copyExec e = .ok e' ∧ e'.status = .valid ∧ e'.state = none ∧ e'.traj = [] := by
  refine ⟨freshExec V, ?_, rfl, rfl, rfl⟩
  unfold copyExec
  simp

/-- C190: so a failed execution, which is never valid again (C18), is valid once pickled -/
theorem C190_execution_violated {V : Type} (e : Interp.Exec V) (h : e.status = .invalid) :
    ∃ e', copyExec e = .ok e' ∧ e'.status ≠ e.status := by
  obtain ⟨e', h1, h2, _⟩ := C190_execution_partial e
  exact ⟨e', h1, by rw [h2, h]; simp⟩

/-! ### non-vacuity -/

example : Ring [(0, 0), (0, 1), (1, 1), (0, 0)] := by
  refine ⟨⟨(0, 0), [(0, 1), (1, 1)], rfl⟩, ?_⟩
  simp [turn]

example : ∃ p' : Settings Nat, copySettings (fun _ n => n) ⟨some ⟨.constantAcceleration, 3, none⟩, none, none, [1, 4]⟩ = .ok p' ∧
    p'.agents = [1, 4] := by
  obtain ⟨p', h, _, _, _, h5⟩ := C190_settings (fun _ n => n) (⟨some ⟨.constantAcceleration, 3, none⟩, none, none, [1, 4]⟩ : Settings Nat)
    (by simp) (by intro m hm; simp only [List.mem_cons, Option.some.injEq, reduceCtorEq, List.not_mem_nil, or_false] at hm; subst hm; trivial)
  exact ⟨p', h, h5⟩

example : (copyObs (fun p : Nat => .ok p) ⟨.parametric, 7, [2]⟩) = .ok ⟨.parametric, 7, []⟩ := rfl

end Bark.PGeo
