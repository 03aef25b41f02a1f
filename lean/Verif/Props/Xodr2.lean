import Verif.Props.Xodr

/-!
C158–C162, second part: roads, junctions, the whole document, and what goes wrong.
-/
namespace Bark.Xodr
open Bark.Ln Bark.Ln.Spec Bark.PV Bark.LaneLine

/-! ### plan view -/

theorem addGeo_spec {v : Env} {p p' : PlanView} {g : Elem} (h : addGeo v p (parseGeo v g) = .ok p') :
    Spec.Adds v g p p' := by
  unfold addGeo parseGeo at h
  simp only at h
  obtain ⟨x, h1, h⟩ := bind_ok h
  obtain ⟨y, h2, h⟩ := bind_ok h
  obtain ⟨k, h3, h⟩ := bind_ok h
  obtain ⟨a, h4, h⟩ := bind_ok h
  obtain ⟨len, h5, h⟩ := bind_ok h
  have h1 := real_some (need_ok h1)
  have h2 := real_some (need_ok h2)
  have h4 := real_some (need_ok h4)
  have h5 := real_some (need_ok h5)
  have h3 := need_ok h3
  unfold parseKind at h3
  cases ha : g.find "arc" with
  | some e =>
    rw [ha] at h3
    cases h3
    obtain ⟨c, h6, h⟩ := bind_ok h
    exact .arc e x y a len c ha h1 h2 h4 h5 (real_some (need_ok h6)) h
  | none =>
    rw [ha] at h3
    simp only at h3
    cases hs : g.find "spiral" with
    | some e =>
      rw [hs] at h3
      cases h3
      obtain ⟨c, h6, h⟩ := bind_ok h
      obtain ⟨d, h7, h⟩ := bind_ok h
      exact .spiral e x y a len c d hs ha h1 h2 h4 h5 (real_some (need_ok h6)) (real_some (need_ok h7)) h
    | none =>
      rw [hs] at h3
      simp only at h3
      cases hl : g.find "line" with
      | none => rw [hl] at h3; cases h3
      | some e =>
        rw [hl] at h3
        cases h3
        obtain ⟨st, h6, h⟩ := bind_ok h
        refine .line x y a len st (by rw [hl]; rfl) ha hs h1 h2 h4 h5 ?_ h
        unfold lineStep at h6
        cases hv : v.sIncLine with
        | whole => rw [hv] at h6; cases h6; exact Or.inl ⟨rfl, rfl⟩
        | step t => rw [hv] at h6; cases h6; exact Or.inr rfl
        | other => rw [hv] at h6; cases h6

theorem addGeos_spec {v : Env} : ∀ {gs : List Elem} {p p' : PlanView}, addGeos v p (gs.map (parseGeo v)) = .ok p' →
    Spec.Grown v gs p p' := by
  intro gs
  induction gs with
  | nil => intro p p' h; cases h; exact .nil p
  | cons g gs ih =>
    intro p p' h
    rw [List.map_cons] at h
    unfold addGeos at h
    obtain ⟨q, h1, h2⟩ := bind_ok h
    exact .cons (addGeo_spec h1) (ih h2)

/-- C162: the reference line of a road is made of its geometries in the order of the document, then moved by the offset of
the header -/
theorem C162_plan {v : Env} {gs : List Elem} {o : Shift} {p : PlanView}
    (h : planView v (gs.map (parseGeo v)) o = .ok p) :
    ∃ q, Spec.Grown v gs PlanView.new q ∧ Spec.Moved o q p := by
  unfold planView at h
  obtain ⟨q, h1, h2⟩ := bind_ok h
  refine ⟨q, addGeos_spec h1, ?_⟩
  cases o with
  | none => cases h2; rfl
  | some o => obtain ⟨x, y, a⟩ := o; cases h2; rfl

/-- C162: a geometry that is neither a line nor an arc nor a spiral makes the document be refused -/
theorem C162_unsupported {v : Env} {gs : List Elem} {o : Shift} (g : Elem) (hg : g ∈ gs)
    (h : g.find "line" = none ∧ g.find "arc" = none ∧ g.find "spiral" = none) (p : PlanView) :
    planView v (gs.map (parseGeo v)) o ≠ .ok p := by
  intro hp
  obtain ⟨q, hq, -⟩ := C162_plan hp
  clear hp
  generalize PlanView.new = p0 at hq
  induction hq with
  | nil => simp at hg
  | cons ha _ ih =>
    rcases List.mem_cons.1 hg with rfl | hg
    · cases ha with
      | line _ _ _ _ _ h1 => rw [h.1] at h1; cases h1
      | arc _ _ _ _ _ _ h1 => rw [h.2.1] at h1; cases h1
      | spiral _ _ _ _ _ _ _ h1 => rw [h.2.2] at h1; cases h1
    · exact ih hg

/-- C162 violated: a whole number as step for straight lines, such as 2, is refused, so no road with a line can be read -/
theorem C162_whole_step_violated {v : Env} (hv : v.sIncLine = .other) {gs : List Elem} {o : Shift} (g : Elem) (hg : g ∈ gs)
    (h : g.find "arc" = none ∧ g.find "spiral" = none) (p : PlanView) :
    planView v (gs.map (parseGeo v)) o ≠ .ok p := by
  intro hp
  obtain ⟨q, hq, -⟩ := C162_plan hp
  clear hp
  generalize PlanView.new = p0 at hq
  induction hq with
  | nil => simp at hg
  | cons ha _ ih =>
    rcases List.mem_cons.1 hg with rfl | hg
    · cases ha with
      | line _ _ _ _ _ _ _ _ _ _ _ _ h1 => rw [hv] at h1; simp at h1
      | arc _ _ _ _ _ _ h1 => rw [h.1] at h1; cases h1
      | spiral _ _ _ _ _ _ _ h1 => rw [h.2] at h1; cases h1
    · exact ih hg

/-! ### roads -/

theorem end_spec (v : Env) (e : Elem) (side : String) :
    Spec.EndOf v e side (roadEnd ((e.find "link").bind fun l => (l.find side).map (parseEnd v))) := by
  have key : ∀ x : RoadEnd, Spec.Joins v e side x ↔ ∃ d, ((e.find "link").bind fun l => l.find side) = some d ∧
      v.whole d "elementId" = some (x.id : ℤ) ∧ d.get "elementType" = some x.type ∧ x.id < 2 ^ 32 := by
    intro x
    constructor
    · rintro ⟨l, d, h1, h2, h3, h4⟩
      exact ⟨d, by rw [h1]; exact h2, whole_some.2 h3, h4⟩
    · rintro ⟨d, h1, h3, h4⟩
      obtain ⟨l, h1, h2⟩ := Option.bind_eq_some_iff.1 h1
      exact ⟨l, d, h1, h2, whole_some.1 h3, h4⟩
  have hre : ((e.find "link").bind fun l => (l.find side).map (parseEnd v)) =
      ((e.find "link").bind fun l => l.find side).map (parseEnd v) := by
    cases e.find "link" <;> rfl
  rw [hre]
  unfold Spec.EndOf
  simp only [key]
  cases hd : (e.find "link").bind fun l => l.find side with
  | none =>
    right
    refine ⟨?_, rfl⟩
    rintro y ⟨d, h, -⟩
    cases h
  | some d =>
    show (∃ d', some d = some d' ∧ _) ∨ _
    rw [Option.map_some]
    unfold parseEnd
    cases hi : v.whole d "elementId" with
    | none =>
      right
      refine ⟨?_, rfl⟩
      rintro y ⟨d', h, h1, -⟩
      cases h
      rw [hi] at h1; cases h1
    | some i =>
      cases ht : d.get "elementType" with
      | none =>
        right
        refine ⟨?_, rfl⟩
        rintro y ⟨d', h, -, h1, -⟩
        cases h
        rw [ht] at h1; cases h1
      | some t =>
        unfold roadEnd
        by_cases g : 0 ≤ i ∧ i < 2 ^ 32
        · simp only [if_pos g]
          left
          refine ⟨d, rfl, ?_, ht, ?_⟩
          · rw [hi, Int.toNat_of_nonneg g.1]
          · show i.toNat < _
            omega
        · simp only [if_neg g]
          right
          refine ⟨?_, rfl⟩
          rintro y ⟨d', h, h1, -, h2⟩
          cases h
          rw [hi] at h1
          cases h1
          omega

theorem createSections_spec {v : Env} {re : Elem} {r : PyRoad} {j : ℤ} {ref : Line} (hr : parseRoad v re = .ok r) :
    ∀ {es : List Elem} {qs : List PySection}, List.Forall₂ (fun e q => parseSection v e = .ok q) es qs →
    ∀ {n : ℕ} {ss : List Section}, createSections v r j ref n qs = .ok ss →
      List.Forall₂ (Spec.SectionOf v re ref j) es ss ∧
      (ss.flatMap fun s => s.lanes).map (fun l => l.id) = List.range' (n + 1) (ss.flatMap fun s => s.lanes).length := by
  intro es qs hF
  induction hF with
  | nil => intro n ss h; cases h; exact ⟨.nil, rfl⟩
  | @cons e q es qs hq _ ih =>
    intro n ss h
    unfold createSections at h
    obtain ⟨x, h1, h⟩ := bind_ok h
    obtain ⟨xs, h2, h⟩ := bind_ok h
    cases h
    obtain ⟨a1, a2⟩ := C159_section hr hq h1
    obtain ⟨b1, b2⟩ := ih h2
    refine ⟨.cons a1 b1, ?_⟩
    rw [List.flatMap_cons, List.map_append, a2, b2, List.length_append, List.range'_append_1.symm]
    congr 2
    omega

theorem createRoad_spec {v : Env} {re : Elem} {r : PyRoad} {o : Shift} {n : ℕ} {x : Road} (hr : parseRoad v re = .ok r)
    (h : createRoad v o n r = .ok x) : Spec.RoadOf v o re x ∧
      (Spec.allLanes x).map (fun l => l.id) = List.range' (n + 1) (Spec.allLanes x).length := by
  obtain ⟨p1, p2, p3, p4, p5, ⟨lanes, p6, p7⟩, ⟨pv, p8, p9⟩, p10⟩ := parseRoad_spec hr
  unfold createRoad at h
  obtain ⟨i, h1, h⟩ := bind_ok h
  obtain ⟨id, h2, h⟩ := bind_ok h
  obtain ⟨name, h3, h⟩ := bind_ok h
  obtain ⟨plan, h4, h⟩ := bind_ok h
  obtain ⟨j, h5, h⟩ := bind_ok h
  obtain ⟨secs, h6, h⟩ := bind_ok h
  cases h
  obtain ⟨s1, s2⟩ := createSections_spec hr p7 h6
  refine ⟨⟨?_, ?_, ?_, ?_, ?_, lanes, j, p6, whole_some.1 (by rw [← p4]; exact need_ok h5), s1⟩, s2⟩
  · show Spec.Whole v re "id" (id : ℤ)
    rw [(uint32_ok h2).1]
    exact whole_some.1 (by rw [← p1]; exact need_ok h1)
  · show re.get "name" = some name
    rw [← p2]; exact need_ok h3
  · show Spec.EndOf v re "predecessor" (roadEnd (r.link.bind Prod.fst))
    have : r.link.bind Prod.fst = (re.find "link").bind fun l => (l.find "predecessor").map (parseEnd v) := by
      rw [p10]; cases re.find "link" <;> rfl
    rw [this]; exact end_spec v re _
  · show Spec.EndOf v re "successor" (roadEnd (r.link.bind Prod.snd))
    have : r.link.bind Prod.snd = (re.find "link").bind fun l => (l.find "successor").map (parseEnd v) := by
      rw [p10]; cases re.find "link" <;> rfl
    rw [this]; exact end_spec v re _
  · rw [p9] at h4
    obtain ⟨q, h5, h6⟩ := C162_plan h4
    exact ⟨pv, q, p8, h5, h6⟩

theorem count_eq (r : Road) : r.count = (Spec.allLanes r).length := by
  unfold Road.count Spec.allLanes
  rw [List.length_flatMap]

theorem createRoads_spec {v : Env} {o : Shift} : ∀ {es : List Elem} {rs : List PyRoad},
    List.Forall₂ (fun e r => parseRoad v e = .ok r) es rs → ∀ {n : ℕ} {xs : List Road}, createRoads v o n rs = .ok xs →
      List.Forall₂ (Spec.RoadOf v o) es xs ∧
      (xs.flatMap Spec.allLanes).map (fun l => l.id) = List.range' (n + 1) (xs.flatMap Spec.allLanes).length := by
  intro es rs hF
  induction hF with
  | nil => intro n xs h; cases h; exact ⟨.nil, rfl⟩
  | @cons e r es rs hr _ ih =>
    intro n xs h
    unfold createRoads at h
    obtain ⟨x, h1, h⟩ := bind_ok h
    obtain ⟨ys, h2, h⟩ := bind_ok h
    cases h
    obtain ⟨a1, a2⟩ := createRoad_spec hr h1
    obtain ⟨b1, b2⟩ := ih h2
    refine ⟨.cons a1 b1, ?_⟩
    rw [count_eq] at b2
    rw [List.flatMap_cons, List.map_append, a2, b2, List.length_append, List.range'_append_1.symm]
    congr 2
    omega

/-! ### the document -/

theorem header_spec {v : Env} {doc : Elem} {o : Shift} (h : parseHeader v doc = .ok o) : Spec.ShiftOf v doc o := by
  unfold parseHeader at h
  obtain ⟨x, h1, h⟩ := bind_ok h
  cases hx : x.find "offset" with
  | none =>
    rw [hx] at h
    cases h
    exact ⟨x, need_ok h1, hx⟩
  | some e =>
    rw [hx] at h
    simp only at h
    obtain ⟨a, g1, h⟩ := bind_ok h
    obtain ⟨b, g2, h⟩ := bind_ok h
    obtain ⟨c, g3, h⟩ := bind_ok h
    obtain ⟨d, g4, h⟩ := bind_ok h
    cases h
    exact ⟨x, e, need_ok h1, hx, real_some (need_ok g1), real_some (need_ok g2), real_some (need_ok g4)⟩

theorem lastWith_append {α : Type} (f : α → Bool) (l : List α) (x : α) :
    Spec.lastWith f (l ++ [x]) = if f x then some x else Spec.lastWith f l := by
  unfold Spec.lastWith
  rw [List.reverse_append]
  show List.find? f (x :: l.reverse) = _
  rw [List.find?_cons]
  cases f x <;> rfl

theorem foldl_insert {α : Type} (key : α → ℕ) (l : List α) (i : ℕ) :
    OMap.find i (l.foldl (fun m x => OMap.insert (key x) x m) ([] : OMap ℕ α)) = Spec.lastWith (fun x => decide (key x = i)) l := by
  induction l using List.reverseRecOn with
  | nil => rfl
  | append_singleton l x ih =>
    rw [List.foldl_append, lastWith_append]
    show OMap.find i (OMap.insert (key x) x _) = _
    rw [OMap.find_insert, ih]
    by_cases h : key x = i
    · subst h; simp
    · have h' : i ≠ key x := fun e => h e.symm
      simp [h, h']

theorem roads_foldl (roads : List Road) (m : XMap) :
    (roads.foldl addRoad m).roads = roads.foldl (fun m r => OMap.insert r.id r m) m.roads ∧
    (roads.foldl addRoad m).lanes = insertAll m.lanes (roads.flatMap Spec.allLanes) ∧
    (roads.foldl addRoad m).junctions = m.junctions := by
  induction roads generalizing m with
  | nil => exact ⟨rfl, rfl, rfl⟩
  | cons r rs ih =>
    obtain ⟨h1, h2, h3⟩ := ih (addRoad m r)
    refine ⟨h1, ?_, h3⟩
    rw [List.foldl_cons, h2, List.flatMap_cons]
    unfold insertAll
    rw [List.foldl_append]
    rfl

theorem junctions_foldl (js : List Junction) (m : XMap) :
    (js.foldl addJunction m).roads = m.roads ∧ (js.foldl addJunction m).lanes = m.lanes ∧
    (js.foldl addJunction m).junctions = js.foldl (fun m j => OMap.insert j.id j m) m.junctions := by
  induction js generalizing m with
  | nil => exact ⟨rfl, rfl, rfl⟩
  | cons r rs ih => exact ih (addJunction m r)

theorem insertAll_find (ls : List Lane) (m : OMap ℕ Lane) (i : ℕ) :
    OMap.find i (insertAll m ls) = (OMap.find i m).or (ls.find? fun l => decide (l.id = i)) := by
  induction ls generalizing m with
  | nil => show OMap.find i m = _; simp
  | cons l ls ih =>
    have e : insertAll m (l :: ls) = insertAll (if (OMap.find l.id m).isSome then m else OMap.insert l.id l m) ls := rfl
    rw [e, ih, List.find?_cons]
    by_cases hl : l.id = i
    · subst hl
      cases hm : OMap.find l.id m with
      | none =>
        rw [if_neg (by simp), OMap.find_insert]
        simp
      | some y =>
        rw [if_pos (by rfl), hm]
        simp
    · have hl' : ¬i = l.id := fun e => hl e.symm
      rw [decide_eq_false hl]
      cases hm : OMap.find l.id m with
      | none => rw [if_neg (by simp), OMap.find_insert, if_neg hl']
      | some y => rw [if_pos (by rfl)]

theorem find?_nodup {ls : List Lane} (h : (ls.map fun l => l.id).Nodup) (i : ℕ) (l : Lane) :
    (ls.find? fun l => decide (l.id = i)) = some l ↔ l ∈ ls ∧ l.id = i := by
  induction ls with
  | nil => simp
  | cons x xs ih =>
    rw [List.map_cons, List.nodup_cons] at h
    rw [List.find?_cons]
    by_cases hx : x.id = i
    · rw [decide_eq_true hx]
      simp only [Option.some.injEq, List.mem_cons]
      constructor
      · rintro rfl; exact ⟨Or.inl rfl, hx⟩
      · rintro ⟨rfl | hm, hl⟩
        · rfl
        · exact absurd (List.mem_map.2 ⟨l, hm, hl.trans hx.symm⟩) h.1
    · rw [decide_eq_false hx]
      rw [ih h.2]
      constructor
      · rintro ⟨a, b⟩; exact ⟨List.mem_cons_of_mem _ a, b⟩
      · rintro ⟨a, b⟩
        rcases List.mem_cons.1 a with rfl | a
        · exact absurd b hx
        · exact ⟨a, b⟩

theorem conn_spec {v : Env} {e : Elem} {c : Conn} (h : createConn v e = .ok c) : Spec.ConnOf v e c := by
  unfold createConn at h
  obtain ⟨i, h1, h⟩ := bind_ok h
  obtain ⟨i', h2, h⟩ := bind_ok h
  obtain ⟨k, h3, h⟩ := bind_ok h
  obtain ⟨k', h4, h⟩ := bind_ok h
  obtain ⟨m, h5, h⟩ := bind_ok h
  obtain ⟨m', h6, h⟩ := bind_ok h
  obtain ⟨ls, h7, h⟩ := bind_ok h
  cases h
  have key : ∀ {n : String} {i : ℤ} {k : ℕ}, need (v.whole e n) = .ok i → uint32 i = .ok k → Spec.Whole v e n k := by
    intro n i k a b
    rw [(uint32_ok b).1]
    exact whole_some.1 (need_ok a)
  refine ⟨key h5 h6, key h1 h2, key h3 h4, (mapM_forall h7).imp ?_⟩
  intro x p hx
  unfold createLink at hx
  obtain ⟨a, g1, hx⟩ := bind_ok hx
  obtain ⟨a', g2, hx⟩ := bind_ok hx
  obtain ⟨b, g3, hx⟩ := bind_ok hx
  obtain ⟨b', g4, hx⟩ := bind_ok hx
  cases hx
  have := int32_ok g2; subst this
  have := int32_ok g4; subst this
  exact ⟨whole_some.1 (need_ok g1), whole_some.1 (need_ok g3)⟩

theorem crossing_spec {v : Env} {e : Elem} {k : Junction} (h : createJunction v e = .ok k) : Spec.CrossingOf v e k := by
  unfold createJunction at h
  obtain ⟨i, h1, h⟩ := bind_ok h
  obtain ⟨i', h2, h⟩ := bind_ok h
  obtain ⟨cs, h3, h⟩ := bind_ok h
  cases h
  have hb : -2 ^ 31 ≤ i ∧ i < 2 ^ 31 := by
    by_contra g
    unfold int32 at h2
    rw [if_neg g] at h2
    cases h2
  have := int32_ok h2; subst this
  have h0 : (0 : ℤ) ≤ i' % 2 ^ 32 := Int.emod_nonneg _ (by norm_num)
  have h4 : i' % 2 ^ 32 < 2 ^ 32 := Int.emod_lt_of_pos _ (by norm_num)
  refine ⟨⟨i', whole_some.1 (need_ok h1), hb.1, hb.2, ?_, ?_⟩, cs, (mapM_forall h3).imp fun x c hx => conn_spec hx, ?_⟩
  · show (2 ^ 32 : ℤ) ∣ i' - ((i' % 2 ^ 32).toNat : ℤ)
    rw [Int.toNat_of_nonneg h0]
    exact Int.dvd_self_sub_emod
  · show (i' % 2 ^ 32).toNat < 2 ^ 32
    omega
  · intro k
    exact foldl_insert (fun c : Conn => c.id) cs k

theorem parse_ok {v : Env} {n : ℕ} {doc : Elem} {m : XMap} (h : parse v n doc = .ok m) :
    ∃ o roads js, Spec.ShiftOf v doc o ∧ List.Forall₂ (Spec.RoadOf v o) (doc.findall "road") roads ∧
      (roads.flatMap Spec.allLanes).map (fun l => l.id) = List.range' (n + 1) (roads.flatMap Spec.allLanes).length ∧
      List.Forall₂ (Spec.CrossingOf v) (doc.findall "junction") js ∧
      (∀ i, OMap.find i m.roads = Spec.lastWith (fun r => decide (r.id = i)) roads) ∧
      (∀ i l, OMap.find i m.lanes = some l ↔ l ∈ roads.flatMap Spec.allLanes ∧ l.id = i) ∧
      ∀ i, OMap.find i m.junctions = Spec.lastWith (fun j => decide (j.id = i)) js := by
  unfold parse at h
  obtain ⟨o, h1, h⟩ := bind_ok h
  obtain ⟨rs, h2, h⟩ := bind_ok h
  obtain ⟨roads, h3, h⟩ := bind_ok h
  obtain ⟨js, h4, h⟩ := bind_ok h
  cases h
  obtain ⟨r1, r2⟩ := createRoads_spec (mapM_forall h2) h3
  obtain ⟨j1, j2, j3⟩ := junctions_foldl js (roads.foldl addRoad ⟨[], [], []⟩)
  obtain ⟨k1, k2, k3⟩ := roads_foldl roads ⟨[], [], []⟩
  refine ⟨o, roads, js, header_spec h1, r1, r2, (mapM_forall h4).imp fun e k hk => crossing_spec hk, ?_, ?_, ?_⟩
  · intro i
    rw [j1, k1]
    exact foldl_insert (fun r : Road => r.id) roads i
  · intro i l
    rw [j2, k2, insertAll_find]
    rw [← find?_nodup (by rw [r2]; exact List.nodup_range') i l]
    rfl
  · intro i
    rw [j3, k3]
    exact foldl_insert (fun j : Junction => j.id) js i

/-- C159: the map read from a document contains for every road element the road it asks for — of roads with the same id the
last one — and under distinct, consecutive ids every lane of every road element -/
theorem C159_document {v : Env} {n : ℕ} {doc : Elem} {m : XMap} (h : parse v n doc = .ok m) :
    ∃ o roads, Spec.ShiftOf v doc o ∧ List.Forall₂ (Spec.RoadOf v o) (doc.findall "road") roads ∧
      (∀ i, OMap.find i m.roads = Spec.lastWith (fun r => decide (r.id = i)) roads) ∧
      (roads.flatMap Spec.allLanes).map (fun l => l.id) = List.range' (n + 1) (roads.flatMap Spec.allLanes).length ∧
      ∀ i l, OMap.find i m.lanes = some l ↔ l ∈ roads.flatMap Spec.allLanes ∧ l.id = i := by
  obtain ⟨o, roads, js, h1, h2, h3, -, h5, h6, -⟩ := parse_ok h
  exact ⟨o, roads, h1, h2, h5, h3, h6⟩

/-- C161: every junction element becomes a junction with the connections and lane links it lists -/
theorem C161_junctions {v : Env} {n : ℕ} {doc : Elem} {m : XMap} (h : parse v n doc = .ok m) :
    ∃ js, List.Forall₂ (Spec.CrossingOf v) (doc.findall "junction") js ∧
      ∀ i, OMap.find i m.junctions = Spec.lastWith (fun j => decide (j.id = i)) js := by
  obtain ⟨o, roads, js, -, -, -, h4, -, -, h7⟩ := parse_ok h
  exact ⟨js, h4, h7⟩

theorem forall₂_right {α β : Type} {R : α → β → Prop} {as : List α} {bs : List β} (h : List.Forall₂ R as bs) {b : β}
    (hb : b ∈ bs) : ∃ a ∈ as, R a b := by
  induction h with
  | nil => cases hb
  | cons hab _ ih =>
    rcases List.mem_cons.1 hb with rfl | hb
    · exact ⟨_, List.mem_cons_self, hab⟩
    · obtain ⟨a, h1, h2⟩ := ih hb
      exact ⟨a, List.mem_cons_of_mem _ h1, h2⟩

/-- C158: the boundary of every lane of the map is drawn from the width records of its element, in their order, along the
reference line of its road or the next lane inside -/
theorem C158_boundaries_partial {v : Env} {n : ℕ} {doc : Elem} {m : XMap} (h : parse v n doc = .ok m) (i : ℕ) (l : Lane)
    (hl : OMap.find i m.lanes = some l) :
    ∃ o, Spec.ShiftOf v doc o ∧ ∃ re ∈ doc.findall "road", ∃ lanes se e p before, re.find "lanes" = some lanes ∧
      se ∈ lanes.findall "laneSection" ∧ e ∈ Spec.lanesOf v se ∧ Spec.PlanOf v o re p ∧
      Spec.Boundary v re p.line before e l := by
  obtain ⟨o, roads, h1, h2, h3, h4, h5⟩ := C159_document h
  obtain ⟨hm, -⟩ := (h5 i l).1 hl
  obtain ⟨r, hr, hm⟩ := List.mem_flatMap.1 hm
  obtain ⟨s, hs, hm⟩ := List.mem_flatMap.1 hm
  obtain ⟨re, hre, hR⟩ := forall₂_right h2 hr
  obtain ⟨lanes, j, g1, g2, g3⟩ := hR.sections
  obtain ⟨se, hse, hS⟩ := forall₂_right g3 hs
  obtain ⟨es, k1, k2, k3⟩ := hS.lanes
  obtain ⟨a, ha⟩ := List.mem_iff_getElem?.1 hm
  obtain ⟨e, he, -⟩ := forall₂_get k2 a l ha
  exact ⟨o, h1, re, hre, lanes, se, e, r.plan, _, g1, hse, k1.mem_iff.1 (List.mem_of_getElem? he), hR.plan, k3 a e l he ha⟩

/-- C160: a lane that is not next to the center is drawn along a lane of its section that was drawn before it and lies next
to it on the inside -/
theorem C160_inside_out {v : Env} {re : Elem} {ref : Line} {j : ℤ} {e : Elem} {s : Section}
    (h : Spec.SectionOf v re ref j e s) (i : Nat) (l : Lane) (hl : s.lanes[i]? = some l) (h2 : 2 ≤ |l.pos|) :
    ∃ (k : Nat) (p : Lane), k < i ∧ s.lanes[k]? = some p ∧ (0 < l.pos ∧ p.pos = l.pos - 1 ∨ l.pos < 0 ∧ p.pos = l.pos + 1) ∧
      ∃ x rs, Spec.RecordsOf v x l.pos rs ∧ Spec.LaneOf v j x l ∧
        Spec.Drawn v p.line l.pos (Spec.records (Ln.length p.line.pts) rs) l.line.pts := by
  obtain ⟨es, -, k2, k3⟩ := h.lanes
  obtain ⟨x, hx, hL⟩ := forall₂_get k2 i l hl
  cases k3 i x l hx hl with
  | center len rs h0 => rw [h0] at h2; norm_num at h2
  | beside len t o rs h0 => rw [h0] at h2; norm_num at h2
  | outer p rs _ hp hrs hd =>
    unfold Spec.lastWith at hp
    have hmem := List.mem_of_find?_eq_some hp
    have hpos := List.find?_some hp
    simp only [decide_eq_true_eq] at hpos
    rw [List.mem_reverse] at hmem
    obtain ⟨k, hk⟩ := List.mem_iff_getElem?.1 hmem
    have hki : k < i := by
      have := (List.getElem?_eq_some_iff.1 hk).1
      rw [List.length_take] at this
      omega
    rw [List.getElem?_take_of_lt hki] at hk
    refine ⟨k, p, hki, hk, ?_, x, rs, hrs, hL, hd⟩
    by_cases g : 0 < l.pos
    · left; rw [if_pos g] at hpos; exact ⟨g, hpos⟩
    · right; rw [if_neg g] at hpos
      refine ⟨?_, hpos⟩
      rcases lt_or_eq_of_le (not_lt.1 g) with g' | g'
      · exact g'
      · rw [g'] at h2; norm_num at h2

/-- C160: a section that lacks the lane inside one of its lanes is refused -/
theorem C160_gap_refused {v : Env} {re : Elem} {r : PyRoad} {j : ℤ} {ref : Line} {n : ℕ} {e : Elem} {q : PySection}
    (hr : parseRoad v re = .ok r) (hq : parseSection v e = .ok q) (x : Elem) (hx : x ∈ Spec.lanesOf v e) (i : ℤ)
    (hi : Spec.Whole v x "id" i) (h2 : 2 ≤ |i|)
    (hno : ∀ y ∈ Spec.lanesOf v e, ∀ k, Spec.Whole v y "id" k → k ≠ if 0 < i then i - 1 else i + 1) (s : Section) :
    createSection v r j ref n q ≠ .ok s := by
  intro hs
  obtain ⟨hS, -⟩ := C159_section hr hq hs
  obtain ⟨es, k1, k2, -⟩ := hS.lanes
  have hx' := k1.mem_iff.2 hx
  obtain ⟨a, ha⟩ := List.mem_iff_getElem?.1 hx'
  have hlt : a < s.lanes.length := by rw [← k2.length_eq]; exact (List.getElem?_eq_some_iff.1 ha).1
  have hl := List.getElem?_eq_getElem hlt
  obtain ⟨x', hx', hL⟩ := forall₂_get k2 a _ hl
  rw [ha] at hx'; cases hx'
  have hpi : s.lanes[a].pos = i := by
    have h1 := whole_some.2 hL.pos
    rw [whole_some.2 hi] at h1
    exact (Option.some.inj h1).symm
  obtain ⟨k, p, -, hk, hp, -⟩ := C160_inside_out hS a _ hl (by rw [hpi]; exact h2)
  obtain ⟨y, hy, hY⟩ := forall₂_get k2 k p hk
  have := hno y (k1.mem_iff.1 (List.mem_of_getElem? hy)) p.pos hY.pos
  rw [hpi] at hp
  rcases hp with ⟨g, hp⟩ | ⟨g, hp⟩
  · rw [if_pos g] at this; exact this hp
  · rw [if_neg (by omega)] at this; exact this hp

/-- C158 violated: where a section begins has no influence on its lanes, so the lanes of all sections of a road begin at the
beginning of the road and reach to its end -/
theorem C158_section_start_violated {v : Env} {r : PyRoad} {j : ℤ} {ref : Line} {n : ℕ} {q : PySection} {s : Section}
    (h : createSection v r j ref n q = .ok s) (t : ℝ) :
    createSection v r j ref n ⟨some t, q.lanes⟩ = .ok ⟨t, s.lanes⟩ := by
  unfold createSection at h ⊢
  obtain ⟨a, h1, h⟩ := bind_ok h
  obtain ⟨ls, h2, h⟩ := bind_ok h
  cases h
  simp only at h2 ⊢
  rw [h2]
  rfl

/-- the settings of the examples: strings that are written-out numbers of one or two digits -/
noncomputable def env : Env where
  fl t := if t = "0" then some 0 else if t = "1" then some 1 else if t = "3" then some 3 else if t = "10" then some 10 else none
  int t := if t = "0" then some 0 else if t = "1" then some 1 else if t = "-1" then some (-1) else
    if t = "7" then some 7 else if t = "-2" then some (-2) else none
  simp ps := ps
  spiral _ _ _ _ _ _ := (0, 0)
  fuel := 0
  sIncLine := .whole
  sIncCurves := 1

theorem offsetPoints_pts (fuel : ℕ) (l : Line) (hl : l.pts = [(0, 0), (10, 0)]) (id : Int) (a e : ℝ) (he : 9 < e) :
    offsetPoints fuel l id ⟨0, e, ⟨a, 0, 0, 0⟩⟩ 0.2 =
      .ok [(0, LaneLine.Spec.outward id * a), (10, LaneLine.Spec.outward id * a)] := by
  have h := constant_straight fuel id a e he
  unfold offsetPoints endOf at h ⊢
  rw [straight_pts] at h
  rw [hl]
  rw [← h]
  have hc : (a = a) := rfl
  have he' : |(if e > Ln.length [((0 : ℝ), (0 : ℝ)), (10, 0)] then Ln.length [((0 : ℝ), (0 : ℝ)), (10, 0)] else e) - 0 -
      Ln.length [((0 : ℝ), (0 : ℝ)), (10, 0)]| < 1 := by
    have := straight_length
    rw [straight_pts] at this
    rw [this]
    split_ifs with g
    · norm_num
    · rw [abs_lt]; constructor <;> linarith [not_lt.1 g]
  rw [if_pos ⟨rfl, rfl, rfl, by simp, rfl, he'⟩, if_pos ⟨rfl, rfl, rfl, by simp, rfl, he'⟩]

theorem unique_straight : unique [((0 : ℝ), (0 : ℝ)), (10, 0)] = [(0, 0), (10, 0)] := by
  unfold unique
  rw [if_neg (by simp)]
  rfl

/-- a constant width along a straight reference line -/
theorem append_straight (ref : Line) (hr : ref.pts = [(0, 0), (10, 0)]) (pos : ℤ) (a : ℝ) :
    ∃ m, LaneLine.append env.simp env.fuel Ln.empty ref pos ⟨0, 10, ⟨a, 0, 0, 0⟩⟩ 0.2 = .ok m ∧
      m.pts = [(0, LaneLine.Spec.outward pos * a), (10, LaneLine.Spec.outward pos * a)] := by
  have h1 : (simplify env.simp { ref with pts := unique ref.pts }).pts = [(0, 0), (10, 0)] := by
    show unique ref.pts = _
    rw [hr]; exact unique_straight
  have h := offsetPoints_pts env.fuel _ h1 pos a 10 (by norm_num)
  unfold LaneLine.append offsetLine
  rw [h]
  refine ⟨_, rfl, ?_⟩
  show [] ++ (List.foldl addPoint Ln.empty _).pts = _
  rw [foldl_addPoint]; rfl

/-- a lane of width 3 as read -/
noncomputable def lane3 (id : ℤ) : PyLane :=
  ⟨id, .driving, .forward, none, none, [⟨some 0, some 3, some 0, some 0, some 0⟩]⟩

theorem createLane_straight (n : ℕ) (id : ℤ) (hid : id = 1 ∨ id = -1) (ref : Line) (hr : ref.pts = [(0, 0), (10, 0)])
    (o : ℝ) : ∃ l, createLane env n (lane3 id) 10 ref ⟨0, ⟨o, 0, 0, 0⟩⟩ (-1) = .ok l ∧
      l.line.pts = [(0, LaneLine.Spec.outward id * (3 + o)), (10, LaneLine.Spec.outward id * (3 + o))] := by
  obtain ⟨m, h1, h2⟩ := append_straight ref hr id (3 + o)
  have hi : int32 id = .ok id := by rcases hid with rfl | rfl <;> rfl
  have hw : widthOf ⟨some 0, some 3, some 0, some 0, some 0⟩ none ⟨0, ⟨o, 0, 0, 0⟩⟩ 10 = .ok ⟨0, 10, ⟨3 + o, 0, 0, 0⟩⟩ := by
    simp only [widthOf, need, endAt, bind, Except.bind, add_zero]
  have ha : appendWidths env id ref ⟨0, ⟨o, 0, 0, 0⟩⟩ 10 Ln.empty [⟨some 0, some 3, some 0, some 0, some 0⟩] = .ok m := by
    unfold appendWidths
    show (widthOf _ none _ _ >>= _) = _
    rw [hw]
    show (LaneLine.append _ _ _ _ _ _ _ >>= _) = _
    rw [h1]; rfl
  unfold createLane
  refine ⟨⟨n + 1, id, .driving, .forward, 0, 0, none, none, m⟩, ?_, h2⟩
  · show (int32 id >>= _) = _
    rw [hi]
    show (appendWidths _ _ _ _ _ _ _ >>= _) = _
    show (appendWidths env id ref ⟨0, ⟨o, 0, 0, 0⟩⟩ 10 Ln.empty [⟨some 0, some 3, some 0, some 0, some 0⟩] >>= _) = _
    rw [ha]
    rfl

/-- C158 violated: a lane offset of 1 m to the left moves the outer boundary of the left lane to the left, as it should be,
but that of the right lane to the right: the lanes do not move, the road becomes wider by 2 m -/
theorem C158_offset_violated : ∃ l r, createLane env 0 (lane3 1) 10 straight ⟨0, ⟨1, 0, 0, 0⟩⟩ (-1) = .ok l ∧
    createLane env 1 (lane3 (-1)) 10 straight ⟨0, ⟨1, 0, 0, 0⟩⟩ (-1) = .ok r ∧
    l.line.pts = [(0, 4), (10, 4)] ∧ r.line.pts = [(0, -4), (10, -4)] := by
  obtain ⟨l, h1, h2⟩ := createLane_straight 0 1 (Or.inl rfl) straight straight_pts 1
  obtain ⟨r, h3, h4⟩ := createLane_straight 1 (-1) (Or.inr rfl) straight straight_pts 1
  refine ⟨l, r, h1, h3, ?_, ?_⟩
  · rw [h2]; norm_num [LaneLine.Spec.outward]
  · rw [h4]; norm_num [LaneLine.Spec.outward]

/-! ### an example document -/

/-- a width of 3 m -/
def exWidth : Elem := .mk "width" [("sOffset", "0"), ("a", "3"), ("b", "0"), ("c", "0"), ("d", "0")] []

/-- a driving lane on the right -/
def exLane : Elem := .mk "lane" [("id", "-1"), ("type", "driving")] [exWidth]

/-- a section -/
def exSection : Elem := .mk "laneSection" [("s", "0")] [.mk "right" [] [exLane]]

/-- a straight line -/
def exGeo : Elem := .mk "geometry" [("x", "0"), ("y", "0"), ("hdg", "0"), ("length", "10")] [.mk "line" [] []]

/-- a road of 10 m with one driving lane of 3 m on the right -/
def exRoadElem : Elem :=
  .mk "road" [("id", "7"), ("name", "r"), ("length", "10"), ("junction", "-1")] [
    .mk "planView" [] [exGeo], .mk "lanes" [] [exSection]]

/-- the document -/
def exDoc : Elem := .mk "OpenDRIVE" [] [.mk "header" [] [], exRoadElem]

/-- the road as read -/
noncomputable def exRoad : PyRoad :=
  ⟨some 7, some "r", some 10, some (-1), noOffset, [⟨some 0, [lane3 (-1)]⟩], [⟨some 0, some 0, some 0, some 10, some .line⟩], none⟩

theorem ex_lane : parseLane env (-1) exLane = .ok (lane3 (-1)) := by
  simp [parseLane, laneMark, exLane, Elem.find, Elem.kids, Elem.tag, Elem.get, laneType, laneDir, userDir, parseWidths,
    Elem.findall, exWidth, parseWidth, Env.real, env, lane3, bind, Except.bind]

theorem ex_section : parseSection env exSection = .ok ⟨some 0, [lane3 (-1)]⟩ := by
  have h : parseLanes env [exLane] = .ok [lane3 (-1)] := by
    have hd : laneDict env [] [exLane] = .ok [(-1, exLane)] := by
      simp [laneDict, need, Env.whole, env, exLane, Elem.get, put, bind, Except.bind]
    unfold parseLanes
    rw [hd]
    simp only [Res.ok_bind, List.mapM_cons, ex_lane]
    rfl
  have hg : groups exSection = [.mk "right" [] [exLane]] := by
    simp [groups, exSection, Elem.findall, Elem.kids, Elem.tag]
  have hl : Elem.findall (.mk "right" [] [exLane]) "lane" = [exLane] := by
    simp [Elem.findall, Elem.kids, Elem.tag, exLane]
  unfold parseSection
  rw [hg, List.mapM_cons, hl, h]
  simp [bind, Except.bind, pure, Except.pure, Env.real, exSection, Elem.get, env]

theorem ex_road : parseRoad env exRoadElem = .ok exRoad := by
  have h1 : exRoadElem.find "lanes" = some (.mk "lanes" [] [exSection]) := by
    simp [exRoadElem, Elem.find, Elem.kids, Elem.tag]
  have h2 : exRoadElem.find "planView" = some (.mk "planView" [] [exGeo]) := by
    simp [exRoadElem, Elem.find, Elem.kids, Elem.tag]
  have h3 : Elem.findall (.mk "lanes" [] [exSection]) "laneSection" = [exSection] := by
    simp [Elem.findall, Elem.kids, Elem.tag, exSection]
  have h4 : Elem.find (.mk "lanes" [] [exSection]) "laneOffset" = none := by
    simp [Elem.find, Elem.kids, Elem.tag, exSection]
  have h5 : Elem.findall (.mk "planView" [] [exGeo]) "geometry" = [exGeo] := by
    simp [Elem.findall, Elem.kids, Elem.tag, exGeo]
  have h6 : parseGeo env exGeo = ⟨some 0, some 0, some 0, some 10, some .line⟩ := by
    simp [parseGeo, exGeo, Env.real, Elem.get, env, parseKind, Elem.find, Elem.kids, Elem.tag]
  unfold parseRoad
  rw [h1]
  simp only [need, Res.ok_bind, h3, h4, parseOffset, h2, h5, List.mapM_cons, ex_section, List.map_cons, h6]
  simp [bind, Except.bind, pure, Except.pure, exRoad, Env.whole, Env.real, exRoadElem, Elem.get, env, Elem.find, Elem.kids,
    Elem.tag]

theorem ex_plan : ∃ p, planView env exRoad.plan none = .ok p ∧ p.line.pts = [(0, 0), (10, 0)] := by
  have h : addGeo env PlanView.new ⟨some 0, some 0, some 0, some 10, some .line⟩ =
      addLine PlanView.new (0, 0) 0 10 10 := by
    rfl
  have h2 : trunc ((10 : ℝ) / 10) = 1 := by
    rw [div_self (by norm_num)]
    unfold trunc
    rw [if_pos (by norm_num)]
    simp
  have h3 : ∃ p, addLine PlanView.new (0, 0) 0 10 10 = .ok p ∧ p.line.pts = [(0, 0), (10, 0)] := by
    unfold addLine
    rw [if_neg (by norm_num), h2, if_neg (by norm_num)]
    refine ⟨_, rfl, ?_⟩
    show (addAll _ _).pts = _
    rw [addAll_pts]
    simp [lineSamples, linePoint, PlanView.new, Ln.empty, List.range_succ]
  obtain ⟨p, h4, h5⟩ := h3
  refine ⟨p, ?_, h5⟩
  unfold planView addGeos exRoad
  simp only [h, h4, Res.ok_bind, addGeos]

/-- the document is read, and its lane lies 3 m to the right of the reference line -/
theorem ex_document : ∃ m l, parse env 0 exDoc = .ok m ∧ OMap.find 1 m.lanes = some l ∧
    l.line.pts = [(0, -3), (10, -3)] ∧ l.pos = -1 ∧ (OMap.find 7 m.roads).isSome := by
  obtain ⟨p, h1, h2⟩ := ex_plan
  obtain ⟨l, h3, h4⟩ := createLane_straight 0 (-1) (Or.inr rfl) p.line h2 0
  obtain ⟨f1, f2, -⟩ := createLane_fields h3
  have h3' : createLane env 0 (lane3 (-1)) 10 p.line exRoad.offset (-1) = .ok l := h3
  have hnew : newLane env exRoad (-1) p.line 0 [] (lane3 (-1)) = .ok l := by
    unfold newLane
    rw [if_neg (by decide), if_pos (by decide)]
    exact h3'
  have hsec : createSection env exRoad (-1) p.line 0 ⟨some 0, [lane3 (-1)]⟩ = .ok ⟨0, [l]⟩ := by
    unfold createSection
    have : inOrder [lane3 (-1)] = [lane3 (-1)] := by simp [inOrder]
    simp only [need, Res.ok_bind, this, addLanes, addLane, hnew, List.nil_append]
  have hroad : createRoad env none 0 exRoad = .ok ⟨7, "r", p, noEnd, noEnd, [⟨0, [l]⟩]⟩ := by
    unfold createRoad
    have e1 : need exRoad.id = .ok 7 := rfl
    have e2 : uint32 7 = .ok 7 := rfl
    have e3 : need exRoad.name = .ok "r" := rfl
    have e4 : need exRoad.junction = .ok (-1) := rfl
    have e5 : exRoad.sections = [⟨some 0, [lane3 (-1)]⟩] := rfl
    simp only [e1, e2, e3, e4, e5, h1, Res.ok_bind, createSections, hsec]
    rfl
  have hd : exDoc.findall "road" = [exRoadElem] := by
    simp [exDoc, Elem.findall, Elem.kids, Elem.tag, exRoadElem]
  have hj : exDoc.findall "junction" = [] := by
    simp [exDoc, Elem.findall, Elem.kids, Elem.tag, exRoadElem]
  have hh : parseHeader env exDoc = .ok none := by
    simp [parseHeader, exDoc, Elem.find, Elem.kids, Elem.tag, need, bind, Except.bind]
  have hp : parse env 0 exDoc = .ok (addRoad ⟨[], [], []⟩ ⟨7, "r", p, noEnd, noEnd, [⟨0, [l]⟩]⟩) := by
    unfold parse
    rw [hh, hd, hj]
    simp only [Res.ok_bind, List.mapM_cons, ex_road, createRoads, hroad, List.mapM_nil, pure, Except.pure, List.foldl_cons,
      List.foldl_nil]
  refine ⟨_, l, hp, ?_, ?_, f2, rfl⟩
  · show OMap.find 1 (insertAll [] [l]) = _
    rw [insertAll_find]
    simp [f1, OMap.find]
  · rw [h4]; norm_num [LaneLine.Spec.outward]

/-- C159: a document without a header is refused -/
theorem C159_header {v : Env} {n : ℕ} {doc : Elem} (h : doc.find "header" = none) (m : XMap) : parse v n doc ≠ .ok m := by
  intro hp
  obtain ⟨o, -, ho, -⟩ := C159_document hp
  cases o with
  | none => obtain ⟨x, hx, -⟩ := ho; rw [h] at hx; cases hx
  | some o => obtain ⟨x, y, hx, -⟩ := ho; rw [h] at hx; cases hx

/-- C159 violated: the standard allows roads without a name; they make the whole document be refused -/
theorem C159_name_violated {v : Env} {n : ℕ} {doc : Elem} (e : Elem) (he : e ∈ doc.findall "road") (h : e.get "name" = none)
    (m : XMap) : parse v n doc ≠ .ok m := by
  intro hp
  obtain ⟨o, roads, -, hR, -⟩ := C159_document hp
  obtain ⟨i, hi⟩ := List.mem_iff_getElem?.1 he
  have hlt : i < roads.length := by rw [← hR.length_eq]; exact (List.getElem?_eq_some_iff.1 hi).1
  obtain ⟨e', he', hr⟩ := forall₂_get hR i _ (List.getElem?_eq_getElem hlt)
  rw [hi] at he'; cases he'
  have := hr.name
  rw [h] at this; cases this

/-- C159 violated: a solid or broken mark of a color the standard knows but the map does not makes the section be refused -/
theorem C159_color_violated {v : Env} {re : Elem} {r : PyRoad} {j : ℤ} {ref : Line} {n : ℕ} {e : Elem} {q : PySection}
    (hr : parseRoad v re = .ok r) (hq : parseSection v e = .ok q) (x k : Elem) (hx : x ∈ Spec.lanesOf v e)
    (hk : x.find "roadMark" = some k) (ht : k.get "type" = some "solid") (hc : k.get "color" = some "blue") (s : Section) :
    createSection v r j ref n q ≠ .ok s := by
  intro hs
  obtain ⟨hS, -⟩ := C159_section hr hq hs
  obtain ⟨es, k1, k2, -⟩ := hS.lanes
  obtain ⟨a, ha⟩ := List.mem_iff_getElem?.1 (k1.mem_iff.2 hx)
  have hlt : a < s.lanes.length := by rw [← k2.length_eq]; exact (List.getElem?_eq_some_iff.1 ha).1
  obtain ⟨x', hx', hL⟩ := forall₂_get k2 a _ (List.getElem?_eq_getElem hlt)
  rw [ha] at hx'; cases hx'
  have hm := hL.mark
  cases hmm : s.lanes[a].mark with
  | none => rw [hmm] at hm; exact (hm k hk).1 ht
  | some w =>
    rw [hmm] at hm
    obtain ⟨k', g1, -, g3, -⟩ := hm
    rw [hk] at g1; cases g1
    rw [hc] at g3
    cases hcol : w.color <;> rw [hcol] at g3 <;> simp [Spec.colorName] at g3

/-- C161: a lane link is the position given in the document; a link that is missing or cannot be read is 0 -/
theorem C161_lane_links {v : Env} {j : ℤ} {e : Elem} {l : Lane} (h : Spec.LaneOf v j e l) :
    (∀ p, Spec.Links v e "predecessor" p → l.fromPos = p) ∧ (∀ p, Spec.Links v e "successor" p → l.toPos = p) := by
  have key : ∀ (side : String) (x p : ℤ), Spec.LinkOf v e side x → Spec.Links v e side p → x = p := by
    intro side x p hx hp
    rcases hx with hx | ⟨hx, -⟩
    · rw [links_iff] at hx hp
      have := hx.1
      rw [hp.1] at this
      exact (Option.some.inj this).symm
    · exact absurd hp (hx p)
  exact ⟨fun p hp => key _ _ _ h.pred hp, fun p hp => key _ _ _ h.succ hp⟩

/-- C161 violated: a lane without a predecessor cannot be told from one that continues the center lane of the road before -/
theorem C161_no_link_violated {v : Env} {j : ℤ} {e e' : Elem} {l l' : Lane} (h : Spec.LaneOf v j e l)
    (h' : Spec.LaneOf v j e' l') (hno : ∀ p, ¬Spec.Links v e "predecessor" p) (h0 : Spec.Links v e' "predecessor" 0) :
    l.fromPos = l'.fromPos := by
  rw [(C161_lane_links h').1 0 h0]
  rcases h.pred with hx | ⟨-, hx⟩
  · exact absurd hx (hno _)
  · exact hx

/-- C161: the roads linked to a road are those given in the document -/
theorem C161_road_links {v : Env} {o : Shift} {e : Elem} {r : Road} (h : Spec.RoadOf v o e r) :
    (∀ x, Spec.Joins v e "predecessor" x → r.pred = x) ∧ (∀ x, Spec.Joins v e "successor" x → r.succ = x) := by
  have key : ∀ (side : String) (x y : RoadEnd), Spec.EndOf v e side x → Spec.Joins v e side y → x = y := by
    intro side x y hx hy
    rcases hx with hx | ⟨hx, -⟩
    · obtain ⟨l, d, a1, a2, a3, a4, -⟩ := hx
      obtain ⟨l', d', b1, b2, b3, b4, -⟩ := hy
      rw [a1] at b1; cases b1
      rw [a2] at b2; cases b2
      have a3 := whole_some.2 a3
      rw [whole_some.2 b3] at a3
      rw [b4] at a4
      cases x; cases y
      simp only [Option.some.injEq, Nat.cast_inj] at a3 a4
      rw [a3, a4]
    · exact absurd hy (hx y)
  exact ⟨fun p hp => key _ _ _ h.pred hp, fun p hp => key _ _ _ h.succ hp⟩

end Bark.Xodr
