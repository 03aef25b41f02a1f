import Verif.Spec.Analyzer
import Mathlib.Data.List.Perm.Basic
import Mathlib.Data.List.Pairwise
import Mathlib.Tactic.NormNum

/-!
C163–C166: finding configurations, comparing planners on the same scenarios, showing histories, exporting.
-/
namespace Bark.Anl

set_option linter.unusedSectionVars false
variable {V : Type}

/-! ### positions -/

theorem lastPos_spec : ∀ {l : List ℕ} {x : ℕ}, x ∈ l → l[lastPos l x]? = some x ∧ ∀ k, lastPos l x < k → l[k]? ≠ some x := by
  intro l
  induction l with
  | nil => intro x h; cases h
  | cons y l ih =>
    intro x h
    unfold lastPos
    by_cases g : x ∈ l
    · rw [if_pos g]
      obtain ⟨h1, h2⟩ := ih g
      refine ⟨by simpa using h1, ?_⟩
      intro k hk
      cases k with
      | zero => omega
      | succ k => simpa using h2 k (by omega)
    · rw [if_neg g]
      rcases List.mem_cons.1 h with rfl | h
      · refine ⟨rfl, ?_⟩
        intro k hk hs
        cases k with
        | zero => omega
        | succ k => exact g (List.mem_of_getElem? (by simpa using hs))
      · exact absurd h g

theorem notAfter_of_le {l : List ℕ} {x y : ℕ} (hx : x ∈ l) (hy : y ∈ l) (h : lastPos l x ≤ lastPos l y) :
    Spec.NotAfter l x y :=
  ⟨lastPos l x, lastPos l y, (lastPos_spec hx).1, (lastPos_spec hy).1, (lastPos_spec hx).2, (lastPos_spec hy).2, h⟩

theorem lastPos_filter (p : ℕ → Bool) : ∀ {l : List ℕ} {x y : ℕ}, x ∈ l.filter p → y ∈ l.filter p →
    lastPos (l.filter p) x ≤ lastPos (l.filter p) y → lastPos l x ≤ lastPos l y := by
  intro l
  induction l with
  | nil => intro x y h; cases h
  | cons z l ih =>
    intro x y hx hy h
    have px : p x = true := (List.mem_filter.1 hx).2
    have py : p y = true := (List.mem_filter.1 hy).2
    by_cases pz : p z = true
    · rw [List.filter_cons, if_pos pz] at hx hy h
      unfold lastPos at h ⊢
      have ex : x ∈ l.filter p ↔ x ∈ l := by rw [List.mem_filter]; exact ⟨fun h => h.1, fun h => ⟨h, px⟩⟩
      have ey : y ∈ l.filter p ↔ y ∈ l := by rw [List.mem_filter]; exact ⟨fun h => h.1, fun h => ⟨h, py⟩⟩
      by_cases gx : x ∈ l
      · by_cases gy : y ∈ l
        · rw [if_pos gx, if_pos gy]
          rw [if_pos (ex.2 gx), if_pos (ey.2 gy)] at h
          have := ih (ex.2 gx) (ey.2 gy) (by omega)
          omega
        · rw [if_pos (ex.2 gx), if_neg (fun g => gy (ey.1 g))] at h
          omega
      · rw [if_neg gx]; omega
    · rw [List.filter_cons, if_neg pz] at hx hy h
      unfold lastPos
      rw [if_pos (List.mem_filter.1 hx).1, if_pos (List.mem_filter.1 hy).1]
      have := ih hx hy h
      omega

/-! ### finding configurations -/

theorem satisfied_eq (df : List (Row V)) (criteria : List (Row V → Bool)) :
    satisfied df criteria = df.filter fun r => criteria.all fun f => f r := by
  unfold satisfied
  induction criteria generalizing df with
  | nil => simp
  | cons f fs ih =>
    rw [List.foldl_cons, ih, List.filter_filter]
    apply List.filter_congr
    intro r _
    rw [List.all_cons, Bool.and_comm]

open Classical in
/-- the rows asked for -/
theorem asked_eq (df : List (Row V)) (criteria : List (Row V → Bool)) (scens inConfigs : List ℕ) :
    (if scens = [] then within (satisfied df criteria) inConfigs else
      (within (satisfied df criteria) inConfigs).filter fun r => decide (r.scen ∈ scens)) =
    df.filter fun r => decide (Spec.Meets criteria scens inConfigs r) := by
  have h1 : within (satisfied df criteria) inConfigs =
      df.filter fun r => decide ((∀ f ∈ criteria, f r = true) ∧ (inConfigs ≠ [] → r.config ∈ inConfigs)) := by
    rw [satisfied_eq]
    unfold within
    by_cases g : inConfigs = []
    · rw [if_pos g]
      apply List.filter_congr
      intro r _
      rw [Bool.eq_iff_iff]
      simp [g]
    · rw [if_neg g, List.filter_filter]
      apply List.filter_congr
      intro r _
      rw [Bool.eq_iff_iff]
      simp [g, and_comm]
  rw [h1]
  by_cases g : scens = []
  · rw [if_pos g]
    apply List.filter_congr
    intro r _
    congr 1
    apply propext
    exact ⟨fun h => ⟨h.1, fun h' => absurd g h', h.2⟩, fun h => ⟨h.crit, h.conf⟩⟩
  · rw [if_neg g, List.filter_filter]
    apply List.filter_congr
    intro r _
    rw [Bool.eq_iff_iff]
    simp only [Bool.and_eq_true, decide_eq_true_eq]
    exact ⟨fun h => ⟨h.2.1, fun _ => h.1, h.2.2⟩, fun h => ⟨h.scen g, h.crit, h.conf⟩⟩

open Classical in
/-- C163: `find_configs` returns the configurations of exactly the rows that meet all criteria and all non-empty
restrictions; with a list of scenarios in the order of that list, otherwise in the order of the results -/
theorem C163_find {srt : Sorter V} (hs : Spec.Sorts srt) (df : List (Row V)) (criteria : List (Row V → Bool))
    (scens inConfigs : List ℕ) :
    ∃ rows : List (Row V), findConfigs srt df criteria scens [] inConfigs = rows.map (fun r => r.config) ∧
      rows.Perm (df.filter fun r => decide (Spec.Meets criteria scens inConfigs r)) ∧
      (scens = [] → rows = df.filter fun r => decide (Spec.Meets criteria scens inConfigs r)) ∧
      (scens ≠ [] → rows.Pairwise fun a b => Spec.NotAfter scens a.scen b.scen) := by
  refine ⟨_, rfl, ?_⟩
  rw [← asked_eq]
  have hw : wanted srt df scens [] = scens := if_pos rfl
  rw [hw]
  unfold bySc
  by_cases g : scens = []
  · rw [if_pos g, if_pos g]
    exact ⟨.refl _, fun _ => rfl, fun h => absurd g h⟩
  · rw [if_neg g, if_neg g]
    set d' := (within (satisfied df criteria) inConfigs).filter fun r => decide (r.scen ∈ scens) with hd
    obtain ⟨h1, h2⟩ := hs (fun r => lastPos (scens.filter fun s => decide (s ∈ d'.map fun r => r.scen)) r.scen) d'
    refine ⟨h1, fun h => absurd h g, fun _ => ?_⟩
    have hmem : ∀ r ∈ srt (fun r => lastPos (scens.filter fun s => decide (s ∈ d'.map fun r => r.scen)) r.scen) d',
        r.scen ∈ scens.filter fun s => decide (s ∈ d'.map fun r => r.scen) := by
      intro r hr
      have hr' := h1.mem_iff.1 hr
      rw [List.mem_filter]
      refine ⟨?_, decide_eq_true (List.mem_map.2 ⟨r, hr', rfl⟩)⟩
      rw [hd, List.mem_filter] at hr'
      exact of_decide_eq_true hr'.2
    refine h2.imp_of_mem ?_
    intro a b ha hb hab
    have ma := hmem a ha
    have mb := hmem b hb
    exact notAfter_of_le (List.mem_filter.1 ma).1 (List.mem_filter.1 mb).1 (lastPos_filter _ ma mb hab)

/-- C163: the scenarios of given configurations, in the order of the configurations -/
theorem C163_scenario_ids {srt : Sorter V} (hs : Spec.Sorts srt) (df : List (Row V)) (cs : List ℕ) :
    ∃ rows : List (Row V), scenarioIds srt df cs = rows.map (fun r => r.scen) ∧ rows.Perm (df.filter fun r => decide (r.config ∈ cs)) ∧
      rows.Pairwise fun a b => Spec.NotAfter cs a.config b.config := by
  obtain ⟨h1, h2⟩ := hs (fun r => lastPos cs r.config) (df.filter fun r => decide (r.config ∈ cs))
  refine ⟨_, rfl, h1, h2.imp_of_mem ?_⟩
  intro a b ha hb hab
  have ma := (List.mem_filter.1 (h1.mem_iff.1 ha)).2
  have mb := (List.mem_filter.1 (h1.mem_iff.1 hb)).2
  exact notAfter_of_le (of_decide_eq_true ma) (of_decide_eq_true mb) hab

/-- C163: asking for the scenarios of other configurations is asking for those scenarios -/
theorem C163_as_in {srt : Sorter V} (df : List (Row V)) (criteria : List (Row V → Bool)) (scens asIn inConfigs : List ℕ)
    (h : asIn ≠ []) : findConfigs srt df criteria scens asIn inConfigs =
      findConfigs srt df criteria (scenarioIds srt df asIn) [] inConfigs := by
  unfold findConfigs wanted
  rw [if_neg h, if_pos rfl]

/-- C163 violated: asking for configurations out of an empty list gives all of them -/
theorem C163_empty_violated {srt : Sorter V} (hs : Spec.Sorts srt) (df : List (Row V)) :
    findConfigs srt df [] [] [] [] = df.map fun r => r.config := rfl

/-- C163 violated: asking for the scenarios of configurations that do not occur does not restrict the result -/
theorem C163_unknown_violated {srt : Sorter V} (hs : Spec.Sorts srt) (df : List (Row V)) (criteria : List (Row V → Bool))
    (asIn inConfigs : List ℕ) (h : asIn ≠ []) (hno : ∀ r ∈ df, r.config ∉ asIn) :
    findConfigs srt df criteria [] asIn inConfigs = findConfigs srt df criteria [] [] inConfigs := by
  rw [C163_as_in _ _ _ _ _ h]
  obtain ⟨rows, h1, h2, -⟩ := C163_scenario_ids hs df asIn
  have : df.filter (fun r => decide (r.config ∈ asIn)) = [] := by
    rw [List.filter_eq_nil_iff]
    intro r hr
    simpa using hno r hr
  rw [this] at h2
  rw [h1, h2.eq_nil]
  rfl

/-! ### comparing on the same scenarios -/

theorem mem_scenarioIds {srt : Sorter V} (hs : Spec.Sorts srt) (df : List (Row V)) (cs : List ℕ) (s : ℕ) :
    s ∈ scenarioIds srt df cs ↔ ∃ c ∈ cs, Spec.RanOn df c s := by
  obtain ⟨rows, h1, h2, -⟩ := C163_scenario_ids hs df cs
  rw [h1, List.mem_map]
  constructor
  · rintro ⟨r, hr, rfl⟩
    have := List.mem_filter.1 (h2.mem_iff.1 hr)
    exact ⟨r.config, of_decide_eq_true this.2, r, this.1, rfl, rfl⟩
  · rintro ⟨c, hc, r, hr, rfl, rfl⟩
    exact ⟨r, h2.mem_iff.2 (List.mem_filter.2 ⟨hr, decide_eq_true hc⟩), rfl⟩

theorem matching_spec {srt : Sorter V} (hs : Spec.Sorts srt) (df : List (Row V)) (cs : List ℕ) (css : List (List ℕ)) :
    (matching srt df cs css).Pairwise (· < ·) ∧
    ∀ s, s ∈ matching srt df cs css ↔ ∀ l ∈ cs :: css, ∃ c ∈ l, Spec.RanOn df c s := by
  have hp : (matching srt df cs css).Perm _ := List.perm_insertionSort _ _
  constructor
  · have h1 : (matching srt df cs css).Pairwise (· ≤ ·) := List.pairwise_insertionSort _ _
    have h2 : (matching srt df cs css).Nodup := hp.nodup_iff.2 (List.nodup_dedup _)
    refine (h1.and h2).imp ?_
    rintro a b ⟨h, h'⟩
    omega
  · intro s
    rw [hp.mem_iff, List.mem_dedup, List.mem_filter, mem_scenarioIds hs, List.all_eq_true]
    simp only [decide_eq_true_eq, mem_scenarioIds hs, List.forall_mem_cons]

theorem nodup_config {df : List (Row V)} (h : Spec.Distinct df) : (df.map fun r => r.config).Nodup := by
  rw [List.Nodup, List.pairwise_map]; exact h

theorem row_unique {df : List (Row V)} (h : Spec.Distinct df) {a b : Row V} (ha : a ∈ df) (hb : b ∈ df)
    (he : a.config = b.config) : a = b :=
  List.inj_on_of_nodup_map (nodup_config h) ha hb he

/-- rows looked up by configurations come in the order of the configurations -/
theorem lookup_order {srt : Sorter V} (hs : Spec.Sorts srt) {df : List (Row V)} (hd : Spec.Distinct df)
    {rows : List (Row V)} (hn : (rows.map fun r => r.config).Nodup) (hsub : ∀ r ∈ rows, r ∈ df) :
    scenarioIds srt df (rows.map fun r => r.config) = rows.map fun r => r.scen := by
  obtain ⟨R, h1, h2, h3⟩ := C163_scenario_ids hs df (rows.map fun r => r.config)
  rw [h1]
  congr 1
  have hnR : rows.Nodup := List.Nodup.of_map _ hn
  have hnD : df.Nodup := List.Nodup.of_map _ (nodup_config hd)
  have hp : R.Perm rows := by
    refine h2.trans ?_
    rw [List.perm_ext_iff_of_nodup (hnD.filter _) hnR]
    intro r
    rw [List.mem_filter]
    constructor
    · rintro ⟨hr, hm⟩
      obtain ⟨r', hr', he⟩ := List.mem_map.1 (of_decide_eq_true hm)
      rw [← row_unique hd (hsub r' hr') hr he]; exact hr'
    · intro hr
      exact ⟨hsub r hr, decide_eq_true (List.mem_map.2 ⟨r, hr, rfl⟩)⟩
  have hpos : ∀ (i : Nat) (r : Row V), rows[i]? = some r → ∀ (j : Nat), (rows.map fun r => r.config)[j]? = some r.config → j = i := by
    intro i r hi j hj
    have hi' : (rows.map fun r => r.config)[i]? = some r.config := by rw [List.getElem?_map, hi]; rfl
    obtain ⟨l1, e1⟩ := List.getElem?_eq_some_iff.1 hi'
    obtain ⟨l2, e2⟩ := List.getElem?_eq_some_iff.1 hj
    exact (List.Nodup.getElem_inj_iff hn).1 (e2.trans e1.symm)
  have hr : rows.Pairwise fun a b => Spec.NotAfter (rows.map fun r => r.config) a.config b.config := by
    rw [List.pairwise_iff_getElem]
    intro i j hi hj hij
    have ei := List.getElem?_eq_getElem hi
    have ej := List.getElem?_eq_getElem hj
    have mi : (rows.map fun r => r.config)[i]? = some rows[i].config := by rw [List.getElem?_map, ei]; rfl
    have mj : (rows.map fun r => r.config)[j]? = some rows[j].config := by rw [List.getElem?_map, ej]; rfl
    refine ⟨i, j, mi, mj, fun k hk hk' => ?_, fun k hk hk' => ?_, hij.le⟩
    · have := hpos i _ ei k hk'; omega
    · have := hpos j _ ej k hk'; omega
  refine hp.eq_of_pairwise ?_ h3 hr
  rintro a b ha hb ⟨i, j, a1, a2, -, -, a5⟩ ⟨i', j', b1, b2, -, -, b5⟩
  have ma := hp.mem_iff.1 ha
  obtain ⟨u, hu⟩ := List.mem_iff_getElem?.1 ma
  obtain ⟨w, hw⟩ := List.mem_iff_getElem?.1 hb
  have e1 := hpos u a hu i a1
  have e2 := hpos w b hw j a2
  have e3 := hpos w b hw i' b1
  have e4 := hpos u a hu j' b2
  have : u = w := by omega
  subst this
  rw [hu] at hw
  exact Option.some.inj hw

/-- configurations found: rows of the results, without repetition -/
theorem found_rows {srt : Sorter V} (hs : Spec.Sorts srt) {df : List (Row V)} (hd : Spec.Distinct df) (ms cs : List ℕ) :
    ∃ rows : List (Row V), findConfigs srt df [] ms [] cs = rows.map (fun r => r.config) ∧ (rows.map fun r => r.config).Nodup ∧
      (∀ r, r ∈ rows ↔ r ∈ df ∧ (ms ≠ [] → r.scen ∈ ms) ∧ (cs ≠ [] → r.config ∈ cs)) ∧
      (ms ≠ [] → rows.Pairwise fun a b => Spec.NotAfter ms a.scen b.scen) := by
  classical
  obtain ⟨rows, h1, h2, -, h4⟩ := C163_find hs df [] ms cs
  refine ⟨rows, h1, ?_, ?_, h4⟩
  · exact (h2.map _).nodup_iff.2 ((nodup_config hd).sublist (List.filter_sublist.map _))
  · intro r
    rw [h2.mem_iff, List.mem_filter]
    simp only [decide_eq_true_eq]
    constructor
    · rintro ⟨a, b⟩; exact ⟨a, b.scen, b.conf⟩
    · rintro ⟨a, b, c⟩; exact ⟨a, by simp, b, c⟩

theorem forall₂_map_pair {α β γ : Type} {R : β → γ → Prop} {f : α → β} {g : α → γ} :
    ∀ {l : List α}, (∀ a ∈ l, R (f a) (g a)) → List.Forall₂ R (l.map f) (l.map g) := by
  intro l
  induction l with
  | nil => intro _; exact .nil
  | cons a l ih => intro h; exact .cons (h a List.mem_cons_self) (ih fun b hb => h b (List.mem_cons_of_mem _ hb))

theorem mapM_each {α β : Type} {f : α → Res β} : ∀ {l : List α} {r : List β}, l.mapM f = .ok r →
    List.Forall₂ (fun a b => f a = .ok b) l r := by
  intro l
  induction l with
  | nil => intro r h; cases h; exact .nil
  | cons a l ih =>
    intro r h
    rw [List.mapM_cons] at h
    cases ha : f a with
    | error e => rw [ha] at h; cases h
    | ok b =>
      rw [ha] at h
      cases hl : l.mapM f with
      | error e => simp only [hl, bind, Except.bind] at h; cases h
      | ok bs =>
        simp only [hl, bind, Except.bind, pure, Except.pure] at h
        cases h
        exact .cons ha (ih hl)

theorem forall₂_mem_imp {α β : Type} {R S : α → β → Prop} {as : List α} {bs : List β} (h : List.Forall₂ R as bs)
    (hi : ∀ a ∈ as, ∀ b, R a b → S a b) : List.Forall₂ S as bs := by
  induction h with
  | nil => exact .nil
  | cons hab _ ih => exact .cons (hi _ List.mem_cons_self _ hab) (ih fun a ha => hi a (List.mem_cons_of_mem _ ha))

/-- C164: lists made congruent contain configurations of the original lists, and at every place all of them were run on the
same scenario; the scenarios are those that occur in every list, in ascending order -/
theorem C164_congruent {srt : Sorter V} (hs : Spec.Sorts srt) {df : List (Row V)} (hd : Spec.Distinct df)
    {lists res : List (List ℕ)} (h : congruent srt df lists = .ok res) :
    ∃ ms : List ℕ, ms.Pairwise (· < ·) ∧ (∀ s, s ∈ ms ↔ ∀ l ∈ lists, ∃ c ∈ l, Spec.RanOn df c s) ∧
      List.Forall₂ (fun l out => List.Forall₂ (fun s c => c ∈ l ∧ Spec.RanOn df c s) ms out) lists res := by
  cases lists with
  | nil => cases h
  | cons cs css =>
    have h : (cs :: css).mapM (congruentList srt df (matching srt df cs css)) = .ok res := h
    obtain ⟨hm1, hm2⟩ := matching_spec hs df cs css
    refine ⟨_, hm1, hm2, ?_⟩
    generalize hms : matching srt df cs css = ms at h hm1 hm2
    have hF := mapM_each h
    refine forall₂_mem_imp hF ?_
    intro l hl out ho
    unfold congruentList at ho
    simp only at ho
    by_cases g : scenarioIds srt df (findConfigs srt df [] ms [] l) = ms
    · rw [if_pos g] at ho
      cases ho
      obtain ⟨rows, r1, r2, r3, -⟩ := found_rows hs hd ms l
      have key := lookup_order hs hd r2 (fun r hr => ((r3 r).1 hr).1)
      rw [r1] at g ⊢
      rw [key] at g
      have hres : List.Forall₂ (fun s c => c ∈ l ∧ Spec.RanOn df c s) (rows.map fun r => r.scen) (rows.map fun r => r.config) := by
        refine forall₂_map_pair ?_
        intro r hr
        obtain ⟨a1, -, a3⟩ := (r3 r).1 hr
        refine ⟨a3 ?_, r, a1, rfl, rfl⟩
        intro hnil
        have : r.scen ∈ ms := by rw [← g]; exact List.mem_map.2 ⟨r, hr, rfl⟩
        obtain ⟨c, hc, -⟩ := (hm2 r.scen).1 this l hl
        rw [hnil] at hc; cases hc
      rw [g] at hres
      exact hres
    · rw [if_neg g] at ho; cases ho

theorem mapM_ok_of {α β : Type} {f : α → Res β} : ∀ {l : List α}, (∀ a ∈ l, ∃ b, f a = .ok b) → ∃ r, l.mapM f = .ok r := by
  intro l
  induction l with
  | nil => intro _; exact ⟨[], rfl⟩
  | cons a l ih =>
    intro h
    obtain ⟨b, hb⟩ := h a List.mem_cons_self
    obtain ⟨bs, hbs⟩ := ih fun x hx => h x (List.mem_cons_of_mem _ hx)
    exact ⟨b :: bs, by rw [List.mapM_cons, hb]; simp only [hbs, bind, Except.bind, pure, Except.pure]⟩

/-- C164: lists with a common scenario in which no scenario occurs twice are made congruent -/
theorem C164_succeeds {srt : Sorter V} (hs : Spec.Sorts srt) {df : List (Row V)} (hd : Spec.Distinct df)
    {lists : List (List ℕ)} (hne : lists ≠ []) (hcom : ∃ s, ∀ l ∈ lists, ∃ c ∈ l, Spec.RanOn df c s)
    (huniq : ∀ l ∈ lists, ∀ c ∈ l, ∀ c' ∈ l, ∀ s, Spec.RanOn df c s → Spec.RanOn df c' s → c = c') :
    ∃ res, congruent srt df lists = .ok res := by
  cases lists with
  | nil => exact absurd rfl hne
  | cons cs css =>
    show ∃ res, (cs :: css).mapM (congruentList srt df (matching srt df cs css)) = .ok res
    obtain ⟨hm1, hm2⟩ := matching_spec hs df cs css
    generalize matching srt df cs css = ms at hm1 hm2
    have hms : ms ≠ [] := by
      obtain ⟨s, hs⟩ := hcom
      exact List.ne_nil_of_mem ((hm2 s).2 hs)
    refine mapM_ok_of ?_
    intro l hl
    unfold congruentList
    simp only
    obtain ⟨rows, r1, r2, r3, r4⟩ := found_rows hs hd ms l
    have key := lookup_order hs hd r2 (fun r hr => ((r3 r).1 hr).1)
    rw [r1, key]
    have hlne : l ≠ [] := by
      obtain ⟨s, hs'⟩ := hcom
      obtain ⟨c, hc, -⟩ := hs' l hl
      exact List.ne_nil_of_mem hc
    rw [if_pos]
    · exact ⟨_, rfl⟩
    · have hsub : ∀ r ∈ rows, r ∈ df ∧ r.scen ∈ ms ∧ r.config ∈ l := by
        intro r hr
        obtain ⟨a, b, c⟩ := (r3 r).1 hr
        exact ⟨a, b hms, c hlne⟩
      have hnod : (rows.map fun r => r.scen).Nodup := by
        have hnr : rows.Nodup := List.Nodup.of_map _ r2
        refine List.Nodup.map_on ?_ hnr
        intro a ha b hb he
        obtain ⟨a1, -, a3⟩ := hsub a ha
        obtain ⟨b1, -, b3⟩ := hsub b hb
        exact row_unique hd a1 b1 (huniq l hl _ a3 _ b3 a.scen ⟨a, a1, rfl, rfl⟩ ⟨b, b1, rfl, he.symm⟩)
      have hperm : (rows.map fun r => r.scen).Perm ms := by
        rw [List.perm_ext_iff_of_nodup hnod (hm1.imp fun h => Nat.ne_of_lt h)]
        intro s
        rw [List.mem_map]
        constructor
        · rintro ⟨r, hr, rfl⟩; exact (hsub r hr).2.1
        · intro hsm
          obtain ⟨c, hc, r, hr, rfl, rfl⟩ := (hm2 s).1 hsm l hl
          exact ⟨r, (r3 r).2 ⟨hr, fun _ => hsm, fun _ => hc⟩, rfl⟩
      refine hperm.eq_of_pairwise (le := fun x y => x ≤ y) (fun a b _ _ h1 h2 => Nat.le_antisymm h1 h2) ?_ (hm1.imp fun h => h.le)
      rw [List.pairwise_map]
      refine (r4 hms).imp ?_
      rintro a b ⟨i, j, h1, h2, -, -, h5⟩
      rcases Nat.lt_or_eq_of_le h5 with h | h
      · obtain ⟨l1, e1⟩ := List.getElem?_eq_some_iff.1 h1
        obtain ⟨l2, e2⟩ := List.getElem?_eq_some_iff.1 h2
        have := List.pairwise_iff_getElem.1 hm1 i j l1 l2 h
        rw [e1, e2] at this
        exact this.le
      · subst h
        rw [h1] at h2
        exact (Option.some.inj h2).le

/-- C164 violated: lists without a common scenario are not reduced to empty lists; the call raises -/
theorem C164_no_common_violated {srt : Sorter V} (hs : Spec.Sorts srt) {df : List (Row V)} (hd : Spec.Distinct df)
    (cs : List ℕ) (css : List (List ℕ)) (r : Row V) (hr : r ∈ df) (hc : r.config ∈ cs)
    (hno : ∀ s, ¬∀ l ∈ cs :: css, ∃ c ∈ l, Spec.RanOn df c s) : congruent srt df (cs :: css) = .error .thrown := by
  show (cs :: css).mapM (congruentList srt df (matching srt df cs css)) = _
  obtain ⟨-, hm2⟩ := matching_spec hs df cs css
  have hms : matching srt df cs css = [] := by
    rw [List.eq_nil_iff_forall_not_mem]
    intro s hs'
    exact hno s ((hm2 s).1 hs')
  rw [hms, List.mapM_cons]
  have : congruentList srt df [] cs = .error .thrown := by
    unfold congruentList
    simp only
    rw [if_neg]
    intro g
    obtain ⟨rows, r1, r2, r3, -⟩ := found_rows hs hd [] cs
    rw [r1, lookup_order hs hd r2 (fun r hr => ((r3 r).1 hr).1)] at g
    have hmem := (r3 r).2 ⟨hr, fun h => absurd rfl h, fun _ => hc⟩
    rw [List.map_eq_nil_iff.1 g] at hmem
    cases hmem
  rw [this]
  rfl

end Bark.Anl
