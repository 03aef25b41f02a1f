import Verif.Props.Analyzer

/-!
C163–C166, second part: showing histories, exporting, examples.
-/
namespace Bark.Anl

set_option linter.unusedSectionVars false
variable {V S : Type}

/-! ### showing histories -/

theorem frameOf_spec (h : List S) (hne : h ≠ []) (k : ℕ) :
    ∃ f, frameOf h (k + 1) = .ok f ∧ Spec.entry h k = some (f.step, f.shown) := by
  have hl : 0 < h.length := List.length_pos_iff.2 hne
  have hi : (if h.length < k + 1 then h.length - 1 else k + 1 - 1) = min k (h.length - 1) := by
    split_ifs with g <;> omega
  have hlt : min k (h.length - 1) < h.length := by omega
  refine ⟨⟨h[min k (h.length - 1)], min k (h.length - 1)⟩, ?_, ?_⟩
  · unfold frameOf
    simp only [hi, List.getElem?_eq_getElem hlt]
  · unfold Spec.entry
    rw [List.getElem?_eq_getElem hlt]; rfl

theorem frames_spec (hs : List (List S)) (hne : ∀ h ∈ hs, h ≠ []) (k : ℕ) :
    ∃ fs, (hs.mapM fun h => frameOf h (k + 1)) = .ok fs ∧
      List.Forall₂ (fun h (f : Frame S) => Spec.entry h k = some (f.step, f.shown)) hs fs := by
  obtain ⟨fs, hfs⟩ := mapM_ok_of (f := fun h : List S => frameOf h (k + 1)) (l := hs) (fun h hh => by
    obtain ⟨f, hf, -⟩ := frameOf_spec h (hne h hh) k
    exact ⟨f, hf⟩)
  refine ⟨fs, hfs, forall₂_mem_imp (mapM_each hfs) ?_⟩
  intro h hh f hf
  obtain ⟨f', hf', he⟩ := frameOf_spec h (hne h hh) k
  rw [hf'] at hf
  cases hf
  exact he

theorem renderLoop_spec (hs : List (List S)) (hne : ∀ h ∈ hs, h ≠ []) (n : ℕ) (hmax : ∀ h ∈ hs, h.length ≤ n)
    (hatt : ∃ h ∈ hs, h.length = n) : ∀ (d k fuel : ℕ), k + d = n → d + 1 ≤ fuel →
    ∃ fr, renderLoop hs fuel (k + 1) = .ok fr ∧ fr.length = d + 1 ∧
      ∀ (i : Nat) (fs : List (Frame S)), fr[i]? = some fs →
        List.Forall₂ (fun h (f : Frame S) => Spec.entry h (k + i) = some (f.step, f.shown)) hs fs := by
  intro d
  induction d with
  | zero =>
    intro k fuel hk hf
    obtain ⟨fuel, rfl⟩ : ∃ m, fuel = m + 1 := ⟨fuel - 1, by omega⟩
    obtain ⟨fs, h1, h2⟩ := frames_spec hs hne k
    have hany : ¬(hs.any fun h => decide (k + 1 ≤ h.length)) = true := by
      rw [List.any_eq_true]
      rintro ⟨h, hh, hd⟩
      have := of_decide_eq_true hd
      have := hmax h hh
      omega
    refine ⟨[fs], ?_, rfl, ?_⟩
    · show ((hs.mapM fun h => frameOf h (k + 1)) >>= _) = _
      rw [h1]
      show (if _ then _ else _) = _
      rw [if_neg hany]
    · intro i fs' hi
      cases i with
      | zero => cases hi; exact h2
      | succ i => simp at hi
  | succ d ih =>
    intro k fuel hk hf
    obtain ⟨fuel, rfl⟩ : ∃ m, fuel = m + 1 := ⟨fuel - 1, by omega⟩
    obtain ⟨fs, h1, h2⟩ := frames_spec hs hne k
    have hany : (hs.any fun h => decide (k + 1 ≤ h.length)) = true := by
      rw [List.any_eq_true]
      obtain ⟨h, hh, hn⟩ := hatt
      exact ⟨h, hh, decide_eq_true (by omega)⟩
    obtain ⟨fr, r1, r2, r3⟩ := ih (k + 1) fuel (by omega) (by omega)
    refine ⟨fs :: fr, ?_, by simp [r2], ?_⟩
    · show ((hs.mapM fun h => frameOf h (k + 1)) >>= _) = _
      rw [h1]
      show (if _ then _ else _) = _
      rw [if_pos hany, r1]
      rfl
    · intro i fs' hi
      cases i with
      | zero => cases hi; exact h2
      | succ i =>
        have := r3 i fs' (by simpa using hi)
        rw [show k + 1 + i = k + (i + 1) by omega] at this
        exact this

/-- C165: non-empty histories are shown side by side, entry by entry with the time of the entry, each one in order and
from its end on its last entry, until the longest has been shown (and once more its last entry) -/
theorem C165_shown (hs : List (List S)) (hne : ∀ h ∈ hs, h ≠ []) (n : ℕ) (hmax : ∀ h ∈ hs, h.length ≤ n)
    (hatt : ∃ h ∈ hs, h.length = n) : ∃ fr, (∀ fuel, n + 1 ≤ fuel → renderLoop hs fuel 1 = .ok fr) ∧ fr.length = n + 1 ∧
      ∀ (k : Nat) (fs : List (Frame S)), fr[k]? = some fs →
        List.Forall₂ (fun h (f : Frame S) => Spec.entry h k = some (f.step, f.shown)) hs fs := by
  obtain ⟨fr, h1, h2, h3⟩ := renderLoop_spec hs hne n hmax hatt n 0 (n + 1) (by omega) (by omega)
  refine ⟨fr, ?_, h2, fun k fs hk => by simpa using h3 k fs hk⟩
  intro fuel hf
  obtain ⟨fr', g1, g2, g3⟩ := renderLoop_spec hs hne n hmax hatt n 0 fuel (by omega) (by omega)
  rw [Nat.zero_add] at g1
  rw [g1]
  congr 1
  apply List.ext_getElem?
  intro i
  by_cases hi : i < n + 1
  · have e1 := List.getElem?_eq_getElem (l := fr) (i := i) (by omega)
    have e2 := List.getElem?_eq_getElem (l := fr') (i := i) (by omega)
    have a1 := h3 i _ e1
    have a2 := g3 i _ e2
    rw [e1, e2]
    congr 1
    generalize fr[i]'(by omega) = x at a1
    generalize fr'[i]'(by omega) = y at a2
    clear e1 e2 h1 h2 h3 g1 g2 g3 hne hmax hatt
    induction a1 generalizing y with
    | nil => cases a2; rfl
    | @cons h f l1 l2 hab _ ih =>
      cases a2 with
      | @cons _ f' _ l2' hab' a2 =>
        rw [hab] at hab'
        obtain ⟨s1, t1⟩ := f
        obtain ⟨s2, t2⟩ := f'
        simp only [Option.some.injEq, Prod.mk.injEq] at hab'
        rw [hab'.1, hab'.2, ih _ a2]
  · rw [List.getElem?_eq_none (by omega), List.getElem?_eq_none (by omega)]

theorem mapM_raises {α β : Type} {f : α → Res β} : ∀ {l : List α} {a : α}, a ∈ l → f a = .error .thrown →
    (∀ b ∈ l, (∃ c, f b = .ok c) ∨ f b = .error .thrown) → l.mapM f = .error .thrown := by
  intro l
  induction l with
  | nil => intro a h; cases h
  | cons x l ih =>
    intro a ha hf hall
    rw [List.mapM_cons]
    rcases hall x List.mem_cons_self with ⟨c, hc⟩ | hc
    · rcases List.mem_cons.1 ha with rfl | ha
      · rw [hc] at hf; cases hf
      · rw [hc]
        simp only [bind, Except.bind, ih ha hf fun b hb => hall b (List.mem_cons_of_mem _ hb)]
    · rw [hc]; rfl

/-- C165 violated: an empty history is announced to be skipped, but showing it raises, also for the other viewers -/
theorem C165_empty_violated (hs : List (List S)) (h : [] ∈ hs) (fuel : ℕ) (hf : 0 < fuel) :
    renderLoop hs fuel 1 = .error .thrown := by
  obtain ⟨m, rfl⟩ : ∃ m, fuel = m + 1 := ⟨fuel - 1, by omega⟩
  have : (hs.mapM fun h => frameOf h 1) = .error .thrown := by
    refine mapM_raises h rfl ?_
    intro b _
    by_cases hb : b = []
    · rw [hb]; exact Or.inr rfl
    · obtain ⟨f, hf, -⟩ := frameOf_spec b hb 0
      exact Or.inl ⟨f, hf⟩
  show ((hs.mapM fun h => frameOf h 1) >>= _) = _
  rw [this]; rfl

/-- two configurations with different step times -/
def exConfs : ℕ → Option (Conf ℕ)
  | 0 => some ⟨some [10, 11], some (1 / 10)⟩
  | 1 => some ⟨some [20], some (1 / 2)⟩
  | _ => none

/-- C165 violated: the times of all viewers are computed with the step time of the last one: the second entry of the first
history, at 0.1 s, is shown with the time 0.5 s -/
theorem C165_step_time_violated : visualize exConfs 5 [[0], [1]] 2 =
    .ok [(some (1 / 2), [[⟨10, 0⟩, ⟨20, 0⟩], [⟨11, 1⟩, ⟨20, 0⟩], [⟨11, 1⟩, ⟨20, 0⟩]])] := by
  rfl

/-- C165: what is shown when a configuration does not exist: nothing, and nothing of those after it -/
theorem C165_missing_stops (get : ℕ → Option (Conf S)) (fuel : ℕ) (c : ℕ) (cs : List ℕ) (h : get c = none) :
    visualize get fuel [c :: cs] 1 = .ok [] := by
  unfold visualize
  simp only [List.length_cons, List.length_nil, ne_eq, not_true_eq_false, if_false]
  unfold visualizeFrom
  have : collect get 0 [c :: cs] none = .ok none := by
    unfold collect
    simp only [List.getElem?_cons_zero, h]
  rw [this]
  rfl

/-- C165: a number of viewers different from the number of lists is refused -/
theorem C165_viewers (get : ℕ → Option (Conf S)) (fuel : ℕ) (lists : List (List ℕ)) (n : ℕ) (h : lists.length ≠ n) :
    visualize get fuel lists n = .error .thrown := by
  unfold visualize; rw [if_pos h]

theorem f2_mem_right {α β : Type} {r : α → β → Prop} {l : List α} {as : List β} (h : List.Forall₂ r l as) :
    ∀ b ∈ as, ∃ a ∈ l, r a b := by
  induction h with
  | nil => intro b hb; cases hb
  | cons hab _ ih =>
    intro b hb
    rcases List.mem_cons.1 hb with rfl | hb
    · exact ⟨_, List.mem_cons_self .., hab⟩
    · obtain ⟨a, ha, h⟩ := ih b hb
      exact ⟨a, List.mem_cons_of_mem _ ha, h⟩

/-! ### whole runs of the display -/

theorem collect_ok (get : ℕ → Option (Conf S)) (k : ℕ) : ∀ (lists : List (List ℕ)) (t : Option ℚ),
    (∀ cs ∈ lists, ∃ c cf h, cs[k]? = some c ∧ get c = some cf ∧ cf.history = some h) →
    ∃ hs t', collect get k lists t = .ok (some (hs, t')) ∧
      List.Forall₂ (fun cs h => ∃ c cf, cs[k]? = some c ∧ get c = some cf ∧ cf.history = some h) lists hs
  | [], t, _ => ⟨[], t, rfl, .nil⟩
  | cs :: css, t, h => by
    obtain ⟨c, cf, hh, h1, h2, h3⟩ := h cs (List.mem_cons_self ..)
    obtain ⟨hs, t', e, hf⟩ := collect_ok get k css (some (stepTime cf)) fun x hx => h x (List.mem_cons_of_mem _ hx)
    refine ⟨hh :: hs, t', ?_, .cons ⟨c, cf, h1, h2, h3⟩ hf⟩
    unfold collect
    simp only [h1, h2, e, h3, bind, Except.bind]

theorem visualizeFrom_ok (get : ℕ → Option (Conf S)) (fuel : ℕ) (lists : List (List ℕ)) (hne : lists ≠ []) : ∀ (n k : ℕ),
    (∀ j, k ≤ j → j < k + n → ∀ cs ∈ lists, ∃ c cf h, cs[j]? = some c ∧ get c = some cf ∧ cf.history = some h ∧ h ≠ [] ∧
      h.length + 1 ≤ fuel) →
    ∃ out, visualizeFrom get fuel lists n k = .ok out ∧ out.length = n ∧
      ∀ (j : Nat) (t : Option ℚ) (fr : List (List (Frame S))), out[j]? = some (t, fr) → ∃ hs : List (List S),
        List.Forall₂ (fun cs h => ∃ c cf, cs[k + j]? = some c ∧ get c = some cf ∧ cf.history = some h) lists hs ∧
        (∃ h ∈ hs, fr.length = h.length + 1) ∧ (∀ h ∈ hs, h.length + 1 ≤ fr.length) ∧
        ∀ (i : Nat) (fs : List (Frame S)), fr[i]? = some fs →
          List.Forall₂ (fun h (f : Frame S) => Spec.entry h i = some (f.step, f.shown)) hs fs
  | 0, k, _ => ⟨[], rfl, rfl, fun j t fr h => by simp at h⟩
  | n + 1, k, h => by
    have hk := h k (Nat.le_refl _) (by omega)
    obtain ⟨hs, t', e, hf⟩ := collect_ok get k lists none fun cs hcs => by
      obtain ⟨c, cf, hh, h1, h2, h3, -⟩ := hk cs hcs
      exact ⟨c, cf, hh, h1, h2, h3⟩
    have hprop : ∀ hh ∈ hs, hh ≠ [] ∧ hh.length + 1 ≤ fuel := by
      intro hh hmem
      obtain ⟨cs, hcs, c, cf, h1, h2, h3⟩ := f2_mem_right hf hh hmem
      obtain ⟨c', cf', hh', g1, g2, g3, g4, g5⟩ := hk cs hcs
      rw [h1] at g1; cases g1
      rw [h2] at g2; cases g2
      rw [h3] at g3; cases g3
      exact ⟨g4, g5⟩
    have hsne : hs ≠ [] := by
      rintro rfl
      cases hf; exact hne rfl
    obtain ⟨m, hm1, hm2⟩ : ∃ m, (∀ hh ∈ hs, hh.length ≤ m) ∧ ∃ hh ∈ hs, hh.length = m := by
      clear hf e hprop
      induction hs with
      | nil => exact absurd rfl hsne
      | cons a l ih =>
        by_cases hl : l = []
        · subst hl
          exact ⟨a.length, by simp, a, by simp, rfl⟩
        · obtain ⟨m, g1, b, g2, g3⟩ := ih hl
          by_cases ham : a.length ≤ m
          · exact ⟨m, by simpa [ham] using g1, b, List.mem_cons_of_mem _ g2, g3⟩
          · refine ⟨a.length, ?_, a, by simp, rfl⟩
            intro x hx
            rcases List.mem_cons.1 hx with rfl | hx
            · exact Nat.le_refl _
            · have := g1 x hx; omega
    obtain ⟨fr, f1, f2, f3⟩ := C165_shown hs (fun hh hmem => (hprop hh hmem).1) m hm1 hm2
    have hfuel : m + 1 ≤ fuel := by
      obtain ⟨b, hb, rfl⟩ := hm2
      exact (hprop b hb).2
    obtain ⟨rest, r1, r2, r3⟩ := visualizeFrom_ok get fuel lists hne n (k + 1) fun j hj1 hj2 =>
      h j (by omega) (by omega)
    refine ⟨(t', fr) :: rest, ?_, by simp [r2], ?_⟩
    · unfold visualizeFrom
      simp only [e, f1 fuel hfuel, r1, bind, Except.bind]
    · intro j t fr' hj
      cases j with
      | zero =>
        simp only [List.getElem?_cons_zero, Option.some.injEq, Prod.mk.injEq] at hj
        obtain ⟨-, rfl⟩ := hj
        refine ⟨hs, by simpa using hf, ?_, ?_, f3⟩
        · obtain ⟨b, hb, rfl⟩ := hm2
          exact ⟨b, hb, f2⟩
        · intro x hx
          have := hm1 x hx
          omega
      | succ j =>
        rw [List.getElem?_cons_succ] at hj
        obtain ⟨hs', q⟩ := r3 j t fr' hj
        refine ⟨hs', ?_⟩
        rw [show k + (j + 1) = k + 1 + j by omega]
        exact q

/-- C165: for every position of the lists, one after the other, the histories of the configurations at that position are
shown side by side, the k-th entry (or the last) of each in step `k`, until the longest is done -/
theorem C165_visualize (get : ℕ → Option (Conf S)) (fuel : ℕ) (lists : List (List ℕ)) (cs : List ℕ) (css : List (List ℕ))
    (hl : lists = cs :: css)
    (h : ∀ l ∈ lists, ∀ j, j < cs.length → ∃ c cf h, l[j]? = some c ∧ get c = some cf ∧ cf.history = some h ∧ h ≠ [] ∧
      h.length + 1 ≤ fuel) :
    ∃ out, visualize get fuel lists lists.length = .ok out ∧ out.length = cs.length ∧
      ∀ (j : Nat) (t : Option ℚ) (fr : List (List (Frame S))), out[j]? = some (t, fr) → ∃ hs : List (List S),
        List.Forall₂ (fun l h => ∃ c cf, l[j]? = some c ∧ get c = some cf ∧ cf.history = some h) lists hs ∧
        (∃ h ∈ hs, fr.length = h.length + 1) ∧ (∀ h ∈ hs, h.length + 1 ≤ fr.length) ∧
        ∀ (i : Nat) (fs : List (Frame S)), fr[i]? = some fs →
          List.Forall₂ (fun h (f : Frame S) => Spec.entry h i = some (f.step, f.shown)) hs fs := by
  have hne : lists ≠ [] := by rw [hl]; simp
  obtain ⟨out, h1, h2, h3⟩ := visualizeFrom_ok get fuel lists hne cs.length 0 fun j _ hj l hmem => h l hmem j (by omega)
  refine ⟨out, ?_, h2, fun j t fr hj => ?_⟩
  · unfold visualize
    rw [if_neg (by simp), hl]
    rw [hl] at h1
    exact h1
  · have := h3 j t fr hj
    simpa using this

/-! ### exporting -/

open Classical in
theorem found_iff {srt : Sorter V} (hs : Spec.Sorts srt) (df : List (Row V)) (filter : List (Row V → Bool)) (c : ℕ) :
    c ∈ findConfigs srt df filter [] [] [] ↔ ∃ r ∈ df, r.config = c ∧ ∀ f ∈ filter, f r = true := by
  obtain ⟨rows, h1, h2, -⟩ := C163_find hs df filter [] []
  rw [h1, List.mem_map]
  constructor
  · rintro ⟨r, hr, rfl⟩
    have := List.mem_filter.1 (h2.mem_iff.1 hr)
    exact ⟨r, this.1, rfl, (of_decide_eq_true this.2).crit⟩
  · rintro ⟨r, hr, rfl, hf⟩
    exact ⟨r, h2.mem_iff.2 (List.mem_filter.2 ⟨hr, decide_eq_true ⟨hf, by simp, by simp⟩⟩), rfl⟩

/-- C166: with a filter that some configuration meets, the configurations exported are those that meet it and, if a list
is given, are in the list -/
theorem C166_exported {ord : List ℕ → List ℕ} (hord : ∀ l, (ord l).Perm l) {srt : Sorter V} (hs : Spec.Sorts srt)
    (df : List (Row V)) (filter : List (Row V → Bool)) (hf : filter ≠ []) (idx : List ℕ)
    (hex : ∃ r ∈ df, ∀ f ∈ filter, f r = true) :
    ∃ out, exported ord srt df filter idx = .ok out ∧
      ∀ c, c ∈ out ↔ (∃ r ∈ df, r.config = c ∧ ∀ f ∈ filter, f r = true) ∧ (idx ≠ [] → c ∈ idx) := by
  have he : filter.isEmpty = false := by cases filter with
    | nil => exact absurd rfl hf
    | cons a l => rfl
  have hfound : findConfigs srt df filter [] [] [] ≠ [] := by
    obtain ⟨r, hr, hc⟩ := hex
    exact List.ne_nil_of_mem ((found_iff hs df filter r.config).2 ⟨r, hr, rfl, hc⟩)
  unfold exported
  simp only [he, Bool.false_eq_true, if_false]
  by_cases hi : idx = []
  · rw [if_neg (fun h => h.2 hi), if_neg (fun h => h.2 hi), if_pos ⟨hfound, hi⟩]
    refine ⟨_, rfl, fun c => ?_⟩
    rw [found_iff hs]
    exact ⟨fun h => ⟨h, fun g => absurd hi g⟩, fun h => h.1⟩
  · rw [if_pos ⟨hfound, hi⟩]
    refine ⟨_, rfl, fun c => ?_⟩
    rw [(hord _).mem_iff, List.mem_dedup, List.mem_filter, found_iff hs]
    exact ⟨fun h => ⟨h.1, fun _ => of_decide_eq_true h.2⟩, fun h => ⟨h.1, decide_eq_true (h.2 hi)⟩⟩

/-- C166: without a filter the given configurations are exported; with neither the call is refused -/
theorem C166_no_filter {ord : List ℕ → List ℕ} {srt : Sorter V} (df : List (Row V)) (idx : List ℕ) :
    exported ord srt df [] idx = if idx = [] then .error .thrown else .ok idx := by
  unfold exported
  by_cases hi : idx = []
  · simp [hi]
  · simp [hi]

/-- C166 violated: if no configuration meets the filter, all configurations of the list are exported -/
theorem C166_no_match_violated {ord : List ℕ → List ℕ} {srt : Sorter V} (hs : Spec.Sorts srt) (df : List (Row V))
    (filter : List (Row V → Bool)) (idx : List ℕ) (hi : idx ≠ []) (hno : ∀ r ∈ df, ∃ f ∈ filter, f r = false) :
    exported ord srt df filter idx = .ok idx := by
  have hfound : (if filter.isEmpty then [] else findConfigs srt df filter [] [] []) = [] := by
    split_ifs with g
    · rfl
    · rw [List.eq_nil_iff_forall_not_mem]
      intro c hc
      obtain ⟨r, hr, -, hf⟩ := (found_iff hs df filter c).1 hc
      obtain ⟨f, hf1, hf2⟩ := hno r hr
      rw [hf f hf1] at hf2; cases hf2
  unfold exported
  simp only [hfound]
  rw [if_neg (fun h => h.1 rfl), if_pos ⟨trivial, hi⟩]

/-- C166: the trajectory table lists for every agent the states of its history in order -/
theorem C166_table {X : Type} (agents : OMap ℕ (List X)) (hn : (agents.map Prod.fst).Nodup) (i : ℕ) (h : List X)
    (hi : (i, h) ∈ agents) : ((table agents).filter fun r => decide (r.1 = i)).map Prod.snd = h := by
  unfold table
  induction agents with
  | nil => cases hi
  | cons a l ih =>
    rw [List.map_cons, List.nodup_cons] at hn
    rw [List.flatMap_cons, List.filter_append, List.map_append]
    have hrest : a.1 = i → ((l.flatMap fun a => a.2.map fun s => (a.1, s)).filter fun r => decide (r.1 = i)) = [] := by
      intro he
      rw [List.filter_eq_nil_iff]
      intro x hx
      obtain ⟨b, hb, hx⟩ := List.mem_flatMap.1 hx
      obtain ⟨s, -, rfl⟩ := List.mem_map.1 hx
      simp only [decide_eq_true_eq]
      intro hbi
      exact hn.1 (List.mem_map.2 ⟨b, hb, hbi.trans he.symm⟩)
    rcases List.mem_cons.1 hi with rfl | hi
    · rw [hrest rfl]
      simp [List.filter_map, Function.comp_def]
    · have hne : a.1 ≠ i := fun he => hn.1 (List.mem_map.2 ⟨(i, h), hi, he.symm⟩)
      rw [ih hn.2 hi]
      have : ((a.2.map fun s => (a.1, s)).filter fun r => decide (r.1 = i)) = [] := by
        rw [List.filter_eq_nil_iff]
        intro x hx
        obtain ⟨s, -, rfl⟩ := List.mem_map.1 hx
        simpa using hne
      rw [this]; rfl

/-! ### examples -/

/-- a stable sort is one of the sorts allowed -/
def stable : Sorter V := fun key l => l.insertionSort fun a b => key a ≤ key b

theorem stable_sorts : Spec.Sorts (stable (V := V)) := by
  intro key l
  haveI : Std.Total fun a b : Row V => key a ≤ key b := ⟨fun a b => Nat.le_total _ _⟩
  haveI : IsTrans (Row V) fun a b => key a ≤ key b := ⟨fun a b c h1 h2 => Nat.le_trans h1 h2⟩
  exact ⟨List.perm_insertionSort _ _, List.pairwise_insertionSort _ _⟩

/-- two planners, run on scenarios 5, 3 and 3, 4, 5 -/
def exRows : List (Row Bool) := [⟨0, 5, true⟩, ⟨1, 3, false⟩, ⟨2, 3, true⟩, ⟨3, 4, true⟩, ⟨4, 5, false⟩]

example : Spec.Distinct exRows := by unfold Spec.Distinct; decide

/-- the configurations that succeeded, in the order of the results -/
example : findConfigs stable exRows [fun r => r.vals] [] [] [] = [0, 2, 3] := by decide +kernel

example : findConfigs stable exRows [] [3, 5] [] [0, 1] = [1, 0] := by decide +kernel

/-- compared on the common scenarios 3 and 5 -/
example : congruent stable exRows [[0, 1], [2, 3, 4]] = .ok [[1, 0], [2, 4]] := by
  decide +kernel

/-! ### the step time of a single display -/

theorem visualizeFrom_single (get : ℕ → Option (Conf S)) (fuel : ℕ) (cs : List ℕ) : ∀ (n k : ℕ)
    (out : List (Option ℚ × List (List (Frame S)))), visualizeFrom get fuel [cs] n k = .ok out →
    ∀ (j : Nat) (t : Option ℚ) (fr : List (List (Frame S))), out[j]? = some (t, fr) →
      ∃ c cf, cs[k + j]? = some c ∧ get c = some cf ∧ t = some (stepTime cf)
  | 0, k, out, h => by cases h; intro j t fr hj; simp at hj
  | n + 1, k, out, h => by
    unfold visualizeFrom at h
    cases hck : cs[k]? with
    | none =>
      have e : collect get k [cs] none = .error .thrown := by unfold collect; simp only [hck]
      rw [e] at h; cases h
    | some c =>
      cases hg : get c with
      | none =>
        have e : collect get k [cs] none = .ok none := by unfold collect; simp only [hck, hg]
        rw [e] at h; cases h; intro j t fr hj; simp at hj
      | some cf =>
        cases hh : cf.history with
        | none =>
          have e : collect get k [cs] none = .error .thrown := by
            unfold collect; simp only [hck, hg, hh]; rfl
          rw [e] at h; cases h
        | some hist =>
          have e : collect get k [cs] none = .ok (some ([hist], some (stepTime cf))) := by
            unfold collect; simp only [hck, hg, hh]; rfl
          rw [e] at h
          simp only [bind, Except.bind] at h
          cases hr : renderLoop [hist] fuel 1 with
          | error f => rw [hr] at h; cases h
          | ok fs =>
            rw [hr] at h
            cases hv : visualizeFrom get fuel [cs] n (k + 1) with
            | error f => rw [hv] at h; cases h
            | ok rest =>
              rw [hv] at h
              simp only [Except.ok.injEq] at h
              subst h
              intro j t fr hj
              cases j with
              | zero =>
                simp only [List.getElem?_cons_zero, Option.some.injEq, Prod.mk.injEq] at hj
                exact ⟨c, cf, hck, hg, hj.1.symm⟩
              | succ j =>
                rw [List.getElem?_cons_succ] at hj
                obtain ⟨c', cf', h1, h2, h3⟩ := visualizeFrom_single get fuel cs n (k + 1) rest hv j t fr hj
                exact ⟨c', cf', by rw [← h1]; congr 1; omega, h2, h3⟩

/-- C165: in a single display the times of each history are computed with the step time of its own configuration, 0.2 s if its
parameters do not have one -/
theorem C165_step_time (get : ℕ → Option (Conf S)) (fuel : ℕ) (cs : List ℕ) (out : List (Option ℚ × List (List (Frame S))))
    (h : visualize get fuel [cs] 1 = .ok out) (j : Nat) (t : Option ℚ) (fr : List (List (Frame S)))
    (hj : out[j]? = some (t, fr)) :
    ∃ c cf, cs[j]? = some c ∧ get c = some cf ∧ (∀ d, cf.stepTime = some d → t = some d) ∧
      (cf.stepTime = none → t = some (1 / 5)) := by
  obtain ⟨c, cf, h1, h2, h3⟩ := visualizeFrom_single get fuel cs cs.length 0 out h j t fr hj
  refine ⟨c, cf, by simpa using h1, h2, fun d hd => ?_, fun hn => ?_⟩
  · rw [h3]; unfold stepTime; rw [hd]; rfl
  · rw [h3]; unfold stepTime; rw [hn]; rfl

/-- non-vacuity: two histories shown one after the other, the second without a step time -/
example : visualize (fun i => if i = 0 then some ⟨some [10], some (1 / 10)⟩ else some (⟨some [20], none⟩ : Conf ℕ)) 5 [[0, 1]] 1 =
    .ok [(some (1 / 10), [[⟨10, 0⟩], [⟨10, 0⟩]]), (some (1 / 5), [[⟨20, 0⟩], [⟨20, 0⟩]])] := by
  rfl

end Bark.Anl
