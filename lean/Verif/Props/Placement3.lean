import Verif.Props.Placement2
import Verif.Props.LineOps

/-!
C169, C170: vehicles distributed between source and sink points (`UniformVehicleDistribution`).
-/
namespace Bark.Place

open Ln Ln.Spec Bark.Place.Spec

theorem alongLoop_spec {c : Uvd} {l : Line} (hl : Proper l) {u : ℕ → ℝ} (hu : Draws u)
    (hlo : 0 < c.front + c.rear + c.distMin) (hhi : c.distMin ≤ c.distMax) (hv : c.velMin ≤ c.velMax) (sEnd : ℝ) :
    ∀ (N : ℕ) (n : ℕ) (s : ℝ), sEnd - s ≤ N * (c.front + c.rear + c.distMin) →
    ∃ states m arcs, (∀ fuel, N + 1 ≤ fuel → alongLoop c l u sEnd fuel n s = .ok (states, m)) ∧
      List.Forall₂ (fun s st => Stands l s st ∧ c.velMin ≤ st.vel ∧ st.vel ≤ c.velMax) arcs states ∧
      Spaced (c.front + c.rear + c.distMin) (c.front + c.rear + c.distMax) arcs ∧ (s < sEnd → arcs.head? = some s) ∧
      (sEnd ≤ s → arcs = []) ∧ (∀ x ∈ arcs, s ≤ x ∧ x < sEnd) ∧
      ∀ x, arcs.getLast? = some x → sEnd ≤ x + (c.front + c.rear + c.distMax) := by
  have stop : ∀ (n : ℕ) (s : ℝ), sEnd ≤ s → ∀ fuel, 1 ≤ fuel → alongLoop c l u sEnd fuel n s = .ok ([], n) := by
    intro n s hs fuel hf
    obtain ⟨k, rfl⟩ : ∃ k, fuel = k + 1 := ⟨fuel - 1, by omega⟩
    unfold alongLoop
    exact if_neg (not_lt.2 hs)
  intro N
  induction N with
  | zero =>
    intro n s h
    have hs : sEnd ≤ s := by simp at h; linarith
    exact ⟨[], n, [], fun fuel hf => stop n s hs fuel (by omega), .nil, by simp [Spaced], fun h => absurd h (by linarith),
      fun _ => rfl, by simp, by simp⟩
  | succ N ih =>
    intro n s h
    by_cases hs : sEnd ≤ s
    · exact ⟨[], n, [], fun fuel hf => stop n s hs fuel (by omega), .nil, by simp [Spaced],
        fun h => absurd h (by linarith), fun _ => rfl, by simp, by simp⟩
    · obtain ⟨hd1, hd2⟩ := uniform_mem hhi (hu (n + 1))
      obtain ⟨hv1, hv2⟩ := uniform_mem hv (hu n)
      obtain ⟨q, a, hq, ha, hst⟩ := stands_of hl s (uniform c.velMin c.velMax (u n))
      obtain ⟨states, m, arcs, e, h1, h2, h3, h4, h5, h6⟩ := ih (n + 2)
        (s + (c.front + c.rear + uniform c.distMin c.distMax (u (n + 1)))) (by push_cast at h; linarith)
      refine ⟨_, m, s :: arcs, ?_, .cons ⟨hst, hv1, hv2⟩ h1, ?_, fun _ => rfl, fun h => absurd h hs, ?_, ?_⟩
      · intro fuel hf
        obtain ⟨k, rfl⟩ : ∃ k, fuel = k + 1 := ⟨fuel - 1, by omega⟩
        unfold alongLoop
        rw [if_pos (not_le.1 hs)]
        simp only [hq, ha, Res.ok_bind, e k (by omega)]
      · unfold Spaced at h2 ⊢
        by_cases g : s + (c.front + c.rear + uniform c.distMin c.distMax (u (n + 1))) < sEnd
        · have hh := h3 g
          match arcs, hh, h2 with
          | x :: xs, hh, h2 =>
            simp only [List.head?_cons, Option.some.injEq] at hh
            subst hh
            rw [List.isChain_cons_cons]
            exact ⟨⟨by linarith, by linarith⟩, h2⟩
        · rw [h4 (not_lt.1 g)]; simp
      · intro x hx
        rcases List.mem_cons.1 hx with rfl | hx
        · exact ⟨le_refl _, not_le.1 hs⟩
        · obtain ⟨g1, g2⟩ := h5 x hx
          exact ⟨by linarith, g2⟩
      · intro x hx
        by_cases g : s + (c.front + c.rear + uniform c.distMin c.distMax (u (n + 1))) < sEnd
        · have hh := h3 g
          match arcs, hh, h6 with
          | y :: ys, hh, h6 =>
            rw [List.getLast?_cons_cons] at hx
            exact h6 x hx
        · rw [h4 (not_lt.1 g)] at hx
          simp only [List.getLast?_singleton, Option.some.injEq] at hx
          subst hx
          linarith

/-- C169: vehicles are placed from the source to before the sink along the lane, heading along it, with a gap of the given
range between the front of one and the rear of the next, and the lane is unchanged, if the sink is not before the source -/
theorem C169_placed {c : Uvd} {l : Line} (hl : Proper l) {u : ℕ → ℝ} (hu : Draws u)
    (hlo : 0 < c.front + c.rear + c.distMin) (hhi : c.distMin ≤ c.distMax) (hv : c.velMin ≤ c.velMax) {sStart sEnd : ℝ}
    (hse : sStart ≤ sEnd) (n : ℕ) :
    ∃ (N : ℕ) (states : List State) (m : ℕ) (arcs : List ℝ), (∀ fuel, N ≤ fuel → along c l u fuel n sStart sEnd = .ok ((states, m), l)) ∧
      List.Forall₂ (fun s st => Stands l s st ∧ c.velMin ≤ st.vel ∧ st.vel ≤ c.velMax) arcs states ∧
      (arcs.IsChain fun s s' => c.distMin ≤ (s' - c.rear) - (s + c.front) ∧ (s' - c.rear) - (s + c.front) ≤ c.distMax) ∧
      (sStart < sEnd → arcs.head? = some sStart) ∧ (∀ x ∈ arcs, sStart ≤ x ∧ x < sEnd) ∧
      ∀ x, arcs.getLast? = some x → sEnd ≤ x + c.front + c.distMax + c.rear := by
  obtain ⟨N, hN⟩ := exists_nat_gt ((sEnd - sStart) / (c.front + c.rear + c.distMin))
  rw [div_lt_iff₀ hlo] at hN
  obtain ⟨states, m, arcs, e, h1, h2, h3, h4, h5, h6⟩ := alongLoop_spec hl hu hlo hhi hv sEnd N n sStart hN.le
  refine ⟨N + 1, states, m, arcs, ?_, h1, ?_, h3, h5, ?_⟩
  · intro fuel hf
    unfold along
    rw [if_neg (not_lt.2 hse), e fuel hf]
    rfl
  · exact h2.imp fun a b h => ⟨by linarith [h.1], by linarith [h.2]⟩
  · intro x hx
    have := h6 x hx
    linarith

theorem reverse_straight_table (a b : Pt) : TableRight (reverse (ofArray [a, b])) := by
  have : reverse (ofArray [a, b]) = ofArray [b, a] := by
    unfold reverse ofArray recomputeS
    have h : ∀ x : Pt, pdist x x = 0 := fun x => pdist_eq_zero.2 rfl
    simp [table, sLoop, h, pdist_comm a b]
  rw [this]; exact tableRight_recompute _

/-- C169 violated: if the sink is before the source, vehicles are placed mirrored on the lane, and the map's center line is
reversed for good. On a straight lane of length `L` with source at `s0` and sink at `s1 < s0`, the first vehicle stands at
`L - s1` from the start of the lane instead of between `s1` and `s0` -/
theorem C169_mirrored_violated {a b : Pt} (hab : a ≠ b) {c : Uvd} {u : ℕ → ℝ} (hu : Draws u)
    (hlo : 0 < c.front + c.rear + c.distMin) (hhi : c.distMin ≤ c.distMax) (hv : c.velMin ≤ c.velMax) {s0 s1 : ℝ}
    (h1 : 0 ≤ s1) (h10 : s1 < s0) (h0 : s0 ≤ pdist a b) (n : ℕ) :
    ∃ (N : ℕ) (st : State) (states : List State) (m : ℕ),
      (∀ fuel, N ≤ fuel → ∃ l', along c (ofArray [a, b]) u fuel n s0 s1 = .ok ((st :: states, m), l') ∧ l'.pts = [b, a]) ∧
      AtArc [a, b] (pdist a b - s1) st.pos := by
  have hl : Proper (reverse (ofArray [a, b])) := ⟨reverse_straight_table a b, by simp [reverse, ofArray, recomputeS],
    by simp [reverse, ofArray, recomputeS, NoDup, hab.symm]⟩
  obtain ⟨N, hN⟩ := exists_nat_gt ((s0 - s1) / (c.front + c.rear + c.distMin))
  rw [div_lt_iff₀ hlo] at hN
  obtain ⟨states, m, arcs, e, g1, g2, g3, g4, g5, g6⟩ := alongLoop_spec hl hu hlo hhi hv s0 N n s1 hN.le
  have hh := g3 h10
  have hp : (reverse (ofArray [a, b])).pts = [b, a] := rfl
  match arcs, states, hh, g1, e with
  | x :: xs, st :: sts, hh, .cons g _, e =>
    simp only [List.head?_cons, Option.some.injEq] at hh
    subst hh
    refine ⟨N + 1, st, sts, m, ?_, ?_⟩
    · intro fuel hf
      refine ⟨reverse (ofArray [a, b]), ?_, rfl⟩
      unfold along
      rw [if_pos h10, e fuel hf]
      rfl
    · have hL : Ln.length [b, a] = pdist a b := by simp [Ln.length, pdist_comm]
      have harc := g.1.at_arc h1 (by rw [hp, hL]; linarith)
      rw [hp] at harc
      obtain ⟨t, e1, e2⟩ := atArc_straight harc
      have hpos : 0 < pdist a b := lt_of_le_of_ne (pdist_nonneg a b) fun e => hab (pdist_eq_zero.1 e.symm)
      rw [pdist_comm] at e2
      have ht0 : 0 ≤ t := by
        by_contra hc
        have := mul_neg_of_neg_of_pos (not_le.1 hc) hpos
        linarith
      have ht1 : t ≤ 1 := by
        by_contra hc
        have := mul_lt_mul_of_pos_right (not_le.1 hc) hpos
        linarith
      refine ⟨0, a, b, 1 - t, rfl, rfl, by linarith, by linarith, ?_, ?_⟩
      · rw [e1]; unfold lerp; ext <;> simp <;> ring
      · simp [Ln.length]; rw [e2]; ring

theorem between_ok {corr : Pt → Pt → Option ℕ} {m : Lines} {src sink : Pt} {k : ℕ} {s0 s1 : ℝ}
    (h : between corr m src sink = .ok (k, s0, s1)) : corr src sink = some k ∧ nearestS (m k) src = .ok s0 ∧
      nearestS (m k) sink = .ok s1 := by
  unfold between at h
  cases hc : corr src sink with
  | none => rw [hc] at h; cases h
  | some j =>
    rw [hc] at h
    obtain ⟨x, h1, h⟩ := Res.bind_ok h
    obtain ⟨y, h2, h⟩ := Res.bind_ok h
    cases h
    exact ⟨rfl, h1, h2⟩

/-- C169: placing other vehicles leaves the map alone if no sink lies before its source -/
theorem C169_map_kept {corr : Pt → Pt → Option ℕ} {c : Uvd} {u : ℕ → ℝ} {fuel : ℕ} {m : Lines} :
    ∀ {l : List (Pt × Pt)} {n : ℕ} {states : List State} {m' : Lines} {n' : ℕ},
    others corr c u fuel l m n = .ok (states, m', n') →
    (∀ p ∈ l, ∀ k s0 s1, corr p.1 p.2 = some k → nearestS (m k) p.1 = .ok s0 → nearestS (m k) p.2 = .ok s1 → s0 ≤ s1) →
    m' = m
  | [], _, _, _, _, h, _ => by cases h; rfl
  | (src, sink) :: rest, n, states, m', n', h, hs => by
    unfold others at h
    obtain ⟨⟨k, s0, s1⟩, h1, h⟩ := Res.bind_ok h
    obtain ⟨⟨⟨st, n1⟩, l'⟩, h2, h⟩ := Res.bind_ok h
    obtain ⟨⟨st', m2, n2⟩, h3, h⟩ := Res.bind_ok h
    cases h
    obtain ⟨q1, q2, q3⟩ := between_ok h1
    have hle := hs (src, sink) (List.mem_cons_self ..) k s0 s1 q1 q2 q3
    have hl' : l' = m k := by
      unfold along at h2
      rw [if_neg (not_lt.2 hle)] at h2
      cases hx : alongLoop c (m k) u s1 fuel n s0 with
      | error e => rw [hx] at h2; cases h2
      | ok y => rw [hx] at h2; cases h2; rfl
    have hm : (fun j => if j = k then l' else m j) = m := by
      funext j
      by_cases e : j = k
      · subst e; rw [if_pos rfl, hl']
      · rw [if_neg e]
    simp only [hm] at h3
    exact C169_map_kept h3 fun p hp => hs p (List.mem_cons_of_mem _ hp)

/-- C169 violated: a source and a sink on different lane corridors make the generation fail -/
theorem C169_unmatched_violated {corr : Pt → Pt → Option ℕ} {c : Uvd} {u : ℕ → ℝ} {fuel : ℕ} (m : Lines) (src sink : Pt)
    (rest : List (Pt × Pt)) (n : ℕ) (h : corr src sink = none) :
    others corr c u fuel ((src, sink) :: rest) m n = .error .thrown := by
  unfold others between
  rw [h]; rfl

/-- C169: the vehicles of several source and sink pairs are those placed for each pair, in order -/
theorem C169_pairs {corr : Pt → Pt → Option ℕ} {c : Uvd} {u : ℕ → ℝ} {fuel : ℕ} {m : Lines} {src sink : Pt}
    {rest : List (Pt × Pt)} {n : ℕ} {states : List State} {m' : Lines} {n' : ℕ}
    (h : others corr c u fuel ((src, sink) :: rest) m n = .ok (states, m', n')) :
    ∃ k s0 s1 st1 st2 n1 l' m1, corr src sink = some k ∧ nearestS (m k) src = .ok s0 ∧ nearestS (m k) sink = .ok s1 ∧
      along c (m k) u fuel n s0 s1 = .ok ((st1, n1), l') ∧ m1 k = l' ∧ (∀ j, j ≠ k → m1 j = m j) ∧
      others corr c u fuel rest m1 n1 = .ok (st2, m', n') ∧ states = st1 ++ st2 := by
  unfold others at h
  obtain ⟨⟨k, s0, s1⟩, h1, h⟩ := Res.bind_ok h
  obtain ⟨⟨⟨st, n1⟩, l'⟩, h2, h⟩ := Res.bind_ok h
  obtain ⟨⟨st', m2, n2⟩, h3, h⟩ := Res.bind_ok h
  cases h
  obtain ⟨q1, q2, q3⟩ := between_ok h1
  exact ⟨k, s0, s1, st, st', n1, l', _, q1, q2, q3, h2, if_pos rfl, fun j hj => if_neg hj, h3, rfl⟩

/-! ### the whole scenario -/

theorem created_get (first : ℕ) (states : List State) (i : ℕ) :
    (created first states)[i]? = (states[i]?).map fun s => (first + i, s) := by
  unfold created
  rw [List.getElem?_map, List.getElem?_zipIdx]
  cases states[i]? <;> simp

theorem created_length (first : ℕ) (states : List State) : (created first states).length = states.length := by
  unfold created; simp

theorem created_ids (first : ℕ) (states : List State) :
    (created first states).map Prod.fst = List.range' first states.length := by
  apply List.ext_getElem?
  intro i
  rw [List.getElem?_map, created_get]
  by_cases h : i < states.length
  · rw [List.getElem?_eq_getElem h, List.getElem?_range' h]; simp
  · rw [List.getElem?_eq_none (by omega), List.getElem?_eq_none (by simp; omega)]; rfl

theorem created_states (first : ℕ) (states : List State) : (created first states).map Prod.snd = states := by
  apply List.ext_getElem?
  intro i
  rw [List.getElem?_map, created_get]
  cases states[i]? <;> rfl

/-- C170: with a route for the ego vehicle the scenario has the other vehicles and the ego vehicle, with distinct ids, and
evaluates the ego vehicle, which stands on its lane between the ends of its route -/
theorem C170_route {corr : Pt → Pt → Option ℕ} {c : Uvd} {u : ℕ → ℝ} (hu : Draws u) {fuel : ℕ} {sources : List (Pt × Pt)}
    {src sink : Pt} {egoVel : ℝ × ℝ} (hv : egoVel.1 ≤ egoVel.2) {m : Lines} {first n : ℕ} {as : List (ℕ × State)}
    {ids : List ℕ} {m' : Lines}
    (h : uvdScenario corr c u fuel sources (some (src, sink)) egoVel m first n = .ok (as, ids, m'))
    (hl : ∀ k, Proper (m' k)) :
    ∃ (states : List State) (e : State) (n' k : ℕ) (s0 s1 s : ℝ), others corr c u fuel sources m n = .ok (states, m', n') ∧
      as.map Prod.snd = states ++ [e] ∧ (as.map Prod.fst).Pairwise (· < ·) ∧ (∃ i, ids = [i] ∧ as.getLast? = some (i, e)) ∧
      corr src sink = some k ∧ nearestS (m' k) src = .ok s0 ∧ nearestS (m' k) sink = .ok s1 ∧ min s0 s1 ≤ s ∧ s ≤ max s0 s1 ∧
      Stands (m' k) s e ∧ egoVel.1 ≤ e.vel ∧ e.vel ≤ egoVel.2 := by
  unfold uvdScenario at h
  obtain ⟨⟨states, m1, n1⟩, h1, h⟩ := Res.bind_ok h
  simp only at h
  obtain ⟨e, h2, h⟩ := Res.bind_ok h
  cases h
  unfold egoState at h2
  obtain ⟨⟨k, s0, s1⟩, hb, h2⟩ := Res.bind_ok h2
  obtain ⟨q1, q2, q3⟩ := between_ok hb
  obtain ⟨q, a, hq, ha, hst⟩ := stands_of (hl k) (uniform s0 s1 (u n1)) (uniform egoVel.1 egoVel.2 (u (n1 + 1)))
  simp only [hq, ha, Res.ok_bind] at h2
  cases h2
  obtain ⟨v1, v2⟩ := uniform_mem hv (hu (n1 + 1))
  have hs : min s0 s1 ≤ uniform s0 s1 (u n1) ∧ uniform s0 s1 (u n1) ≤ max s0 s1 := by
    rcases le_total s0 s1 with hle | hle
    · rw [min_eq_left hle, max_eq_right hle]; exact uniform_mem hle (hu n1)
    · rw [min_eq_right hle, max_eq_left hle]
      obtain ⟨w0, w1⟩ := hu n1
      have e1 : 0 ≤ (s0 - s1) * u n1 := mul_nonneg (by linarith) w0
      have e2 : (s0 - s1) * u n1 ≤ (s0 - s1) * 1 := mul_le_mul_of_nonneg_left w1.le (by linarith)
      unfold uniform
      constructor <;> linarith
  refine ⟨states, _, n1, k, s0, s1, _, h1, ?_, ?_, ⟨_, rfl, by simp⟩, q1, q2, q3, hs.1, hs.2, hst, v1, v2⟩
  · rw [List.map_append, created_states]; rfl
  · rw [List.map_append, created_ids, List.pairwise_append]
    refine ⟨List.pairwise_lt_range', by simp, ?_⟩
    intro x hx y hy
    simp only [List.map_cons, List.map_nil, List.mem_singleton] at hy
    rw [List.mem_range'_1] at hx
    omega

/-- C170: without a route one of the other vehicles is evaluated -/
theorem C170_no_route {corr : Pt → Pt → Option ℕ} {c : Uvd} {u : ℕ → ℝ} {fuel : ℕ} {sources : List (Pt × Pt)}
    {egoVel : ℝ × ℝ} {m : Lines} {first n : ℕ} {states : List State} {m' : Lines} {n' : ℕ}
    (h : others corr c u fuel sources m n = .ok (states, m', n')) (hne : states ≠ []) :
    ∃ (as : List (ℕ × State)) (i : ℕ), uvdScenario corr c u fuel sources none egoVel m first n = .ok (as, [i], m') ∧
      ∃ s, (i, s) ∈ as ∧ s ∈ states := by
  have hpos : 0 < states.length := List.length_pos_iff.2 hne
  have hlt : states.length / 4 < states.length := by omega
  unfold uvdScenario
  simp only [h, Res.ok_bind, created_length, created_get, List.getElem?_eq_getElem hlt, Option.map_some]
  exact ⟨_, _, rfl, states[states.length / 4], by simp, List.getElem_mem _⟩

/-- C170 violated: then this vehicle is listed twice -/
theorem C170_twice_violated {corr : Pt → Pt → Option ℕ} {c : Uvd} {u : ℕ → ℝ} {fuel : ℕ} {sources : List (Pt × Pt)}
    {egoVel : ℝ × ℝ} {m : Lines} {first n : ℕ} {as : List (ℕ × State)} {ids : List ℕ} {m' : Lines}
    (h : uvdScenario corr c u fuel sources none egoVel m first n = .ok (as, ids, m')) : ¬(as.map Prod.fst).Nodup := by
  unfold uvdScenario at h
  obtain ⟨⟨states, m1, n1⟩, h1, h⟩ := Res.bind_ok h
  simp only at h
  split at h
  · cases h
  · rename_i a ha
    cases h
    rw [List.map_append, List.nodup_append]
    rintro ⟨-, -, hd⟩
    exact hd a.1 (List.mem_map.2 ⟨a, List.mem_of_getElem? ha, rfl⟩) a.1 (by simp) rfl

/-- C170 violated: without a route and without other vehicles the generation fails -/
theorem C170_nobody_violated {corr : Pt → Pt → Option ℕ} {c : Uvd} {u : ℕ → ℝ} {fuel : ℕ} {sources : List (Pt × Pt)}
    {egoVel : ℝ × ℝ} {m : Lines} {first n : ℕ} {m' : Lines} {n' : ℕ}
    (h : others corr c u fuel sources m n = .ok ([], m', n')) :
    uvdScenario corr c u fuel sources none egoVel m first n = .error .thrown := by
  unfold uvdScenario
  simp only [h, Res.ok_bind]
  rfl

/-- C170 violated: the goal region does not surround the point given: it lies in the middle of one edge, and the whole region
is on the side of ascending y, whatever the direction of the lane -/
theorem C170_goal_violated (sink : Pt) : ∃ p0 p1 p2 p3, goalBox sink = [p0, p1, p2, p3] ∧ sink = lerp p0 p3 (1 / 2) ∧
    ∀ p ∈ goalBox sink, sink.2 ≤ p.2 := by
  refine ⟨_, _, _, _, rfl, ?_, ?_⟩
  · unfold lerp; ext <;> simp <;> ring
  · intro p hp
    simp only [goalBox, List.map_cons, List.map_nil, List.mem_cons, List.not_mem_nil, or_false] at hp
    rcases hp with rfl | rfl | rfl | rfl <;> simp

/-! ### examples -/

/-- cars of 4 m length with gaps of 10 to 20 m -/
def exUvd : Uvd := ⟨3, 1, 10, 20, 5, 8⟩

/-- source 30 m and sink 10 m along a lane of 100 m: the first vehicle stands at 90 m -/
example : ∃ (N : ℕ) (st : State) (states : List State) (m : ℕ),
    (∀ fuel, N ≤ fuel → ∃ l', along exUvd (ofArray [(0, 0), (100, 0)]) (fun _ => 0) fuel 0 30 10 = .ok ((st :: states, m), l') ∧
      l'.pts = [(100, 0), (0, 0)]) ∧ AtArc [(0, 0), (100, 0)] (pdist (0, 0) (100, 0) - 10) st.pos :=
  C169_mirrored_violated (by simp) ex_draws (by norm_num [exUvd]) (by norm_num [exUvd]) (by norm_num [exUvd]) (by norm_num)
    (by norm_num) (by rw [ex_pdist 100 (by norm_num)]; norm_num) 0

example : ∃ (N : ℕ) (states : List State) (m : ℕ) (arcs : List ℝ),
    (∀ fuel, N ≤ fuel → along exUvd (ofArray [(0, 0), (100, 0)]) (fun _ => 0) fuel 0 10 30 = .ok ((states, m), ofArray [(0, 0), (100, 0)])) ∧
      arcs.head? = some 10 ∧ arcs.length = states.length := by
  obtain ⟨N, states, m, arcs, h1, h2, -, h4, -⟩ := C169_placed (c := exUvd) (l := ofArray [(0, 0), (100, 0)])
    (proper_straight (by simp)) ex_draws (by norm_num [exUvd]) (by norm_num [exUvd]) (by norm_num [exUvd])
    (show (10 : ℝ) ≤ 30 by norm_num) 0
  exact ⟨N, states, m, arcs, h1, h4 (by norm_num), h2.length_eq⟩

/-- a corridor of the default settings with a controlled agent -/
def exControlled : Cfg := ⟨0, 60, 10, 20, 8, 10, 0, none, some [0], some 0⟩

/-- a scenario is created -/
example : ∃ (N : ℕ) (as : List Ag) (ids : List ℕ) (m : ℕ), ids.length = 1 ∧
    scenario (fun _ => 0) (fun _ _ => 0) N [(exControlled, exRoad 60)] 0 0 0 = .ok (as, ids, m) := by
  obtain ⟨N, states, m, arcs, e, h1, -, -, -, -, h6⟩ := C167_placed (c := exControlled)
    (r := exRoad 60) (l := ofArray [(0, 0), (60, 0)]) rfl (proper_straight (by simp)) ex_draws (by norm_num [exControlled])
    (by norm_num [exControlled]) (by norm_num [exControlled]) 0
  have hne : states ≠ [] := by
    rintro rfl
    cases h1
    exact h6 (by norm_num [exControlled]) rfl
  have : ∃ x, scenario (fun _ => 0) (fun _ _ => 0) N [(exControlled, exRoad 60)] 0 0 0 = .ok x := by
    have e := e N (le_refl _)
    clear h1
    match states, hne, e with
    | s :: ss, _, e =>
      apply Exists.intro
      unfold scenario
      simp only [e, Res.ok_bind]
      rfl
  obtain ⟨⟨as, ids, m'⟩, h⟩ := this
  exact ⟨N, as, ids, m', (C168_ids h).2.2.2, h⟩

end Bark.Place
