import Verif.Spec.Placement
import Verif.Props.Line
import Mathlib.Tactic.Linarith
import Mathlib.Tactic.NormNum
import Mathlib.Tactic.Positivity
import Mathlib.Tactic.Ring
import Mathlib.Algebra.Order.Archimedean.Real.Basic

/-!
C167: placing vehicles in a lane corridor (`ConfigWithEase`).
-/
namespace Bark.Place

open Ln Ln.Spec Bark.Place.Spec

theorem uniform_mem {lo hi u : ℝ} (h : lo ≤ hi) (hu : 0 ≤ u ∧ u < 1) : lo ≤ uniform lo hi u ∧ uniform lo hi u ≤ hi := by
  unfold uniform
  have h1 : 0 ≤ (hi - lo) * u := mul_nonneg (by linarith) hu.1
  have h2 : (hi - lo) * u ≤ (hi - lo) * 1 := mul_le_mul_of_nonneg_left hu.2.le (by linarith)
  constructor <;> linarith

theorem stands_of {l : Line} (hl : Proper l) (s v : ℝ) : ∃ q a, pointAtS l s = .ok q ∧ tangentAngleAtS l s = .ok a ∧
    Stands l s ⟨q, a, v⟩ := by
  obtain ⟨q, hq, -, c2, -⟩ := C29_point_at_s hl.table hl.two s
  obtain ⟨a, ha, -, -, d3, -⟩ := C61_tangent hl.table hl.two hl.noDup s
  refine ⟨q, a, hq, ha, ?_, ?_, d3⟩
  · intro h0 hL
    obtain ⟨q', hq', h⟩ := pointAtS_atArc hl.table hl.two h0 hL
    rw [hq] at hq'; cases hq'
    exact h
  · intro h0 hL
    rcases h0.eq_or_lt with e | h0'
    · exfalso
      have hpos : 0 < Ln.length l.pts := by
        have h2 := hl.two
        have hnd := hl.noDup
        match hp : l.pts, h2 with
        | a :: b :: ps, _ =>
          rw [hp] at hnd
          unfold NoDup at hnd
          have hab : a ≠ b := (List.isChain_cons_cons.1 hnd).1
          have h1 : 0 < pdist a b := lt_of_le_of_ne (pdist_nonneg a b) fun e => hab (pdist_eq_zero.1 e.symm)
          have h3 : Ln.length (a :: b :: ps) = pdist a b + Ln.length (b :: ps) := rfl
          have h4 := length_nonneg (b :: ps)
          rw [h3]; linarith
      linarith
    · exact c2 h0' hL

theorem placeLoop_spec {c : Cfg} {l : Line} (hl : Proper l) {u : ℕ → ℝ} (hu : Draws u) (hlo : 0 < c.dsMin)
    (hhi : c.dsMin ≤ c.dsMax) (hv : c.minVel ≤ c.maxVel) : ∀ (N : ℕ) (n : ℕ) (s : ℝ), c.sMax - s < N * c.dsMin →
    ∃ states m arcs, (∀ fuel, N + 1 ≤ fuel → placeLoop c l u fuel n s = .ok (states, m)) ∧
      List.Forall₂ (fun s st => Stands l s st ∧ c.minVel ≤ st.vel ∧ st.vel ≤ c.maxVel) arcs states ∧
      Spaced c.dsMin c.dsMax arcs ∧ (s ≤ c.sMax → arcs.head? = some s) ∧ (c.sMax < s → arcs = []) ∧
      (∀ x ∈ arcs, s ≤ x ∧ x ≤ c.sMax) ∧ ∀ x, arcs.getLast? = some x → c.sMax < x + c.dsMax := by
  have stop : ∀ (n : ℕ) (s : ℝ), c.sMax < s → ∀ fuel, 1 ≤ fuel → placeLoop c l u fuel n s = .ok ([], n) := by
    intro n s hs fuel hf
    obtain ⟨k, rfl⟩ : ∃ k, fuel = k + 1 := ⟨fuel - 1, by omega⟩
    obtain ⟨q, a, hq, ha, -⟩ := stands_of hl s 0
    unfold placeLoop
    simp only [hq, ha, Res.ok_bind]
    exact if_pos hs
  intro N
  induction N with
  | zero =>
    intro n s h
    have hs : c.sMax < s := by simp at h; linarith
    refine ⟨[], n, [], fun fuel hf => stop n s hs fuel (by omega), .nil, by simp [Spaced], fun h => absurd h (by linarith),
      fun _ => rfl, by simp, by simp⟩
  | succ N ih =>
    intro n s h
    by_cases hs : c.sMax < s
    · refine ⟨[], n, [], fun fuel hf => stop n s hs fuel (by omega), .nil, by simp [Spaced],
        fun h => absurd h (by linarith), fun _ => rfl, by simp, by simp⟩
    · obtain ⟨hd1, hd2⟩ := uniform_mem hhi (hu n)
      obtain ⟨hv1, hv2⟩ := uniform_mem hv (hu (n + 1))
      obtain ⟨q, a, hq, ha, hst⟩ := stands_of hl s (uniform c.minVel c.maxVel (u (n + 1)))
      obtain ⟨states, m, arcs, e, h1, h2, h3, h4, h5, h6⟩ := ih (n + 2) (s + uniform c.dsMin c.dsMax (u n)) (by
        push_cast at h; linarith)
      refine ⟨_, m, s :: arcs, ?_, .cons ⟨hst, hv1, hv2⟩ h1, ?_, fun _ => rfl, fun h => absurd h hs, ?_, ?_⟩
      · intro fuel hf
        obtain ⟨k, rfl⟩ : ∃ k, fuel = k + 1 := ⟨fuel - 1, by omega⟩
        unfold placeLoop
        simp only [hq, ha, Res.ok_bind, e k (by omega)]
        exact if_neg hs
      · unfold Spaced at h2 ⊢
        by_cases g : s + uniform c.dsMin c.dsMax (u n) ≤ c.sMax
        · have hh := h3 g
          match arcs, hh, h2 with
          | x :: xs, hh, h2 =>
            simp only [List.head?_cons, Option.some.injEq] at hh
            subst hh
            rw [List.isChain_cons_cons]
            exact ⟨⟨by linarith, by linarith⟩, h2⟩
        · rw [h4 (not_le.1 g)]; simp
      · intro x hx
        rcases List.mem_cons.1 hx with rfl | hx
        · exact ⟨le_refl _, not_lt.1 hs⟩
        · obtain ⟨g1, g2⟩ := h5 x hx
          exact ⟨by linarith, g2⟩
      · intro x hx
        by_cases g : s + uniform c.dsMin c.dsMax (u n) ≤ c.sMax
        · have hh := h3 g
          match arcs, hh, h6 with
          | y :: ys, hh, h6 =>
            rw [List.getLast?_cons_cons] at hx
            exact h6 x hx
        · rw [h4 (not_le.1 g)] at hx
          simp only [List.getLast?_singleton, Option.some.injEq] at hx
          subst hx
          linarith

/-- C167: placing ends, and every vehicle stands on the center line, heading along it, the first one in the first interval,
each at `ds_min` to `ds_max` behind the next, none beyond `s_max`, and the corridor is filled up to `s_max`; velocities are in
their range -/
theorem C167_placed {c : Cfg} {r : Road} {l : Line} (hc : centerOf c r = .ok (some l)) (hl : Proper l)
    {u : ℕ → ℝ} (hu : Draws u) (hlo : 0 < c.dsMin) (hhi : c.dsMin ≤ c.dsMax) (hv : c.minVel ≤ c.maxVel) (n : ℕ) :
    ∃ (N : ℕ) (states : List State) (m : ℕ) (arcs : List ℝ), (∀ fuel, N ≤ fuel → placeCfg c r u fuel n = .ok (states, m)) ∧
      List.Forall₂ (fun s st => Stands l s st ∧ c.minVel ≤ st.vel ∧ st.vel ≤ c.maxVel) arcs states ∧
      Spaced c.dsMin c.dsMax arcs ∧ (∀ x, arcs.head? = some x → 0 ≤ x ∧ x ≤ c.dsMax) ∧ (∀ x ∈ arcs, 0 ≤ x ∧ x ≤ c.sMax) ∧
      (∀ x, arcs.getLast? = some x → c.sMax < x + c.dsMax) ∧ (c.dsMax ≤ c.sMax → arcs ≠ []) := by
  obtain ⟨g1, g2⟩ := uniform_mem (lo := 0) (hi := c.dsMax) (by linarith) (hu n)
  obtain ⟨N, hN⟩ := exists_nat_gt ((c.sMax - uniform 0 c.dsMax (u n)) / c.dsMin)
  rw [div_lt_iff₀ hlo] at hN
  obtain ⟨states, m, arcs, e, h1, h2, h3, h4, h5, h6⟩ := placeLoop_spec hl hu hlo hhi hv N (n + 1) _ hN
  refine ⟨N + 1, states, m, arcs, ?_, h1, h2, ?_, ?_, h6, ?_⟩
  · intro fuel hf
    unfold placeCfg
    simp only [hc, Res.ok_bind]
    exact e fuel hf
  · intro x hx
    have hs : uniform 0 c.dsMax (u n) ≤ c.sMax := by
      by_contra hs
      rw [h4 (not_le.1 hs)] at hx; cases hx
    rw [h3 hs] at hx
    cases hx
    exact ⟨g1, g2⟩
  · intro x hx
    obtain ⟨k1, k2⟩ := h5 x hx
    exact ⟨g1.trans k1, k2⟩
  · intro hs hnil
    have := h3 (by linarith)
    rw [hnil] at this; cases this

/-- successive arc lengths add up -/
theorem spaced_get {lo hi : ℝ} (h0 : 0 ≤ lo) {arcs : List ℝ} (h : Spaced lo hi arcs) : arcs.Pairwise fun a b => lo ≤ b - a := by
  unfold Spaced at h
  induction arcs with
  | nil => exact .nil
  | cons a l ih =>
    rw [List.pairwise_cons]
    have hl := ih h.tail
    refine ⟨?_, hl⟩
    cases l with
    | nil => simp
    | cons b l =>
      rw [List.isChain_cons_cons] at h
      intro x hx
      rcases List.mem_cons.1 hx with rfl | hx
      · exact h.1.1
      · have h1 := (List.pairwise_cons.1 hl).1 x hx
        have h2 := h.1.1
        linarith

theorem atArc_straight {a b : Pt} {s : ℝ} {q : Pt} (h : AtArc [a, b] s q) : ∃ t, q = lerp a b t ∧ s = t * pdist a b := by
  obtain ⟨i, x, y, t, hx, hy, -, -, hq, hs⟩ := h
  have hi : i = 0 := by
    have := (List.getElem?_eq_some_iff.1 hy).1
    simp at this
    exact this
  subst hi
  simp at hx hy
  subst hx; subst hy
  refine ⟨t, hq, ?_⟩
  simpa [Ln.length] using hs

theorem pdist_lerp (a b : Pt) (t t' : ℝ) : pdist (lerp a b t) (lerp a b t') = |t' - t| * pdist a b := by
  unfold pdist lerp
  rw [← Real.sqrt_sq_eq_abs, ← Real.sqrt_mul (sq_nonneg _)]
  congr 1
  ring

theorem apart {a b : Pt} {c : Cfg} {lo hi : ℝ} (hlo : 0 ≤ lo) {arcs : List ℝ} {states : List State} (hsp : Spaced lo hi arcs)
    (hlen : c.sMax ≤ pdist a b) (hin : ∀ x ∈ arcs, 0 ≤ x ∧ x ≤ c.sMax)
    (hst : List.Forall₂ (fun s st => Stands (ofArray [a, b]) s st) arcs states) :
    states.Pairwise fun x y => lo ≤ pdist x.pos y.pos := by
  have hp : (ofArray [a, b]).pts = [a, b] := rfl
  have hL : Ln.length [a, b] = pdist a b := by simp [Ln.length]
  have hpw := spaced_get hlo hsp
  clear hsp
  induction hst with
  | nil => exact .nil
  | @cons s st arcs states h hrest ih =>
    rw [List.pairwise_cons] at hpw
    rw [List.pairwise_cons]
    refine ⟨?_, ih (fun x hx => hin x (List.mem_cons_of_mem _ hx)) hpw.2⟩
    intro y hy
    obtain ⟨i, hi⟩ := List.mem_iff_getElem?.1 hy
    have hi' : i < arcs.length := by
      rw [hrest.length_eq]; exact (List.getElem?_eq_some_iff.1 hi).1
    obtain ⟨hi'', rfl⟩ := List.getElem?_eq_some_iff.1 hi
    have hy' := hrest.get hi' hi''
    simp only [List.get_eq_getElem] at hy'
    have hmem : arcs[i] ∈ arcs := List.getElem_mem _
    have hgap := hpw.1 _ hmem
    obtain ⟨s0, s1⟩ := hin s (List.mem_cons_self ..)
    obtain ⟨r0, r1⟩ := hin arcs[i] (List.mem_cons_of_mem _ hmem)
    have a1 := h.at_arc s0 (by rw [hp, hL]; linarith)
    have a2 := hy'.at_arc r0 (by rw [hp, hL]; linarith)
    rw [hp] at a1 a2
    obtain ⟨t, e1, e2⟩ := atArc_straight a1
    obtain ⟨t', e3, e4⟩ := atArc_straight a2
    rw [e1, e3, pdist_lerp]
    have : |t' - t| * pdist a b = |arcs[i] - s| := by
      rw [e4, e2, ← sub_mul, abs_mul, abs_of_nonneg (pdist_nonneg a b)]
    rw [this]
    exact hgap.trans (le_abs_self _)

theorem proper_straight {a b : Pt} (h : a ≠ b) : Proper (ofArray [a, b]) :=
  ⟨tableRight_recompute _, by simp [ofArray, recomputeS], by simp [ofArray, recomputeS, NoDup, h]⟩

/-- C167: on a straight lane that is long enough the vehicles stand at least `ds_min` apart -/
theorem C167_apart {a b : Pt} (hab : a ≠ b) {c : Cfg} {r : Road} (hc : centerOf c r = .ok (some (ofArray [a, b])))
    {u : ℕ → ℝ} (hu : Draws u) (hlo : 0 < c.dsMin) (hhi : c.dsMin ≤ c.dsMax) (hv : c.minVel ≤ c.maxVel)
    (hlen : c.sMax ≤ pdist a b) (n : ℕ) :
    ∃ (N : ℕ) (states : List State) (m : ℕ), (∀ fuel, N ≤ fuel → placeCfg c r u fuel n = .ok (states, m)) ∧
      states.Pairwise fun x y => c.dsMin ≤ pdist x.pos y.pos := by
  obtain ⟨N, states, m, arcs, e, h1, h2, h3, h4, -⟩ := C167_placed hc (proper_straight hab) hu hlo hhi hv n
  exact ⟨N, states, m, e, apart hlo.le h2 hlen h4 (h1.imp fun _ _ h => h.1)⟩

/-- C167 violated: if the lane ends early before `s_max`, two vehicles are always placed at the same point, its end -/
theorem C167_pile_up_violated {c : Cfg} {r : Road} {l : Line} (hc : centerOf c r = .ok (some l)) (hl : Proper l)
    {u : ℕ → ℝ} (hu : Draws u) (hlo : 0 < c.dsMin) (hhi : c.dsMin ≤ c.dsMax) (hv : c.minVel ≤ c.maxVel) (n : ℕ)
    (hshort : Ln.length l.pts + 2 * c.dsMax ≤ c.sMax) :
    ∃ (N : ℕ) (states : List State) (m : ℕ), (∀ fuel, N ≤ fuel → placeCfg c r u fuel n = .ok (states, m)) ∧
      ∃ (i j : ℕ) (x y : State), i < j ∧ states[i]? = some x ∧ states[j]? = some y ∧ x.pos = y.pos := by
  obtain ⟨N, states, m, arcs, e, h1, h2, h3, h4, h5, h6⟩ := C167_placed hc hl hu hlo hhi hv n
  refine ⟨N, states, m, e, ?_⟩
  have hL := length_nonneg l.pts
  have hne := h6 (by linarith)
  obtain ⟨pre, z, rfl⟩ := (List.eq_nil_or_concat arcs).resolve_left hne
  simp only [List.concat_eq_append] at *
  have hz := h5 z (by simp)
  cases hpre : pre.getLast? with
  | none =>
    rw [List.getLast?_eq_none_iff] at hpre
    subst hpre
    have := (h3 z (by simp)).2
    linarith
  | some y =>
    obtain ⟨pre', rfl⟩ : ∃ p, pre = p ++ [y] := by
      obtain ⟨p, w, rfl⟩ := (List.eq_nil_or_concat pre).resolve_left (by rintro rfl; cases hpre)
      simp at hpre
      subst hpre
      exact ⟨p, by simp⟩
    have hyz : c.dsMin ≤ z - y ∧ z - y ≤ c.dsMax := by
      unfold Spaced at h2
      rw [List.append_assoc] at h2
      have := (List.isChain_append.1 h2).2.1
      simp only [List.singleton_append] at this
      exact (List.isChain_cons_cons.1 this).1
    have ly : (pre' ++ [y] ++ [z])[pre'.length]? = some y := by simp
    have lz : (pre' ++ [y] ++ [z])[pre'.length + 1]? = some z := by simp
    have getSt : ∀ (i : Nat) (s : ℝ), (pre' ++ [y] ++ [z])[i]? = some s → ∃ st, states[i]? = some st ∧ Stands l s st := by
      intro i s hi
      obtain ⟨hi', rfl⟩ := List.getElem?_eq_some_iff.1 hi
      have hi'' : i < states.length := by rw [← h1.length_eq]; exact hi'
      have := h1.get hi' hi''
      simp only [List.get_eq_getElem] at this
      exact ⟨states[i], List.getElem?_eq_getElem hi'', this.1⟩
    obtain ⟨sy, gy1, gy2⟩ := getSt _ _ ly
    obtain ⟨sz, gz1, gz2⟩ := getSt _ _ lz
    refine ⟨pre'.length, pre'.length + 1, sy, sz, by omega, gy1, gz1, ?_⟩
    have ey := gy2.at_end (by linarith) (by linarith)
    have ez := gz2.at_end (by linarith) (by linarith)
    rw [ey] at ez
    exact Option.some.inj ez

/-- C167 violated: vehicles are placed before `s_min` -/
theorem C167_smin_violated {c : Cfg} {r : Road} {l : Line} (hc : centerOf c r = .ok (some l)) (hl : Proper l)
    {u : ℕ → ℝ} (hu : Draws u) (hlo : 0 < c.dsMin) (hhi : c.dsMin ≤ c.dsMax) (hv : c.minVel ≤ c.maxVel) (n : ℕ)
    (hs : c.dsMax < c.sMin) (hm : c.dsMax ≤ c.sMax) :
    ∃ (N : ℕ) (states : List State) (m : ℕ), (∀ fuel, N ≤ fuel → placeCfg c r u fuel n = .ok (states, m)) ∧
      ∃ (st : State) (s : ℝ), st ∈ states ∧ Stands l s st ∧ 0 ≤ s ∧ s < c.sMin := by
  obtain ⟨N, states, m, arcs, e, h1, h2, h3, h4, h5, h6⟩ := C167_placed hc hl hu hlo hhi hv n
  refine ⟨N, states, m, e, ?_⟩
  have hne := h6 hm
  match arcs, hne, h1, h3 with
  | s :: arcs, _, .cons h _, h3 =>
    obtain ⟨g1, g2⟩ := h3 s rfl
    exact ⟨_, s, List.mem_cons_self .., h.1, g1, by linarith⟩

/-- C167 violated: without spacing placing does not end -/
theorem C167_endless_violated {c : Cfg} {r : Road} {l : Line} (hc : centerOf c r = .ok (some l)) (hl : Proper l)
    (u : ℕ → ℝ) (h0 : c.dsMin = 0) (h1 : c.dsMax = 0) (hm : 0 ≤ c.sMax) (n fuel : ℕ) :
    placeCfg c r u fuel n = .error .diverges := by
  unfold placeCfg
  simp only [hc, Res.ok_bind]
  have : ∀ n, placeLoop c l u fuel n 0 = .error .diverges := by
    induction fuel with
    | zero => intro n; rfl
    | succ k ih =>
      intro n
      obtain ⟨q, a, hq, ha, -⟩ := stands_of hl 0 0
      unfold placeLoop
      simp only [hq, ha, Res.ok_bind]
      rw [if_neg (by linarith)]
      have e : (0 : ℝ) + uniform c.dsMin c.dsMax (u n) = 0 := by unfold uniform; rw [h0, h1]; ring
      rw [e, ih]
      rfl
  have e : uniform 0 c.dsMax (u n) = 0 := by unfold uniform; rw [h1]; ring
  rw [e]
  exact this _

/-- C167: without a road corridor nothing is placed; without a valid lane corridor it raises -/
theorem C167_no_road (c : Cfg) (r : Road) (u : ℕ → ℝ) (fuel n : ℕ) :
    (r.lanes = none → placeCfg c r u fuel n = .ok ([], n)) ∧
    (∀ ls, r.lanes = some ls → r.current = none → (∀ i, c.laneId = some i → ls.length ≤ i) →
      placeCfg c r u fuel n = .error .thrown) ∧
    (∀ ls l, r.lanes = some ls → r.current = some l → centerOf c r = .ok (some l)) ∧
    (∀ ls i l, r.lanes = some ls → r.current = none → c.laneId = some i → ls[i]? = some l → centerOf c r = .ok (some l)) := by
  refine ⟨?_, ?_, ?_, ?_⟩
  · intro h
    unfold placeCfg centerOf
    rw [h]; rfl
  · intro ls h1 h2 h3
    have : centerOf c r = .error .thrown := by
      unfold centerOf
      rw [h1, h2]
      cases hi : c.laneId with
      | none => rfl
      | some i =>
        have : ls[i]? = none := List.getElem?_eq_none (h3 i hi)
        simp only [this]
    unfold placeCfg
    rw [this]; rfl
  · intro ls l h1 h2
    unfold centerOf; rw [h1, h2]
  · intro ls i l h1 h2 h3 h4
    unfold centerOf; rw [h1, h2, h3]; simp only [h4]

/-! ### examples -/

/-- the default settings on a lane of 60 m -/
def exCfg : Cfg := ⟨0, 60, 10, 20, 8, 10, 0, none, none, some 0⟩

/-- the lane along the x axis -/
noncomputable def exRoad (L : ℝ) : Road := ⟨none, some [ofArray [(0, 0), (L, 0)]]⟩

theorem ex_draws : Draws fun _ => 0 := fun _ => ⟨le_refl _, one_pos⟩

theorem ex_pdist (L : ℝ) (h : 0 ≤ L) : pdist (0, 0) (L, 0) = L := by
  unfold pdist; norm_num; exact Real.sqrt_mul_self h

example : ∃ (N : ℕ) (states : List State) (m : ℕ), (∀ fuel, N ≤ fuel → placeCfg exCfg (exRoad 60) (fun _ => 0) fuel 0 =
    .ok (states, m)) ∧ states.Pairwise fun x y => (10 : ℝ) ≤ pdist x.pos y.pos :=
  C167_apart (a := (0, 0)) (b := (60, 0)) (by simp) rfl ex_draws (by norm_num [exCfg]) (by norm_num [exCfg])
    (by norm_num [exCfg]) (by rw [ex_pdist 60 (by norm_num)]; norm_num [exCfg]) 0

/-- with the same settings, on a lane of 20 m two vehicles stand at the same point -/
example : ∃ (N : ℕ) (states : List State) (m : ℕ), (∀ fuel, N ≤ fuel → placeCfg exCfg (exRoad 20) (fun _ => 0) fuel 0 =
    .ok (states, m)) ∧ ∃ (i j : ℕ) (x y : State), i < j ∧ states[i]? = some x ∧ states[j]? = some y ∧ x.pos = y.pos :=
  C167_pile_up_violated (l := ofArray [(0, 0), (20, 0)]) rfl (proper_straight (by simp)) ex_draws (by norm_num [exCfg])
    (by norm_num [exCfg]) (by norm_num [exCfg]) 0 (by
      have : Ln.length (ofArray [((0 : ℝ), (0 : ℝ)), (20, 0)]).pts = 20 := by
        have := ex_pdist 20 (by norm_num)
        simpa [ofArray, recomputeS, Ln.length] using this
      rw [this]; norm_num [exCfg])

end Bark.Place
