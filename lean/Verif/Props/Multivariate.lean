import Verif.Spec.Multivariate
import Mathlib.Analysis.Matrix.Spectrum
import Mathlib.Tactic.LinearCombination
import Mathlib.Tactic.NormNum
import Mathlib.LinearAlgebra.Matrix.Notation
import Mathlib.Data.List.GetD

/-!
C191: the multivariate normal distribution.
-/
namespace Bark.Mvn
open Matrix Spec

/-! ### drawing -/

theorem drawMany_length {R : Type} (e : Engine R) : ∀ (k : Nat) (g : R) (s : Option ℝ), (drawMany e k g s).1.length = k := by
  intro k
  induction k with
  | zero => intro g s; rfl
  | succ k ih => intro g s; simp [drawMany, ih]

theorem drawMany_stream {R : Type} (e : Engine R) : ∀ (k m : Nat) (g : R) (s : Option ℝ), k ≤ m →
    (drawMany e k g s).1 = (s.toList ++ stream e m g).take k := by
  intro k
  induction k with
  | zero => intro m g s _; rfl
  | succ k ih =>
    intro m g s h
    match m, h with
    | m + 1, h =>
      cases s with
      | some x =>
        show x :: (drawMany e k g none).1 = _
        rw [ih (m + 1) g none (by omega)]
        simp
      | none =>
        show (e.pair g).1 :: (drawMany e k (e.pair g).2.2 (some (e.pair g).2.1)).1 = _
        rw [ih m _ _ (by omega)]
        simp [stream]

/-- C191: a sample is the mean plus the transformed noise; the noise are the next numbers of the engine, beginning with the one
kept before, if any -/
theorem C191_sample {R : Type} (e : Engine R) {n : Nat} (d : Dist R n) :
    ∃ noise : Fin n → ℝ, List.ofFn noise = (d.saved.toList ++ stream e n d.gen).take n ∧
      (sample e d).1.length = n ∧
      ∀ i : Fin n, (sample e d).1[i.1]? = some (d.mean i + ∑ j, d.transform i j * noise j) := by
  refine ⟨fun i => (drawMany e n d.gen d.saved).1.getD i 0, ?_, ?_, ?_⟩
  · rw [← drawMany_stream e n n d.gen d.saved le_rfl]
    refine List.ext_getElem (by simp [drawMany_length]) ?_
    intro i h1 h2
    simp only [List.getElem_ofFn]
    rw [List.getD_eq_getElem _ _ h2]
  · simp [sample]
  · intro i
    simp only [sample, List.getElem?_ofFn, i.2, dite_true, Pi.add_apply, mulVec, dotProduct]

/-! ### covariance -/

theorem lower_symm {n : Nat} (a : Matrix (Fin n) (Fin n) ℝ) : (lower a)ᵀ = lower a := by
  ext i j
  simp only [transpose_apply, lower]
  by_cases h1 : i ≤ j
  · by_cases h2 : j ≤ i
    · rw [le_antisymm h1 h2]
    · rw [if_pos h1, if_neg h2]
  · have h2 : j ≤ i := le_of_lt (not_le.1 h1)
    rw [if_neg h1, if_pos h2]

theorem lower_of_symm {n : Nat} {a : Matrix (Fin n) (Fin n) ℝ} (h : aᵀ = a) : lower a = a := by
  ext i j
  unfold lower
  split_ifs
  · rfl
  · exact (congrFun (congrFun h i) j)

/-- C191: the contract of the eigenvalue solver can be met for every matrix it is given -/
theorem C191_solver_exists {n : Nat} (a : Matrix (Fin n) (Fin n) ℝ) : ∃ v d, Decomposes v d (lower a) := by
  have hh : (lower a).IsHermitian := by
    unfold Matrix.IsHermitian
    rw [conjTranspose_eq_transpose_of_trivial]
    exact lower_symm a
  refine ⟨(hh.eigenvectorUnitary : Matrix (Fin n) (Fin n) ℝ), hh.eigenvalues, ?_, ?_⟩
  · have := (Matrix.mem_unitaryGroup_iff' (A := (hh.eigenvectorUnitary : Matrix (Fin n) (Fin n) ℝ))).1 hh.eigenvectorUnitary.2
    rw [star_eq_conjTranspose, conjTranspose_eq_transpose_of_trivial] at this
    exact this
  · have := hh.spectral_theorem
    simpa [Unitary.conjStarAlgAut_apply, star_eq_conjTranspose, conjTranspose_eq_transpose_of_trivial, Function.comp_def] using this

theorem construct_ok {R : Type} {e : Engine R} {n : Nat} {solver : Matrix (Fin n) (Fin n) ℝ → Matrix (Fin n) (Fin n) ℝ × (Fin n → ℝ)}
    {seed : Nat} {mean : List ℝ} {cov : List (List ℝ)} {d : Dist R n} (h : construct e solver seed mean cov = .ok d) :
    mean.length = n ∧ cov.length = n ∧ (∀ r ∈ cov, r.length = n) ∧ (∀ i, 0 ≤ (solver (lower d.covariance)).2 i) ∧
    (∀ i, mean[i.1]? = some (d.mean i)) ∧ (∀ i j : Fin n, ∃ r, cov[i.1]? = some r ∧ r[j.1]? = some (d.covariance i j)) ∧
    d.gen = e.ofSeed seed ∧ d.saved = none ∧
    d.transform = (solver (lower d.covariance)).1 * diagonal (fun i => Real.sqrt ((solver (lower d.covariance)).2 i)) := by
  unfold construct meanFromParams covarFromParams at h
  by_cases h1 : mean.length = n
  swap
  · rw [if_neg h1] at h; simp [bind, Except.bind] at h
  rw [if_pos h1] at h
  by_cases h2 : cov.length = n ∧ ∀ r ∈ cov, r.length = n
  swap
  · rw [if_neg h2] at h; simp [bind, Except.bind] at h
  rw [if_pos h2] at h
  simp only [bind, Except.bind, transformOf] at h
  split at h
  · simp at h
  · rename_i t ht
    split at ht
    · rename_i h3
      simp only [Except.ok.injEq] at ht
      subst ht
      simp only [pure, Except.pure, Except.ok.injEq] at h
      subst h
      refine ⟨h1, h2.1, h2.2, h3, ?_, ?_, rfl, rfl, rfl⟩
      · intro i
        have hi : i.1 < mean.length := by rw [h1]; exact i.2
        rw [List.getElem?_eq_getElem hi]
        simp only [List.getD_eq_getElem _ _ hi]
      · intro i j
        have hi : i.1 < cov.length := by rw [h2.1]; exact i.2
        have hj : j.1 < cov[i.1].length := by rw [h2.2 _ (List.getElem_mem hi)]; exact j.2
        refine ⟨_, List.getElem?_eq_getElem hi, ?_⟩
        rw [List.getElem?_eq_getElem hj]
        simp only [List.getD_eq_getElem _ _ hi, List.getD_eq_getElem _ _ hj]
    · simp at ht

/-- C191: the distribution can be used exactly if mean and covariance have the same size and no eigenvalue is negative -/
theorem C191_accepted {R : Type} (e : Engine R) {n : Nat} (solver : Matrix (Fin n) (Fin n) ℝ → Matrix (Fin n) (Fin n) ℝ × (Fin n → ℝ))
    (seed : Nat) (mean : List ℝ) (cov : List (List ℝ)) (a : Matrix (Fin n) (Fin n) ℝ) (hm : mean.length = n) (hc : cov.length = n)
    (hr : ∀ r ∈ cov, r.length = n) (ha : ∀ i j : Fin n, ∃ r, cov[i.1]? = some r ∧ r[j.1]? = some (a i j)) :
    (∃ d, construct e solver seed mean cov = .ok d) ↔ ∀ i, 0 ≤ (solver (lower a)).2 i := by
  have e1 : (fun i j : Fin n => (cov.getD i []).getD j 0) = a := by
    funext i j
    obtain ⟨r, r1, r2⟩ := ha i j
    simp only [List.getD_eq_getElem?_getD, r1, Option.getD_some, r2]
  constructor
  · rintro ⟨d, h⟩
    obtain ⟨_, _, _, h4, _, h6, _⟩ := construct_ok h
    have : d.covariance = a := by
      ext i j
      obtain ⟨r, r1, r2⟩ := ha i j
      obtain ⟨r', s1, s2⟩ := h6 i j
      rw [r1, Option.some.injEq] at s1
      rw [← s1, r2, Option.some.injEq] at s2
      exact s2.symm
    rw [this] at h4
    exact h4
  · intro h
    unfold construct meanFromParams covarFromParams transformOf
    rw [if_pos hm, if_pos ⟨hc, hr⟩]
    simp only [bind, Except.bind, e1]
    rw [if_pos h]
    exact ⟨_, rfl⟩

theorem transform_square {n : Nat} {v : Matrix (Fin n) (Fin n) ℝ} {w : Fin n → ℝ} {a : Matrix (Fin n) (Fin n) ℝ}
    (h : Decomposes v w a) (hw : ∀ i, 0 ≤ w i) :
    v * diagonal (fun i => Real.sqrt (w i)) * (v * diagonal (fun i => Real.sqrt (w i)))ᵀ = a := by
  rw [transpose_mul, diagonal_transpose, h.2, Matrix.mul_assoc, ← Matrix.mul_assoc (diagonal _) (diagonal _), diagonal_mul_diagonal,
    ← Matrix.mul_assoc]
  congr 3
  funext i
  exact Real.mul_self_sqrt (hw i)

theorem image_eq {n : Nat} (t : Matrix (Fin n) (Fin n) ℝ) : covarianceOfImage t = t * tᵀ := by
  ext i j
  simp [covarianceOfImage, Matrix.mul_apply]

/-- C191: the covariance of the samples is given by the diagonal and lower triangle of the configured matrix; it is the
configured one if that is symmetric -/
theorem C191_covariance {R : Type} {e : Engine R} {n : Nat}
    {solver : Matrix (Fin n) (Fin n) ℝ → Matrix (Fin n) (Fin n) ℝ × (Fin n → ℝ)}
    (hs : ∀ a : Matrix (Fin n) (Fin n) ℝ, aᵀ = a → Decomposes (solver a).1 (solver a).2 a)
    {seed : Nat} {mean : List ℝ} {cov : List (List ℝ)} {d : Dist R n} (h : construct e solver seed mean cov = .ok d) :
    (∀ i j : Fin n, j ≤ i → covarianceOfImage d.transform i j = d.covariance i j ∧ covarianceOfImage d.transform j i = d.covariance i j) ∧
    (d.covarianceᵀ = d.covariance → covarianceOfImage d.transform = d.covariance) := by
  obtain ⟨_, _, _, h4, _, _, _, _, h9⟩ := construct_ok h
  have key : covarianceOfImage d.transform = lower d.covariance := by
    rw [image_eq, h9]
    exact transform_square (hs _ (lower_symm _)) h4
  refine ⟨fun i j hij => ?_, fun hsym => by rw [key, lower_of_symm hsym]⟩
  rw [key]
  unfold lower
  rw [if_pos hij]
  refine ⟨rfl, ?_⟩
  split_ifs with h'
  · rw [le_antisymm hij h']
  · rfl

/-- C191: for a symmetric, regular covariance `Density` is the density of the samples: at the sample made from a noise vector it
is the density of the noise divided by the change of volume -/
theorem C191_density {R : Type} {e : Engine R} {n : Nat}
    {solver : Matrix (Fin n) (Fin n) ℝ → Matrix (Fin n) (Fin n) ℝ × (Fin n → ℝ)}
    (hs : ∀ a : Matrix (Fin n) (Fin n) ℝ, aᵀ = a → Decomposes (solver a).1 (solver a).2 a)
    {seed : Nat} {mean : List ℝ} {cov : List (List ℝ)} {d : Dist R n} (h : construct e solver seed mean cov = .ok d)
    (hsym : d.covarianceᵀ = d.covariance) (hdet : d.covariance.det ≠ 0) (noise : Fin n → ℝ) :
    density d (fun i => d.mean i + ∑ j, d.transform i j * noise j) * |d.transform.det| = ∏ i, phi (noise i) := by
  have hc := (C191_covariance hs h).2 hsym
  rw [image_eq] at hc
  set t := d.transform with ht
  have hd2 : d.covariance.det = t.det ^ 2 := by
    rw [← hc, det_mul, det_transpose, sq]
  have htd : t.det ≠ 0 := by
    intro h0
    rw [h0] at hd2
    exact hdet (by rw [hd2]; simp)
  have hu : IsUnit t.det := isUnit_iff_ne_zero.2 htd
  have hut : IsUnit tᵀ.det := by rw [det_transpose]; exact hu
  have hx : (fun i => d.mean i + ∑ j, t i j * noise j) - d.mean = t *ᵥ noise := by
    funext i
    simp [mulVec, dotProduct]
  have hinv : d.covariance⁻¹ = tᵀ⁻¹ * t⁻¹ := by rw [← hc, Matrix.mul_inv_rev]
  have hq : (t *ᵥ noise) ⬝ᵥ (d.covariance⁻¹ *ᵥ (t *ᵥ noise)) = ∑ i, noise i ^ 2 := by
    rw [hinv, mulVec_mulVec, Matrix.mul_assoc, nonsing_inv_mul _ hu, Matrix.mul_one, ← vecMul_transpose, ← dotProduct_mulVec,
      mulVec_mulVec, mul_nonsing_inv _ hut, one_mulVec, dotProduct]
    exact Finset.sum_congr rfl fun i _ => (sq _).symm
  have hpi : (0 : ℝ) < Real.sqrt (2 * Real.pi) := Real.sqrt_pos.2 (by positivity)
  have hn : Real.rpow (Real.sqrt (2 * Real.pi)) (-(n : ℝ)) = ∏ _i : Fin n, 1 / Real.sqrt (2 * Real.pi) := by
    rw [Finset.prod_const, Finset.card_univ, Fintype.card_fin]
    show Real.sqrt (2 * Real.pi) ^ (-(n : ℝ)) = _
    rw [Real.rpow_neg hpi.le, Real.rpow_natCast, one_div, inv_pow]
  have hv : Real.rpow d.covariance.det (-(1 / 2)) * |t.det| = 1 := by
    show d.covariance.det ^ (-(1 / 2) : ℝ) * |t.det| = 1
    rw [hd2, Real.rpow_neg (sq_nonneg _), ← Real.sqrt_eq_rpow, Real.sqrt_sq_eq_abs]
    exact inv_mul_cancel₀ (abs_ne_zero.2 htd)
  unfold density
  simp only
  rw [hx, hq]
  have he : Real.exp (-(1 / 2) * ∑ i, noise i ^ 2) = ∏ i, Real.exp (-(noise i ^ 2) / 2) := by
    rw [← Real.exp_sum, Finset.mul_sum]
    congr 1
    exact Finset.sum_congr rfl fun i _ => by ring
  unfold phi
  rw [Finset.prod_mul_distrib, ← hn, ← he]
  linear_combination (Real.rpow (Real.sqrt (2 * Real.pi)) (-(n : ℝ)) * Real.exp (-(1 / 2) * ∑ i, noise i ^ 2)) * hv

/-! ### the default covariance is not symmetric -/

/-- C191: with the default covariance neither the covariance of the samples nor their density is the configured one: the matrix is
not symmetric, samples use its lower triangle, `Density` all of it -/
theorem C191_default_violated {R : Type} {e : Engine R}
    {solver : Matrix (Fin 3) (Fin 3) ℝ → Matrix (Fin 3) (Fin 3) ℝ × (Fin 3 → ℝ)}
    (hs : ∀ a : Matrix (Fin 3) (Fin 3) ℝ, aᵀ = a → Decomposes (solver a).1 (solver a).2 a)
    {seed : Nat} {mean : List ℝ} {d : Dist R 3} (h : construct e solver seed mean defaultCovariance = .ok d) :
    covarianceOfImage d.transform 0 1 = 1 / 5 ∧ d.covariance 0 1 = 1 / 2 ∧
    density d d.mean * |d.transform.det| ≠ ∏ _i : Fin 3, phi 0 := by
  obtain ⟨_, _, _, h4, _, h6, _, _, h9⟩ := construct_ok h
  have entries : d.covariance = !![1, 1 / 2, 1 / 2; 1 / 5, 1, 1 / 10; 1 / 10, 1 / 10, 1] := by
    ext i j
    obtain ⟨r, r1, r2⟩ := h6 i j
    fin_cases i <;> fin_cases j <;> simp [defaultCovariance] at r1 r2 ⊢ <;> subst r1 <;> simp at r2 <;> exact r2.symm
  have hc := (C191_covariance hs h).1 1 0 (by decide)
  have key : d.transform * d.transformᵀ = lower d.covariance := by
    rw [h9]; exact transform_square (hs _ (lower_symm _)) h4
  have hlow : lower d.covariance = !![1, 1 / 5, 1 / 10; 1 / 5, 1, 1 / 10; 1 / 10, 1 / 10, 1] := by
    rw [entries]
    ext i j
    fin_cases i <;> fin_cases j <;> simp [lower]
  have hd : d.transform.det ^ 2 = 118 / 125 := by
    have := congrArg Matrix.det key
    have hL : (!![1, 1 / 5, 1 / 10; 1 / 5, 1, 1 / 10; 1 / 10, 1 / 10, 1] : Matrix (Fin 3) (Fin 3) ℝ).det = 118 / 125 := by
      rw [det_fin_three]
      simp
      norm_num
    rw [det_mul, det_transpose, hlow, hL] at this
    rw [sq, this]
  have hd2 : d.covariance.det = 171 / 200 := by
    rw [entries, det_fin_three]
    simp
    norm_num
  refine ⟨by rw [hc.2, entries]; simp, by rw [entries]; simp, ?_⟩
  have hpi : (0 : ℝ) < Real.sqrt (2 * Real.pi) := Real.sqrt_pos.2 (by positivity)
  have hn : Real.rpow (Real.sqrt (2 * Real.pi)) (-((3 : Nat) : ℝ)) = ∏ _i : Fin 3, phi 0 := by
    rw [Finset.prod_const, Finset.card_univ, Fintype.card_fin]
    show Real.sqrt (2 * Real.pi) ^ (-((3 : Nat) : ℝ)) = _
    rw [Real.rpow_neg hpi.le, Real.rpow_natCast]
    simp [phi]
    rw [← inv_pow, mul_inv, mul_comm]
  have hpos : (0 : ℝ) < ∏ _i : Fin 3, phi 0 := by
    refine Finset.prod_pos fun i _ => ?_
    unfold phi
    positivity
  intro hE
  unfold density at hE
  simp only [sub_self, mulVec_zero, dotProduct_zero, mul_zero, Real.exp_zero, mul_one] at hE
  rw [hn] at hE
  have h1 : Real.rpow d.covariance.det (-(1 / 2)) * |d.transform.det| = 1 := by
    have h2 : (∏ _i : Fin 3, phi 0) * (Real.rpow d.covariance.det (-(1 / 2)) * |d.transform.det| - 1) = 0 := by
      linear_combination hE
    rcases mul_eq_zero.1 h2 with h3 | h3
    · exact absurd h3 hpos.ne'
    · linarith
  rw [hd2] at h1
  have h3 : Real.rpow (171 / 200) (-(1 / 2)) = (Real.sqrt (171 / 200))⁻¹ := by
    show (171 / 200 : ℝ) ^ (-(1 / 2) : ℝ) = _
    rw [Real.rpow_neg (by norm_num), ← Real.sqrt_eq_rpow]
  rw [h3, ← Real.sqrt_sq_eq_abs, hd] at h1
  have h5 : Real.sqrt (118 / 125) = Real.sqrt (171 / 200) := by
    have hp : Real.sqrt (171 / 200 : ℝ) ≠ 0 := (Real.sqrt_pos.2 (by norm_num)).ne'
    field_simp at h1
    exact h1
  have h6 := (Real.sqrt_inj (by norm_num) (by norm_num)).1 h5
  norm_num at h6

/-! ### reseeding -/

theorem drawMany_saved {R : Type} (e : Engine R) : ∀ (k : Nat) (g : R) (s : Option ℝ),
    ((drawMany e k g s).2.2.isSome = true ↔ (k + s.toList.length) % 2 = 1) := by
  intro k
  induction k with
  | zero => intro g s; cases s <;> simp [drawMany]
  | succ k ih =>
    intro g s
    cases s with
    | some x =>
      show ((drawMany e k g none).2.2.isSome = true ↔ _)
      rw [ih]; simp; omega
    | none =>
      show ((drawMany e k (e.pair g).2.2 (some (e.pair g).2.1)).2.2.isSome = true ↔ _)
      rw [ih]; simp

theorem samples_saved {R : Type} (e : Engine R) {n : Nat} : ∀ (k : Nat) (d : Dist R n), d.saved.toList.length ≤ 1 →
    (((samples e k d).2.saved.isSome = true ↔ (k * n + d.saved.toList.length) % 2 = 1) ∧
      (samples e k d).2.mean = d.mean ∧ (samples e k d).2.covariance = d.covariance ∧ (samples e k d).2.transform = d.transform) := by
  intro k
  induction k with
  | zero => intro d _; cases hs : d.saved <;> simp [samples, hs]
  | succ k ih =>
    intro d hd
    have hb : ∀ s : Option ℝ, s.toList.length ≤ 1 := by intro s; cases s <;> simp
    obtain ⟨h1, h2, h3, h4⟩ := ih (sample e d).2 (hb _)
    refine ⟨?_, h2, h3, h4⟩
    show ((samples e k (sample e d).2).2.saved.isSome = true ↔ _)
    rw [h1]
    have h5 := drawMany_saved e n d.gen d.saved
    have h6 : (sample e d).2.saved = (drawMany e n d.gen d.saved).2.2 := rfl
    rw [h6]
    have e1 : (k + 1) * n = k * n + n := by ring
    rw [e1]
    cases hx : (drawMany e n d.gen d.saved).2.2 <;> rw [hx] at h5 <;> simp at h5 <;> simp <;> omega

/-- C191: after an even number of drawn components, reseeding makes all later samples those of a distribution newly constructed
with that seed -/
theorem C191_reseed {R : Type} {e : Engine R} {n : Nat}
    {solver : Matrix (Fin n) (Fin n) ℝ → Matrix (Fin n) (Fin n) ℝ × (Fin n → ℝ)}
    {s0 seed : Nat} {mean : List ℝ} {cov : List (List ℝ)} {d d' : Dist R n}
    (h : construct e solver s0 mean cov = .ok d) (h' : construct e solver seed mean cov = .ok d')
    (m : Nat) (hm : (m * n) % 2 = 0) (k : Nat) :
    (samples e k (changeSeed e seed (samples e m d).2)).1 = (samples e k d').1 := by
  obtain ⟨_, _, _, _, a5, a6, a7, a8, a9⟩ := construct_ok h
  obtain ⟨_, _, _, _, b5, b6, b7, b8, b9⟩ := construct_ok h'
  have hmean : d.mean = d'.mean := by
    funext i
    have := (a5 i).symm.trans (b5 i)
    exact Option.some.inj this
  have hcov : d.covariance = d'.covariance := by
    ext i j
    obtain ⟨r, r1, r2⟩ := a6 i j
    obtain ⟨r', r3, r4⟩ := b6 i j
    rw [r1, Option.some.injEq] at r3
    rw [← r3, r2, Option.some.injEq] at r4
    exact r4
  have htr : d.transform = d'.transform := by rw [a9, b9, hcov]
  obtain ⟨h1, h2, h3, h4⟩ := samples_saved e m d (by rw [a8]; simp)
  have hsv : (samples e m d).2.saved = none := by
    cases hx : (samples e m d).2.saved with
    | none => rfl
    | some x =>
      rw [hx, a8] at h1
      simp at h1
      omega
  have hE : changeSeed e seed (samples e m d).2 = d' := by
    cases d' with | mk g' s' m' c' t' =>
    simp only [changeSeed, Dist.mk.injEq]
    simp only at b7 b8 hmean hcov htr
    exact ⟨b7.symm, by rw [hsv, b8], by rw [h2, hmean], by rw [h3, hcov], by rw [h4, htr]⟩
  rw [hE]

/-- C191: after an odd number, the first component drawn after reseeding is a number left over from before, whatever the seed -/
theorem C191_reseed_violated {R : Type} {e : Engine R} {n : Nat}
    {solver : Matrix (Fin n) (Fin n) ℝ → Matrix (Fin n) (Fin n) ℝ × (Fin n → ℝ)}
    {s0 : Nat} {mean : List ℝ} {cov : List (List ℝ)} {d : Dist R n}
    (h : construct e solver s0 mean cov = .ok d) (m : Nat) (hm : (m * n) % 2 = 1) :
    ∃ x, ∀ seed, ∃ noise : Fin n → ℝ, List.ofFn noise = (x :: stream e n (e.ofSeed seed)).take n ∧
      ∀ i : Fin n, (sample e (changeSeed e seed (samples e m d).2)).1[i.1]? = some (d.mean i + ∑ j, d.transform i j * noise j) := by
  obtain ⟨_, _, _, _, _, _, _, a8, _⟩ := construct_ok h
  obtain ⟨h1, h2, h3, h4⟩ := samples_saved e m d (by rw [a8]; simp)
  have hsv : ∃ x, (samples e m d).2.saved = some x := by
    rw [← Option.isSome_iff_exists, h1, a8]
    simpa using hm
  obtain ⟨x, hx⟩ := hsv
  refine ⟨x, fun seed => ?_⟩
  obtain ⟨noise, n1, _, n3⟩ := C191_sample e (changeSeed e seed (samples e m d).2)
  refine ⟨noise, ?_, ?_⟩
  · rw [n1]
    simp only [changeSeed, hx]
    rfl
  · intro i
    rw [n3 i]
    simp only [changeSeed, h2, h4]

/-- C191: `CDF` is 0 everywhere, so that it is not the cumulative probability; the support has one interval per component -/
theorem C191_cdf_violated {R I : Type} {n : Nat} (all : I) (d : Dist R n) (x : Fin n → ℝ) :
    cdf d x = 0 ∧ (support all d).length = n ∧ ∀ i ∈ support all d, i = all := by
  refine ⟨rfl, by simp [support], fun i hi => ?_⟩
  exact (List.mem_replicate.1 hi).2

/-! ### non-vacuity -/

/-- a solver that meets the contract -/
theorem solver_exists (n : Nat) : ∃ solver : Matrix (Fin n) (Fin n) ℝ → Matrix (Fin n) (Fin n) ℝ × (Fin n → ℝ),
    ∀ a : Matrix (Fin n) (Fin n) ℝ, aᵀ = a → Decomposes (solver a).1 (solver a).2 a := by
  have h : ∀ a : Matrix (Fin n) (Fin n) ℝ, ∃ p : Matrix (Fin n) (Fin n) ℝ × (Fin n → ℝ), aᵀ = a → Decomposes p.1 p.2 a := by
    intro a
    by_cases ha : aᵀ = a
    · obtain ⟨v, w, hd⟩ := C191_solver_exists a
      rw [lower_of_symm ha] at hd
      exact ⟨(v, w), fun _ => hd⟩
    · exact ⟨(0, 0), fun h => absurd h ha⟩
  choose solver hs using h
  exact ⟨solver, hs⟩

theorem values_nonneg {n : Nat} {v : Matrix (Fin n) (Fin n) ℝ} {w : Fin n → ℝ} {a : Matrix (Fin n) (Fin n) ℝ} (h : Decomposes v w a)
    (hp : ∀ x : Fin n → ℝ, 0 ≤ x ⬝ᵥ (a *ᵥ x)) (i : Fin n) : 0 ≤ w i := by
  have h1 : vᵀ * a * v = diagonal w := by
    rw [h.2]
    calc vᵀ * (v * diagonal w * vᵀ) * v = (vᵀ * v) * diagonal w * (vᵀ * v) := by simp only [Matrix.mul_assoc]
      _ = diagonal w := by rw [h.1]; simp
  have h2 := hp (v *ᵥ Pi.single i 1)
  have h3 : (v *ᵥ Pi.single i 1) ⬝ᵥ (a *ᵥ (v *ᵥ Pi.single i 1)) = w i := by
    have e1 : (v *ᵥ Pi.single i 1 : Fin n → ℝ) = Pi.single i 1 ᵥ* vᵀ := (vecMul_transpose v _).symm
    calc (v *ᵥ Pi.single i 1) ⬝ᵥ (a *ᵥ (v *ᵥ Pi.single i 1))
        = (Pi.single i 1 ᵥ* vᵀ) ⬝ᵥ ((a * v) *ᵥ Pi.single i 1) := by rw [mulVec_mulVec, e1]
      _ = Pi.single i 1 ⬝ᵥ ((vᵀ * a * v) *ᵥ Pi.single i 1) := by rw [← dotProduct_mulVec, mulVec_mulVec, Matrix.mul_assoc]
      _ = w i := by rw [h1]; simp
  rw [h3] at h2
  exact h2

/-- the distribution with the default parameters can be constructed with every solver that meets the contract -/
theorem default_accepted {R : Type} (e : Engine R) (solver : Matrix (Fin 3) (Fin 3) ℝ → Matrix (Fin 3) (Fin 3) ℝ × (Fin 3 → ℝ))
    (hs : ∀ a : Matrix (Fin 3) (Fin 3) ℝ, aᵀ = a → Decomposes (solver a).1 (solver a).2 a) (seed : Nat) :
    ∃ d, construct e solver seed [1, 2, 3] defaultCovariance = .ok d := by
  refine (C191_accepted e solver seed [1, 2, 3] defaultCovariance !![1, 1 / 2, 1 / 2; 1 / 5, 1, 1 / 10; 1 / 10, 1 / 10, 1] rfl rfl ?_ ?_).2 ?_
  · intro r hr
    simp only [defaultCovariance, List.mem_cons, List.not_mem_nil, or_false] at hr
    rcases hr with rfl | rfl | rfl <;> rfl
  · intro i j
    fin_cases i <;> fin_cases j <;> simp [defaultCovariance]
  · intro i
    refine values_nonneg (hs _ (lower_symm _)) (fun x => ?_) i
    have hlow : lower (!![1, 1 / 2, 1 / 2; 1 / 5, 1, 1 / 10; 1 / 10, 1 / 10, 1] : Matrix (Fin 3) (Fin 3) ℝ) =
        !![1, 1 / 5, 1 / 10; 1 / 5, 1, 1 / 10; 1 / 10, 1 / 10, 1] := by
      ext i j
      fin_cases i <;> fin_cases j <;> simp [lower]
    rw [hlow]
    simp only [dotProduct, mulVec, Fin.sum_univ_three]
    simp
    nlinarith [sq_nonneg (x 0 + x 1), sq_nonneg (x 0 + x 2), sq_nonneg (x 1 + x 2), sq_nonneg (x 0), sq_nonneg (x 1), sq_nonneg (x 2)]

/-- the hypotheses of the violation are met -/
example : ∃ (solver : Matrix (Fin 3) (Fin 3) ℝ → Matrix (Fin 3) (Fin 3) ℝ × (Fin 3 → ℝ)) (d : Dist Nat 3),
    construct ⟨id, fun g => (0, 1, g + 1)⟩ solver 7 [1, 2, 3] defaultCovariance = .ok d ∧ covarianceOfImage d.transform 0 1 = 1 / 5 := by
  obtain ⟨solver, hs⟩ := solver_exists 3
  obtain ⟨d, hd⟩ := default_accepted (R := Nat) ⟨id, fun g => (0, 1, g + 1)⟩ solver hs 7
  exact ⟨solver, d, hd, (C191_default_violated hs hd).1⟩

end Bark.Mvn
