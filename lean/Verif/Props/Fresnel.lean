import Verif.Props.Spiral2
import Mathlib.Analysis.SpecialFunctions.Trigonometric.Bounds
import Mathlib.Analysis.SpecialFunctions.Integrals.Basic

/-! C193: accuracy of the routine for the Fresnel integrals. -/
namespace Bark.Spi
open Bark Bark.Ln Bark.PV Spec Real

/-! ### polynomials as lists of rational coefficients, lowest power first -/

noncomputable def ev (t : ℝ) (l : List ℚ) : ℝ := l.foldr (fun (c : ℚ) (acc : ℝ) => acc * t + (c : ℝ)) 0

def scale (a : ℚ) (l : List ℚ) : List ℚ := l.map (fun c => a * c)

def addP : List ℚ → List ℚ → List ℚ
  | [], b => b
  | a, [] => a
  | a :: as, b :: bs => (a + b) :: addP as bs

def mulP : List ℚ → List ℚ → List ℚ
  | [], _ => []
  | a :: as, b => addP (scale a b) (0 :: mulP as b)

def bnd (T : ℚ) (l : List ℚ) : ℚ := l.foldr (fun c acc => acc * T + |c|) 0

theorem ev_cons (t : ℝ) (c : ℚ) (l : List ℚ) : ev t (c :: l) = ev t l * t + c := rfl
theorem ev_nil (t : ℝ) : ev t [] = 0 := rfl

theorem ev_scale (t : ℝ) (a : ℚ) (l : List ℚ) : ev t (scale a l) = a * ev t l := by
  induction l with
  | nil => simp [scale, ev]
  | cons c l ih =>
    have : scale a (c :: l) = a * c :: scale a l := rfl
    rw [this, ev_cons, ih, ev_cons]; push_cast; ring

theorem ev_add (t : ℝ) : ∀ a b : List ℚ, ev t (addP a b) = ev t a + ev t b
  | [], b => by simp [addP, ev_nil]
  | a :: as, [] => by simp [addP, ev_nil]
  | a :: as, b :: bs => by simp only [addP, ev_cons, ev_add t as bs]; push_cast; ring

theorem ev_mul (t : ℝ) (b : List ℚ) : ∀ a : List ℚ, ev t (mulP a b) = ev t a * ev t b
  | [] => by simp [mulP, ev_nil]
  | a :: as => by simp only [mulP, ev_add, ev_scale, ev_cons, ev_mul t b as]; push_cast; ring

theorem ev_le_bnd {t : ℝ} {T : ℚ} (h0 : 0 ≤ t) (hT : t ≤ T) (l : List ℚ) : |ev t l| ≤ (bnd T l : ℝ) := by
  induction l with
  | nil => simp [ev, bnd]
  | cons c l ih =>
    have e : bnd T (c :: l) = bnd T l * T + |c| := rfl
    rw [ev_cons, e]
    push_cast
    have hT0 : (0 : ℝ) ≤ T := le_trans h0 hT
    calc |ev t l * t + c| ≤ |ev t l * t| + |(c : ℝ)| := abs_add_le _ _
      _ = |ev t l| * t + |(c : ℝ)| := by rw [abs_mul, abs_of_nonneg h0]
      _ ≤ (bnd T l : ℝ) * T + |(c : ℝ)| := by
        have := mul_le_mul ih hT h0 (le_trans (abs_nonneg _) ih)
        linarith

theorem ev_nonneg {t : ℝ} (h0 : 0 ≤ t) : ∀ l : List ℚ, (∀ c ∈ l, 0 ≤ c) → 0 ≤ ev t l
  | [], _ => le_rfl
  | c :: l, h => by
    rw [ev_cons]
    have h1 : (0 : ℝ) ≤ (c : ℝ) := by exact_mod_cast h c (by simp)
    have := mul_nonneg (ev_nonneg h0 l (fun x hx => h x (by simp [hx]))) h0
    linarith

theorem ev_ge_head {t : ℝ} (h0 : 0 ≤ t) (c : ℚ) (l : List ℚ) (h : ∀ x ∈ l, 0 ≤ x) : (c : ℝ) ≤ ev t (c :: l) := by
  rw [ev_cons]
  have := mul_nonneg (ev_nonneg h0 l h) h0
  linarith

theorem polevl_ev (t : ℝ) (l : List ℚ) : polevl t l = ev t l.reverse := by
  cases l with
  | nil => rfl
  | cons c l =>
    unfold ev
    rw [List.foldr_reverse, List.foldl_cons]
    simp [polevl]

theorem p1evl_ev (t : ℝ) (l : List ℚ) (h : l ≠ []) : p1evl t l = ev t (1 :: l).reverse := by
  cases l with
  | nil => exact absurd rfl h
  | cons c l =>
    unfold ev
    rw [List.foldr_reverse, List.foldl_cons, List.foldl_cons]
    simp [p1evl]

theorem ev_append (t : ℝ) (l : List ℚ) (c : ℚ) : ev t (l ++ [c]) = ev t l + c * t ^ l.length := by
  induction l with
  | nil => simp [ev]
  | cons a l ih => rw [List.cons_append, ev_cons, ih, ev_cons, List.length_cons]; ring

theorem ev_range (t : ℝ) (a : ℕ → ℚ) (M : ℕ) :
    ev t ((List.range M).map a) = ∑ n ∈ Finset.range M, (a n : ℝ) * t ^ n := by
  induction M with
  | zero => simp [ev]
  | succ M ih =>
    rw [List.range_succ, List.map_append, List.map_singleton, ev_append, ih, Finset.sum_range_succ]
    simp

/-! ### Taylor polynomials of sine and cosine -/

noncomputable def cosT (M : ℕ) (y : ℝ) : ℝ := ∑ n ∈ Finset.range M, (-1) ^ n * y ^ (2 * n) / (2 * n).factorial
noncomputable def sinT (M : ℕ) (y : ℝ) : ℝ := ∑ n ∈ Finset.range M, (-1) ^ n * y ^ (2 * n + 1) / (2 * n + 1).factorial

theorem exp_partial (y : ℝ) (M : ℕ) :
    ∑ m ∈ Finset.range (2 * M), ((y : ℂ) * Complex.I) ^ m / (m.factorial : ℂ) = (cosT M y : ℂ) + (sinT M y : ℂ) * Complex.I := by
  induction M with
  | zero => simp [cosT, sinT]
  | succ M ih =>
    rw [show 2 * (M + 1) = 2 * M + 1 + 1 by ring, Finset.sum_range_succ, Finset.sum_range_succ, ih]
    unfold cosT sinT
    rw [Finset.sum_range_succ, Finset.sum_range_succ]
    have e : ((y : ℂ) * Complex.I) ^ (2 * M) = (-1) ^ M * (y : ℂ) ^ (2 * M) := by
      rw [mul_pow, pow_mul Complex.I, Complex.I_sq]; ring
    rw [pow_succ, e]
    push_cast
    ring

theorem taylor {y : ℝ} (M : ℕ) (hy : |y| ≤ M) :
    |cos y - cosT M y| ≤ |y| ^ (2 * M) / (2 * M).factorial * 2 ∧ |sin y - sinT M y| ≤ |y| ^ (2 * M) / (2 * M).factorial * 2 := by
  have hn : ‖(y : ℂ) * Complex.I‖ = |y| := by simp
  have hb := Complex.exp_bound' (x := (y : ℂ) * Complex.I) (n := 2 * M) (by
    rw [hn, div_le_div_iff₀ (by positivity) (by norm_num)]
    push_cast
    linarith)
  rw [exp_partial, hn, Complex.exp_mul_I, ← Complex.ofReal_cos, ← Complex.ofReal_sin] at hb
  have e : ((cos y : ℝ) : ℂ) + ((sin y : ℝ) : ℂ) * Complex.I - ((cosT M y : ℂ) + (sinT M y : ℂ) * Complex.I) =
      ((cos y - cosT M y : ℝ) : ℂ) + ((sin y - sinT M y : ℝ) : ℂ) * Complex.I := by push_cast; ring
  rw [e] at hb
  constructor
  · refine le_trans ?_ hb
    have := Complex.abs_re_le_norm (((cos y - cosT M y : ℝ) : ℂ) + ((sin y - sinT M y : ℝ) : ℂ) * Complex.I)
    simpa [-Complex.ofReal_cos, -Complex.ofReal_sin, -Complex.ofReal_sub] using this
  · refine le_trans ?_ hb
    have := Complex.abs_im_le_norm (((cos y - cosT M y : ℝ) : ℂ) + ((sin y - sinT M y : ℝ) : ℂ) * Complex.I)
    simpa [-Complex.ofReal_cos, -Complex.ofReal_sin, -Complex.ofReal_sub] using this

/-! ### the integrals -/

/-- π / 2, rounded down -/
def half : ℚ := 1.57079632679489661923

theorem half_close : |π / 2 - (half : ℝ)| ≤ 1 / 10 ^ 20 := by
  have h1 := pi_gt_d20
  have h2 := pi_lt_d20
  unfold half
  rw [abs_le]
  push_cast
  constructor <;> linarith

/-- coefficients of the Taylor polynomials of `C x / x` and `S x / x ^ 3` in `x ^ 4` -/
def tc (n : ℕ) : ℚ := (-1) ^ n * half ^ (2 * n) / ((2 * n).factorial * (4 * n + 1))
def ts (n : ℕ) : ℚ := (-1) ^ n * half ^ (2 * n + 1) / ((2 * n + 1).factorial * (4 * n + 3))

theorem integral_cosT (M : ℕ) (x : ℝ) :
    ∫ u in (0 : ℝ)..x, cosT M ((half : ℝ) * u ^ 2) = x * ev (x ^ 4) ((List.range M).map tc) := by
  unfold cosT
  rw [ev_range, intervalIntegral.integral_finset_sum (fun n _ => by
    apply Continuous.intervalIntegrable; fun_prop), Finset.mul_sum]
  refine Finset.sum_congr rfl fun n _ => ?_
  have : (fun u : ℝ => (-1) ^ n * ((half : ℝ) * u ^ 2) ^ (2 * n) / ((2 * n).factorial : ℝ)) =
      fun u : ℝ => ((-1) ^ n * (half : ℝ) ^ (2 * n) / ((2 * n).factorial : ℝ)) * u ^ (4 * n) := by
    funext u
    rw [mul_pow, ← pow_mul]
    ring
  rw [this, intervalIntegral.integral_const_mul, integral_pow]
  unfold tc
  push_cast
  rw [zero_pow (by omega)]
  field_simp
  ring

theorem integral_sinT (M : ℕ) (x : ℝ) :
    ∫ u in (0 : ℝ)..x, sinT M ((half : ℝ) * u ^ 2) = x * x ^ 2 * ev (x ^ 4) ((List.range M).map ts) := by
  unfold sinT
  rw [ev_range, intervalIntegral.integral_finset_sum (fun n _ => by
    apply Continuous.intervalIntegrable; fun_prop), Finset.mul_sum]
  refine Finset.sum_congr rfl fun n _ => ?_
  have : (fun u : ℝ => (-1) ^ n * ((half : ℝ) * u ^ 2) ^ (2 * n + 1) / ((2 * n + 1).factorial : ℝ)) =
      fun u : ℝ => ((-1) ^ n * (half : ℝ) ^ (2 * n + 1) / ((2 * n + 1).factorial : ℝ)) * u ^ (4 * n + 2) := by
    funext u
    rw [mul_pow, ← pow_mul]
    ring
  rw [this, intervalIntegral.integral_const_mul, integral_pow]
  unfold ts
  push_cast
  rw [zero_pow (by omega)]
  have : (4 * (n : ℝ) + 2 + 1) = 4 * n + 3 := by ring
  rw [this]
  field_simp
  ring

/-- the integrals lie close to their Taylor polynomials (16 terms) for arguments up to 1.61 -/
theorem taylor_close {x : ℝ} (h0 : 0 ≤ x) (hx : x ≤ 161 / 100) :
    |(exact x).2 - x * ev (x ^ 4) ((List.range 16).map tc)| ≤ 1 / 10 ^ 12 ∧
      |(exact x).1 - x * x ^ 2 * ev (x ^ 4) ((List.range 16).map ts)| ≤ 1 / 10 ^ 12 := by
  have hq0 : (0 : ℝ) ≤ (half : ℝ) := by unfold half; norm_num
  have hq1 : (half : ℝ) ≤ 1571 / 1000 := by unfold half; norm_num
  have hpt : ∀ u ∈ Set.uIoc 0 x, |cos (π / 2 * u ^ 2) - cosT 16 ((half : ℝ) * u ^ 2)| ≤ 6 / 10 ^ 13 ∧
      |sin (π / 2 * u ^ 2) - sinT 16 ((half : ℝ) * u ^ 2)| ≤ 6 / 10 ^ 13 := by
    intro u hu
    rw [Set.uIoc_of_le h0] at hu
    have hu0 : 0 ≤ u := hu.1.le
    have hu2 : u ^ 2 ≤ (161 / 100) ^ 2 := pow_le_pow_left₀ hu0 (le_trans hu.2 hx) 2
    have hy0 : 0 ≤ (half : ℝ) * u ^ 2 := by positivity
    have hy : (half : ℝ) * u ^ 2 ≤ 408 / 100 := by
      calc (half : ℝ) * u ^ 2 ≤ 1571 / 1000 * (161 / 100) ^ 2 := mul_le_mul hq1 hu2 (by positivity) (by norm_num)
        _ ≤ 408 / 100 := by norm_num
    have hd : |π / 2 * u ^ 2 - (half : ℝ) * u ^ 2| ≤ 1 / 10 ^ 19 := by
      rw [← sub_mul, abs_mul, abs_of_nonneg (by positivity : (0 : ℝ) ≤ u ^ 2)]
      calc |π / 2 - (half : ℝ)| * u ^ 2 ≤ 1 / 10 ^ 20 * (161 / 100) ^ 2 :=
            mul_le_mul half_close hu2 (by positivity) (by norm_num)
        _ ≤ 1 / 10 ^ 19 := by norm_num
    have ht := taylor (y := (half : ℝ) * u ^ 2) 16 (by rw [abs_of_nonneg hy0]; push_cast; linarith)
    have hrem : |(half : ℝ) * u ^ 2| ^ (2 * 16) / (2 * 16).factorial * 2 ≤ 5 / 10 ^ 13 := by
      rw [abs_of_nonneg hy0]
      have : ((half : ℝ) * u ^ 2) ^ (2 * 16) ≤ (408 / 100) ^ (2 * 16) := pow_le_pow_left₀ hy0 hy _
      have hf : ((2 * 16).factorial : ℝ) = 263130836933693530167218012160000000 := by norm_num [Nat.factorial]
      rw [hf]
      calc ((half : ℝ) * u ^ 2) ^ (2 * 16) / 263130836933693530167218012160000000 * 2
          ≤ (408 / 100) ^ (2 * 16) / 263130836933693530167218012160000000 * 2 := by gcongr
        _ ≤ 5 / 10 ^ 13 := by norm_num
    have c1 := abs_cos_sub_cos_le (π / 2 * u ^ 2) ((half : ℝ) * u ^ 2)
    have s1 := abs_sin_sub_sin_le (π / 2 * u ^ 2) ((half : ℝ) * u ^ 2)
    constructor
    · have := abs_sub_le (cos (π / 2 * u ^ 2)) (cos ((half : ℝ) * u ^ 2)) (cosT 16 ((half : ℝ) * u ^ 2))
      have h2 := le_trans ht.1 hrem
      norm_num at *
      linarith
    · have := abs_sub_le (sin (π / 2 * u ^ 2)) (sin ((half : ℝ) * u ^ 2)) (sinT 16 ((half : ℝ) * u ^ 2))
      have h2 := le_trans ht.2 hrem
      norm_num at *
      linarith
  constructor
  · rw [← integral_cosT]
    have e : (exact x).2 - ∫ u in (0 : ℝ)..x, cosT 16 ((half : ℝ) * u ^ 2) =
        ∫ u in (0 : ℝ)..x, (cos (π / 2 * u ^ 2) - cosT 16 ((half : ℝ) * u ^ 2)) := by
      rw [intervalIntegral.integral_sub]
      · rfl
      · apply Continuous.intervalIntegrable; fun_prop
      · apply Continuous.intervalIntegrable; unfold cosT; fun_prop
    rw [e]
    have := intervalIntegral.norm_integral_le_of_norm_le_const (a := 0) (b := x) (C := 6 / 10 ^ 13)
      (f := fun u => cos (π / 2 * u ^ 2) - cosT 16 ((half : ℝ) * u ^ 2)) (fun u hu => (hpt u hu).1)
    rw [Real.norm_eq_abs, sub_zero, abs_of_nonneg h0] at this
    refine le_trans this ?_
    calc (6 : ℝ) / 10 ^ 13 * x ≤ 6 / 10 ^ 13 * (161 / 100) := by gcongr
      _ ≤ 1 / 10 ^ 12 := by norm_num
  · rw [← integral_sinT]
    have e : (exact x).1 - ∫ u in (0 : ℝ)..x, sinT 16 ((half : ℝ) * u ^ 2) =
        ∫ u in (0 : ℝ)..x, (sin (π / 2 * u ^ 2) - sinT 16 ((half : ℝ) * u ^ 2)) := by
      rw [intervalIntegral.integral_sub]
      · rfl
      · apply Continuous.intervalIntegrable; fun_prop
      · apply Continuous.intervalIntegrable; unfold sinT; fun_prop
    rw [e]
    have := intervalIntegral.norm_integral_le_of_norm_le_const (a := 0) (b := x) (C := 6 / 10 ^ 13)
      (f := fun u => sin (π / 2 * u ^ 2) - sinT 16 ((half : ℝ) * u ^ 2)) (fun u hu => (hpt u hu).2)
    rw [Real.norm_eq_abs, sub_zero, abs_of_nonneg h0] at this
    refine le_trans this ?_
    calc (6 : ℝ) / 10 ^ 13 * x ≤ 6 / 10 ^ 13 * (161 / 100) := by gcongr
      _ ≤ 1 / 10 ^ 12 := by norm_num

end Bark.Spi
