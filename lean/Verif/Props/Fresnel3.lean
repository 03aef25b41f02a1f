import Verif.Props.Fresnel2

/-! C193: the branch of the Fresnel routine for large arguments. -/
namespace Bark.Spi
open Bark Bark.Ln Bark.PV Spec Real

/-! ### more about polynomials -/

/-- value at a rational number -/
def evQ (q : ℚ) (l : List ℚ) : ℚ := l.foldr (fun c acc => acc * q + c) 0

/-- derivative -/
def dP : List ℚ → List ℚ
  | [] => []
  | _ :: l => addP l (0 :: dP l)

/-- the polynomial `h ↦ l (a + h)` -/
def shift (a : ℚ) : List ℚ → List ℚ
  | [] => []
  | c :: l => addP [c] (mulP [a, 1] (shift a l))

theorem evQ_cast (q : ℚ) (l : List ℚ) : ((evQ q l : ℚ) : ℝ) = ev (q : ℝ) l := by
  induction l with
  | nil => simp [evQ, ev]
  | cons c l ih =>
    have : evQ q (c :: l) = evQ q l * q + c := rfl
    rw [this, ev_cons, ← ih]; push_cast; ring

theorem ev_shift (a : ℚ) (h : ℝ) : ∀ l : List ℚ, ev h (shift a l) = ev ((a : ℝ) + h) l
  | [] => rfl
  | c :: l => by
    rw [shift, ev_add, ev_mul, ev_shift a h l, ev_cons ((a : ℝ) + h)]
    simp only [ev_cons, ev_nil]
    push_cast
    ring

theorem ev_deriv (x : ℝ) : ∀ l : List ℚ, HasDerivAt (fun t => ev t l) (ev x (dP l)) x
  | [] => by simpa [ev_nil, dP] using hasDerivAt_const x (0 : ℝ)
  | c :: l => by
    have := ((ev_deriv x l).mul (hasDerivAt_id x)).add_const (c : ℝ)
    rw [dP, ev_add, ev_cons]
    refine this.congr_deriv ?_
    simp
    ring

theorem ev_mono {t t' : ℝ} (h0 : 0 ≤ t) (h : t ≤ t') : ∀ l : List ℚ, (∀ c ∈ l, 0 ≤ c) → ev t l ≤ ev t' l
  | [], _ => le_rfl
  | c :: l, hc => by
    rw [ev_cons, ev_cons]
    have h1 := ev_mono h0 h l (fun x hx => hc x (by simp [hx]))
    have h2 := ev_nonneg h0 l (fun x hx => hc x (by simp [hx]))
    have := mul_le_mul h1 h h0 (le_trans h2 h1)
    linarith

/-! ### the residuals of the rational functions -/

def N : List ℚ := fn.reverse
def Q : List ℚ := (1 :: fd).reverse
def M : List ℚ := gn.reverse
def R : List ℚ := (1 :: gd).reverse

/-- numerator of `-F + 3 G + 4 u G'` with `F = N / Q` and `G = M / R` -/
def resA : List ℚ :=
  addP (scale (-1) (mulP N (mulP R R))) (addP (scale 3 (mulP M (mulP R Q)))
    (scale 4 (0 :: mulP Q (addP (mulP (dP M) R) (scale (-1) (mulP M (dP R)))))))

/-- numerator of `G - 1 + 5 u F + 4 u² F'` -/
def resB : List ℚ :=
  addP (mulP M (mulP Q Q)) (addP (scale (-1) (mulP R (mulP Q Q))) (addP (scale 5 (0 :: mulP N (mulP Q R)))
    (scale 4 (0 :: 0 :: mulP R (addP (mulP (dP N) Q) (scale (-1) (mulP N (dP Q))))))))

def denA : List ℚ := mulP Q (mulP R R)
def denB : List ℚ := mulP R (mulP Q Q)

/-- grid of the intervals `[a, a + (a + 1/10000) / 4]`, rounded -/
def grid : ℕ → ℚ
  | 0 => 0
  | n + 1 => grid n + (⌊(grid n + 1 / 10000) / 4 * 10 ^ 7⌋ : ℚ) / 10 ^ 7

theorem grid_end : 0.01622 ≤ grid 23 := by decide +kernel

theorem grid_check : ∀ n < 23, bnd (grid (n + 1) - grid n) (shift (grid n) resA) ≤ 1 / 10 ^ 10 * evQ (grid n) denA ∧
    bnd (grid (n + 1) - grid n) (shift (grid n) resB) ≤ 1 / 10 ^ 10 * evQ (grid n) denB := by decide +kernel

theorem grid_seg {u : ℝ} (h0 : 0 ≤ u) (n : ℕ) (h : u ≤ (grid n : ℝ)) (hn : 0 < n) (h1 : 0 ≤ grid 1) :
    ∃ k < n, (grid k : ℝ) ≤ u ∧ u ≤ (grid (k + 1) : ℝ) := by
  induction n with
  | zero => omega
  | succ n ih =>
    rcases le_or_gt u (grid n : ℝ) with g | g
    · rcases Nat.eq_zero_or_pos n with rfl | hp
      · exact ⟨0, by omega, by simpa [grid] using h0, h⟩
      · obtain ⟨k, hk, r⟩ := ih g hp
        exact ⟨k, by omega, r⟩
    · exact ⟨n, by omega, g.le, h⟩

theorem res_bound {u : ℝ} (h0 : 0 ≤ u) (h1 : u ≤ 0.01622) :
    |ev u resA| ≤ 1 / 10 ^ 10 * ev u denA ∧ |ev u resB| ≤ 1 / 10 ^ 10 * ev u denB := by
  have hu : u ≤ (grid 23 : ℝ) := by
    refine le_trans h1 ?_
    have := grid_end
    have h2 : ((0.01622 : ℚ) : ℝ) = 0.01622 := by push_cast; norm_num
    rw [← h2]
    exact_mod_cast this
  obtain ⟨k, hk, ha, hb⟩ := grid_seg h0 23 hu (by norm_num) (by decide +kernel)
  obtain ⟨cA, cB⟩ := grid_check k hk
  have hg0 : ∀ n, 0 ≤ grid n := by
    intro n
    induction n with
    | zero => exact le_rfl
    | succ n ih =>
      have : (0 : ℚ) ≤ (⌊(grid n + 1 / 10000) / 4 * 10 ^ 7⌋ : ℚ) := by
        have : (0 : ℤ) ≤ ⌊(grid n + 1 / 10000) / 4 * 10 ^ 7⌋ := Int.floor_nonneg.2 (by positivity)
        exact_mod_cast this
      rw [grid]
      positivity
  have hgk : (0 : ℝ) ≤ (grid k : ℝ) := by exact_mod_cast hg0 k
  have e : u = (grid k : ℝ) + (u - grid k) := by ring
  have hw : u - (grid k : ℝ) ≤ ((grid (k + 1) - grid k : ℚ) : ℝ) := by push_cast; linarith
  have key : ∀ (p d : List ℚ), bnd (grid (k + 1) - grid k) (shift (grid k) p) ≤ 1 / 10 ^ 10 * evQ (grid k) d →
      (∀ c ∈ d, 0 ≤ c) → |ev u p| ≤ 1 / 10 ^ 10 * ev u d := by
    intro p d hc hd
    have h2 := ev_le_bnd (sub_nonneg.2 ha) hw (shift (grid k) p)
    rw [ev_shift, ← e] at h2
    have h3 : ((bnd (grid (k + 1) - grid k) (shift (grid k) p) : ℚ) : ℝ) ≤ 1 / 10 ^ 10 * ev (grid k : ℝ) d := by
      rw [← evQ_cast]
      have := (Rat.cast_le (K := ℝ)).2 hc
      push_cast at this ⊢
      exact this
    have h4 := ev_mono hgk ha d hd
    have : (0 : ℝ) < 1 / 10 ^ 10 := by positivity
    nlinarith
  exact ⟨key _ _ cA (by decide +kernel), key _ _ cB (by decide +kernel)⟩

theorem Q_pos {u : ℝ} (h0 : 0 ≤ u) : 0 < ev u Q := by
  have e : Q = 1.25443237090011264384E-20 :: Q.tail := by decide +kernel
  rw [e]
  refine lt_of_lt_of_le ?_ (ev_ge_head h0 _ _ (by decide +kernel))
  norm_num

theorem R_pos {u : ℝ} (h0 : 0 ≤ u) : 0 < ev u R := by
  have e : R = 1.86958710162783236342E-22 :: R.tail := by decide +kernel
  rw [e]
  refine lt_of_lt_of_le ?_ (ev_ge_head h0 _ _ (by decide +kernel))
  norm_num

theorem abs_div_le_of {d y e : ℝ} (hd : 0 < d) (h : |y| ≤ e * d) : |y / d| ≤ e := by
  rw [abs_div, abs_of_pos hd, div_le_iff₀ hd]
  exact h

/-- the two auxiliary functions nearly satisfy the differential equations of the exact ones -/
theorem aux_bound {u : ℝ} (h0 : 0 ≤ u) (h1 : u ≤ 0.01622) :
    |-(ev u N / ev u Q) + 3 * (ev u M / ev u R) +
        4 * u * ((ev u (dP M) * ev u R - ev u M * ev u (dP R)) / ev u R ^ 2)| ≤ 1 / 10 ^ 10 ∧
    |ev u M / ev u R - 1 + 5 * u * (ev u N / ev u Q) +
        4 * u ^ 2 * ((ev u (dP N) * ev u Q - ev u N * ev u (dP Q)) / ev u Q ^ 2)| ≤ 1 / 10 ^ 10 := by
  obtain ⟨a, b⟩ := res_bound h0 h1
  have hq := Q_pos h0
  have hr := R_pos h0
  unfold resA denA at a
  unfold resB denB at b
  simp only [ev_add, ev_scale, ev_mul, ev_cons] at a b
  push_cast at a b
  generalize ev u N = n at *
  generalize ev u Q = q at *
  generalize ev u M = m at *
  generalize ev u R = r at *
  generalize ev u (dP N) = n' at *
  generalize ev u (dP Q) = q' at *
  generalize ev u (dP M) = m' at *
  generalize ev u (dP R) = r' at *
  constructor
  · have hd : 0 < q * (r * r) := by positivity
    replace a := abs_div_le_of hd a
    refine le_trans (le_of_eq ?_) a
    congr 1
    field_simp
    ring
  · have hd : 0 < r * (q * q) := by positivity
    replace b := abs_div_le_of hd b
    refine le_trans (le_of_eq ?_) b
    congr 1
    field_simp
    ring

end Bark.Spi
