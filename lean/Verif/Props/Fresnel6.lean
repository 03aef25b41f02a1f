import Verif.Props.Fresnel5

/-! C193: accuracy of the routine for the Fresnel integrals for all arguments. -/
namespace Bark.Spi
open Bark Bark.Ln Bark.PV Spec Real

theorem prod_close {x y a b e : ℝ} (hx : |x - a| ≤ e) (hy : |y - b| ≤ e) (ha : |a| ≤ 3) (hb : |b| ≤ 3) (he : e ≤ 1) :
    |x * y - a * b| ≤ 7 * e := by
  have h : x * y - a * b = (x - a) * (y - b) + (x - a) * b + a * (y - b) := by ring
  have he0 : 0 ≤ e := le_trans (abs_nonneg _) hx
  rw [h]
  refine le_trans (abs_add_le _ _) ?_
  refine le_trans (add_le_add_left (abs_add_le _ _) _) ?_
  rw [abs_mul, abs_mul, abs_mul]
  have h1 : |x - a| * |y - b| ≤ e * e := mul_le_mul hx hy (abs_nonneg _) he0
  have h2 : |x - a| * |b| ≤ e * 3 := mul_le_mul hx hb (abs_nonneg _) he0
  have h3 : |a| * |y - b| ≤ 3 * e := mul_le_mul ha hy (abs_nonneg _) (by norm_num)
  nlinarith

/-- the code's two auxiliary quotients near `u = 1 / (2.5 π)²` -/
theorem quot_check :
    (2.17214543278 : ℚ) * evQ 0.016211389382775 Q ≤ evQ 0.016211389382774 N ∧
    evQ 0.016211389382775 N ≤ 2.17214543279 * evQ 0.016211389382774 Q ∧
    (0.85472917245 : ℚ) * evQ 0.016211389382775 R ≤ evQ 0.016211389382774 M ∧
    evQ 0.016211389382775 M ≤ 0.85472917246 * evQ 0.016211389382774 R := by decide +kernel

theorem taylor_check :
    (0.23916438007 : ℚ) ≤ evQ 6.25 ((List.range 16).map tc) ∧ evQ 6.25 ((List.range 16).map tc) ≤ 0.23916438008 ∧
    (0.16515479456 : ℚ) ≤ evQ 6.25 ((List.range 16).map ts) ∧ evQ 6.25 ((List.range 16).map ts) ≤ 0.16515479457 := by
  decide +kernel

theorem cast_le_iff' {a b : ℚ} (h : a ≤ b) : (a : ℝ) ≤ (b : ℝ) := by exact_mod_cast h

theorem u1_close : 0.016211389382774 ≤ 1 / ((π * 2.5) * (π * 2.5)) ∧ 1 / ((π * 2.5) * (π * 2.5)) ≤ 0.016211389382775 := by
  have h1 := pi_gt_d20
  have h2 := pi_lt_d20
  have hp := pi_pos
  constructor
  · rw [le_div_iff₀ (by positivity)]
    norm_num at *
    nlinarith
  · rw [div_le_iff₀ (by positivity)]
    norm_num at *
    nlinarith

theorem quot_close {u : ℝ} (h1 : 0.016211389382774 ≤ u) (h2 : u ≤ 0.016211389382775) :
    |ev u N / ev u Q - 2.17214543278| ≤ 1 / 10 ^ 11 ∧ |ev u M / ev u R - 0.85472917245| ≤ 1 / 10 ^ 11 := by
  obtain ⟨a, b, c, d⟩ := quot_check
  have h0 : (0 : ℝ) ≤ 0.016211389382774 := by norm_num
  have hu0 : 0 ≤ u := le_trans h0 h1
  have key : ∀ (P D : List ℚ) (lo : ℚ), lo * evQ 0.016211389382775 D ≤ evQ 0.016211389382774 P →
      evQ 0.016211389382775 P ≤ (lo + 1 / 10 ^ 11) * evQ 0.016211389382774 D → 0 ≤ lo → (∀ c ∈ P, 0 ≤ c) → (∀ c ∈ D, 0 ≤ c) →
      0 < ev u D → |ev u P / ev u D - (lo : ℝ)| ≤ 1 / 10 ^ 11 := by
    intro P D lo p q hlo hP hD hpos
    have p' := cast_le_iff' p
    have q' := cast_le_iff' q
    push_cast at p' q'
    rw [evQ_cast, evQ_cast] at p' q'
    have eL : ((0.016211389382774 : ℚ) : ℝ) = 0.016211389382774 := by push_cast; norm_num
    have eR : ((0.016211389382775 : ℚ) : ℝ) = 0.016211389382775 := by push_cast; norm_num
    rw [eL, eR] at p' q'
    have m1 := ev_mono h0 h1 P hP
    have m2 := ev_mono hu0 h2 P hP
    have m3 := ev_mono h0 h1 D hD
    have m4 := ev_mono hu0 h2 D hD
    have hlo' : (0 : ℝ) ≤ (lo : ℝ) := by exact_mod_cast hlo
    rw [abs_le]
    constructor
    · have : (lo : ℝ) ≤ ev u P / ev u D := by
        rw [le_div_iff₀ hpos]
        nlinarith
      have h3 : (0 : ℝ) ≤ 1 / 10 ^ 11 := by positivity
      linarith
    · have : ev u P / ev u D ≤ (lo : ℝ) + 1 / 10 ^ 11 := by
        rw [div_le_iff₀ hpos]
        have : (0 : ℝ) ≤ (lo : ℝ) + 1 / 10 ^ 11 := by positivity
        have := mul_le_mul_of_nonneg_left m3 this
        linarith
      linarith
  constructor
  · have := key N Q 2.17214543278 a (by norm_num at b ⊢; exact b) (by norm_num) (by decide +kernel) (by decide +kernel) (Q_pos hu0)
    push_cast at this
    norm_num at this ⊢
    exact this
  · have := key M R 0.85472917245 c (by norm_num at d ⊢; exact d) (by norm_num) (by decide +kernel) (by decide +kernel) (R_pos hu0)
    push_cast at this
    norm_num at this ⊢
    exact this

theorem anchor_num {w f g S C pc ps x : ℝ} (hw : |w - 0.14235250868| ≤ 1 / 10 ^ 10) (hff : |f - 0.964786504593| ≤ 1 / 10 ^ 10)
    (hgg : |g - 0.10882749824| ≤ 1 / 10 ^ 10) (hxl : (1.58113883008 : ℝ) ≤ x) (hxu : x ≤ 1.58113883009)
    (t1 : 0.23916438007 ≤ pc) (t2 : pc ≤ 0.23916438008) (t3 : 0.16515479456 ≤ ps) (t4 : ps ≤ 0.16515479457)
    (cC : |C - x * pc| ≤ 1 / 10 ^ 12) (cS : |S - x * 2.5 * ps| ≤ 1 / 10 ^ 12) :
    |1 / 2 + w * (g + f) - S| ≤ 5 / 10 ^ 9 ∧ |1 / 2 + w * (g - f) - C| ≤ 5 / 10 ^ 9 := by
  constructor
  · have k1 := prod_close (x := w) (y := g + f) (a := 0.14235250868) (b := 1.073614002833) (e := 2 / 10 ^ 10)
      (by refine le_trans hw ?_; norm_num) (by rw [abs_le] at *; norm_num at *; constructor <;> linarith)
      (by norm_num [abs_le]) (by norm_num [abs_le]) (by norm_num)
    have k2 := prod_close (x := x) (y := ps) (a := 1.58113883008) (b := 0.16515479456) (e := 1 / 10 ^ 11)
      (by rw [abs_le]; norm_num at *; constructor <;> linarith) (by rw [abs_le]; norm_num at *; constructor <;> linarith)
      (by norm_num [abs_le]) (by norm_num [abs_le]) (by norm_num)
    rw [abs_le] at k1 k2 cS ⊢
    clear hw hff hgg hxl hxu t1 t2 t3 t4 cC
    norm_num at *
    constructor <;> linarith
  · have k1 := prod_close (x := w) (y := g - f) (a := 0.14235250868) (b := -0.855959006353) (e := 2 / 10 ^ 10)
      (by refine le_trans hw ?_; norm_num) (by rw [abs_le] at *; norm_num at *; constructor <;> linarith)
      (by norm_num [abs_le]) (by norm_num [abs_le]) (by norm_num)
    have k2 := prod_close (x := x) (y := pc) (a := 1.58113883008) (b := 0.23916438007) (e := 1 / 10 ^ 11)
      (by rw [abs_le]; norm_num at *; constructor <;> linarith) (by rw [abs_le]; norm_num at *; constructor <;> linarith)
      (by norm_num [abs_le]) (by norm_num [abs_le]) (by norm_num)
    rw [abs_le] at k1 k2 cC ⊢
    clear hw hff hgg hxl hxu t1 t2 t3 t4 cS
    norm_num at *
    constructor <;> linarith

theorem anchor : |asymS √2.5 - (exact √2.5).1| ≤ 5 / 10 ^ 9 ∧ |asymC √2.5 - (exact √2.5).2| ≤ 5 / 10 ^ 9 := by
  have hp := pi_pos
  have p1 := pi_gt_d20
  have p2 := pi_lt_d20
  have hx0 : 0 < √(2.5 : ℝ) := Real.sqrt_pos.2 (by norm_num)
  have hxx : √(2.5 : ℝ) * √2.5 = 2.5 := Real.mul_self_sqrt (by norm_num)
  have hx2 : √(2.5 : ℝ) ^ 2 = 2.5 := by rw [sq, hxx]
  have hx4 : √(2.5 : ℝ) ^ 4 = ((6.25 : ℚ) : ℝ) := by
    rw [show √(2.5 : ℝ) ^ 4 = (√2.5 ^ 2) ^ 2 by ring, hx2]; push_cast; norm_num
  have hxl : (1.58113883008 : ℝ) ≤ √2.5 := Real.le_sqrt_of_sq_le (by norm_num)
  have hxu : √(2.5 : ℝ) ≤ 1.58113883009 := Real.sqrt_le_iff.2 ⟨by norm_num, by norm_num⟩
  have hth : π / 2 * √(2.5 : ℝ) ^ 2 = π / 4 + π := by rw [hx2]; ring
  have hc : cos (π / 2 * √(2.5 : ℝ) ^ 2) = -(√2 / 2) := by rw [hth, cos_add_pi, cos_pi_div_four]
  have hs : sin (π / 2 * √(2.5 : ℝ) ^ 2) = -(√2 / 2) := by rw [hth, sin_add_pi, sin_pi_div_four]
  -- √2 / 2 / √2.5 = √0.2
  have hk : √2 / 2 / √(2.5 : ℝ) = √0.2 := by
    rw [div_div, div_eq_iff (by positivity)]
    have h5 : √(0.2 : ℝ) * √2.5 = √2 / 2 := by
      rw [← Real.sqrt_mul (by norm_num), show (0.2 : ℝ) * 2.5 = 2 / 4 by norm_num, Real.sqrt_div (by norm_num),
        show (4 : ℝ) = 2 ^ 2 by norm_num, Real.sqrt_sq (by norm_num)]
    nlinarith
  have hkl : (0.44721359549 : ℝ) ≤ √0.2 := Real.le_sqrt_of_sq_le (by norm_num)
  have hku : √(0.2 : ℝ) ≤ 0.4472135955 := Real.sqrt_le_iff.2 ⟨by norm_num, by norm_num⟩
  have hil : (0.31830988618 : ℝ) ≤ 1 / π := by
    rw [le_div_iff₀ hp]; norm_num at *; linarith
  have hiu : 1 / π ≤ (0.31830988619 : ℝ) := by
    rw [div_le_iff₀ hp]; norm_num at *; linarith
  have hu : uu √2.5 = 1 / ((π * 2.5) * (π * 2.5)) := by unfold uu; rw [hxx]
  obtain ⟨u1, u2⟩ := u1_close
  rw [← hu] at u1 u2
  obtain ⟨qF, qG⟩ := quot_close u1 u2
  have hff : |ff √2.5 - 0.964786504593| ≤ 1 / 10 ^ 10 := by
    unfold ff
    have := prod_close (x := uu √2.5) (y := ev (uu √2.5) N / ev (uu √2.5) Q) (a := 0.016211389382774) (b := 2.17214543278)
      (e := 1 / 10 ^ 11) (by rw [abs_le]; norm_num at *; constructor <;> linarith) qF (by norm_num [abs_le]) (by norm_num [abs_le]) (by norm_num)
    rw [abs_le] at this ⊢
    norm_num at *
    constructor <;> linarith
  have hgg : |gg √2.5 - 0.10882749824| ≤ 1 / 10 ^ 10 := by
    unfold gg
    rw [hxx]
    have h4 : 1 / (π * 2.5) = 1 / π * 0.4 := by field_simp; norm_num
    have := prod_close (x := 1 / (π * 2.5)) (y := ev (uu √2.5) M / ev (uu √2.5) R) (a := 0.127323954473) (b := 0.85472917245)
      (e := 1 / 10 ^ 11) (by rw [h4, abs_le]; norm_num at *; constructor <;> linarith) qG (by norm_num [abs_le]) (by norm_num [abs_le]) (by norm_num)
    rw [abs_le] at this ⊢
    norm_num at *
    constructor <;> linarith
  have hw : |√0.2 * (1 / π) - 0.14235250868| ≤ 1 / 10 ^ 10 := by
    have := prod_close (x := √0.2) (y := 1 / π) (a := 0.4472135955) (b := 0.31830988618) (e := 1 / 10 ^ 11)
      (by rw [abs_le]; norm_num at *; constructor <;> linarith) (by rw [abs_le]; norm_num at *; constructor <;> linarith)
      (by norm_num [abs_le]) (by norm_num [abs_le]) (by norm_num)
    rw [abs_le] at this ⊢
    norm_num at *
    constructor <;> linarith
  obtain ⟨t1, t2, t3, t4⟩ := taylor_check
  have t1 := cast_le_iff' t1
  have t2 := cast_le_iff' t2
  have t3 := cast_le_iff' t3
  have t4 := cast_le_iff' t4
  rw [evQ_cast] at t1 t2 t3 t4
  obtain ⟨cC, cS⟩ := taylor_close hx0.le (x := √2.5) (by norm_num at *; linarith)
  rw [hx4] at cC cS
  rw [hx2] at cS
  have eC : asymC √2.5 = 1 / 2 + √0.2 * (1 / π) * (gg √2.5 - ff √2.5) := by
    unfold asymC
    rw [hc, hs, ← hk]
    field_simp
    ring
  have eS : asymS √2.5 = 1 / 2 + √0.2 * (1 / π) * (gg √2.5 + ff √2.5) := by
    unfold asymS
    rw [hc, hs, ← hk]
    field_simp
    ring
  rw [eC, eS]
  push_cast at t1 t2 t3 t4
  exact anchor_num hw hff hgg hxl hxu (by norm_num at t1 ⊢; exact t1) (by norm_num at t2 ⊢; exact t2) (by norm_num at t3 ⊢; exact t3)
    (by norm_num at t4 ⊢; exact t4) cC cS

end Bark.Spi
