import Verif.Model.SafeDistance
import Verif.Spec.SafeDistance
import Mathlib.Tactic.Ring
import Mathlib.Tactic.Linarith
import Mathlib.Tactic.FieldSimp
import Mathlib.Tactic.NormNum

/-! C44, C83–C85: safe distances. -/
namespace Bark.SafeDist
open Bark SafeDistSpec
set_option linter.unusedSectionVars false

variable {K : Type} [Field K] [LinearOrder K] [IsStrictOrderedRing K]

/-! ### braking, in terms of the stopping time `T = v / b` -/

/-- distance covered, by stopping time -/
def B (b T t : K) : K := b / 2 * (T ^ 2 - (max (T - t) 0) ^ 2)

theorem braking_eq {v b : K} (hb : 0 < b) (t : K) : braking v b t = B b (v / b) t := by
  have hv : v = b * (v / b) := by field_simp
  generalize v / b = T at hv ⊢
  subst hv
  unfold braking B
  have : b * T / b = T := by field_simp
  rw [this]
  by_cases h : t ≤ T
  · rw [if_pos h, max_eq_left (by linarith)]; ring
  · push Not at h
    rw [if_neg (not_le.2 h), max_eq_right (by linarith)]
    field_simp; ring

theorem B_le {b T : K} (hb : 0 < b) (t : K) : B b T t ≤ b / 2 * T ^ 2 := by
  unfold B
  have : 0 ≤ b / 2 * (max (T - t) 0) ^ 2 := by positivity
  nlinarith

theorem B_nonneg {b T t : K} (hb : 0 < b) (hT : 0 ≤ T) (ht : 0 ≤ t) : 0 ≤ B b T t := by
  unfold B
  have h1 : max (T - t) 0 ≤ T := max_le (by linarith) hT
  have h0 : 0 ≤ max (T - t) 0 := le_max_right _ _
  have : (max (T - t) 0) ^ 2 ≤ T ^ 2 := by nlinarith
  have hb2 : 0 < b / 2 := by linarith
  nlinarith

theorem B_mono {b T : K} (hb : 0 < b) {t u : K} (h : t ≤ u) : B b T t ≤ B b T u := by
  unfold B
  have h0 : 0 ≤ max (T - u) 0 := le_max_right _ _
  have h1 : max (T - u) 0 ≤ max (T - t) 0 := max_le_max (by linarith) le_rfl
  have : (max (T - u) 0) ^ 2 ≤ (max (T - t) 0) ^ 2 := by nlinarith
  have hb2 : 0 < b / 2 := by linarith
  nlinarith

theorem B_concave {b T t u : K} (hb : 0 < b) (hT : 0 ≤ T) (ht : 0 ≤ t) (h : t ≤ u) : t * B b T u ≤ u * B b T t := by
  have hb2 : 0 < b / 2 := by linarith
  unfold B
  have key : t * (T ^ 2 - (max (T - u) 0) ^ 2) ≤ u * (T ^ 2 - (max (T - t) 0) ^ 2) := by
    by_cases h1 : u ≤ T
    · rw [max_eq_left (by linarith), max_eq_left (by linarith)]
      nlinarith [mul_nonneg (mul_nonneg ht (le_trans ht h)) (sub_nonneg.2 h)]
    · push Not at h1
      rw [max_eq_right (by linarith : T - u ≤ 0)]
      by_cases h2 : t ≤ T
      · rw [max_eq_left (by linarith)]
        have : 0 ≤ 2 * T * t - t ^ 2 := by nlinarith
        have h3 : T * (2 * T * t - t ^ 2) ≤ u * (2 * T * t - t ^ 2) := mul_le_mul_of_nonneg_right h1.le this
        nlinarith [mul_nonneg (mul_nonneg ht hT) (sub_nonneg.2 h2)]
      · push Not at h2
        rw [max_eq_right (by linarith)]
        nlinarith [sq_nonneg T]
  nlinarith

/-- after `d`, the rest is braking from the remaining stopping time -/
theorem B_split {b T d u : K} (hu : 0 ≤ u) : B b T (d + u) = B b T d + B b (max (T - d) 0) u := by
  unfold B
  have : max (max (T - d) 0 - u) 0 = max (T - (d + u)) 0 := by
    rcases le_total (T - d) 0 with h | h
    · rw [max_eq_right h, max_eq_right (by linarith), max_eq_right (by linarith)]
    · rw [max_eq_left h]; congr 1; ring
  rw [this]; ring

theorem B_zero (b u : K) (hu : 0 ≤ u) : B b 0 u = 0 := by
  unfold B; rw [max_eq_right (by linarith)]; ring

/-- the front (`f`) after the reaction time is never overtaken further than initially or finally, except if it brakes less
hard, is slower, and stops later -/
theorem relative {bf br Tf Tr u : K} (hf : 0 < bf) (hr : 0 < br) (hTf : 0 ≤ Tf) (hTr : 0 ≤ Tr) (hu : 0 ≤ u)
    (good : ¬ (bf < br ∧ bf * Tf < br * Tr ∧ Tr < Tf)) :
    0 ≤ B bf Tf u - B br Tr u ∨ bf / 2 * Tf ^ 2 - br / 2 * Tr ^ 2 ≤ B bf Tf u - B br Tr u := by
  -- `h∞ ≤ h(u)` in terms of the remaining times
  have fin : ∀ {mf mr : K}, mf = max (Tf - u) 0 → mr = max (Tr - u) 0 → bf * mf ^ 2 ≤ br * mr ^ 2 →
      bf / 2 * Tf ^ 2 - br / 2 * Tr ^ 2 ≤ B bf Tf u - B br Tr u := by
    rintro mf mr rfl rfl h; unfold B; linarith
  have h1 : ∀ (h : u ≤ Tr) (h' : u ≤ Tf), B bf Tf u - B br Tr u = u * ((bf * Tf - br * Tr) - (bf - br) * u / 2) := by
    intro h h'; unfold B; rw [max_eq_left (by linarith), max_eq_left (by linarith)]; ring
  -- past the rear's stop: bound by the state at the rear's stop
  have h2 : Tr ≤ u → Tr ≤ Tf → bf / 2 * (2 * Tf * Tr - Tr ^ 2) - br / 2 * Tr ^ 2 ≤ B bf Tf u - B br Tr u := by
    intro h h'
    have e1 : B br Tr u = br / 2 * Tr ^ 2 := by unfold B; rw [max_eq_right (by linarith)]; ring
    have e2 : bf / 2 * (2 * Tf * Tr - Tr ^ 2) = B bf Tf Tr := by unfold B; rw [max_eq_left (by linarith)]; ring
    rw [e1, e2]
    linarith [B_mono (T := Tf) hf h]
  rcases le_or_gt bf br with hb | hb
  · rcases le_or_gt Tf Tr with hT | hT
    · right
      refine fin rfl rfl ?_
      have hm : max (Tf - u) 0 ≤ max (Tr - u) 0 := max_le_max (by linarith) le_rfl
      have h0 : 0 ≤ max (Tf - u) 0 := le_max_right _ _
      have : (max (Tf - u) 0) ^ 2 ≤ (max (Tr - u) 0) ^ 2 := by nlinarith
      nlinarith [sq_nonneg (max (Tr - u) 0)]
    · left
      have hv : br * Tr ≤ bf * Tf := by
        rcases lt_or_eq_of_le hb with hb' | hb'
        · by_contra hc; push Not at hc; exact good ⟨hb', hc, hT⟩
        · subst hb'; nlinarith
      rcases le_total u Tr with hut | hut
      · rw [h1 hut (by linarith)]
        refine mul_nonneg hu ?_
        nlinarith
      · refine le_trans ?_ (h2 hut hT.le)
        nlinarith [mul_nonneg hTr (sub_nonneg.2 hv), mul_nonneg (sq_nonneg Tr) (sub_nonneg.2 hb)]
  · rcases le_or_gt Tr Tf with hT | hT
    · left
      rcases le_total u Tr with hut | hut
      · rw [h1 hut (by linarith)]
        refine mul_nonneg hu ?_
        have : (bf - br) * u ≤ (bf - br) * Tr := mul_le_mul_of_nonneg_left hut (by linarith)
        nlinarith [mul_nonneg hf.le (sub_nonneg.2 hT), mul_nonneg (sub_pos.2 hb).le hu]
      · refine le_trans ?_ (h2 hut hT)
        have a1 : bf * (Tr * Tr) ≤ bf * (Tf * Tr) := mul_le_mul_of_nonneg_left (mul_le_mul_of_nonneg_right hT hTr) hf.le
        nlinarith [mul_nonneg (sq_nonneg Tr) (sub_pos.2 hb).le]
    · rcases le_or_gt Tf u with hut | hut
      · right
        refine fin rfl rfl ?_
        rw [max_eq_right (by linarith : Tf - u ≤ 0)]
        have : 0 ≤ br * (max (Tr - u) 0) ^ 2 := by positivity
        linarith
      · by_cases hc : 0 ≤ (bf * Tf - br * Tr) - (bf - br) * u / 2
        · left; rw [h1 (by linarith) hut.le]; exact mul_nonneg hu hc
        · right
          push Not at hc
          refine fin rfl rfl ?_
          rw [max_eq_left (by linarith), max_eq_left (by linarith)]
          have p1 : bf * (Tf - u) ≤ br * (Tr - u) := by nlinarith [mul_nonneg (sub_pos.2 hb).le hu]
          have p2 : bf * (Tf - u) * (Tf - u) ≤ br * (Tr - u) * (Tf - u) :=
            mul_le_mul_of_nonneg_right p1 (by linarith)
          have p3 : br * (Tr - u) * (Tf - u) ≤ br * (Tr - u) * (Tr - u) :=
            mul_le_mul_of_nonneg_left (by linarith) (mul_nonneg hr.le (by linarith))
          nlinarith

/-- if it is the front's final lead that helps, the front is at least as fast -/
theorem faster {bf br Tf Tr : K} (hf : 0 < bf) (hr : 0 < br) (hTf : 0 ≤ Tf) (hTr : 0 ≤ Tr)
    (good : ¬ (bf < br ∧ bf * Tf < br * Tr ∧ Tr < Tf)) (h : br * Tr ^ 2 < bf * Tf ^ 2) : br * Tr ≤ bf * Tf := by
  by_contra hc
  push Not at hc
  rcases lt_or_ge bf br with hb | hb
  · have hT : Tf ≤ Tr := by by_contra hT; push Not at hT; exact good ⟨hb, hc, hT⟩
    have : Tf ^ 2 ≤ Tr ^ 2 := by nlinarith
    nlinarith [sq_nonneg Tr]
  · have p0 : 0 ≤ bf * Tf := mul_nonneg hf.le hTf
    have p1 : bf * Tf * (bf * Tf) ≤ br * Tr * (br * Tr) := by nlinarith
    have p2 : br * (br * Tr ^ 2) ≤ bf * (br * Tr ^ 2) := mul_le_mul_of_nonneg_right hb (by positivity)
    have p3 : bf * (br * Tr ^ 2) < bf * (bf * Tf ^ 2) := mul_lt_mul_of_pos_left h hf
    nlinarith

/-- positive gaps at the start and from the reaction time on give positive gaps throughout -/
theorem never_of {v_f v_r dist b_r b_f delta : K} (hf : 0 < b_f) (hr : 0 < b_r) (hvf : 0 ≤ v_f)
    (hd : 0 ≤ delta) (h0 : 0 < dist)
    (h : ∀ u, 0 ≤ u → v_r * delta + B b_r (v_r / b_r) u < dist + B b_f (v_f / b_f) (delta + u)) (hvr : 0 ≤ v_r) :
    NeverTouch v_f v_r dist b_r b_f delta := by
  intro t ht
  unfold reacting
  rw [braking_eq hf]
  by_cases htd : t ≤ delta
  · rw [if_pos htd]
    have hg := h 0 le_rfl
    rw [add_zero] at hg
    have hz : 0 ≤ B b_r (v_r / b_r) 0 := B_nonneg hr (div_nonneg hvr hr.le) le_rfl
    have hcc := B_concave (b := b_f) (T := v_f / b_f) hf (div_nonneg hvf hf.le) ht htd
    rcases eq_or_lt_of_le hd with hd0 | hd0
    · have : t = 0 := le_antisymm (by rw [hd0]; exact htd) ht
      subst this
      have := B_nonneg (T := v_f / b_f) (t := 0) hf (div_nonneg hvf hf.le) le_rfl
      linarith
    · by_contra hc
      push Not at hc
      have c1 : delta * (dist + B b_f (v_f / b_f) t) ≤ delta * (v_r * t) := mul_le_mul_of_nonneg_left hc hd
      have c2 : t * (v_r * delta) ≤ t * (dist + B b_f (v_f / b_f) delta) :=
        mul_le_mul_of_nonneg_left (by linarith) ht
      rcases eq_or_lt_of_le htd with e | e
      · subst e; linarith
      · nlinarith [mul_pos (sub_pos.2 e) h0]
  · push Not at htd
    rw [if_neg (not_le.2 htd), braking_eq hr]
    have := h (t - delta) (by linarith)
    rwa [add_sub_cancel] at this

theorem zeroToPositive_lt {x d : K} : d > zeroToPositive x ↔ x < d ∧ 0 < d := by
  unfold zeroToPositive
  by_cases h : x < 0
  · rw [if_pos h]; exact ⟨fun h' => ⟨lt_trans h h', h'⟩, fun h' => h'.2⟩
  · rw [if_neg h]; push Not at h; exact ⟨fun h' => ⟨h', lt_of_le_of_lt h h'⟩, fun h' => h'.1⟩

/-- the third branch of the check is dead: its condition on the stopping times contradicts the one on the speeds -/
theorem branch2_dead {v_f v_r a_r a_f delta : K} (hr : a_r < 0) :
    ¬ (velFrontStar v_f a_f delta < v_r ∧ -v_r / a_r < -(velFrontStar v_f a_f delta) / a_r) := by
  rintro ⟨h1, h2⟩
  rw [div_lt_div_right_of_neg hr] at h2
  linarith

/-- acceptance in plain terms -/
theorem checkLon_iff {v_f v_r dist a_r a_f delta : K} (hr : a_r < 0) (hf : a_f < 0) (hd : 0 ≤ dist) :
    checkLon v_f v_r dist a_r a_f delta = true ↔ 0 < dist ∧
      (v_r * delta - v_r ^ 2 / (2 * a_r) < dist ∨
       (delta ≤ -v_f / a_f ∧ v_r * delta - v_r ^ 2 / (2 * a_r) - v_f * delta - a_f * delta ^ 2 / 2 < dist) ∨
       v_r * delta - v_r ^ 2 / (2 * a_r) + v_f ^ 2 / (2 * a_f) < dist) := by
  unfold checkLon
  rw [if_neg (not_lt.2 hd)]
  simp only [zeroToPositive_lt, safeDist0, safeDist1, safeDist3]
  by_cases h1 : (v_r * delta - v_r ^ 2 / (2 * a_r) < dist ∧ 0 < dist) ∨ (delta ≤ -v_f / a_f ∧
      v_r * delta - v_r ^ 2 / (2 * a_r) - v_f * delta - a_f * delta ^ 2 / 2 < dist ∧ 0 < dist)
  · rw [if_pos h1]
    simp only [true_iff]
    rcases h1 with ⟨a, b⟩ | ⟨a, b, c⟩
    · exact ⟨b, Or.inl a⟩
    · exact ⟨c, Or.inr (Or.inl ⟨a, b⟩)⟩
  · rw [if_neg h1, if_neg (fun h => branch2_dead hr h.2.2), decide_eq_true_eq]
    constructor
    · rintro ⟨a, b⟩; exact ⟨b, Or.inr (Or.inr a)⟩
    · rintro ⟨a, b | ⟨b, c⟩ | b⟩
      · exact absurd (Or.inl ⟨b, a⟩) h1
      · exact absurd (Or.inr ⟨b, c, a⟩) h1
      · exact ⟨b, a⟩

/-- **C44** (soundness): let the gap be nonnegative and both vehicles drive forward.  If the check accepts, then with the front
braking at `a_f` at once and the rear braking at `a_r` after the reaction time, the vehicles never touch — unless the front
brakes less hard than the rear, is slower after the reaction time, and still stops later.  In that case acceptance may be
wrong: `C44_violated`. -/
theorem C44_sound {v_f v_r dist a_r a_f delta : K} (hr : a_r < 0) (hf : a_f < 0) (hvf : 0 ≤ v_f) (hvr : 0 ≤ v_r)
    (hdel : 0 ≤ delta) (hd : 0 ≤ dist)
    (good : ¬ (a_r < a_f ∧ max (v_f + a_f * delta) 0 < v_r ∧ v_r / (-a_r) < max (v_f + a_f * delta) 0 / (-a_f)))
    (h : checkLon v_f v_r dist a_r a_f delta = true) : NeverTouch v_f v_r dist (-a_r) (-a_f) delta := by
  rw [checkLon_iff hr hf hd] at h
  obtain ⟨h0, h⟩ := h
  have hbf : 0 < -a_f := by linarith
  have hbr : 0 < -a_r := by linarith
  generalize hef : -a_f = bf at *
  generalize her : -a_r = br at *
  have hTf : 0 ≤ v_f / bf := div_nonneg hvf hbf.le
  have hTr : 0 ≤ v_r / br := div_nonneg hvr hbr.le
  have evf : v_f = bf * (v_f / bf) := by field_simp
  have evr : v_r = br * (v_r / br) := by field_simp
  have haf : a_f = -bf := by linarith
  have har : a_r = -br := by linarith
  have sr : v_r ^ 2 / (2 * a_r) = -(br / 2 * (v_r / br) ^ 2) := by rw [har]; field_simp
  have sf : v_f ^ 2 / (2 * a_f) = -(bf / 2 * (v_f / bf) ^ 2) := by rw [haf]; field_simp
  have tf : -v_f / a_f = v_f / bf := by rw [haf]; field_simp
  rw [sr, sf, tf] at h
  refine never_of hbf hbr hvf hdel h0 ?_ hvr
  intro u hu
  rw [B_split hu]
  have hBr := B_le (T := v_r / br) hbr u
  have hBf := B_nonneg (T := v_f / bf) (t := delta) hbf hTf hdel
  have hBf2 := B_nonneg (T := max (v_f / bf - delta) 0) (t := u) hbf (le_max_right _ _) hu
  rcases h with h | ⟨h1, h2⟩ | h
  · linarith
  · have : B bf (v_f / bf) delta = v_f * delta + a_f * delta ^ 2 / 2 := by
      unfold B; rw [max_eq_left (by linarith), haf]
      field_simp; ring
    linarith
  · generalize hTs : max (v_f / bf - delta) 0 = Ts at *
    have hTs0 : 0 ≤ Ts := hTs ▸ le_max_right _ _
    have vs : max (v_f + a_f * delta) 0 = bf * Ts := by
      rw [← hTs, mul_max_of_nonneg _ _ hbf.le, mul_zero, haf]
      congr 1; field_simp; ring
    have good' : ¬ (bf < br ∧ bf * Ts < br * (v_r / br) ∧ v_r / br < Ts) := by
      rintro ⟨g1, g2, g3⟩
      refine good ⟨by linarith, ?_, ?_⟩
      · rw [vs]; linarith
      · rw [vs]
        rwa [mul_div_cancel_left₀ _ (ne_of_gt hbf)]
    have total : B bf (v_f / bf) delta + bf / 2 * Ts ^ 2 = bf / 2 * (v_f / bf) ^ 2 := by
      unfold B; rw [hTs]; ring
    rcases relative hbf hbr hTs0 hTr hu good' with hh | hh
    · -- the gap never shrinks below the one at the reaction time
      rcases le_or_gt (bf * Ts ^ 2) (br * (v_r / br) ^ 2) with hc | hc
      · linarith
      · have hfast := faster hbf hbr hTs0 hTr good' hc
        have hpos : 0 < Ts := by
          rcases eq_or_lt_of_le hTs0 with e | e
          · rw [← e] at hc
            have : 0 ≤ br * (v_r / br) ^ 2 := by positivity
            have e0 : bf * (0 : K) ^ 2 = 0 := by ring
            linarith
          · exact e
        have hTd : v_f / bf - delta = Ts := by
          rcases le_total (v_f / bf - delta) 0 with e | e
          · rw [max_eq_right e] at hTs; linarith
          · rw [max_eq_left e] at hTs; exact hTs
        have hBd : B bf (v_f / bf) delta = bf * Ts * delta + bf / 2 * delta ^ 2 := by
          unfold B; rw [hTd, max_eq_left hTs0]
          have : v_f / bf = Ts + delta := by linarith
          rw [this]; ring
        have h3 : v_r * delta ≤ bf * Ts * delta := mul_le_mul_of_nonneg_right (by linarith) hdel
        have h4 : 0 ≤ bf / 2 * delta ^ 2 := by positivity
        linarith
    · linarith

/-- **C44** (front brakes at least as hard): the plain case. -/
theorem C44_sound_hard_front {v_f v_r dist a_r a_f delta : K} (hr : a_r < 0) (hf : a_f ≤ a_r) (hvf : 0 ≤ v_f)
    (hvr : 0 ≤ v_r) (hdel : 0 ≤ delta) (hd : 0 ≤ dist) (h : checkLon v_f v_r dist a_r a_f delta = true) :
    NeverTouch v_f v_r dist (-a_r) (-a_f) delta :=
  C44_sound hr (lt_of_le_of_lt hf hr) hvf hvr hdel hd (fun g => absurd g.1 (not_lt.2 hf)) h

/-- **C44** (no false alarms): if the check rejects, the vehicles do touch if both brake like that. -/
theorem C44_complete {v_f v_r dist a_r a_f delta : K} (hr : a_r < 0) (hf : a_f < 0) (hvf : 0 ≤ v_f) (hvr : 0 ≤ v_r)
    (hdel : 0 ≤ delta) (h : checkLon v_f v_r dist a_r a_f delta = false) :
    ¬ NeverTouch v_f v_r dist (-a_r) (-a_f) delta := by
  have hd : 0 ≤ dist := by
    by_contra hc
    push Not at hc
    unfold checkLon at h
    rw [if_pos hc] at h
    cases h
  have hbf : 0 < -a_f := by linarith
  have hbr : 0 < -a_r := by linarith
  have h' : ¬ checkLon v_f v_r dist a_r a_f delta = true := by simp [h]
  rw [checkLon_iff hr hf hd] at h'
  intro hn
  rcases eq_or_lt_of_le hd with e | e
  · have := hn 0 le_rfl
    unfold reacting at this
    rw [if_pos hdel, braking_eq hbf, ← e] at this
    unfold B at this
    rw [max_eq_left (by rw [sub_zero]; exact div_nonneg hvf hbf.le)] at this
    simp at this
  · have h3 : dist ≤ v_r * delta - v_r ^ 2 / (2 * a_r) + v_f ^ 2 / (2 * a_f) := by
      by_contra hc
      push Not at hc
      exact h' ⟨e, Or.inr (Or.inr hc)⟩
    -- a time at which both stand
    have hT1 : 0 ≤ v_f / -a_f := div_nonneg hvf hbf.le
    have hT2 : 0 ≤ v_r / -a_r := div_nonneg hvr hbr.le
    have := hn (delta + 1 + v_f / -a_f + v_r / -a_r) (by linarith)
    unfold reacting braking at this
    rw [if_neg (by linarith), if_neg (by linarith), if_neg (by linarith)] at this
    have e1 : v_r ^ 2 / (2 * -a_r) = -(v_r ^ 2 / (2 * a_r)) := by rw [mul_neg, div_neg]
    have e2 : v_f ^ 2 / (2 * -a_f) = -(v_f ^ 2 / (2 * a_f)) := by rw [mul_neg, div_neg]
    rw [e1, e2] at this
    linarith

/-- **C44 is violated**: front at 10 m/s braking with 2 m/s², rear at 20 m/s braking with 8 m/s², gap 1 m, no reaction
time: the check accepts although the rear runs into the front (after one second it is at 16, the front at 10). -/
theorem C44_violated : checkLon (10 : ℚ) 20 1 (-8) (-2) 0 = true ∧ ¬ NeverTouch (10 : ℚ) 20 1 8 2 0 := by
  refine ⟨by decide +kernel, fun h => ?_⟩
  have := h 1 (by norm_num)
  revert this
  unfold reacting braking
  norm_num

/-- **C44 is violated** (gap): a negative gap is always accepted. -/
theorem C44_negative_gap_violated (v_f v_r dist a_r a_f delta : K) (h : dist < 0) (hf : a_f < 0) (hvf : 0 ≤ v_f)
    (hdel : 0 ≤ delta) :
    checkLon v_f v_r dist a_r a_f delta = true ∧ ¬ NeverTouch v_f v_r dist (-a_r) (-a_f) delta := by
  refine ⟨by unfold checkLon; rw [if_pos h], fun hn => ?_⟩
  have := hn 0 le_rfl
  have hbf : 0 < -a_f := by linarith
  unfold reacting at this
  rw [if_pos hdel, braking_eq hbf] at this
  unfold B at this
  rw [max_eq_left (by rw [sub_zero]; exact div_nonneg hvf hbf.le)] at this
  simp at this
  linarith

/-- hypotheses of `C44_sound` are met by a real situation -/
example : checkLon (20 : ℚ) 15 10 (-5) (-6) 1 = true ∧
    ¬ ((-5 : ℚ) < -6 ∧ max (20 + -6 * 1) 0 < (15 : ℚ) ∧ (15 : ℚ) / (- -5) < max (20 + -6 * 1) 0 / (- -6)) := by
  constructor
  · decide +kernel
  · norm_num

/-! ### C84: the lateral check -/

theorem reacting_bounds {v b delta t : K} (hb : 0 < b) (hv : 0 ≤ v) (hd : 0 ≤ delta) (ht : 0 ≤ t) :
    v * min t delta ≤ reacting v b delta t ∧ reacting v b delta t ≤ v * min t delta + v ^ 2 / (2 * b) := by
  have hs : 0 ≤ v ^ 2 / (2 * b) := by positivity
  unfold reacting
  by_cases h : t ≤ delta
  · rw [if_pos h, min_eq_left h]; constructor <;> linarith
  · push Not at h
    rw [if_neg (not_le.2 h), min_eq_right h.le, braking_eq hb]
    have e : b / 2 * (v / b) ^ 2 = v ^ 2 / (2 * b) := by field_simp
    constructor
    · linarith [B_nonneg (T := v / b) (t := t - delta) hb (div_nonneg hv hb.le) (by linarith)]
    · linarith [B_le (T := v / b) hb (t - delta), e]

theorem reacting_zero {b delta t : K} (hb : 0 < b) (hd : 0 ≤ delta) (ht : 0 ≤ t) : reacting 0 b delta t = 0 := by
  obtain ⟨h1, h2⟩ := reacting_bounds (v := (0 : K)) hb le_rfl hd ht
  refine le_antisymm ?_ ?_
  · simpa using h2
  · simpa using h1

theorem brakeTerm_eq (v a : K) : brakeTerm v a = v ^ 2 / (2 * a) := by
  unfold brakeTerm
  by_cases h : v = 0
  · rw [if_pos h, h]; simp
  · rw [if_neg h]; ring

/-- a vehicle deviates from keeping its velocity during the reaction time by at most its braking distance, in the direction
of its velocity -/
theorem lateral_bounds {v b delta t : K} (hb : 0 < b) (hd : 0 ≤ delta) (ht : 0 ≤ t) :
    v * min t delta - v ^ 2 / (2 * b) ≤ lateral v b delta t ∧ lateral v b delta t ≤ v * min t delta + v ^ 2 / (2 * b) ∧
    (0 ≤ v → v * min t delta ≤ lateral v b delta t) ∧ (v ≤ 0 → lateral v b delta t ≤ v * min t delta) := by
  have hs : 0 ≤ v ^ 2 / (2 * b) := by positivity
  unfold lateral
  by_cases h : 0 ≤ v
  · rw [if_pos h]
    obtain ⟨h1, h2⟩ := reacting_bounds hb h hd ht
    refine ⟨by linarith, h2, fun _ => h1, fun h' => ?_⟩
    have : v = 0 := le_antisymm h' h
    subst this
    rw [reacting_zero hb hd ht]; simp
  · rw [if_neg h]
    push Not at h
    obtain ⟨h1, h2⟩ := reacting_bounds (v := -v) hb (by linarith) hd ht
    have e : (-v) ^ 2 = v ^ 2 := by ring
    rw [e] at h2
    refine ⟨by linarith, by linarith, fun h' => absurd h (not_lt.2 h'), fun _ => by linarith⟩

/-- the two vehicles keep their lateral order -/
def KeepApart (v1 v2 dist b1 b2 delta1 delta2 : K) : Prop :=
  ∀ t, 0 ≤ t → (0 < dist → lateral v1 b1 delta1 t < dist + lateral v2 b2 delta2 t) ∧
    (dist < 0 → dist + lateral v2 b2 delta2 t < lateral v1 b1 delta1 t) ∧ dist ≠ 0

theorem min_bounds {t d : K} (ht : 0 ≤ t) (hd : 0 ≤ d) : 0 ≤ min t d ∧ min t d ≤ d := ⟨le_min ht hd, min_le_right _ _⟩

/-- moving apart: nothing can happen -/
theorem apart_of_diverging {v1 v2 dist b1 b2 delta1 delta2 : K} (hb1 : 0 < b1) (hb2 : 0 < b2) (hd1 : 0 ≤ delta1)
    (hd2 : 0 ≤ delta2) (h : (0 ≤ v1 ∧ v2 ≤ 0 ∧ dist < 0) ∨ (v1 ≤ 0 ∧ 0 ≤ v2 ∧ 0 < dist)) :
    KeepApart v1 v2 dist b1 b2 delta1 delta2 := by
  intro t ht
  obtain ⟨_, _, p1, p2⟩ := lateral_bounds (v := v1) hb1 hd1 ht
  obtain ⟨_, _, q1, q2⟩ := lateral_bounds (v := v2) hb2 hd2 ht
  obtain ⟨m1, _⟩ := min_bounds ht hd1
  obtain ⟨m2, _⟩ := min_bounds ht hd2
  rcases h with ⟨h1, h2, h3⟩ | ⟨h1, h2, h3⟩
  · refine ⟨fun h => absurd h (not_lt.2 h3.le), fun _ => ?_, ne_of_lt h3⟩
    have := p1 h1
    have := q2 h2
    nlinarith
  · refine ⟨fun _ => ?_, fun h => absurd h (not_lt.2 h3.le), ne_of_gt h3⟩
    have := p2 h1
    have := q1 h2
    nlinarith

/-- acceptance in plain terms -/
theorem lateralCases_iff (v1 v2 dist a1 a2 delta1 delta2 : K) :
    lateralCases v1 v2 dist a1 a2 delta1 delta2 = true ↔ dist ≠ 0 ∧
      ((0 ≤ v1 ∧ v2 ≤ 0 ∧ dist < 0) ∨ (v1 ≤ 0 ∧ 0 ≤ v2 ∧ 0 < dist) ∨
       (v1 < v2 ∧ v2 * delta2 + v2 ^ 2 / (2 * a2) - v1 * delta1 + v1 ^ 2 / (2 * a1) < |dist|) ∨
       (v2 ≤ v1 ∧ v1 * delta1 + v1 ^ 2 / (2 * a1) - v2 * delta2 + v2 ^ 2 / (2 * a2) < |dist|)) := by
  unfold lateralCases checkLat
  simp only [brakeTerm_eq]
  by_cases h0 : dist = 0
  · rw [if_pos h0]; simp [h0]
  rw [if_neg h0]
  by_cases h1 : 0 ≤ v1 ∧ v2 ≤ 0 ∧ dist < 0
  · rw [if_pos h1]; exact ⟨fun _ => ⟨h0, Or.inl h1⟩, fun _ => rfl⟩
  rw [if_neg h1]
  by_cases h2 : v1 ≤ 0 ∧ 0 ≤ v2 ∧ 0 < dist
  · rw [if_pos h2]; exact ⟨fun _ => ⟨h0, Or.inr (Or.inl h2)⟩, fun _ => rfl⟩
  rw [if_neg h2]
  by_cases h3 : v1 < v2
  · rw [if_pos h3, decide_eq_true_eq]
    constructor
    · intro h; exact ⟨h0, Or.inr (Or.inr (Or.inl ⟨h3, by linarith⟩))⟩
    · rintro ⟨_, h | h | h | h⟩
      · exact absurd h h1
      · exact absurd h h2
      · have := h.2; show _ < |dist|; linarith
      · exact absurd h.1 (not_le.2 h3)
  · rw [if_neg h3, decide_eq_true_eq]
    constructor
    · intro h; exact ⟨h0, Or.inr (Or.inr (Or.inr ⟨not_lt.1 h3, by linarith⟩))⟩
    · rintro ⟨_, h | h | h | h⟩
      · exact absurd h h1
      · exact absurd h h2
      · exact absurd h.1 h3
      · have := h.2; show _ < |dist|; linarith

/-- **C84** (equal reaction times): if the lateral check accepts, the vehicles — each keeping its lateral velocity for the
reaction time and then bringing it to zero — keep their lateral order at all times.  With different reaction times this is
violated for motion in the same direction: `C84_violated`. -/
theorem C84_equal_reaction_partial {v1 v2 dist a1 a2 delta : K} (ha1 : 0 < a1) (ha2 : 0 < a2) (hd : 0 ≤ delta)
    (h : lateralCases v1 v2 dist a1 a2 delta delta = true) : KeepApart v1 v2 dist a1 a2 delta delta := by
  rw [lateralCases_iff] at h
  obtain ⟨h0, h⟩ := h
  have key : |v1 - v2| * delta + v1 ^ 2 / (2 * a1) + v2 ^ 2 / (2 * a2) < |dist| →
      KeepApart v1 v2 dist a1 a2 delta delta := by
    intro hk t ht
    obtain ⟨p1, p2, _⟩ := lateral_bounds (v := v1) ha1 hd ht
    obtain ⟨q1, q2, _⟩ := lateral_bounds (v := v2) ha2 hd ht
    obtain ⟨m1, m2⟩ := min_bounds ht hd
    have e1 : (v1 - v2) * min t delta ≤ |v1 - v2| * delta :=
      le_trans (mul_le_mul_of_nonneg_right (le_abs_self _) m1) (mul_le_mul_of_nonneg_left m2 (abs_nonneg _))
    have e2 : -(v1 - v2) * min t delta ≤ |v1 - v2| * delta :=
      le_trans (mul_le_mul_of_nonneg_right (neg_le_abs _) m1) (mul_le_mul_of_nonneg_left m2 (abs_nonneg _))
    refine ⟨fun hp => ?_, fun hp => ?_, h0⟩
    · rw [abs_of_pos hp] at hk; nlinarith
    · rw [abs_of_neg hp] at hk; nlinarith
  rcases h with h | h | ⟨h1, h2⟩ | ⟨h1, h2⟩
  · exact apart_of_diverging ha1 ha2 hd hd (Or.inl h)
  · exact apart_of_diverging ha1 ha2 hd hd (Or.inr h)
  · refine key ?_
    rw [abs_of_neg (by linarith)]; linarith
  · refine key ?_
    rw [abs_of_nonneg (by linarith)]; linarith

theorem lateral_final {v b delta : K} (hb : 0 < b) (hd : 0 ≤ delta) {t : K} (ht : delta + 1 + |v| / b ≤ t) :
    lateral v b delta t = if 0 ≤ v then v * delta + v ^ 2 / (2 * b) else v * delta - v ^ 2 / (2 * b) := by
  have hp : 0 ≤ |v| / b := div_nonneg (abs_nonneg _) hb.le
  unfold lateral reacting braking
  by_cases h : 0 ≤ v
  · rw [abs_of_nonneg h] at ht hp
    rw [if_pos h, if_pos h, if_neg (by linarith), if_neg (by linarith)]
  · push Not at h
    rw [abs_of_neg h] at ht hp
    rw [if_neg (not_le.2 h), if_neg (not_le.2 h), if_neg (by linarith), if_neg (by linarith)]
    ring

/-- **C84** (opposite directions): if one vehicle does not move to the left and the other not to the right, the lateral check
accepts exactly if they keep their lateral order, for any reaction times. -/
theorem C84_opposite {v1 v2 dist a1 a2 delta1 delta2 : K} (ha1 : 0 < a1) (ha2 : 0 < a2) (hd1 : 0 ≤ delta1)
    (hd2 : 0 ≤ delta2) (hv : (0 ≤ v1 ∧ v2 ≤ 0) ∨ (v1 ≤ 0 ∧ 0 ≤ v2)) :
    lateralCases v1 v2 dist a1 a2 delta1 delta2 = true ↔ KeepApart v1 v2 dist a1 a2 delta1 delta2 := by
  rw [lateralCases_iff]
  have s1 : 0 ≤ v1 ^ 2 / (2 * a1) := by positivity
  have s2 : 0 ≤ v2 ^ 2 / (2 * a2) := by positivity
  constructor
  · rintro ⟨h0, h⟩
    rcases h with h | h | ⟨h1, h2⟩ | ⟨h1, h2⟩
    · exact apart_of_diverging ha1 ha2 hd1 hd2 (Or.inl h)
    · exact apart_of_diverging ha1 ha2 hd1 hd2 (Or.inr h)
    · -- `v1 ≤ 0 ≤ v2`
      have hv' : v1 ≤ 0 ∧ 0 ≤ v2 := by
        rcases hv with ⟨a, b⟩ | h
        · exact absurd (lt_of_lt_of_le h1 (le_trans b a)) (lt_irrefl _)
        · exact h
      rcases lt_or_gt_of_ne h0 with hn | hp
      · intro t ht
        obtain ⟨p1, p2, _, p4⟩ := lateral_bounds (v := v1) ha1 hd1 ht
        obtain ⟨q1, q2, q3, _⟩ := lateral_bounds (v := v2) ha2 hd2 ht
        obtain ⟨m1, m2⟩ := min_bounds ht hd1
        obtain ⟨m3, m4⟩ := min_bounds ht hd2
        have k1 : v1 * delta1 ≤ v1 * min t delta1 := mul_le_mul_of_nonpos_left m2 hv'.1
        have k2 : v2 * min t delta2 ≤ v2 * delta2 := mul_le_mul_of_nonneg_left m4 hv'.2
        rw [abs_of_neg hn] at h2
        exact ⟨fun h => absurd h (not_lt.2 hn.le), fun _ => by linarith, h0⟩
      · exact apart_of_diverging ha1 ha2 hd1 hd2 (Or.inr ⟨hv'.1, hv'.2, hp⟩)
    · -- `v2 ≤ 0 ≤ v1`
      have hv' : 0 ≤ v1 ∧ v2 ≤ 0 := by
        rcases hv with h | ⟨a, b⟩
        · exact h
        · exact ⟨le_trans b h1, le_trans h1 a⟩
      rcases lt_or_gt_of_ne h0 with hn | hp
      · exact apart_of_diverging ha1 ha2 hd1 hd2 (Or.inl ⟨hv'.1, hv'.2, hn⟩)
      · intro t ht
        obtain ⟨p1, p2, _, p4⟩ := lateral_bounds (v := v1) ha1 hd1 ht
        obtain ⟨q1, q2, q3, _⟩ := lateral_bounds (v := v2) ha2 hd2 ht
        obtain ⟨m1, m2⟩ := min_bounds ht hd1
        obtain ⟨m3, m4⟩ := min_bounds ht hd2
        have k1 : v1 * min t delta1 ≤ v1 * delta1 := mul_le_mul_of_nonneg_left m2 hv'.1
        have k2 : v2 * delta2 ≤ v2 * min t delta2 := mul_le_mul_of_nonpos_left m4 hv'.2
        rw [abs_of_pos hp] at h2
        exact ⟨fun _ => by linarith, fun h => absurd h (not_lt.2 hp.le), h0⟩
  · intro hk
    have h0 : dist ≠ 0 := (hk 0 le_rfl).2.2
    refine ⟨h0, ?_⟩
    have hT : 0 ≤ delta1 + 1 + |v1| / a1 + (delta2 + 1 + |v2| / a2) := by positivity
    have b1 : 0 ≤ |v1| / a1 := by positivity
    have b2 : 0 ≤ |v2| / a2 := by positivity
    obtain ⟨k1, k2, _⟩ := hk _ hT
    rw [lateral_final ha1 hd1 (by linarith), lateral_final ha2 hd2 (by linarith)] at k1 k2
    rcases hv with ⟨a, b⟩ | ⟨a, b⟩
    · rcases lt_or_gt_of_ne h0 with hn | hp
      · exact Or.inl ⟨a, b, hn⟩
      · right; right; right
        refine ⟨le_trans b a, ?_⟩
        have := k1 hp
        rw [if_pos a] at this
        rw [abs_of_pos hp]
        by_cases hz : 0 ≤ v2
        · have : v2 = 0 := le_antisymm b hz
          subst this
          simp at *; linarith
        · rw [if_neg hz] at this; linarith
    · rcases lt_or_gt_of_ne h0 with hn | hp
      · rcases eq_or_lt_of_le (le_trans a b) with e | e
        · have e1 : v1 = 0 := le_antisymm a (e ▸ b)
          have e2 : v2 = 0 := e ▸ e1
          exact Or.inl ⟨e1.ge, e2.le, hn⟩
        · right; right; left
          refine ⟨e, ?_⟩
          have := k2 hn
          rw [if_pos b] at this
          rw [abs_of_neg hn]
          by_cases hz : 0 ≤ v1
          · have e1 : v1 = 0 := le_antisymm a hz
            subst e1
            simp at *; linarith
          · rw [if_neg hz] at this; linarith
      · exact Or.inr (Or.inl ⟨a, b, hp⟩)

/-- **C84 is violated**: with the default reaction times (other vehicle 0.8 s, ego 0.2 s), an ego moving left at 2 m/s 5 cm to
the right of another vehicle moving left at 1 m/s is accepted, although after 0.2 s the ego has passed through it. -/
theorem C84_violated : lateralCases (1 : ℚ) 2 (-1 / 20) 10 10 (4 / 5) (1 / 5) = true ∧
    ¬ KeepApart (1 : ℚ) 2 (-1 / 20) 10 10 (4 / 5) (1 / 5) := by
  refine ⟨by decide +kernel, fun h => ?_⟩
  have := (h (1 / 5) (by norm_num)).2.1 (by norm_num)
  revert this
  unfold lateral reacting
  norm_num

/-- **C84 is violated** (whose abilities): both lateral accelerations are computed for the ego; what the other vehicle can do
has no influence on the check. -/
theorem C84_other_vehicle_ignored (c : Cfg K) (acc acc' : Nat → K → K → Bool → K) (fr : FrontRear K) (ego : Nat)
    (h : acc ego = acc' ego) : labelLat c acc fr ego = labelLat c acc' fr ego := by
  unfold labelLat
  rw [h]

/-! ### C83: the label -/

/-- **C83** (which situations): with crossing corridors considered, the label is true exactly if for every nearest other agent
the longitudinal check passes or lateral checking is on and passes. -/
theorem C83_label (c : Cfg K) (acc : Nat → K → K → Bool → K) (ego : Nat) (near : List (Nat × FrontRear K))
    (hc : c.crossing = true) :
    labelValue c acc ego near = true ↔ ∀ x ∈ near, x.1 ≠ ego →
      labelLon c x.2 ego = true ∨ (c.checkLat = true ∧ labelLat c acc x.2 ego = true) := by
  unfold labelValue
  rw [if_pos hc]
  induction near with
  | nil => simp [crossingLoop]
  | cons x l ih =>
    unfold crossingLoop
    by_cases h : x.1 = ego
    · rw [if_pos h, ih]; simp [h]
    · rw [if_neg h]
      simp only [List.mem_cons, forall_eq_or_imp]
      rw [← ih]
      cases h1 : labelLon c x.2 ego <;> cases h2 : c.checkLat <;> cases h3 : labelLat c acc x.2 ego <;> simp [h]

/-- **C83** (ego in front): if the ego is the front vehicle of the other agent, acceptance means that the other agent (braking
with its own deceleration after its own reaction time) never touches the ego braking with the ego's, if the ego brakes at
least as hard. -/
theorem C83_ego_front (c : Cfg K) (fr : FrontRear K) (ego : Nat) (d : Diff K) (hfr : fr.front = some (ego, d))
    (hz : d.lonZeroed = false) (ho : c.aOthers < 0) (he : c.aEgo ≤ c.aOthers) (hvf : 0 ≤ d.toVlon) (hvr : 0 ≤ d.fromVlon)
    (hdel : 0 ≤ c.deltaOthers) (hd : 0 ≤ d.lon) (h : labelLon c fr ego = true) :
    NeverTouch d.toVlon d.fromVlon d.lon (-c.aOthers) (-c.aEgo) c.deltaOthers := by
  unfold labelLon at h
  rw [hfr] at h
  simp only [isAgent, if_true, hz, Bool.false_eq_true, if_false] at h
  exact C44_sound_hard_front ho he hvf hvr hdel hd h

/-- **C83** (ego behind, equal decelerations): acceptance means that the ego braking after its reaction time never touches the
other agent. With different decelerations this is violated: `C83_swapped_violated`. -/
theorem C83_ego_rear_partial (c : Cfg K) (fr : FrontRear K) (ego : Nat) (d : Diff K)
    (hfront : ∀ e, fr.front ≠ some (ego, e)) (hfr : fr.rear = some (ego, d))
    (hz : d.lonZeroed = false) (ho : c.aOthers < 0) (he : c.aEgo = c.aOthers) (hvf : 0 ≤ d.fromVlon) (hvr : 0 ≤ d.toVlon)
    (hdel : 0 ≤ c.deltaEgo) (h : labelLon c fr ego = true) :
    NeverTouch d.fromVlon d.toVlon |d.lon| (-c.aEgo) (-c.aOthers) c.deltaEgo := by
  have hnone : isAgent ego fr.front = none := by
    cases hff : fr.front with
    | none => rfl
    | some x =>
      unfold isAgent
      simp only
      rw [if_neg]
      rintro rfl
      exact hfront x.2 (by rw [hff])
  unfold labelLon at h
  rw [hnone, hfr] at h
  simp only [isAgent, if_true, hz, Bool.false_eq_true, if_false] at h
  rw [he] at h ⊢
  exact C44_sound_hard_front ho le_rfl hvf hvr hdel (abs_nonneg _) h

/-- **C83 is violated**: if the ego is behind, the two decelerations are exchanged.  An ego that brakes with 2 m/s², 5 m behind an
agent that brakes with 8 m/s², both at 20 m/s, is accepted but runs into it. -/
theorem C83_swapped_violated :
    let c : Cfg ℚ := { deltaEgo := 0, deltaOthers := 0, aEgo := -2, aOthers := -8, crossing := true, checkLat := false }
    let d : Diff ℚ := ⟨-5, 0, false, true, 20, 20, 0, 0, 0, 0⟩
    labelLon c { front := none, rear := some (1, d) } 1 = true ∧
      ¬ NeverTouch (20 : ℚ) 20 5 2 8 0 := by
  refine ⟨by decide +kernel, fun h => ?_⟩
  have := h 3 (by norm_num)
  revert this
  unfold reacting braking
  norm_num

/-! ### C85: the dynamic safe-distance evaluator -/

/-- **C85 is violated** (defaults): with the default parameters the dynamic safe-distance check accepts every situation, so the
evaluator never counts a violation. -/
theorem C85_defaults_violated (acc : Nat → K → K → Bool → K) (ego : Nat) (near : List (Nat × FrontRear K)) :
    labelValue dynamicDefaults acc ego near = true := rfl

/-- **C85 is violated** (sign of the default decelerations): even with crossing corridors switched on, the default decelerations
are +5 while the formulas need negative numbers: above 2 m/s (ego) or 8 m/s (others) every positive gap is accepted,
whatever the front vehicle does. -/
theorem C85_sign_violated (v_f v_r dist delta : K) (hv : 10 * delta ≤ v_r) (hvr : 0 ≤ v_r) (hd : 0 < dist) :
    checkLon v_f v_r dist 5 5 delta = true := by
  unfold checkLon
  rw [if_neg (not_lt.2 hd.le)]
  simp only
  rw [if_pos]
  left
  rw [zeroToPositive_lt]
  refine ⟨?_, hd⟩
  unfold safeDist0
  have : v_r * delta - v_r ^ 2 / (2 * 5) ≤ 0 := by
    have h1 : v_r * (10 * delta) ≤ v_r * v_r := mul_le_mul_of_nonneg_left hv hvr
    have h2 : v_r ^ 2 / (2 * 5) = v_r * v_r / 10 := by ring
    rw [h2]
    linarith
  linarith

/-- a situation of that kind that does end in a collision -/
example : ¬ NeverTouch (10 : ℚ) 20 1 5 5 (1 / 5) := by
  intro h
  have := h 1 (by norm_num)
  revert this
  unfold reacting braking
  norm_num

/-- **C85** (with other parameters): if crossing corridors are considered, lateral checking is off and both decelerations are the
same negative number, a report "safe" means that for every nearest agent that has the ego in front of it or behind it (with a
longitudinal gap) the follower can stop without touching the leader. -/
theorem C85_configured_partial (c : Cfg K) (acc : Nat → K → K → Bool → K) (ego : Nat) (near : List (Nat × FrontRear K))
    (hc : c.crossing = true) (hlat : c.checkLat = false) (ho : c.aOthers < 0) (he : c.aEgo = c.aOthers)
    (hde : 0 ≤ c.deltaEgo) (hdo : 0 ≤ c.deltaOthers) (h : labelValue c acc ego near = true)
    (x : Nat × FrontRear K) (hx : x ∈ near) (hne : x.1 ≠ ego) :
    (∀ d, x.2.front = some (ego, d) → d.lonZeroed = false → 0 ≤ d.toVlon → 0 ≤ d.fromVlon → 0 ≤ d.lon →
      NeverTouch d.toVlon d.fromVlon d.lon (-c.aOthers) (-c.aEgo) c.deltaOthers) ∧
    (∀ d, (∀ e, x.2.front ≠ some (ego, e)) → x.2.rear = some (ego, d) → d.lonZeroed = false → 0 ≤ d.toVlon →
      0 ≤ d.fromVlon → NeverTouch d.fromVlon d.toVlon |d.lon| (-c.aEgo) (-c.aOthers) c.deltaEgo) := by
  have hl := ((C83_label c acc ego near hc).1 h x hx hne).resolve_right (by simp [hlat])
  exact ⟨fun d hf hz h1 h2 h3 => C83_ego_front c x.2 ego d hf hz ho he.le h1 h2 hdo h3 hl,
    fun d hf hr hz h1 h2 => C83_ego_rear_partial c x.2 ego d hf hr hz ho he h2 h1 hde hl⟩

/-- with crossing corridors considered and negative decelerations of equal size the unsafe situation above is reported -/
example : labelValue (K := ℚ) { deltaEgo := 1 / 5, deltaOthers := 4 / 5, aEgo := -5, aOthers := -5, crossing := true, checkLat := false }
    (fun _ _ _ _ => 1) 1 [(2, FrontRear.mk none (some (1, ⟨-1, 0, false, true, 10, 20, 0, 0, 0, 0⟩)))] = false := by
  decide +kernel

end Bark.SafeDist
