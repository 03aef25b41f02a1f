import Verif.Model.PlanView
import Mathlib.Analysis.SpecialFunctions.Complex.Circle
import Mathlib.Analysis.Real.Sqrt

/-!
Model of `bark/world/opendrive/odrSpiral.cpp` and its use in `plan_view.cpp` over ℝ and ℂ (exact arithmetic).
-/
namespace Bark.Spi
open Bark.Ln Bark.PV

/-- odrSpiral.cpp:121-134 `polevl`: all coefficients, highest power first -/
noncomputable def polevl (x : ℝ) : List ℚ → ℝ
  | [] => 0
  | c :: cs => cs.foldl (fun (ans : ℝ) (d : ℚ) => ans * x + (d : ℝ)) (c : ℝ)

/-- odrSpiral.cpp:136-149 `p1evl`: as `polevl`, with a leading coefficient 1 that is not stored -/
noncomputable def p1evl (x : ℝ) : List ℚ → ℝ
  | [] => 1
  | c :: cs => cs.foldl (fun (ans : ℝ) (d : ℚ) => ans * x + (d : ℝ)) (x + (c : ℝ))

/-- odrSpiral.cpp:60-64 -/
def sn : List ℚ := [-2.99181919401019853726E3, 7.08840045257738576863E5, -6.29741486205862506537E7,
  2.54890880573376359104E9, -4.42979518059697779103E10, 3.18016297876567817986E11]

/-- odrSpiral.cpp:65-70 -/
def sd : List ℚ := [2.81376268889994315696E2, 4.55847810806532581675E4, 5.17343888770096400730E6,
  4.19320245898111231129E8, 2.24411795645340920940E10, 6.07366389490084639049E11]

/-- odrSpiral.cpp:73-77 -/
def cn : List ℚ := [-4.98843114573573548651E-8, 9.50428062829859605134E-6, -6.45191435683965050962E-4,
  1.88843319396703850064E-2, -2.05525900955013891793E-1, 9.99999999999999998822E-1]

/-- odrSpiral.cpp:78-83 -/
def cd : List ℚ := [3.99982968972495980367E-12, 9.15439215774657478799E-10, 1.25001862479598821474E-7,
  1.22262789024179030997E-5, 8.68029542941784300606E-4, 4.12142090722199792936E-2, 1.00000000000000000118E0]

/-- odrSpiral.cpp:86-92 -/
def fn : List ℚ := [4.21543555043677546506E-1, 1.43407919780758885261E-1, 1.15220955073585758835E-2,
  3.45017939782574027900E-4, 4.63613749287867322088E-6, 3.05568983790257605827E-8, 1.02304514164907233465E-10,
  1.72010743268161828879E-13, 1.34283276233062758925E-16, 3.76329711269987889006E-20]

/-- odrSpiral.cpp:93-100 -/
def fd : List ℚ := [7.51586398353378947175E-1, 1.16888925859191382142E-1, 6.44051526508858611005E-3,
  1.55934409164153020873E-4, 1.84627567348930545870E-6, 1.12699224763999035261E-8, 3.60140029589371370404E-11,
  5.88754533621578410010E-14, 4.52001434074129701496E-17, 1.25443237090011264384E-20]

/-- odrSpiral.cpp:103-110 -/
def gn : List ℚ := [5.04442073643383265887E-1, 1.97102833525523411709E-1, 1.87648584092575249293E-2,
  6.84079380915393090172E-4, 1.15138826111884280931E-5, 9.82852443688422223854E-8, 4.45344415861750144738E-10,
  1.08268041139020870318E-12, 1.37555460633261799868E-15, 8.36354435630677421531E-19, 1.86958710162783235106E-22]

/-- odrSpiral.cpp:111-119 -/
def gd : List ℚ := [1.47495759925128324529E0, 3.37748989120019970451E-1, 2.53603741420338795122E-2,
  8.14679107184306179049E-4, 1.27545075667729118702E-5, 1.04314589657571990585E-7, 4.60680728146520428211E-10,
  1.10273215066240270757E-12, 1.38796531259578871258E-15, 8.39158816283118707363E-19, 1.86958710162783236342E-22]

/-- odrSpiral.cpp:154-181, the values for `x = fabs(xxa)`: sine and cosine integral -/
noncomputable def fresnelAbs (x : ℝ) : ℝ × ℝ :=
  let x2 := x * x
  if x2 < 2.5625 then
    let t := x2 * x2
    (x * x2 * polevl t sn / p1evl t sd, x * polevl t cn / polevl t cd)
  else if x > 36974 then (1 / 2, 1 / 2)
  else
    let t := Real.pi * x2
    let u := 1 / (t * t)
    let f := 1 - u * polevl u fn / p1evl u fd
    let g := 1 / t * polevl u gn / p1evl u gd
    let t2 := Real.pi * (1 / 2) * x2
    let t3 := Real.pi * x
    (1 / 2 - (f * Real.cos t2 + g * Real.sin t2) / t3, 1 / 2 + (f * Real.sin t2 - g * Real.cos t2) / t3)

/-- odrSpiral.cpp:151-188 `fresnel`: approximation of the Fresnel integrals (`*ssa`, `*cca`) -/
noncomputable def fresnel (xxa : ℝ) : ℝ × ℝ :=
  let r := fresnelAbs |xxa|
  if xxa < 0 then (-r.1, -r.2) else r

/-- odrSpiral.cpp:217-231 `odrSpiral(s, cDot, x, y, t)` for `cDot ≠ 0`; for `cDot = 0` it computes `0 · ∞`.
`fr` is the routine for the Fresnel integrals. -/
noncomputable def standard (fr : ℝ → ℝ × ℝ) (s c : ℝ) : Res (Pt × ℝ) :=
  if c = 0 then .error .nan
  else
    let a := 1 / Real.sqrt |c| * Real.sqrt Real.pi
    let r := fr (s / a)
    .ok ((r.2 * a, if c < 0 then r.1 * a * -1 else r.1 * a), s * s * c * (1 / 2))

/-- odrSpiral.cpp:233-277 `odrSpiral(s, x0, y0, cDot, kappa_start, theta_start, x, y, t)` -/
noncomputable def odrSpiral (fr : ℝ → ℝ × ℝ) (s : ℝ) (p : Pt) (c k h : ℝ) : Pt × ℝ :=
  let c0 : ℂ := ⟨p.1, p.2⟩
  let ci : ℂ := ⟨0, 1⟩
  let cs : ℂ :=
    if c = 0 ∧ k = 0 then c0 + ci * ((h * s : ℝ) : ℂ)
    else if c = 0 ∧ k ≠ 0 then
      c0 + ci * (h : ℂ) / (k : ℂ) * (((Real.sin (k * s) : ℝ) : ℂ) + ci * ((1 - Real.cos (k * s) : ℝ) : ℂ))
    else
      let ra := fr ((k + c * s) / Real.sqrt (Real.pi * |c|))
      let rb := fr (k / Real.sqrt (Real.pi * |c|))
      let cs1 : ℂ := ((Real.sqrt (Real.pi / |c|) : ℝ) : ℂ) * Complex.exp (ci * ((h - k * k / 2 / c : ℝ) : ℂ))
      let cs2 : ℂ :=
        if c < 0 then ((-(ra.2 - rb.2) : ℝ) : ℂ) + ci * (ra.1 : ℂ) - ci * (rb.1 : ℂ)
        else ((ra.2 - rb.2 : ℝ) : ℂ) + ci * (ra.1 : ℂ) - ci * (rb.1 : ℂ)
      c0 + cs1 * cs2
  ((cs.re, cs.im), c * s * s * (1 / 2) + k * s + h)

/-- plan_view.cpp:57-81 `AddSpiral`: the curvature rate is computed by a division by the length (`0 / 0` otherwise) -/
noncomputable def planSpiral (fr : ℝ → ℝ × ℝ) (fuel : ℕ) (v : PlanView) (p : Pt) (h len k0 k1 inc : ℝ) : Res PlanView :=
  if len = 0 then .error .nan
  else addSpiral fuel v (fun s => (odrSpiral fr s p ((k1 - k0) / len) k0 h).1) len inc

end Bark.Spi
