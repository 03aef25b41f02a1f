import Verif.Model.Basic
import Mathlib.Algebra.Order.Field.Basic
import Mathlib.Algebra.Order.Field.Rat

/-!
Model of `bark/commons/distribution/distributions_1d.hpp` and of
`bark/models/behavior/idm/stochastic/idm_stochastic.{hpp,cpp}` (everything but the inherited planning).

The Mersenne twister with `uniform_real_distribution(0,1)` is a parameter: `next` (a number and the new engine state) and `ofSeed`;
the quantile function of the normal distribution (boost) is a parameter, too.  Distribution objects live on a heap, because
behaviour models hold shared pointers to them.  One-dimensional values; exact arithmetic.
-/
namespace Bark.Stoch
open Bark
set_option linter.unusedSectionVars false

/-- engine and `uniform_generator_` (distributions_1d.hpp:76-80): a number in [0,1) and the new state -/
structure Gen (R K : Type) where
  next : R → K × R
  ofSeed : Nat → R

/-- the distribution types of distributions_1d.hpp with their parameters -/
inductive Kind (K : Type)
  | fixed (v : K)
  | uniform (lo hi : K)
  | normal (mean std : K)
  | bernoulli (p : K)

/-- a distribution object -/
structure Dist (R K : Type) where
  kind : Kind K
  gen : R

/-- idm_stochastic.hpp:17-21 `YieldIntent` -/
inductive Intent
  | yielding
  | noYield
  | notInit
  deriving DecidableEq

/-- the distribution objects, by pointer -/
abbrev Heap (R K : Type) := Nat → Dist R K

/-- idm_stochastic.hpp:44-62: the fields. `ps` are the pointers to the six parameter distributions in the order of
`SampleParameters` (headway, spacing, maximal acceleration, desired velocity, comfortable braking, coolness), `vals` the current
values of these parameters, `lat` is `max_lat_difference_to_be_front_` -/
structure Obj (K : Type) where
  ps : List Nat
  vals : List K
  useIntent : Bool
  intent : Intent
  duration : K
  lastChange : K
  lat : K
  yPtr : Nat
  nPtr : Nat

section
variable {R K : Type} [Field K] [LinearOrder K] [IsStrictOrderedRing K]
variable (g : Gen R K) (q : K → K → K → K)

/-- `boost::math::quantile` (uniform: linear; Bernoulli: 0 up to 1 - p, else 1; normal: parameter `q`) -/
def quantile : Kind K → K → K
  | .fixed v, _ => v
  | .uniform lo hi, u => u * (hi - lo) + lo
  | .normal m s, u => q m s u
  | .bernoulli p, u => if u ≤ 1 - p then 0 else 1

/-- distributions_1d.hpp:27 and 83-90 `Sample` -/
def sample (d : Dist R K) : K × Dist R K :=
  match d.kind with
  | .fixed v => (v, d)
  | k => (quantile q k (g.next d.gen).1, { d with gen := (g.next d.gen).2 })

/-- distributions_1d.hpp:40 and 71-74 `ChangeSeed` -/
def changeSeed (seed : Nat) (d : Dist R K) : Dist R K :=
  match d.kind with
  | .fixed _ => d
  | _ => { d with gen := g.ofSeed seed }

/-- `Sample` through a pointer -/
def sampleAt (i : Nat) (h : Heap R K) : K × Heap R K :=
  ((sample g q (h i)).1, fun j => if j = i then (sample g q (h i)).2 else h j)

/-- idm_stochastic.cpp:59-67 `SampleParameters` -/
def sampleAll : List Nat → Heap R K → List K × Heap R K
  | [], h => ([], h)
  | i :: is, h =>
    let r := sampleAt g q i h
    let rs := sampleAll is r.2
    (r.1 :: rs.1, rs.2)

/-- idm_stochastic.cpp:86-109 `HandleIntentionChange` -/
def handleIntent (t : K) (s : Heap R K × Obj K) : Heap R K × Obj K :=
  let o := s.2
  if o.intent = .notInit then
    let r := sampleAt g q o.yPtr s.1
    (r.2, { o with
      lastChange := t
      intent := .yielding
      duration := r.1
      lat := 8 })
  else if o.duration ≤ t - o.lastChange then
    if o.intent = .yielding then
      let r := sampleAt g q o.nPtr s.1
      (r.2, { o with
        lastChange := t
        intent := .noYield
        duration := r.1
        lat := 1 })
    else
      let r := sampleAt g q o.yPtr s.1
      (r.2, { o with
        lastChange := t
        intent := .yielding
        duration := r.1
        lat := 8 })
  else s

/-- idm_stochastic.cpp:120-127 `Plan`, without the inherited part: `t` is the world time -/
def plan (t : K) (s : Heap R K × Obj K) : Heap R K × Obj K :=
  let r := sampleAll g q s.2.ps s.1
  let s1 : Heap R K × Obj K := (r.2, { s.2 with vals := r.1 })
  if s.2.useIntent = true then handleIntent g q t s1 else s1

/-- a sequence of planning calls -/
def plans (ts : List K) (s : Heap R K × Obj K) : Heap R K × Obj K := ts.foldl (fun s t => plan g q t s) s

/-- idm_stochastic.cpp:111-118 `ChangeSeed` -/
def reseed (seed : Nat) (s : Heap R K × Obj K) : Heap R K × Obj K :=
  (s.2.ps.foldl (fun h i => fun j => if j = i then changeSeed g seed (h i) else h j) s.1, s.2)

/-- idm_stochastic.hpp:65-69 `Clone` (default copy constructor: the pointers are copied) -/
def clone (o : Obj K) : Obj K := o

/-- distributions_1d.hpp:35-38, 126-144: `GetSupport` of one-dimensional distributions; `none` is the whole range of `double` -/
def support : Kind K → Option (K × K)
  | .fixed v => some (v, v)
  | .uniform lo hi => some (lo, hi)
  | .normal _ _ => none
  | .bernoulli _ => some (0, 1)

/-- idm_stochastic.cpp:69-84 `GetParameterRegions` (a list instead of a map by parameter name) -/
def regions (s : Heap R K × Obj K) : List (Option (K × K)) := s.2.ps.map (fun i => support (s.1 i).kind)

/-- distributions_1d.hpp:33 (`FixedValue::CDF`, constant 0) and 63-65 (`boost::math::cdf`; the one of the normal distribution is a
parameter) -/
def cdf (cdfN : K → K → K → K) : Kind K → K → K
  | .fixed _, _ => 0
  | .uniform lo hi, x => if x ≤ lo then 0 else if hi ≤ x then 1 else (x - lo) / (hi - lo)
  | .normal m s, x => cdfN m s x
  | .bernoulli p, x => if x = 1 then 1 else 1 - p

end
end Bark.Stoch
