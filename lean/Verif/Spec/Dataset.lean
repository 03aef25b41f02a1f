import Verif.Model.Dataset
import Mathlib.Data.List.Forall2

/-! Specification vocabulary for scenarios made from recorded tracks (C134–C137). -/
namespace Bark.Data.Spec
variable {K : Type} [Field K] [LinearOrder K]

/-- state `r` shows motion `m`, moved by the offset, at `ms` milliseconds -/
def Shows (norm : K → K) (speed : K → K → K) (off : K × K) (ms : Int) (m : Motion K) (r : St K) : Prop :=
  r.time * 1000 = (ms : K) ∧ r.x = m.x + off.1 ∧ r.y = m.y + off.2 ∧ r.theta = norm m.psi ∧ r.vel = speed m.vx m.vy

/-- `rows` are the motions of the time span, in order, timed from its beginning -/
def Replays (norm : K → K) (speed : K → K → K) (off : K × K) (start stop : Int) (ms : List (Motion K))
    (rows : List (St K)) : Prop :=
  ∃ part : List (Motion K), part.Sublist ms ∧ (∀ m, m ∈ part ↔ m ∈ ms ∧ start ≤ m.t ∧ m.t ≤ stop) ∧
    List.Forall₂ (fun m r => Shows norm speed off (m.t - start) m r) part rows

/-- `r` is `t` rounded to hundreds, halves to the even hundred -/
def Rounded (t r : Int) : Prop := (∃ q, r = 100 * q) ∧ r - t ≤ 50 ∧ t - r ≤ 50 ∧
  ((r - t = 50 ∨ t - r = 50) → ∃ q, r = 200 * q)

/-- the two time spans overlap -/
def Overlap (a b : Info) : Prop := a.start < b.stop ∧ b.start < a.stop

/-- recorded every 100 ms without gaps, beginning at a full hundred -/
def Grid (ms : List (Motion K)) : Prop :=
  ms ≠ [] ∧ ∃ q : Int, 0 ≤ q ∧ ∀ (i : Nat) m, ms[i]? = some m → m.t = 100 * (q + i)

/-- `m` is the first motion (not before 0) on the map -/
def FirstOnMap (on : Motion K → Prop) (ms : List (Motion K)) (m : Motion K) : Prop :=
  ∃ (i : Nat), ms[i]? = some m ∧ 0 ≤ m.t ∧ on m ∧ ∀ (j : Nat) m', j < i → ms[j]? = some m' → 0 ≤ m'.t → ¬ on m'

/-- the time span of agent `id` in the scenario begins at `t` -/
def Begins (s : ScenInfo) (id : Nat) (t : Int) : Prop :=
  (id = s.ego.id ∧ t = s.start) ∨ ∃ o ∈ s.others, o.id = id ∧ t = o.start

/-- agent `a` is track `tr` in scenario `s`, in which its time span begins at `begin_`: its recorded trajectory during the
scenario (unless it follows a model), the state when it first takes part, its shape, its last position as goal -/
structure AgentOf (norm : K → K) (speed : K → K → K) (off : K × K) (s : ScenInfo) (begin_ : Int) (model : Bool)
    (tr : Track K) (a : Made K) : Prop where
  id : a.id = tr.id
  modelled : model = true → a.recorded = none
  recorded : model = false → ∃ rows, a.recorded = some rows ∧ Replays norm speed off s.start s.stop tr.motions rows
  init : ∃ m ∈ tr.motions, Shows norm speed off 0 m a.init ∧ max s.start begin_ ≤ m.t ∧
    (m.t = max s.start begin_ ∨ ∀ m' ∈ tr.motions, m.t ≤ m'.t)
  width : 2 * a.radius = tr.width
  length : a.wheelBase + 2 * a.radius = tr.length
  goal : ∃ m, tr.motions.getLast? = some m ∧ a.goal = (m.x + off.1, m.y + off.2)

end Bark.Data.Spec
