import Verif.Model.Bench

/-!
What the benchmark runner and its result files promise, independently of how `Verif.Model.Bench` computes it.
-/
namespace Bark.Bench.Spec

/-- the first `k` scenarios if there is a limit (0 counts as no limit) -/
def within {S : Type} (num : Option Nat) (scens : List S) : List S :=
  match num with
  | none => scens
  | some k => if k = 0 then scens else scens.take k

/-- every behaviour with every scenario of every set, behaviour by behaviour and set by set -/
def product {B N S : Type} (num : Option Nat) (behs : List B) (db : List (N × List S)) : List (B × N × Nat × S) :=
  behs.flatMap (fun b => db.flatMap (fun g => ((within num g.2).zipIdx).map (fun x => (b, g.1, x.2, x.1))))

/-- full rounds (evaluate, no criterion met, plan, execute) from a world on, with the world after each of them -/
inductive Rounds {W N V : Type} (sim : Sim W N V) (terminal : List (N × V) → Res (List N)) : W → List W → W → Prop where
  | nil (w : W) : Rounds sim terminal w [] w
  | cons {w w1 w2 w3 w' : W} {ev : List (N × V)} {ws : List W} : sim.eval w = .ok (w1, ev) → terminal ev = .ok [] →
      sim.plan w1 = .ok w2 → sim.exec w2 = .ok w3 → Rounds sim terminal w3 ws w' → Rounds sim terminal w (w3 :: ws) w'

/-- how a run may end in world `w`: criteria are met, or something raised -/
inductive Ends {W N V : Type} (sim : Sim W N V) (terminal : List (N × V) → Res (List N)) (w : W) : List (N × V) → Why N → Prop where
  | met {w1 : W} {ev : List (N × V)} {l : List N} : sim.eval w = .ok (w1, ev) → terminal ev = .ok l → l ≠ [] →
      Ends sim terminal w ev (.names l)
  | evalRaised : sim.eval w = .error .thrown → Ends sim terminal w [] .exception
  | planRaised {w1 : W} {ev : List (N × V)} : sim.eval w = .ok (w1, ev) → terminal ev = .ok [] → sim.plan w1 = .error .thrown →
      Ends sim terminal w ev .exception
  | execRaised {w1 w2 : W} {ev : List (N × V)} : sim.eval w = .ok (w1, ev) → terminal ev = .ok [] → sim.plan w1 = .ok w2 →
      sim.exec w2 = .error .thrown → Ends sim terminal w ev .exception

/-- the members of an archive hold exactly these items, each member is named by the indices in it, no member is empty -/
def Holds {X : Type} (ps : Parts X) (items : List (Nat × X)) : Prop :=
  (ps.flatMap Prod.snd).Perm items ∧ ∀ p ∈ ps, p.1 = p.2.map Prod.fst ∧ p.1 ≠ []

/-- the archive in a file has these results, configs and histories -/
def Archive {V C H : Type} (d : Dir V C H) (f : FName) (rows : List (Nat × V)) (confs : List (Nat × C)) (hists : List (Nat × H)) : Prop :=
  ∃ z, d f = some z ∧ z.results = some rows ∧ Holds z.configs confs ∧ Holds z.hist hists

/-- pickled configs and histories are not empty and, on average, no larger than the maximal size of a member -/
def Fits {C H : Type} (sz : Sizes C H) : Prop :=
  (∀ l, l ≠ [] → 0 < sz.conf l ∧ sz.conf l ≤ sz.maxB * l.length) ∧ (∀ l, l ≠ [] → 0 < sz.hist l ∧ sz.hist l ≤ sz.maxB * l.length)

end Bark.Bench.Spec
