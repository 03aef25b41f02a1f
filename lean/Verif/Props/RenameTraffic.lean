import Verif.Props.Rename
import Verif.Props.TrafficRun

/-! C222: traffic of IDM vehicles does not depend on the numbers of the vehicles. -/
namespace Bark.Rename
open Bark Bark.Ln Bark.Fren Bark.Flow

variable {Box Lane : Type} {ρ : Nat → Nat}

local notation "ag" => agent ρ
local notation "wd" => world ρ (fun o : Unit => o)

theorem hits_seen (hρ : StrictMono ρ) (u : Setup Box Lane) (w : W Box) (hits : List (Box × Nat)) :
    World.collectHits (queries u) (fun _ => true) (wd w) (hits.map (fun p => (p.1, ρ p.2))) =
      (World.collectHits (queries u) (fun _ => true) w hits).map (fun m => m.map (fun p => (ρ p.1, ag p.2))) := by
  induction hits with
  | nil => rfl
  | cons q hits ih =>
    rw [List.map_cons]
    unfold World.collectHits
    dsimp only
    rw [show (wd w).getAgent (ρ q.2) = (w.getAgent q.2).map ag from find_renamed hρ w.agents q.2, ih]
    cases w.getAgent q.2 with
    | none => rfl
    | some a =>
      simp only [Option.map_some]
      cases World.collectHits (queries u) (fun _ => true) w hits with
      | error f => rfl
      | ok m =>
        simp only [bind, Except.bind, Except.map]
        rw [show (ag a).isValidAtTime (wd w).time = a.isValidAtTime w.time from rfl,
          show (queries u).status (ag a).behavior = (queries u).status a.behavior from rfl]
        split_ifs
        · simp only [insert_renamed hρ]
        · rfl

/-- the result of a front/rear search with the new numbers -/
def fr (ρ : Nat → Nat) (x : FrontRear ℝ V5 CAcc.Act Beh (Res (Interp.Exec V5)) Shape.Poly) : FrontRear ℝ V5 CAcc.Act Beh (Res (Interp.Exec V5)) Shape.Poly :=
  ⟨(x.front.1.map (agent ρ), x.front.2), (x.rear.1.map (agent ρ), x.rear.2)⟩

theorem body_seen (hρ : StrictMono ρ) (u : Setup Box Lane) (thr : FRParams ℝ) (t : ℝ) (lane : Lane) (ego : Nat) (x : V5) (sh : Shape.Poly)
    (acc : FrontRear ℝ V5 CAcc.Act Beh (Res (Interp.Exec V5)) Shape.Poly) (a : Agent ℝ V5 CAcc.Act Beh (Res (Interp.Exec V5)) Shape.Poly) :
    frBody (queries u) (geo u) thr t lane (ρ ego) x sh (fr ρ acc) (ag a) = (frBody (queries u) (geo u) thr t lane ego x sh acc a).map (fr ρ) := by
  unfold frBody
  rw [show (ag a).isValidAtTime t = a.isValidAtTime t from rfl, show (ag a).currentState = a.currentState from rfl,
    show (queries u).status (ag a).behavior = (queries u).status a.behavior from rfl, show (ag a).id = ρ a.id from rfl,
    show decide (ρ a.id = ρ ego) = decide (a.id = ego) from by simp only [hρ.injective.eq_iff]]
  by_cases h : (decide (a.id = ego) || decide ((queries u).status a.behavior ≠ .valid) || a.isValidAtTime t == false) = true
  · rw [if_pos h, if_pos h]; rfl
  · rw [if_neg h, if_neg h]
    cases a.currentState with
    | error f => rfl
    | ok s =>
      dsimp only
      rw [show frDiff (geo u) lane x sh s (ag a) = frDiff (geo u) lane x sh s a from rfl]
      generalize frDiff (geo u) lane x sh s a = d
      rw [show (fr ρ acc).front.2 = acc.front.2 from rfl, show (fr ρ acc).rear.2 = acc.rear.2 from rfl]
      split_ifs <;> rfl

theorem loop_seen (hρ : StrictMono ρ) (u : Setup Box Lane) (thr : FRParams ℝ) (t : ℝ) (lane : Lane) (ego : Nat) (x : V5) (sh : Shape.Poly)
    (m : List (Nat × Agent ℝ V5 CAcc.Act Beh (Res (Interp.Exec V5)) Shape.Poly)) (acc : FrontRear ℝ V5 CAcc.Act Beh (Res (Interp.Exec V5)) Shape.Poly) :
    frLoop (queries u) (geo u) thr t lane (ρ ego) x sh (m.map (fun p => (ρ p.1, ag p.2))) (fr ρ acc) =
      (frLoop (queries u) (geo u) thr t lane ego x sh m acc).map (fr ρ) := by
  induction m generalizing acc with
  | nil => rfl
  | cons q m ih =>
    simp only [List.map_cons, frLoop]
    rw [body_seen hρ]
    cases frBody (queries u) (geo u) thr t lane ego x sh acc q.2 with
    | error f => rfl
    | ok acc' => exact ih acc'

/-- C222: the agents in front and behind are the same ones with their new numbers -/
theorem C222_front_rear {u : Setup Box Lane} (hu : ByBoxes u) (hρ : StrictMono ρ) (thr : FRParams ℝ) (n : Nat) (lane : Option Lane) (ego : Nat) (w : W Box) :
    getAgentFrontRear (queries u) (geo u) thr n false lane (ρ ego) (world ρ (fun o => o) w) = (getAgentFrontRear (queries u) (geo u) thr n false lane ego w).map
      (fun x => ⟨(x.front.1.map (agent ρ), x.front.2), (x.rear.1.map (agent ρ), x.rear.2)⟩) := by
  show _ = (getAgentFrontRear (queries u) (geo u) thr n false lane ego w).map (fr ρ)
  unfold getAgentFrontRear
  have e1 : frConsidered (queries u) (geo u) n false lane (ρ ego) (wd w) =
      (frConsidered (queries u) (geo u) n false lane ego w).map (fun m => m.map (fun p => (ρ p.1, ag p.2))) := by
    unfold frConsidered
    rw [if_neg (by simp), if_neg (by simp), show (wd w).getAgent (ρ ego) = (w.getAgent ego).map ag from find_renamed hρ w.agents ego]
    cases w.getAgent ego with
    | none => rfl
    | some a =>
      simp only [Option.map_some, show (ag a).currentState = a.currentState from rfl]
      cases a.currentState with
      | error f => rfl
      | ok s =>
        show World.collectHits (queries u) _ (wd w) (u.nearest s (n + 1) (w.rtree.map (fun p => (p.1, ρ p.2)))) =
          (World.collectHits (queries u) _ w (u.nearest s (n + 1) w.rtree)).map _
        rw [hu ρ hρ]
        exact hits_seen hρ u w _
  rw [e1]
  cases frConsidered (queries u) (geo u) n false lane ego w with
  | error f => rfl
  | ok m =>
    simp only [bind, Except.bind, Except.map]
    unfold frFrom
    rw [show (m.map (fun p => (ρ p.1, ag p.2))).isEmpty = m.isEmpty by cases m <;> rfl,
      show (wd w).getAgent (ρ ego) = (w.getAgent ego).map ag from find_renamed hρ w.agents ego]
    split_ifs
    · rfl
    · cases w.getAgent ego with
      | none => rfl
      | some a =>
        cases lane with
        | none => rfl
        | some l =>
          simp only [Option.map_some, show (ag a).currentState = a.currentState from rfl]
          cases a.currentState with
          | error f => rfl
          | ok s => exact loop_seen hρ u thr w.time l ego s a.shape m ⟨(none, FDiff.default (geo u).big), (none, FDiff.default (geo u).big)⟩

theorem rel_renamed {u : Setup Box Lane} (hu : ByBoxes u) (hρ : StrictMono ρ) (len : ℝ) (lane : Lane) (ego : Nat) (act : CAcc.Act) (w : W Box) :
    Lead.observedRel (queries u) (geo u) u.thr u.maxAgents u.idm.coolness u.laneEnd len lane (ρ ego) act (wd w) =
      Lead.observedRel (queries u) (geo u) u.thr u.maxAgents u.idm.coolness u.laneEnd len lane ego act w := by
  unfold Lead.observedRel
  rw [C222_front_rear hu hρ]
  cases getAgentFrontRear (queries u) (geo u) u.thr u.maxAgents false (some lane) ego w with
  | error f => rfl
  | ok x =>
    simp only [Except.map]
    congr 1
    obtain ⟨⟨f, d⟩, r⟩ := x
    cases f <;> rfl

theorem plan_traffic {u : Setup Box Lane} (hu : ByBoxes u) (hρ : StrictMono ρ) (b : Beh) (dt : ℝ) (w : W Box) (ego : Nat) :
    plan u b dt (wd w) (ρ ego) = plan u b dt w ego := by
  unfold plan
  rw [show (wd w).getAgent (ρ ego) = (w.getAgent ego).map ag from find_renamed hρ w.agents ego]
  cases w.getAgent ego with
  | none => rfl
  | some a =>
    simp only [Option.map_some, show (ag a).currentState = a.currentState from rfl]
    cases a.currentState with
    | error f => rfl
    | ok x =>
      show planFrom u (wd w) (ρ ego) dt a.shape x b = planFrom u w ego dt a.shape x b
      unfold planFrom
      simp only [rel_renamed hu hρ, show (wd w).time = w.time from rfl]

theorem nameless {u : Setup Box Lane} (hu : ByBoxes u) (hρ : StrictMono ρ) : Nameless (plug u) ρ (fun o => o) :=
  ⟨fun b dt w i => plan_traffic hu hρ b dt w i, fun _ _ _ => rfl⟩

/-- C222: traffic of IDM vehicles. Whatever is called on the world, the same calls with other numbers in the same order fail alike or give the same result with the new
numbers. -/
theorem C222_traffic {u : Setup Box Lane} (hu : ByBoxes u) (hρ : StrictMono ρ) (w : W Box) (ops : List (World.Op ℝ V5 CAcc.Act Beh (Res (Interp.Exec V5)) Shape.Poly)) :
    World.run (plug u) (world ρ (fun o => o) w) (ops.map (op ρ)) = (World.run (plug u) w ops).map (world ρ (fun o => o)) :=
  C222_world hρ (nameless hu hρ) w ops

theorem road_byBoxes : ByBoxes road := by
  intro ρ _ x n l
  show ((l.map (fun p => (p.1, ρ p.2))).insertionSort fun p q => |p.1 - x.2.1| ≤ |q.1 - x.2.1|).take n =
    ((l.insertionSort fun p q => |p.1 - x.2.1| ≤ |q.1 - x.2.1|).take n).map (fun p => (p.1, ρ p.2))
  rw [List.map_take, List.map_insertionSort (fun p q : ℝ × Nat => |p.1 - x.2.1| ≤ |q.1 - x.2.1|) (fun p q : ℝ × Nat => |p.1 - x.2.1| ≤ |q.1 - x.2.1|)
    (fun p : ℝ × Nat => (p.1, ρ p.2)) l (fun _ _ _ _ => Iff.rfl)]

/-- not vacuous: three vehicles on a road of 1 km, a fourth one entering after a step, one leaving; the calls succeed, and with the numbers 7, 10, 13, 16 instead of
0, 1, 2, 3 they give the same -/
example : ∃ w', World.run (plug road) three ([.step (1 / 5), .addAgent (mover 3 100 10), .step (1 / 5), .removeAgent 0]) = .ok w' ∧
    World.run (plug road) (world (fun i => 3 * i + 7) (fun o => o) three) ([.step (1 / 5), .addAgent (mover 16 100 10), .step (1 / 5), .removeAgent 7]) =
      .ok (world (fun i => 3 * i + 7) (fun o => o) w') ∧ (OMap.keys (world (fun i => 3 * i + 7) (fun o => o) three).agents) = [7, 10, 13] := by
  have hops : ∀ o ∈ ([.step (1 / 5), .addAgent (mover 3 100 10), .step (1 / 5), .removeAgent 0] :
      List (World.Op ℝ V5 CAcc.Act Beh (Res (Interp.Exec V5)) Shape.Poly)), Props.GoodOp o := by
    simp [Props.GoodOp, mover]
  obtain ⟨w', h, -⟩ := Props.C04_no_fault (plug road) three_wf _ hops
  refine ⟨w', h, ?_, rfl⟩
  have := C222_traffic road_byBoxes (ρ := fun i => 3 * i + 7) (fun a b h => by dsimp only; omega) three [.step (1 / 5), .addAgent (mover 3 100 10), .step (1 / 5), .removeAgent 0]
  rw [h] at this
  exact this

/-! ### the order of the numbers does matter -/

/-- vehicles on a line, known by position and velocity; everyone is valid and nothing is planned -/
def qP : Plug ℚ (ℚ × ℚ) Unit Unit Unit Unit ℚ Unit where
  status _ := .valid
  lastAction _ := ()
  plan b _ _ _ := b
  execute e _ _ := e
  execStatus _ := .valid
  executedState _ := (0, 0)
  observe o w _ := (o, w)
  envelope _ s := s.1
  within _ _ := true

/-- the front/rear search on the line; the index answers with everyone -/
def qG : FRPlug ℚ (ℚ × ℚ) Unit Unit Unit Unit ℚ Unit where
  frenet _ s := ⟨s.1, 0, s.2, 0, 0⟩
  ext _ _ := ⟨1, 1, 1, 1⟩
  nearest _ k l := l.take k
  boxHit _ _ := true
  collide _ _ := true
  big := 1000

def qA (i : Nat) (s v : ℚ) : Agent ℚ (ℚ × ℚ) Unit Unit Unit Unit := ⟨i, (), (), [((s, v), ())], 20, 0, ()⟩

/-- the first one at 0 m, two others abreast at 20 m, the one with the number `i` with 5 m/s and the other with 10 m/s -/
def qW (i j : Nat) : World ℚ (ℚ × ℚ) Unit Unit Unit Unit ℚ Unit :=
  let m := OMap.insert i (qA i 20 5) (OMap.insert j (qA j 20 10) [(0, qA 0 0 8)])
  ⟨m, 0, m.map (fun p => ((match p.2.history.getLast? with | some h => h.1.1 | none => 0), p.1)), false, none, ()⟩

/-- C222: the order matters. Of two vehicles abreast ahead the one with the lower number is in front: exchanging the numbers of the two makes another vehicle the one
followed. -/
theorem C222_order_violated :
    (getAgentFrontRear qP qG ⟨4, 3, 0⟩ 4 false (some ()) 0 (qW 1 2)).map (fun x => (x.front.1.map (fun a => a.history), x.front.2.vlon)) = .ok (some [((20, 5), ())], -3) ∧
    (getAgentFrontRear qP qG ⟨4, 3, 0⟩ 4 false (some ()) 0 (qW 2 1)).map (fun x => (x.front.1.map (fun a => a.history), x.front.2.vlon)) = .ok (some [((20, 10), ())], 2) := by
  constructor <;> decide +kernel

end Bark.Rename
