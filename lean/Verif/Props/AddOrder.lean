import Verif.Props.World
import Mathlib.Data.List.Perm.Basic

/-! C214: the order in which agents are added to and removed from a world does not matter. -/
namespace Bark.Props
open Bark World

section
variable {K St Act B E Sh Box O : Type} [Field K] [LinearOrder K] [IsStrictOrderedRing K]
variable (P : Plug K St Act B E Sh Box O)

theorem add_sorted {w : World K St Act B E Sh Box O} (h : OMap.Sorted w.agents) (a : Agent K St Act B E Sh) :
    OMap.Sorted (w.addAgent a).agents := OMap.sorted_insert _ _ h

theorem add_comm {w : World K St Act B E Sh Box O} (h : OMap.Sorted w.agents) {a b : Agent K St Act B E Sh} (hne : a.id ≠ b.id) :
    (w.addAgent a).addAgent b = (w.addAgent b).addAgent a := by
  have e : ((w.addAgent a).addAgent b).agents = ((w.addAgent b).addAgent a).agents := by
    refine OMap.ext (add_sorted (add_sorted h a) b) (add_sorted (add_sorted h b) a) (fun k => ?_)
    unfold World.addAgent
    simp only [OMap.find_insert]
    by_cases h1 : k = a.id <;> by_cases h2 : k = b.id <;> simp_all
  unfold World.addAgent at e ⊢
  simp only at e ⊢
  rw [e]

/-- registry calls never fail and touch nothing but the registry -/
theorem registry_run {w : World K St Act B E Sh Box O} (hs : OMap.Sorted w.agents) (ops : List (Op K St Act B E Sh)) (hops : ∀ op ∈ ops, RegistryOp op) :
    ∃ m, World.run P w ops = .ok { w with agents := m } ∧ OMap.Sorted m := by
  induction ops generalizing w with
  | nil => exact ⟨w.agents, rfl, hs⟩
  | cons op ops ih =>
    have hop := hops op (by simp)
    have hr : ∀ o ∈ ops, RegistryOp o := fun o ho => hops o (by simp [ho])
    cases op with
    | addAgent a => exact ih (w := w.addAgent a) (add_sorted hs a) hr
    | removeAgent j => exact ih (w := w.removeAgentById j) (OMap.sorted_erase _ hs) hr
    | clearAgents => exact ih (w := w.clearAgents) List.Pairwise.nil hr
    | step dt => cases hop
    | planAgents dt => cases hop
    | execute dt => cases hop
    | updateRTree => cases hop

theorem run_append (w : World K St Act B E Sh Box O) (l r : List (Op K St Act B E Sh)) :
    World.run P w (l ++ r) = (World.run P w l >>= fun w1 => World.run P w1 r) := by
  induction l generalizing w with
  | nil => rfl
  | cons op l ih =>
    show (World.apply P w op >>= fun w1 => World.run P w1 (l ++ r)) = ((World.apply P w op >>= fun w1 => World.run P w1 l) >>= _)
    cases h : World.apply P w op with
    | error e => rfl
    | ok w1 => exact ih w1

/-- C214: only what is registered counts, not how it came to be registered: two series of adding, removing and clearing calls that end
with the same id-to-agent map are followed by the same simulation, whatever is called next. -/
theorem C214_same_registry {w : World K St Act B E Sh Box O} (hw : WellFormed w) (ops ops' rest : List (Op K St Act B E Sh))
    (h : ∀ op ∈ ops, RegistryOp op) (h' : ∀ op ∈ ops', RegistryOp op)
    (hsame : ops.foldl Spec.registry w.getAgent = ops'.foldl Spec.registry w.getAgent) :
    World.run P w (ops ++ rest) = World.run P w (ops' ++ rest) := by
  obtain ⟨m, e, hm⟩ := registry_run P hw.1 ops h
  obtain ⟨m', e', hm'⟩ := registry_run P hw.1 ops' h'
  have g := C08_registry P ops h e
  have g' := C08_registry P ops' h' e'
  have : m = m' := OMap.ext hm hm' (fun k => congrFun ((g.trans hsame).trans g'.symm) k)
  rw [run_append, run_append, e, e', this]

/-- C214: agents with different ids may be added in any order: whatever happens afterwards is the same. -/
theorem C214_order {w : World K St Act B E Sh Box O} (hw : WellFormed w) {l l' : List (Agent K St Act B E Sh)} (hp : l.Perm l')
    (hd : (l.map (·.id)).Nodup) (ops : List (Op K St Act B E Sh)) :
    World.run P w (l.map Op.addAgent ++ ops) = World.run P w (l'.map Op.addAgent ++ ops) := by
  have hs := hw.1
  clear hw
  induction hp generalizing w with
  | nil => rfl
  | cons a _ ih => exact ih (List.nodup_cons.1 hd).2 (add_sorted hs a)
  | swap a b l =>
    have hne : a.id ≠ b.id := by
      intro e
      simp only [List.map_cons, List.nodup_cons, List.mem_cons, e, true_or, not_true_eq_false, false_and] at hd
    show World.run P ((w.addAgent b).addAgent a) (l.map Op.addAgent ++ ops) = World.run P ((w.addAgent a).addAgent b) (l.map Op.addAgent ++ ops)
    rw [add_comm hs hne]
  | trans h1 h2 i1 i2 => exact (i1 hd hs).trans (i2 ((h1.map _).nodup_iff.1 hd) hs)

end

/-- a vehicle to add -/
def newcomer (id : Nat) : Agent ℚ ℚ ℚ (ℚ × BStatus) ℚ Unit := ⟨id, (5, .valid), 8, [(8, 0)], 2, 0, ()⟩

/-- not vacuous: in a world of three vehicles, removing vehicle 2 and adding vehicle 9 leaves the same registry as adding vehicle 9,
replacing vehicle 2 and then removing it; the world drives on, and the same from both -/
example : ∃ w', World.run toyPlug (toyWorld false) ([.removeAgent 2, .addAgent (newcomer 9)] ++ [.step 1]) = .ok w' ∧
    World.run toyPlug (toyWorld false) ([.addAgent (newcomer 9), .addAgent (newcomer 2), .removeAgent 2] ++ [.step 1]) = .ok w' := by
  obtain ⟨w', h, -⟩ := C04_no_fault toyPlug (toyWorld_wf false) ([.removeAgent 2, .addAgent (newcomer 9)] ++ [.step 1])
    (by simp [GoodOp, newcomer])
  refine ⟨w', h, ?_⟩
  rw [← h]
  refine (C214_same_registry toyPlug (toyWorld_wf false) _ _ _ (by simp [RegistryOp]) (by simp [RegistryOp]) ?_).symm
  funext i
  simp only [List.foldl_cons, List.foldl_nil, Spec.registry, newcomer]
  by_cases h2 : i = 2 <;> by_cases h9 : i = 9 <;> simp [h2, h9]

/-- and so does adding two vehicles in either order -/
example : World.run toyPlug (toyWorld false) ([newcomer 7, newcomer 8].map Op.addAgent ++ [.step 1]) =
    World.run toyPlug (toyWorld false) ([newcomer 8, newcomer 7].map Op.addAgent ++ [.step 1]) :=
  C214_order toyPlug (toyWorld_wf false) (List.Perm.swap _ _ _) (by simp [newcomer]) _

end Bark.Props
