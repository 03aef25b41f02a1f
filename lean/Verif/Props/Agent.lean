import Verif.Spec.World
import Verif.Lemmas.World
import Mathlib.Algebra.Order.Ring.Rat

/-! C03, C04: the state/action history of an agent. -/
namespace Bark.Props
open Bark
set_option linter.unusedSectionVars false

variable {K St Act B E Sh Box O : Type} [Field K] [LinearOrder K] [IsStrictOrderedRing K]

theorem lastN_append_one {α : Type} (n : Nat) (hn : 1 ≤ n) (l : List α) (x : α) :
    Spec.lastN n (l ++ [x]) = Spec.lastN (n - 1) l ++ [x] := by
  unfold Spec.lastN
  rw [List.length_append, List.length_singleton]
  by_cases h : n ≤ l.length + 1
  · rw [List.drop_append_of_le_length (by omega)]
    congr 2; omega
  · have : l.length + 1 - n = 0 := by omega
    rw [this]
    have : l.length - (n - 1) = 0 := by omega
    rw [this]; rfl

theorem lastN_length {α : Type} (n : Nat) (l : List α) :
    (Spec.lastN n l).length = min n l.length := by
  unfold Spec.lastN; rw [List.length_drop]; omega

/-- invariant behind C03: bounded window over the log -/
theorem runH_spec (P : Plug K St Act B E Sh Box O) (ops : List (Agent.HOp St Act B E))
    (a : Agent K St Act B E Sh) (log : List (St × Act)) (n : Nat) (hn : 1 ≤ n) (hm : a.maxHist ≤ n)
    (hlog : a.history = Spec.lastN n log) (hne : log ≠ [])
    (hfull : a.maxHist < n → n ≤ log.length) :
    ∃ a', Agent.runH P a ops = .ok a' ∧
      a'.history = Spec.lastN n (ops.foldl (Spec.logStep P) log) ∧
      ops.foldl (Spec.logStep P) log ≠ [] ∧ a'.maxHist = a.maxHist := by
  induction ops generalizing a log with
  | nil => exact ⟨a, rfl, hlog, hne, rfl⟩
  | cons op ops ih =>
    have hpos : 1 ≤ log.length := List.length_pos_iff.2 hne
    cases op with
    | update b e =>
      let a1 : Agent K St Act B E Sh := Agent.updateStateAction P { a with behavior := b, exec := e }
      have h1 : a1.history = Spec.lastN n (Spec.logStep P log (.update b e)) := by
        simp only [a1, Agent.updateStateAction, Spec.logStep]
        rw [hlog, lastN_append_one n hn]
        have hlen := lastN_length n log
        simp only [List.length_append, List.length_singleton, hlen]
        split_ifs with h
        · have h2 : n ≤ log.length := by
            by_contra hc
            have : a.maxHist = n := by
              by_contra hh; exact hc (hfull (by omega))
            omega
          have hne' : Spec.lastN n log ≠ [] := by
            intro h0; rw [h0] at hlen; simp at hlen; omega
          rw [List.tail_append_of_ne_nil hne']
          congr 1
          unfold Spec.lastN
          rw [List.tail_drop]; congr 1; omega
        · have : Spec.lastN n log = Spec.lastN (n-1) log := by
            unfold Spec.lastN
            have hh : log.length < n := by
              by_contra hc; have : min n log.length = n := by omega
              omega
            congr 1; omega
          rw [this]
      obtain ⟨a', r1, r2, r3, r4⟩ := ih a1 (Spec.logStep P log (.update b e)) hm h1
        (by simp [Spec.logStep])
        (by intro h; have := hfull h; simp only [Spec.logStep, List.length_append]; omega)
      exact ⟨a', r1, r2, r3, r4⟩
    | setState s =>
      obtain ⟨l0, x, rfl⟩ : ∃ l0 x, log = l0 ++ [x] :=
        ⟨log.dropLast, log.getLast hne, (List.dropLast_append_getLast hne).symm⟩
      rw [lastN_append_one n hn] at hlog
      let a1 : Agent K St Act B E Sh := { a with history := Spec.lastN (n-1) l0 ++ [(s, x.2)] }
      have hs : Agent.setCurrentState a s = .ok a1 := by
        unfold Agent.setCurrentState
        rw [hlog]; simp [a1]
      have hl : Spec.logStep P (l0 ++ [x]) (.setState s) = l0 ++ [(s, x.2)] := by
        simp [Spec.logStep]
      obtain ⟨a', r1, r2, r3, r4⟩ := ih a1 (l0 ++ [(s, x.2)]) hm
        (by rw [lastN_append_one n hn]) (by simp)
        (by intro h; have := hfull h; simpa using this)
      refine ⟨a', ?_, ?_, ?_, r4⟩
      · show (Agent.setCurrentState a s >>= fun a1 => Agent.runH P a1 ops) = _
        rw [hs]; exact r1
      · rw [List.foldl_cons, hl]; exact r2
      · rw [List.foldl_cons, hl]; exact r3

/-- **C03**: after construction and any sequence of updates (and corrections of the current state) no
call fails, and the history is exactly the newest `max 1 maxHistory` entries of everything executed so
far, in order. -/
theorem C03_history_is_window (P : Plug K St Act B E Sh Box O) (id : Nat) (s0 : St) (b0 : B) (e0 : E)
    (sh : Sh) (maxHist : Nat) (fv : K) (ops : List (Agent.HOp St Act B E)) :
    ∃ a, Agent.runH P (Agent.mk' P id s0 b0 e0 sh maxHist fv) ops = .ok a ∧
      a.history = Spec.lastN (max 1 maxHist)
        (ops.foldl (Spec.logStep P) [(s0, P.lastAction b0)]) := by
  obtain ⟨a', h1, h2, _, _⟩ := runH_spec P ops (Agent.mk' P id s0 b0 e0 sh maxHist fv)
    [(s0, P.lastAction b0)] (max 1 maxHist) (by omega) (by simp [Agent.mk'])
    (by
      have : 1 - max 1 maxHist = 0 := by omega
      simp [Agent.mk', Spec.lastN, this]) (by simp)
    (by simp only [Agent.mk', List.length_singleton]; omega)
  exact ⟨a', h1, h2⟩

/-- **C03** (bound): the configured maximum is respected whenever it is at least one. -/
theorem C03_history_bounded (P : Plug K St Act B E Sh Box O) (id : Nat) (s0 : St) (b0 : B) (e0 : E)
    (sh : Sh) (maxHist : Nat) (fv : K) (ops : List (Agent.HOp St Act B E))
    (a : Agent K St Act B E Sh) (h : Agent.runH P (Agent.mk' P id s0 b0 e0 sh maxHist fv) ops = .ok a)
    (hmax : 1 ≤ maxHist) : a.history.length ≤ maxHist := by
  obtain ⟨a', h1, h2⟩ := C03_history_is_window P id s0 b0 e0 sh maxHist fv ops
  rw [h1] at h; cases h
  rw [h2, lastN_length]; omega

/-- **C03** (last entry): right after an update the newest entry is the executed state and the last
action. -/
theorem C03_last_is_executed (P : Plug K St Act B E Sh Box O) (id : Nat) (s0 : St) (b0 : B) (e0 : E)
    (sh : Sh) (maxHist : Nat) (fv : K) (ops : List (Agent.HOp St Act B E)) (b : B) (e : E)
    (a : Agent K St Act B E Sh)
    (h : Agent.runH P (Agent.mk' P id s0 b0 e0 sh maxHist fv) (ops ++ [.update b e]) = .ok a) :
    a.history.getLast? = some (P.executedState e, P.lastAction b) ∧
    a.currentState = .ok (P.executedState e) := by
  obtain ⟨a', h1, h2⟩ := C03_history_is_window P id s0 b0 e0 sh maxHist fv (ops ++ [.update b e])
  rw [h1] at h; cases h
  rw [List.foldl_append] at h2
  simp only [List.foldl_cons, List.foldl_nil, Spec.logStep] at h2
  rw [lastN_append_one _ (by omega)] at h2
  constructor
  · rw [h2]; simp
  · unfold Agent.currentState; rw [h2]; simp

/-- C03 counterpart for `SetStateInputHistory`: a history longer than the maximum is never trimmed back,
its length stays. -/
theorem C03_set_history_not_trimmed (P : Plug K St Act B E Sh Box O) (a : Agent K St Act B E Sh)
    (h : List (St × Act)) (hne : h ≠ []) (hlong : a.maxHist ≤ h.length)
    (ops : List (Agent.HOp St Act B E)) :
    ∃ a', Agent.runH P (a.setHistory h) ops = .ok a' ∧ a'.history.length = h.length ∧
      a'.history = Spec.lastN h.length (ops.foldl (Spec.logStep P) h) := by
  have hpos : 1 ≤ h.length := List.length_pos_iff.2 hne
  have h0 : (a.setHistory h).history = Spec.lastN h.length h := by
    simp [Agent.setHistory, Spec.lastN]
  obtain ⟨a', h1, h2, h8, h9⟩ := runH_spec P ops (a.setHistory h) h h.length hpos hlong h0 hne
    (fun _ => le_rfl)
  refine ⟨a', h1, ?_, h2⟩
  rw [h2, lastN_length]
  have hlen : ∀ (l : List (St × Act)), l ≠ [] → l.length ≤ (ops.foldl (Spec.logStep P) l).length := by
    clear h0 h1 h2 h8 h9
    induction ops with
    | nil => intro l _; simp
    | cons op ops ih =>
      intro l hl
      simp only [List.foldl_cons]
      have h3 : l.length ≤ (Spec.logStep P l op).length ∧ Spec.logStep P l op ≠ [] := by
        cases op with
        | update b e => simp [Spec.logStep]
        | setState s =>
          obtain ⟨l0, x, rfl⟩ : ∃ l0 x, l = l0 ++ [x] :=
            ⟨l.dropLast, l.getLast hl, (List.dropLast_append_getLast hl).symm⟩
          simp [Spec.logStep]
      exact le_trans h3.1 (ih _ h3.2)
  have := hlen h hne
  omega

/-- **C04**: reading the current state never fails, after construction and any sequence of updates,
for every configured maximum (also 0). -/
theorem C04_current_state_defined (P : Plug K St Act B E Sh Box O) (id : Nat) (s0 : St) (b0 : B)
    (e0 : E) (sh : Sh) (maxHist : Nat) (fv : K) (ops : List (Agent.HOp St Act B E)) :
    ∃ a s, Agent.runH P (Agent.mk' P id s0 b0 e0 sh maxHist fv) ops = .ok a ∧
      a.currentState = .ok s := by
  obtain ⟨a', h1, h2, h3, _⟩ := runH_spec P ops (Agent.mk' P id s0 b0 e0 sh maxHist fv)
    [(s0, P.lastAction b0)] (max 1 maxHist) (by omega) (by simp [Agent.mk'])
    (by
      have : 1 - max 1 maxHist = 0 := by omega
      simp [Agent.mk', Spec.lastN, this]) (by simp)
    (by simp only [Agent.mk', List.length_singleton]; omega)
  have hlen := lastN_length (max 1 maxHist) (ops.foldl (Spec.logStep P) [(s0, P.lastAction b0)])
  have hp : 1 ≤ (ops.foldl (Spec.logStep P) [(s0, P.lastAction b0)]).length :=
    List.length_pos_iff.2 h3
  have hne : a'.history ≠ [] := by
    rw [h2]; intro h; rw [h] at hlen; simp at hlen; omega
  refine ⟨a', (a'.history.getLast hne).1, h1, ?_⟩
  unfold Agent.currentState
  rw [List.getLast?_eq_getLast_of_ne_nil hne]

/-- C04, the one way to lose it through the API: `SetStateInputHistory` with an empty history; every
later read is undefined until the next update. -/
theorem C04_empty_history_undefined (a : Agent K St Act B E Sh) :
    (a.setHistory []).currentState = .error .ub := rfl

/-! Concrete instance: a plug-in over ℚ and a history of maximum length 2 and of maximum 0. -/

/-- toy plug-in: state = position, behaviour = velocity, execution state = position -/
def toyPlug : Plug ℚ ℚ ℚ (ℚ × BStatus) ℚ Unit ℚ Unit where
  status b := b.2
  lastAction b := b.1
  plan b _ _ _ := b
  execute e _ b := e + b.1
  execStatus _ := .valid
  executedState e := e
  observe o w _ := (o, w)
  envelope _ s := s
  within b mb := decide (b ≤ mb)

example : ∃ a : Agent ℚ ℚ ℚ (ℚ × BStatus) ℚ Unit,
    Agent.runH toyPlug (Agent.mk' toyPlug 7 (0 : ℚ) (1, .valid) (0 : ℚ) () 2 (0 : ℚ))
      [.update (1, .valid) 1, .update (2, .valid) 3, .setState 4] = .ok a ∧
    a.history = [(1, 1), (4, 2)] :=
  ⟨_, rfl, rfl⟩

example : ∃ a : Agent ℚ ℚ ℚ (ℚ × BStatus) ℚ Unit,
    Agent.runH toyPlug (Agent.mk' toyPlug 7 (0 : ℚ) (1, .valid) (0 : ℚ) () 0 (0 : ℚ))
      [.update (1, .valid) 1, .update (2, .valid) 3] = .ok a ∧
    a.history = [(3, 2)] :=
  ⟨_, rfl, rfl⟩

end Bark.Props
