import Verif.Spec.Ids
import Verif.Lemmas.World
import Mathlib.Data.List.Nodup

/-!
C52: ids of objects.
-/
namespace Bark.Ids
open Spec

theorem idRange_eq : idRange = 2 ^ 32 := rfl

/-- State of a process whose history made `c` constructor calls so far (not wrapped) and whose
objects have origins `acc`. -/
structure Inv (p : Proc) (acc : List Nat) (c : Nat) : Prop where
  len : p.ids.length = acc.length
  count : p.count = c % idRange
  below : ∀ i ∈ p.ids, i < c
  orig : ∀ o ∈ acc, o < acc.length
  same : ∀ a b ia ib : Nat, p.ids[a]? = some ia → p.ids[b]? = some ib → (ia = ib ↔ acc[a]? = acc[b]?)

theorem constructions_cons (o : Op) (os : List Op) :
    constructions (o :: os) = constructions [o] + constructions os := by
  cases o <;> simp [constructions, List.filter_cons] <;> omega

theorem inv_run (os : List Op) : ∀ (p : Proc) (acc : List Nat) (c : Nat) (q : Proc), Inv p acc c → Plain os →
    c + constructions os ≤ idRange → run p os = .ok q →
    Inv q (origins acc os) (c + constructions os) := by
  induction os with
  | nil =>
    intro p acc c q hi _ _ hr
    simp only [run] at hr
    cases hr
    simpa [origins, constructions] using hi
  | cons o os ih =>
    intro p acc c q hi hp hc hr
    have hp' : Plain os := fun x hx => hp x (by simp [hx])
    rw [constructions_cons] at hc
    rcases hp o (by simp) with ho | ⟨h, ho⟩
    · subst ho
      have e1 : constructions [Op.construct] = 1 := rfl
      rw [e1] at hc
      have hlt : c < idRange := by omega
      have hr' : run (construct p) os = .ok q := by simpa [run, step, Res.ok_bind] using hr
      have hcnt : p.count = c := by rw [hi.count]; exact Nat.mod_eq_of_lt hlt
      have hi' : Inv (construct p) (acc ++ [acc.length]) (c + 1) := by
        refine ⟨by simp [construct, hi.len], by simp [construct, hcnt], ?_, ?_, ?_⟩
        · intro i hm
          simp only [construct, List.mem_append, List.mem_singleton] at hm
          rcases hm with hm | hm
          · have := hi.below i hm; omega
          · omega
        · intro x hm
          simp only [List.mem_append, List.mem_singleton] at hm
          rcases hm with hm | hm
          · have := hi.orig x hm; simp; omega
          · simp; omega
        · intro a b ia ib ha hb
          simp only [construct, List.getElem?_append, hi.len] at ha hb ⊢
          by_cases ga : a < acc.length <;> by_cases gb : b < acc.length
          · rw [if_pos ga] at ha; rw [if_pos gb] at hb
            rw [if_pos ga, if_pos gb]
            exact hi.same a b ia ib ha hb
          · rw [if_pos ga] at ha; rw [if_neg gb] at hb
            rw [if_pos ga, if_neg gb]
            have h1 := hi.below ia (List.mem_of_getElem? ha)
            have h2 : ib = c := by
              have := List.mem_of_getElem? hb
              simp only [List.mem_singleton] at this; omega
            have h3 : acc[a]? = some acc[a] := List.getElem?_eq_getElem ga
            have h4 := hi.orig acc[a] (List.getElem_mem ga)
            have h5 : ([acc.length] : List Nat)[b - acc.length]? = some acc.length := by
              have hz : b - acc.length = 0 := by
                by_contra hne
                obtain ⟨k, hk⟩ := Nat.exists_eq_succ_of_ne_zero hne
                rw [hk] at hb; simp at hb
              rw [hz]; rfl
            rw [h3, h5]
            constructor
            · intro e; omega
            · intro e; injection e with e; omega
          · rw [if_neg ga] at ha; rw [if_pos gb] at hb
            rw [if_neg ga, if_pos gb]
            have h1 := hi.below ib (List.mem_of_getElem? hb)
            have h2 : ia = c := by
              have := List.mem_of_getElem? ha
              simp only [List.mem_singleton] at this; omega
            have h3 : acc[b]? = some acc[b] := List.getElem?_eq_getElem gb
            have h4 := hi.orig acc[b] (List.getElem_mem gb)
            have h5 : ([acc.length] : List Nat)[a - acc.length]? = some acc.length := by
              have hz : a - acc.length = 0 := by
                by_contra hne
                obtain ⟨k, hk⟩ := Nat.exists_eq_succ_of_ne_zero hne
                rw [hk] at ha; simp at ha
              rw [hz]; rfl
            rw [h3, h5]
            constructor
            · intro e; omega
            · intro e; injection e with e; omega
          · rw [if_neg ga] at ha; rw [if_neg gb] at hb
            rw [if_neg ga, if_neg gb]
            have za : a - acc.length = 0 := by
              by_contra hne
              obtain ⟨k, hk⟩ := Nat.exists_eq_succ_of_ne_zero hne
              rw [hk] at ha; simp at ha
            have zb : b - acc.length = 0 := by
              by_contra hne
              obtain ⟨k, hk⟩ := Nat.exists_eq_succ_of_ne_zero hne
              rw [hk] at hb; simp at hb
            rw [za] at ha; rw [zb] at hb
            rw [za, zb]
            simp at ha hb
            simp [← ha, ← hb]
      have := ih (construct p) (acc ++ [acc.length]) (c + 1) q hi' hp' (by omega) hr'
      rw [constructions_cons, e1, ← Nat.add_assoc]
      exact this
    · subst ho
      have e1 : constructions [Op.clone h] = 0 := rfl
      rw [e1] at hc
      cases hh : p.ids[h]? with
      | none => simp [run, step, clone, hh, Bind.bind, Except.bind] at hr
      | some i =>
        have hr' : run ⟨p.count, p.ids ++ [i]⟩ os = .ok q := by
          simpa [run, step, clone, hh, Bind.bind, Except.bind] using hr
        obtain ⟨hl, hv⟩ := List.getElem?_eq_some_iff.mp hh
        have hl' : h < acc.length := by rw [← hi.len]; exact hl
        have hacc : acc[h]? = some acc[h] := List.getElem?_eq_getElem hl'
        -- position `n` of the extended list behaves like position `h`
        have key : ∀ a ia : Nat, (p.ids ++ [i])[a]? = some ia →
            ∃ a' : Nat, p.ids[a']? = some ia ∧ (acc ++ [acc[h]])[a]? = acc[a']? := by
          intro a ia ha
          simp only [List.getElem?_append, hi.len] at ha ⊢
          by_cases ga : a < acc.length
          · rw [if_pos ga] at ha
            exact ⟨a, ha, by rw [if_pos ga]⟩
          · rw [if_neg ga] at ha
            have za : a - acc.length = 0 := by
              by_contra hne
              obtain ⟨k, hk⟩ := Nat.exists_eq_succ_of_ne_zero hne
              rw [hk] at ha; simp at ha
            rw [za] at ha
            simp at ha
            refine ⟨h, by rw [hh, ha], ?_⟩
            rw [if_neg ga, za, hacc]; rfl
        have hi' : Inv ⟨p.count, p.ids ++ [i]⟩ (acc ++ [acc[h]]) c := by
          refine ⟨by simp [hi.len], hi.count, ?_, ?_, ?_⟩
          · intro x hm
            simp only [List.mem_append, List.mem_singleton] at hm
            rcases hm with hm | hm
            · exact hi.below x hm
            · rw [hm]; exact hi.below i (List.mem_of_getElem? hh)
          · intro x hm
            simp only [List.mem_append, List.mem_singleton] at hm
            have : x < acc.length := by
              rcases hm with hm | hm
              · exact hi.orig x hm
              · rw [hm]; exact hi.orig _ (List.getElem_mem hl')
            simp; omega
          · intro a b ia ib ha hb
            obtain ⟨a', ha', ea⟩ := key a ia ha
            obtain ⟨b', hb', eb⟩ := key b ib hb
            rw [ea, eb]
            exact hi.same a' b' ia ib ha' hb'
        have := ih ⟨p.count, p.ids ++ [i]⟩ (acc ++ [acc[h]]) c q hi' hp' (by omega) hr'
        rw [constructions_cons, e1, Nat.zero_add]
        simpa [origins, hacc] using this

/-- **C52** (construct / clone).  In a process that only constructs and clones objects, and
constructs at most 2^32 of them, two objects have the same id exactly when they have the same
origin: constructed objects have pairwise different ids and every clone (of a clone ...) has the id
of the constructed object it stems from. -/
theorem C52_unique (os : List Op) (q : Proc) (hp : Plain os)
    (hc : constructions os ≤ 2 ^ 32) (hr : run Proc.start os = .ok q) :
    q.ids.length = (origins [] os).length ∧
    ∀ a b ia ib : Nat, q.ids[a]? = some ia → q.ids[b]? = some ib →
      (ia = ib ↔ (origins [] os)[a]? = (origins [] os)[b]?) := by
  have h0 : Inv Proc.start [] 0 :=
    ⟨rfl, rfl, by simp [Proc.start], by simp, by simp [Proc.start]⟩
  have h := inv_run os Proc.start [] 0 q h0 hp (by rw [idRange_eq]; omega) hr
  exact ⟨h.len, h.same⟩

/-- Example: construct, clone, construct, clone the clone. -/
example : run Proc.start [.construct, .clone 0, .construct, .clone 1] = .ok ⟨2, [0, 0, 1, 0]⟩ ∧
    origins [] [.construct, .clone 0, .construct, .clone 1] = [0, 0, 2, 0] ∧
    Plain [.construct, .clone 0, .construct, .clone 1] := by
  refine ⟨rfl, rfl, ?_⟩
  intro o ho
  simp at ho
  rcases ho with rfl | rfl | rfl | rfl <;> simp

/-- **C52** (clone).  In any process, cloning an existing object adds one object with the id of the
original, changes no other object and takes no id from the counter. -/
theorem C52_clone_keeps_id (p q : Proc) (h : Nat) (hr : step p (.clone h) = .ok q) :
    q.ids.length = p.ids.length + 1 ∧ q.ids[p.ids.length]? = p.ids[h]? ∧
    (∀ a, a < p.ids.length → q.ids[a]? = p.ids[a]?) ∧
    (∀ p', run q [.construct] = .ok p' → ∀ p'', run p [.construct] = .ok p'' →
      p'.ids.getLast? = p''.ids.getLast?) := by
  cases hh : p.ids[h]? with
  | none => simp [step, clone, hh] at hr
  | some i =>
    simp only [step, clone, hh] at hr
    cases hr
    refine ⟨by simp, by simp, fun a ha => by simp [List.getElem?_append, ha], ?_⟩
    intro p' h1 p'' h2
    simp only [run, step, Res.ok_bind] at h1 h2
    cases h1; cases h2
    simp [construct]

theorem ids_below (os : List Op) : ∀ (p : Proc) (c n : Nat) (q : Proc), p.count = c % idRange →
    (∀ i ∈ p.ids, i < n) → c + constructions os ≤ n → WritesBelow n os → run p os = .ok q →
    (∀ i ∈ q.ids, i < n) ∧ q.count = (c + constructions os) % idRange := by
  induction os with
  | nil =>
    intro p c n q h1 h2 _ _ hr
    simp only [run] at hr; cases hr
    exact ⟨h2, by simpa [constructions] using h1⟩
  | cons o os ih =>
    intro p c n q h1 h2 h3 h4 hr
    rw [constructions_cons] at h3 ⊢
    have h4' : WritesBelow n os := fun x hx => h4 x (by simp [hx])
    obtain ⟨p', hs, hr'⟩ := Res.bind_ok hr
    have hmod : c % idRange ≤ c := Nat.mod_le _ _
    cases o with
    | construct =>
      have e1 : constructions [Op.construct] = 1 := rfl
      rw [e1] at h3 ⊢
      simp only [step] at hs; cases hs
      rw [← Nat.add_assoc]
      refine ih (construct p) (c + 1) n q ?_ ?_ (by omega) h4' hr'
      · simp only [construct, h1]; exact Nat.mod_add_mod _ _ _
      · intro i hi
        simp only [construct, List.mem_append, List.mem_singleton] at hi
        rcases hi with hi | hi
        · exact h2 i hi
        · omega
    | clone h =>
      have e1 : constructions [Op.clone h] = 0 := rfl
      rw [e1] at h3 ⊢
      rw [Nat.zero_add]
      cases hh : p.ids[h]? with
      | none => simp [step, clone, hh] at hs
      | some i =>
        simp only [step, clone, hh] at hs; cases hs
        refine ih ⟨p.count, p.ids ++ [i]⟩ c n q h1 ?_ (by omega) h4' hr'
        intro x hx
        simp only [List.mem_append, List.mem_singleton] at hx
        rcases hx with hx | hx
        · exact h2 x hx
        · rw [hx]; exact h2 i (List.mem_of_getElem? hh)
    | setId h id =>
      have e1 : constructions [Op.setId h id] = 0 := rfl
      rw [e1] at h3 ⊢
      rw [Nat.zero_add]
      cases hh : p.ids[h]? with
      | none => simp [step, setId, hh] at hs
      | some i =>
        simp only [step, setId, hh] at hs; cases hs
        refine ih ⟨p.count, p.ids.set h id⟩ c n q h1 ?_ (by omega) h4' hr'
        intro x hx
        rcases List.mem_or_eq_of_mem_set hx with hx | hx
        · exact h2 x hx
        · rw [hx]; exact (h4 _ (by simp)).1 h id rfl
    | restore id =>
      have e1 : constructions [Op.restore id] = 1 := rfl
      rw [e1] at h3 ⊢
      simp only [step] at hs; cases hs
      rw [← Nat.add_assoc]
      refine ih (restore p id) (c + 1) n q ?_ ?_ (by omega) h4' hr'
      · simp only [restore, construct, h1]; exact Nat.mod_add_mod _ _ _
      · intro i hi
        simp only [restore, List.mem_append, List.mem_singleton] at hi
        rcases hi with hi | hi
        · exact h2 i hi
        · rw [hi]; exact (h4 _ (by simp)).2 id rfl

/-- **C52** (with explicit ids).  Whatever mix of constructions, clones, `SetAgentId` and
unpickling a process went through: if every id written explicitly is smaller than the number of
constructor calls so far (fewer than 2^32), the next constructed object gets an id that no existing
object has. -/
theorem C52_fresh (os : List Op) (q q' : Proc) (hw : WritesBelow (constructions os) os)
    (hc : constructions os < 2 ^ 32) (hr : run Proc.start os = .ok q)
    (hn : step q .construct = .ok q') :
    ∃ i, q'.ids = q.ids ++ [i] ∧ i ∉ q.ids := by
  have h := ids_below os Proc.start 0 (constructions os) q rfl (by simp [Proc.start]) (by omega) hw hr
  simp only [step] at hn; cases hn
  refine ⟨q.count, rfl, fun hm => ?_⟩
  have := h.1 _ hm
  rw [h.2, Nat.zero_add, Nat.mod_eq_of_lt (by rw [idRange_eq]; exact hc)] at this
  omega

example : run Proc.start [.construct, .restore 0, .construct, .setId 0 1] = .ok ⟨3, [1, 0, 2]⟩ ∧
    WritesBelow (constructions [.construct, .restore 0, .construct, .setId 0 1])
      [.construct, .restore 0, .construct, .setId 0 1] := by
  refine ⟨rfl, ?_⟩
  intro o ho
  simp at ho
  rcases ho with rfl | rfl | rfl | rfl <;> simp [constructions]

/-- **C52** fails after unpickling: in every process whose counter is not about to wrap, an agent
restored with the id one above the counter's value has the same id as the object constructed right
after it, although the two were constructed independently. -/
theorem C52_unpickled_clash (p : Proc) (h : p.count + 1 < 2 ^ 32) :
    ∃ q, run p [.restore (p.count + 1), .construct] = .ok q ∧
      q.ids = p.ids ++ [p.count + 1, p.count + 1] := by
  refine ⟨_, rfl, ?_⟩
  simp only [construct, restore]
  rw [Nat.mod_eq_of_lt (by rw [idRange_eq]; exact h)]
  simp

/-- **C52** fails after `SetAgentId`: any id can be given to any number of objects, and the counter
will hand it out again. -/
theorem C52_set_id_clash (p : Proc) (a : Nat) (ha : a < p.ids.length) :
    ∃ q, run p [.setId a p.count, .construct] = .ok q ∧
      q.ids[a]? = q.ids[p.ids.length]? ∧ a ≠ p.ids.length := by
  refine ⟨construct ⟨p.count, p.ids.set a p.count⟩, ?_, ?_, by omega⟩
  · simp [run, step, setId, List.getElem?_eq_getElem ha, Bind.bind, Except.bind]
  · simp [construct, List.getElem?_append, ha]

theorem run_constructs (n : Nat) : ∀ p : Proc, run p (List.replicate n .construct) =
    .ok ⟨if n = 0 then p.count else (p.count + n) % idRange,
      p.ids ++ (List.range n).map (fun k => if k = 0 then p.count else (p.count + k) % idRange)⟩ := by
  induction n with
  | zero => intro p; simp [run]
  | succ n ih =>
    intro p
    have := ih (construct p)
    simp only [List.replicate_succ, run, step, Res.ok_bind]
    rw [this]
    congr 1
    have e2 : ∀ k, ((p.count + 1) % idRange + k) % idRange = (p.count + (k + 1)) % idRange := by
      intro k; rw [Nat.mod_add_mod]; congr 1; omega
    congr 1
    · cases n with
      | zero => simp [construct]
      | succ n => simp [construct, e2]
    · simp only [construct, List.range_succ_eq_map, List.map_cons, List.map_map, List.append_assoc,
        List.singleton_append]
      simp only [if_pos]
      congr 2
      apply List.map_congr_left
      intro k _
      simp only [Function.comp]
      cases k with
      | zero => simp
      | succ k => simp [e2]

theorem wraps_aux (n : Nat) (hn : n = idRange) (hn0 : n ≠ 0) :
    ∃ q, run Proc.start (List.replicate (n + 1) .construct) = .ok q ∧
    q.ids.length = n + 1 ∧ q.ids[0]? = q.ids[n]? := by
  refine ⟨_, run_constructs (n + 1) Proc.start, by simp [Proc.start], ?_⟩
  simp only [Proc.start, List.nil_append, List.getElem?_map]
  rw [List.getElem?_range (by omega), List.getElem?_range (by omega)]
  simp only [Option.map_some, if_neg hn0, if_pos, Nat.zero_add]
  rw [← hn, Nat.mod_self]

/-- **C52** fails beyond the counter's range: the object constructed after 2^32 others has the id of
the first one. -/
theorem C52_wraps (n : Nat) (hn : n = 2 ^ 32) :
    ∃ q, run Proc.start (List.replicate (n + 1) .construct) = .ok q ∧
    q.ids.length = n + 1 ∧ q.ids[0]? = q.ids[n]? :=
  wraps_aux n (by rw [idRange_eq]; exact hn) (by omega)

/-- **C52** (what uniqueness buys).  Agents with pairwise different ids that are added to a world
are all there afterwards, each under its own id. -/
theorem C52_all_agents_stored (p : Proc) (hs : List Nat) (s s' : Store)
    (hd : (hs.map (fun h => p.ids[h]?)).Nodup) (hr : addAgents p s hs = .ok s') :
    (∀ h ∈ hs, ∃ i, p.ids[h]? = some i ∧ OMap.find i s'.agents = some h) ∧
    (∀ i, some i ∉ hs.map (fun h => p.ids[h]?) → OMap.find i s'.agents = OMap.find i s.agents) ∧
    s'.objects = s.objects := by
  induction hs generalizing s with
  | nil =>
    simp only [addAgents] at hr; cases hr
    exact ⟨by simp, fun _ _ => rfl, rfl⟩
  | cons h hs ih =>
    obtain ⟨s1, h1, h2⟩ := Res.bind_ok hr
    rw [List.map_cons, List.nodup_cons] at hd
    obtain ⟨r1, r2, r3⟩ := ih s1 hd.2 h2
    cases hh : p.ids[h]? with
    | none => simp [addAgent, hh] at h1
    | some i =>
      simp only [addAgent, hh] at h1; cases h1
      refine ⟨?_, ?_, r3⟩
      · intro x hx
        rcases List.mem_cons.mp hx with e | e
        · subst e
          refine ⟨i, hh, ?_⟩
          rw [r2 i (by rw [← hh]; exact hd.1), OMap.find_insert, if_pos rfl]
        · exact r1 x e
      · intro j hj
        simp only [List.map_cons, List.mem_cons, not_or] at hj
        rw [r2 j hj.2, OMap.find_insert, if_neg]
        intro e; apply hj.1; rw [hh, e]

example : addAgents ⟨2, [0, 0, 1, 0]⟩ ⟨[], []⟩ [3, 2] = .ok ⟨[(0, 3), (1, 2)], []⟩ := by decide

/-- **C52** (what a clash costs).  Adding an agent whose id an agent of the world already has
silently replaces that agent. -/
theorem C52_clash_replaces (p : Proc) (s s1 s2 : Store) (a b i : Nat) (hab : a ≠ b)
    (ha : p.ids[a]? = some i) (hb : p.ids[b]? = some i)
    (h1 : addAgent p s a = .ok s1) (h2 : addAgent p s1 b = .ok s2) (hs : OMap.Sorted s.agents)
    (hn : ∀ j, OMap.find j s.agents ≠ some a) :
    OMap.find i s1.agents = some a ∧ OMap.find i s2.agents = some b ∧
    ∀ j, OMap.find j s2.agents ≠ some a := by
  simp only [addAgent, ha] at h1; cases h1
  simp only [addAgent, hb] at h2; cases h2
  refine ⟨by rw [OMap.find_insert, if_pos rfl], by rw [OMap.find_insert, if_pos rfl], ?_⟩
  intro j
  rw [OMap.find_insert]
  by_cases g : j = i
  · rw [if_pos g]; intro e; injection e with e; exact hab e.symm
  · rw [if_neg g, OMap.find_insert, if_neg g]; exact hn j

/-- **C52** (objects).  Objects are kept apart from the agents: adding an object with the id of an
agent leaves all agents in place, and the object is found under its id. -/
theorem C52_objects_separate (p : Proc) (s s' : Store) (h i : Nat) (hi : p.ids[h]? = some i)
    (hr : addObject p s h = .ok s') :
    s'.agents = s.agents ∧ OMap.find i s'.objects = some h ∧
    ∀ j, j ≠ i → OMap.find j s'.objects = OMap.find j s.objects := by
  simp only [addObject, hi] at hr; cases hr
  refine ⟨rfl, by rw [OMap.find_insert, if_pos rfl], fun j hj => ?_⟩
  rw [OMap.find_insert, if_neg hj]

example : addObject ⟨2, [0, 1]⟩ ⟨[(1, 1)], []⟩ 1 = .ok ⟨[(1, 1)], [(1, 1)]⟩ := by decide

end Bark.Ids
