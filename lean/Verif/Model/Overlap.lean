import Verif.Model.Basic
import Mathlib.Algebra.Order.Field.Basic

/-!
Model of the resolution of overlaps between the sources of a scenario:
`bark/runtime/scenario/scenario_generation/configurable_scenario_generation.py:237-413` (abbreviated csg.py).
Agents are identified by the index of their source and their index in it. The bounding box tree (`aabbtree`) and the
polygon test (`Collide`) are parameters.
-/
namespace Bark.Gen

/-- source index and agent index -/
abbrev Id := Nat × Nat

/-- a Python dictionary in insertion order -/
abbrev Dict (κ α : Type) := List (κ × α)

section
variable {κ α : Type} [DecidableEq κ]

/-- `k in d` -/
def Dict.has (k : κ) : Dict κ α → Bool
  | [] => false
  | (k', _) :: d => k' = k || Dict.has k d

/-- `d[k]`, with a default (`defaultdict`) -/
def Dict.getD (k : κ) (dflt : α) : Dict κ α → α
  | [] => dflt
  | (k', v) :: d => if k' = k then v else Dict.getD k dflt d

/-- `d[k] = v` -/
def Dict.put (k : κ) (v : α) : Dict κ α → Dict κ α
  | [] => [(k, v)]
  | (k', v') :: d => if k' = k then (k, v) :: d else (k', v') :: Dict.put k v d
end

/-- csg.py:268 `collisions`: pairs of sources with the pairs of agents found to collide (the string key "i-j" as a
pair) -/
abbrev Collisions := Dict Id (List (Id × Id))

/-- csg.py:289-297: the key under which collisions of two sources are kept -/
def pairKey (c : Collisions) (i j : Nat) : Id :=
  if Dict.has (i, j) c then (i, j) else if Dict.has (j, i) c then (j, i) else (i, j)

/-- csg.py:281-317: agent `x` against one entry `o` found in the tree; looking up the key creates it -/
def findStep (col : Id → Id → Bool) (x : Id) (c : Collisions) (o : Id) : Res Collisions :=
  if x.1 = o.1 then (if x.2 = o.2 then .ok c else .error .thrown)
  else
    let key := pairKey c x.1 o.1
    let l := Dict.getD key [] c
    if !(l.any fun p => p.1 = o) && col x o then .ok (Dict.put key (l ++ [(x, o)]) c)
    else .ok (Dict.put key l c)

/-- csg.py:270-317: one agent against everything the tree reports -/
def findAgent (col : Id → Id → Bool) (x : Id) : Collisions → List Id → Res Collisions
  | c, [] => .ok c
  | c, o :: os =>
    match findStep col x c o with
    | .error f => .error f
    | .ok c' => findAgent col x c' os

/-- csg.py:269-317: all agents; `near x` is what the tree reports for the bounding box of `x` -/
def findAll (near : Id → List Id) (col : Id → Id → Bool) : Collisions → List Id → Res Collisions
  | c, [] => .ok c
  | c, x :: xs =>
    match findAgent col x c (near x) with
    | .error f => .error f
    | .ok c' => findAll near col c' xs

/-- the ids of all agents in the order of the loops csg.py:269-274 -/
def idsFrom {A : Type} : Nat → List (List A) → List Id
  | _, [] => []
  | i, l :: ls => (List.range l.length).map (fun a => (i, a)) ++ idsFrom (i + 1) ls

/-- a weight of the conflict resolution: Python int or float -/
inductive Weight (K : Type) where
  | int (n : Nat)
  | float (x : K)

section
variable {K D : Type} [LinearOrder K] [Add K] [DecidableEq D]

/-- csg.py:370-399 `parse_conflict_resolution` and csg.py:336-338: weights of two descriptions in either order; missing
or mixed weights raise an exception, integers are not implemented. Keys "a/b" are pairs. -/
def weights (table : Dict (D × D) (Weight K × Weight K)) (d1 d2 : D) : Res (K × K) :=
  let w : Option (Weight K × Weight K) :=
    if Dict.has (d1, d2) table then some (Dict.getD (d1, d2) (.int 0, .int 0) table)
    else if Dict.has (d2, d1) table then
      some ((Dict.getD (d2, d1) (.int 0, .int 0) table).2, (Dict.getD (d2, d1) (.int 0, .int 0) table).1)
    else none
  match w with
  | some (.float a, .float b) => .ok (a, b)
  | _ => .error .thrown

/-- `must_delete[s].append(a)` unless it is in the list already (csg.py:349-350) -/
def mark (m : Dict Nat (List Nat)) (x : Id) : Dict Nat (List Nat) :=
  if x.2 ∈ Dict.getD x.1 [] m then m else Dict.put x.1 (Dict.getD x.1 [] m ++ [x.2]) m

/-- csg.py:346-358: which of the two colliding agents is deleted for a sample -/
def resolveOne [OfNat K 0] (w : K × K) (u : K) (m : Dict Nat (List Nat)) (p : Id × Id) : Dict Nat (List Nat) :=
  if 0 ≤ u ∧ u ≤ w.1 then mark m p.1
  else if w.1 < u ∧ u ≤ w.1 + w.2 then mark m p.2
  else mark (mark m p.1) p.2

/-- csg.py:340-358: all colliding pairs of two sources; `k` samples have been drawn before -/
def resolvePairs [OfNat K 0] (w : K × K) (u : Nat → K) : Dict Nat (List Nat) → Nat → List (Id × Id) →
    Dict Nat (List Nat) × Nat
  | m, k, [] => (m, k)
  | m, k, p :: ps => resolvePairs w u (resolveOne w (u k) m p) (k + 1) ps

/-- csg.py:326-358: all pairs of sources -/
def resolveAll [OfNat K 0] (table : Dict (D × D) (Weight K × Weight K)) (desc : Nat → D) (u : Nat → K) :
    Dict Nat (List Nat) → Nat → Collisions → Res (Dict Nat (List Nat))
  | m, _, [] => .ok m
  | m, k, (key, ps) :: cs =>
    match weights table (desc key.1) (desc key.2) with
    | .error f => .error f
    | .ok w => resolveAll table desc u (resolvePairs w u m k ps).1 (resolvePairs w u m k ps).2 cs

end

section
variable {A : Type}

/-- `del l[i]` -/
def delAt (l : List A) (i : Nat) : Res (List A) := if i < l.length then .ok (l.eraseIdx i) else .error .thrown

/-- csg.py:364-366 for sorted indices -/
def delAll : List A → List Nat → Res (List A)
  | l, [] => .ok l
  | l, i :: is =>
    match delAt l i with
    | .error f => .error f
    | .ok l' => delAll l' is

/-- `sorted(…, reverse=True)` -/
def insertDesc (a : Nat) : List Nat → List Nat
  | [] => [a]
  | b :: l => if b ≤ a then a :: b :: l else b :: insertDesc a l

/-- `sorted(…, reverse=True)` -/
def sortDesc : List Nat → List Nat
  | [] => []
  | a :: l => insertDesc a (sortDesc l)

/-- csg.py:360-368: the deletions, source by source -/
def applyDeletions : List (List A) → Dict Nat (List Nat) → Res (List (List A))
  | ls, [] => .ok ls
  | ls, (s, ds) :: m =>
    match ls[s]? with
    | none => .error .thrown
    | some l =>
      match delAll l (sortDesc ds) with
      | .error f => .error f
      | .ok l' => applyDeletions (ls.set s l') m

variable {K D : Type} [LinearOrder K] [Add K] [OfNat K 0] [DecidableEq D]

/-- csg.py:237-246 `resolve_overlaps_in_sources_sinks_agents`; the random generator is seeded again
(csg.py:325), so the samples start from the beginning. The states and geometries of an agent are deleted together: an
agent is one entry of `ls`. -/
def resolveOverlaps (near : Id → List Id) (col : Id → Id → Bool) (table : Dict (D × D) (Weight K × Weight K))
    (desc : Nat → D) (u : Nat → K) (ls : List (List A)) : Res (List (List A)) :=
  match findAll near col [] (idsFrom 0 ls) with
  | .error f => .error f
  | .ok c =>
    match resolveAll table desc u [] 0 c with
    | .error f => .error f
    | .ok m => applyDeletions ls m

end
end Bark.Gen
