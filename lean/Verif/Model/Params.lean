import Verif.Model.Basic

/-!
Model of `bark/commons/params/setter_params.hpp`, `setter_params.cpp` and of
`Params::operator==` in `params.cpp`.

`std::string` is a list of characters.  A `SetterParams` object lives on a heap (a list of nodes, the
address of a node is its index); `childs_` stores addresses (`std::shared_ptr`).  `F` stands for
`double`.  `std::unordered_map` is an association list (`M`), whose iteration order is arbitrary: the
theorems about the condensed list therefore quantify over all its permutations.
Not modelled: logging of defaults (`log_if_default_`), descriptions.
-/
namespace Bark.Par

/-- `std::string`. -/
abbrev Str := List Char

/-- the alternatives of `Parameter` – params.hpp:25-26; the six maps – setter_params.hpp:185-191. -/
inductive Ty where
  | bool | real | int | str | listListFloat | listFloat
  deriving DecidableEq

/-- C++ value type of each alternative – params.hpp:21-26. -/
def Val (F : Type) : Ty → Type
  | .bool => Bool
  | .real => F
  | .int => Int
  | .str => Str
  | .listListFloat => List (List F)
  | .listFloat => List F

/-- `std::unordered_map<std::string, α>`. -/
abbrev M (α : Type) := List (Str × α)

/-- `map.find(k)`. -/
def M.find {α : Type} (k : Str) : M α → Option α
  | [] => none
  | (k', v) :: m => if k = k' then some v else M.find k m

/-- `map[k] = v`. -/
def M.set {α : Type} (k : Str) (v : α) : M α → M α
  | [] => [(k, v)]
  | (k', v') :: m => if k = k' then (k, v) :: m else (k', v') :: M.set k v m

/-- data members – setter_params.hpp:184-191; the six typed maps as a function of the type. -/
structure Node (F : Type) where
  childs : M Nat
  params : (t : Ty) → M (Val F t)

/-- all `SetterParams` objects. -/
abbrev Heap (F : Type) := List (Node F)

/-- a freshly constructed object – setter_params.hpp:21-27. -/
def Node.empty {F : Type} : Node F := ⟨[], fun _ => []⟩

/-- the heap right after constructing one `SetterParams` (its address is 0) – setter_params.hpp:21-27. -/
def fresh {F : Type} : Heap F := [Node.empty]

/-- `name.find("::")` together with `substr(0,pos)` and `erase(0,pos+2)` –
setter_params.hpp:108-113, 137-144, 172-178.  `none` is `npos`. -/
def findDelim : Str → Option (Str × Str)
  | [] => none
  | [_] => none
  | c :: d :: s =>
      if c = ':' ∧ d = ':' then some ([], s)
      else match findDelim (d :: s) with
        | some (a, b) => some (c :: a, b)
        | none => none

theorem findDelim_length : ∀ {s a b : Str}, findDelim s = some (a, b) → b.length < s.length := by
  intro s
  induction s with
  | nil => intro a b h; simp [findDelim] at h
  | cons c s ih =>
    intro a b h
    cases s with
    | nil => simp [findDelim] at h
    | cons d s =>
      unfold findDelim at h
      split at h
      · cases h; simp only [List.length_cons]; omega
      · split at h
        · rename_i _ _ a' b' hb
          cases h
          have := ih hb
          simp only [List.length_cons] at *
          omega
        · cases h

variable {F : Type}

/-- members of the object at an address; a dangling address does not occur (proved invariant). -/
def node (h : Heap F) (a : Nat) : Node F := (h[a]?).getD Node.empty

/-- look up the child `c` of object `a`, creating it when missing – setter_params.hpp:115-122. -/
def child (h : Heap F) (a : Nat) (c : Str) : Heap F × Nat :=
  match M.find c (node h a).childs with
  | some b => (h, b)
  | none =>
      (h.modify a (fun x => { x with childs := M.set c h.length x.childs }) ++ [Node.empty], h.length)

/-- `AddChild` – setter_params.hpp:102-128.  Returns the heap and the address of the child. -/
def addChild (h : Heap F) (a : Nat) (name : Str) : Heap F × Nat :=
  match hf : findDelim name with
  | some (c, rest) =>
      if rest = [] then child h a c
      else addChild (child h a c).1 (child h a c).2 rest
  | none => child h a name
termination_by name.length
decreasing_by exact findDelim_length hf

/-- the assignment `map[param_name] = value` in the map of type `t` – setter_params.hpp:149. -/
def assign (h : Heap F) (a : Nat) (n : Str) (t : Ty) (v : Val F t) : Heap F :=
  h.modify a (fun x =>
    { x with
      params := fun t' => if e : t = t' then M.set n (e ▸ v) (x.params t') else x.params t' })

/-- `set_parameter`, i.e. `SetBool`, `SetReal`, … – setter_params.hpp:64-84, 134-150.
The inner `AddChild` gets a name without delimiter, i.e. it is the full `AddChild`. -/
def set (h : Heap F) (a : Nat) (n : Str) (t : Ty) (v : Val F t) : Heap F :=
  match hf : findDelim n with
  | some (c, rest) => set (addChild h a c).1 (addChild h a c).2 rest t v
  | none => assign h a n t v
termination_by n.length
decreasing_by exact findDelim_length hf

/-- `get_parameter_recursive` – setter_params.hpp:163-182: heap after the call (children are created
while looking up), the value if found. -/
def getRec (h : Heap F) (a : Nat) (n : Str) (t : Ty) : Heap F × Option (Val F t) :=
  match M.find n ((node h a).params t) with
  | some v => (h, some v)
  | none =>
      match hf : findDelim n with
      | some (c, rest) => getRec (addChild h a c).1 (addChild h a c).2 rest t
      | none => (h, none)
termination_by n.length
decreasing_by exact findDelim_length hf

/-- `get_parameter`, i.e. `GetBool`, `GetReal`, … – setter_params.hpp:33-62, 152-161. -/
def get (h : Heap F) (a : Nat) (n : Str) (t : Ty) (dflt : Val F t) : Heap F × Val F t :=
  ((getRec h a n t).1, ((getRec h a n t).2).getD dflt)

/-- `SetDistribution` – setter_params.hpp:86-91. -/
def setDistribution (h : Heap F) (a : Nat) (n ty : Str) : Heap F :=
  set h a (n ++ "::DistributionType".toList) .str ty

/-- `GetDistribution` – params.cpp:33-41, up to the construction of the distribution object: the type
string and the child handed to the constructor. -/
def getDistribution (h : Heap F) (a : Nat) (n dflt : Str) : Heap F × Str × Nat :=
  let r := get h a (n ++ "::DistributionType".toList) .str dflt
  let c := addChild r.1 a n
  (c.1, r.2, c.2)

/-- An element of `CondensedParamList` – params.hpp:25-34. -/
abbrev Param (F : Type) := Str × (t : Ty) × Val F t

/-- the order in which the maps are visited – setter_params.cpp:27-55. -/
def tyOrder : List Ty := [.bool, .int, .real, .str, .listListFloat, .listFloat]

/-- own parameters of one object – setter_params.cpp:26-55. -/
def ownList (x : Node F) : List (Param F) :=
  tyOrder.flatMap (fun t => (x.params t).map (fun p => (p.1, ⟨t, p.2⟩)))

/-- `GetCondensedParamList` – setter_params.cpp:24-67; `fuel` bounds the depth of the recursion
(`condensed` supplies enough, as children have larger addresses: proved). -/
def condensedAux (h : Heap F) : Nat → Nat → List (Param F)
  | 0, _ => []
  | fuel + 1, a =>
      ownList (node h a) ++
      (node h a).childs.flatMap (fun cb =>
        (condensedAux h fuel cb.2).map (fun p => (cb.1 ++ "::".toList ++ p.1, p.2)))

/-- `GetCondensedParamList` of the object at address `a`. -/
def condensed (h : Heap F) (a : Nat) : List (Param F) := condensedAux h h.length a

/-- the constructor from a condensed list – setter_params.cpp:14-22, setter_params.hpp:196-214. -/
def ofList (l : List (Param F)) : Heap F := l.foldl (fun h p => set h 0 p.1 p.2.1 p.2.2) fresh

/-- the comparison loop of `operator==` on the two sorted lists – params.cpp:61-69.  Values are
compared with the equality of the variant (for `double` without NaN). -/
def eqLoop [DecidableEq ((t : Ty) × Val F t)] : List (Param F) → List (Param F) → Bool
  | p :: l, q :: k => if p.1 ≠ q.1 ∨ p.2 ≠ q.2 then false else eqLoop l k
  | _, _ => true

/-- `Params::operator==` – params.cpp:49-71, given the results `l`, `k` of sorting the two condensed
lists by name (`std::sort` leaves the order of equal names open, hence the lists are parameters). -/
def paramsEq [DecidableEq ((t : Ty) × Val F t)] (l k : List (Param F)) : Bool :=
  if l.length ≠ k.length then false else eqLoop l k

end Bark.Par
