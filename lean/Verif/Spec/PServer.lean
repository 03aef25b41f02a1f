import Verif.Model.PServer
import Verif.Spec.Params
import Mathlib.Data.List.Forall2

/-!
Specification for C122–C127: what a Python parameter server contains, as a relation between paths and
values.  Only the data types are taken from the model.
-/
namespace Bark.PS.Spec
open Bark.Par (Str)
open Bark.Par.Spec (NoDelim Path)
variable {A : Type}

/-- the server has an entry `k ↦ v` at its top level. -/
inductive Has : Srv A → Str → Val A → Prop
  | here (k : Str) (v : Val A) (r : Srv A) : Has (.cons k v r) k v
  | there {k k' : Str} {v v' : Val A} {r : Srv A} : k ≠ k' → Has r k v → Has (.cons k' v' r) k v

/-- following the names of the path through child servers leads to the value. -/
inductive At : Srv A → List Str → Val A → Prop
  | one {s : Srv A} {k : Str} {v : Val A} : Has s k v → At s [k] v
  | step {s c : Srv A} {k : Str} {p : List Str} {v : Val A} :
      Has s k (.child c) → At c p v → At s (k :: p) v

/-- a parameter (as opposed to a child server). -/
def IsValue (v : Val A) : Prop := ∀ c, v ≠ .child c

/-- `b` is `a` without the whitespace around it. -/
def Stripped (ws : Char → Bool) (a b : Str) : Prop :=
  ∃ pre suf : Str, a = pre ++ b ++ suf ∧ (∀ c ∈ pre, ws c = true) ∧ (∀ c ∈ suf, ws c = true) ∧
    (∀ c ∈ b.head?, ws c = false) ∧ (∀ c ∈ b.getLast?, ws c = false)

/-- the name, cut at the separators, every part without surrounding whitespace, is the path. -/
def Names (ws : Char → Bool) (n : Str) (p : List Str) : Prop :=
  ∃ q, Path n q ∧ List.Forall₂ (Stripped ws) q p

/-- a path component for which all readings of a name agree: it has no separator inside and no colon
at either end, and is not empty. -/
structure PlainKey (k : Str) : Prop where
  ne : k ≠ []
  noDelim : NoDelim k
  first : k.head? ≠ some ':'
  last : k.getLast? ≠ some ':'

/-- the path written as a name. -/
def joined : List Str → Str
  | [] => []
  | [k] => k
  | k :: k' :: p => k ++ [':', ':'] ++ joined (k' :: p)

/-- no parameter sits at a prefix of the path, and nothing at the path itself. -/
def Vacant (s : Srv A) (p : List Str) : Prop :=
  ∀ q v, q <+: p → At s q v → q ≠ p ∧ ∃ c, v = .child c

/-- no parameter sits at a proper prefix of the path. -/
def Reachable (s : Srv A) (p : List Str) : Prop :=
  ∀ q v, q <+: p → q ≠ p → At s q v → ∃ c, v = .child c

/-- keys of a server, in order. -/
def keys : Srv A → List Str
  | .nil => []
  | .cons k _ r => k :: keys r

mutual
/-- no key occurs twice (they are dictionaries), at any level. -/
def Distinct : Srv A → Prop
  | .nil => True
  | .cons k v r => k ∉ keys r ∧ DistinctVal v ∧ Distinct r
/-- … inside a value. -/
def DistinctVal : Val A → Prop
  | .leaf _ => True
  | .child s => Distinct s
  | .many l => DistinctAll l
/-- … inside a list of servers. -/
def DistinctAll : Srvs A → Prop
  | .nil => True
  | .cons s r => Distinct s ∧ DistinctAll r
end

mutual
/-- every parameter's own key satisfies `P`; no child server is empty. -/
def Tidy (P : Str → Prop) : Srv A → Prop
  | .nil => True
  | .cons k v r => TidyVal P k v ∧ Tidy P r
/-- … for one entry. -/
def TidyVal (P : Str → Prop) (k : Str) : Val A → Prop
  | .leaf _ => P k
  | .child s => s ≠ .nil ∧ Tidy P s
  | .many l => TidyAll P l
/-- … for a list of servers. -/
def TidyAll (P : Str → Prop) : Srvs A → Prop
  | .nil => True
  | .cons s r => Tidy P s ∧ TidyAll P r
end

/-- the key is read as itself: no separator and no surrounding whitespace. -/
def ReadsAsItself (ws : Char → Bool) (k : Str) : Prop := Names ws k [k]

mutual
/-- every key at every level (not inside lists of servers) satisfies `P`. -/
def AllKeys (P : Str → Prop) : Srv A → Prop
  | .nil => True
  | .cons k v r => P k ∧ AllKeysVal P v ∧ AllKeys P r
/-- … inside a value. -/
def AllKeysVal (P : Str → Prop) : Val A → Prop
  | .leaf _ => True
  | .child s => AllKeys P s
  | .many _ => True
end

/-- with `v` placed at path `p`, the path `q` leads to `w`. -/
def Within (p : List Str) (v : Val A) (q : List Str) (w : Val A) : Prop :=
  ∃ r, q = p ++ r ∧ ((r = [] ∧ w = v) ∨ ∃ c, v = .child c ∧ At c r w)

/-- `s'` is `s` with `v` placed at path `p`: everything at or below `p` comes from `v`, every other
parameter is as before, and the only new child servers elsewhere are those leading to `p`. -/
structure Placed (s s' : Srv A) (p : List Str) (v : Val A) : Prop where
  values : ∀ q w, IsValue w → (At s' q w ↔ Within p v q w ∨ (¬ p <+: q ∧ At s q w))
  sections : ∀ q, (∃ c, At s' q (.child c)) ↔ (q ≠ [] ∧ q <+: p ∧ q ≠ p) ∨
    (∃ c, Within p v q (.child c)) ∨ (¬ p <+: q ∧ ∃ c, At s q (.child c))

/-- two parameters count as equal: both plain and equal for `eqv`, or both lists of servers and equal for
`same` (Python's `==`). -/
inductive Equal (eqv : A → A → Bool) (same : Srvs A → Srvs A → Bool) : Val A → Val A → Prop
  | leaf {a b : A} : eqv a b = true → Equal eqv same (.leaf a) (.leaf b)
  | many {l m : Srvs A} : same l m = true → Equal eqv same (.many l) (.many m)

/-- the parameter at path `q` of `o` has an equal counterpart in `s`. -/
def Matched (eqv : A → A → Bool) (same : Srvs A → Srvs A → Bool) (s : Srv A) (q : List Str) (w : Val A) : Prop :=
  ∃ w', At s q w' ∧ Equal eqv same w' w

/-- no parameter sits at the path or at a prefix of it. -/
def Open (s : Srv A) (q : List Str) : Prop := ∀ r w, r <+: q → At s r w → ∃ c, w = .child c

/-- the servers of a list. -/
def members : Srvs A → List (Srv A)
  | .nil => []
  | .cons s r => s :: members r

/-- a parameter the C++ side can take: bool, int, float, str, a list of floats or a list of lists of
floats (the empty list counts). -/
inductive Listable {F : Type} : Val (PyVal F) → Prop
  | bool (b : Bool) : Listable (.leaf (.bool b))
  | int (i : Int) : Listable (.leaf (.int i))
  | float (x : F) : Listable (.leaf (.float x))
  | str (x : Str) : Listable (.leaf (.str x))
  | floats (l : List F) : Listable (.leaf (.list (l.map .float)))
  | matrix (l : List (List F)) : Listable (.leaf (.list (l.map (fun r => .list (r.map .float)))))
  | empty : Listable (.many .nil)

end Bark.PS.Spec
