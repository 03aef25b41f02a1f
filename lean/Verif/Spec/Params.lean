import Verif.Model.Params

/-!
Specification for C37, C38, C70: hierarchical parameters as a map from (path, type) to values.
Only the value types and `Str` are taken from the model.
-/
namespace Bark.Par.Spec
variable {F : Type}

/-- the text contains no separator `::`. -/
def NoDelim (s : Str) : Prop := ¬ ([':', ':'] <:+: s)

/-- `Path n p`: the name `n` denotes the path `p`: cut at the first separator, then at the first
separator of the remainder, and so on. -/
inductive Path : Str → List Str → Prop
  | last (n : Str) : NoDelim n → Path n [n]
  | cons (c rest : Str) (p : List Str) :
      NoDelim (c ++ [':']) → Path rest p → Path (c ++ [':', ':'] ++ rest) (c :: p)

/-- Name of a child: like a path, except that one trailing separator is ignored (`"A::"` is `"A"`). -/
def childPath (p : List Str) : List Str :=
  if 1 < p.length ∧ p.getLast? = some [] then p.dropLast else p

/-- Values by path and type. -/
abbrev Store (F : Type) := List Str → (t : Ty) → Option (Val F t)

/-- The store after setting one value. -/
def put (S : Store F) (q : List Str) (t : Ty) (v : Val F t) : Store F :=
  fun q' t' => if q' = q then (if e : t = t' then some (e ▸ v) else S q' t') else S q' t'

/-- Calls of the API. Handles are numbered: 0 is the root object, the k-th `AddChild` call returns
handle k. -/
inductive Op (F : Type) where
  | set (hd : Nat) (name : Str) (t : Ty) (v : Val F t)
  | get (hd : Nat) (name : Str) (t : Ty) (dflt : Val F t)
  | addChild (hd : Nat) (name : Str)

/-- `Hist ops hs S`: a history of calls, the path every handle stands for, and the value last set for
every path and type. -/
inductive Hist : List (Op F) → List (List Str) → Store F → Prop
  | nil : Hist [] [[]] (fun _ _ => none)
  | set {ops hs S q p} (hd : Nat) (n : Str) (t : Ty) (v : Val F t) :
      Hist ops hs S → hs[hd]? = some q → Path n p →
      Hist (ops ++ [.set hd n t v]) hs (put S (q ++ p) t v)
  | get {ops hs S q} (hd : Nat) (n : Str) (t : Ty) (d : Val F t) :
      Hist ops hs S → hs[hd]? = some q → Hist (ops ++ [.get hd n t d]) hs S
  | addChild {ops hs S q p} (hd : Nat) (n : Str) :
      Hist ops hs S → hs[hd]? = some q → Path n p →
      Hist (ops ++ [.addChild hd n]) (hs ++ [q ++ childPath p]) S

end Bark.Par.Spec

namespace Bark.Par
open Spec
variable {F : Type}

/-- The program state of a caller: the heap and the addresses of the handles obtained so far. -/
def step (s : Heap F × List Nat) : Op F → Heap F × List Nat
  | .set hd n t v => match s.2[hd]? with
      | some a => (set s.1 a n t v, s.2)
      | none => s
  | .get hd n t d => match s.2[hd]? with
      | some a => ((get s.1 a n t d).1, s.2)
      | none => s
  | .addChild hd n => match s.2[hd]? with
      | some a => ((addChild s.1 a n).1, s.2 ++ [(addChild s.1 a n).2])
      | none => s

/-- run a history on a freshly constructed object. -/
def run (ops : List (Op F)) : Heap F × List Nat := ops.foldl step (fresh, [0])

end Bark.Par
