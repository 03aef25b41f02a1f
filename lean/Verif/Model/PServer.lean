import Verif.Model.Params

/-!
Model of `bark/runtime/commons/parameters.py` (`ParameterServer`, the Python implementation of
`Params`).

`str` is a list of characters, a Python `dict` with string keys is an insertion ordered association
list.  A stored value is a plain value (`leaf`, type `A`: bool, int, float, str, lists of such values),
a `ParameterServer` (`child`) or a list of `ParameterServer`s (`many`; the empty list satisfies the test
`all(type(el) is ParameterServer for el in [])`, so it is `many` of nothing).  A JSON object has the same
shape with dictionaries in place of servers, and the same type is used for it.

Simplifications: a server is a value, not a reference (two servers sharing a child are not modelled);
the store after a call that raises is not modelled; descriptions and logging are left out; keys are
strings; a plain value is never a dictionary and never a mixed list containing servers.
`ws` is the set of characters removed by `str.strip`.
-/
namespace Bark.PS
open Bark.Par (Str findDelim findDelim_length)

mutual
/-- `self.store` – parameters.py:24; one constructor per dictionary entry. -/
inductive Srv (A : Type) where
  | nil
  | cons (k : Str) (v : Val A) (r : Srv A)
  deriving DecidableEq
/-- what a key maps to – parameters.py:49-60, 96-103. -/
inductive Val (A : Type) where
  | leaf (a : A)
  | child (s : Srv A)
  | many (l : Srvs A)
  deriving DecidableEq
/-- a list of servers – parameters.py:50-53. -/
inductive Srvs (A : Type) where
  | nil
  | cons (s : Srv A) (r : Srvs A)
  deriving DecidableEq
end

variable {A : Type}

/-- `key in self.store` / `self.store[key]`. -/
def find (k : Str) : Srv A → Option (Val A)
  | .nil => none
  | .cons k' v r => if k = k' then some v else find k r

/-- `self.store[key] = value`: an existing entry keeps its place, a new one is appended. -/
def put (k : Str) (v : Val A) : Srv A → Srv A
  | .nil => .cons k v .nil
  | .cons k' v' r => if k = k' then .cons k' v r else .cons k' v' (put k v r)

/-- `del self.store[key]` if present – parameters.py:122-124. -/
def del (k : Str) : Srv A → Srv A
  | .nil => .nil
  | .cons k' v' r => if k = k' then r else .cons k' v' (del k r)

/-- `len(self.store)` – parameters.py:129-130. -/
def len : Srv A → Nat
  | .nil => 0
  | .cons _ _ r => len r + 1

/-- apply an operation to every server of a list, stopping at the first exception. -/
def mapAll (f : Srv A → Res (Srv A)) : Srvs A → Res (Srvs A)
  | .nil => .ok .nil
  | .cons s r => match f s with
      | .error e => .error e
      | .ok s' => match mapAll f r with
          | .error e => .error e
          | .ok r' => .ok (.cons s' r')

/-! ### reading with a default -/

/-- `str.strip()` – parameters.py:284. -/
def strip (ws : Char → Bool) (s : Str) : Str := (((s.dropWhile ws).reverse).dropWhile ws).reverse

/-- `hierarchy.split("::")` – parameters.py:284. -/
def splitAll (n : Str) : List Str :=
  match hf : findDelim n with
  | some (c, rest) => c :: splitAll rest
  | none => [n]
termination_by n.length
decreasing_by exact findDelim_length hf

/-- `get_val_iter` – parameters.py:221-242: store after the call and the value returned. -/
def getPath (d : A) : List Str → Srv A → Res (Srv A × Val A)
  | [], _ => .error .thrown
  | k :: ks, s => match find k s with
      | some (.child c) => match getPath d ks c with
          | .error e => .error e
          | .ok (c', v) => .ok (put k (.child c') s, v)
      | some v => .ok (s, v)
      | none => match ks with
          | [] => .ok (put k (.leaf d) s, .leaf d)
          | k' :: ks' => match getPath d (k' :: ks') .nil with
              | .error e => .error e
              | .ok (c', v) => .ok (put k (.child c') s, v)

/-- `GetValFromString`, i.e. `GetBool`, `GetReal`, `GetInt`, `GetString`, `GetListFloat`,
`GetListListFloat` – parameters.py:283-297, 331-351. -/
def get (ws : Char → Bool) (n : Str) (d : A) (s : Srv A) : Res (Srv A × Val A) :=
  getPath d ((splitAll n).map (strip ws)) s

/-! ### conversion from and to dictionaries -/

mutual
/-- the loop of `ConvertToParam` – parameters.py:146-158: remaining entries, store built so far. -/
def fromLoop (ws : Char → Bool) : Srv A → Srv A → Res (Srv A)
  | .nil, acc => .ok acc
  | .cons k v r, acc => match fromEntry ws k v acc with
      | .error e => .error e
      | .ok acc' => fromLoop ws r acc'
/-- one entry – parameters.py:147-157. -/
def fromEntry (ws : Char → Bool) (k : Str) : Val A → Srv A → Res (Srv A)
  | .leaf a, acc => match get ws k a acc with
      | .error e => .error e
      | .ok (acc', _) => .ok acc'
  | .child d, acc => match fromLoop ws d .nil with
      | .error e => .error e
      | .ok c => .ok (put k (.child c) acc)
  | .many ds, acc => match fromAll ws ds with
      | .error e => .error e
      | .ok l => .ok (put k (.many l) acc)
/-- a list of dictionaries – parameters.py:151-155. -/
def fromAll (ws : Char → Bool) : Srvs A → Res (Srvs A)
  | .nil => .ok .nil
  | .cons d r => match fromLoop ws d .nil with
      | .error e => .error e
      | .ok c => match fromAll ws r with
          | .error e => .error e
          | .ok l => .ok (.cons c l)
end

/-- `ParameterServer(json=d)` / `load` / `__setstate__` – parameters.py:18-22, 135-141, 143-158. -/
def fromDict (ws : Char → Bool) (d : Srv A) : Res (Srv A) := fromLoop ws d .nil

mutual
/-- `ConvertToDict()` – parameters.py:164-194 (without descriptions); `missing` is `"MISSING"`. -/
def toDict (missing : A) : Srv A → Srv A
  | .nil => .nil
  | .cons k v r => .cons k (toDictVal missing v) (toDict missing r)
/-- one value – parameters.py:167-186. -/
def toDictVal (missing : A) : Val A → Val A
  | .leaf a => .leaf a
  | .child s => match toDict missing s with
      | .nil => .leaf missing
      | .cons k v r => .child (.cons k v r)
  | .many l => .many (toDictAll missing l)
/-- a list of servers – parameters.py:179-183. -/
def toDictAll (missing : A) : Srvs A → Srvs A
  | .nil => .nil
  | .cons s r => .cons (toDict missing s) (toDictAll missing r)
end

/-- `clone`, and a pickle round trip – parameters.py:132-136, 160-162. -/
def clone (ws : Char → Bool) (missing : A) (s : Srv A) : Res (Srv A) := fromDict ws (toDict missing s)

/-- conversion of an assigned or default value: dictionaries become servers – parameters.py:49-55,
96-103. -/
def conv (ws : Char → Bool) : Val A → Res (Val A)
  | .leaf a => .ok (.leaf a)
  | .child d => match fromDict ws d with
      | .error e => .error e
      | .ok c => .ok (.child c)
  | .many ds => match fromAll ws ds with
      | .error e => .error e
      | .ok l => .ok (.many l)

/-! ### writing -/

/-- the names `AddChild` resolves one after the other – parameters.py:367-376, 386-392: cut at the
first separator, stop when nothing is left. -/
def childParts (n : Str) : List Str :=
  match hf : findDelim n with
  | some (c, rest) => if rest = [] then [c] else c :: childParts rest
  | none => [n]
termination_by n.length
decreasing_by exact findDelim_length hf

/-- `AddChild` along a list of names followed by an action on what it returns – parameters.py:366-392.
`del`: the last child is replaced by an empty one.  `nested`: the call is made for an element of a list.
With `strict` the caller uses the result as a server or a flat list of servers
(`_set_item_from_hierarchy_string`), so a list inside a list raises. -/
def addPath (del strict : Bool) (f : Bool → Val A → Res (Val A)) (nested : Bool) :
    List Str → Srv A → Res (Srv A)
  | [], s => .ok s
  | [k], s =>
      match f nested (if del then .child .nil else (find k s).getD (.child .nil)) with
      | .error e => .error e
      | .ok v => .ok (put k v s)
  | k :: k' :: ks, s => match (find k s).getD (.child .nil) with
      | .leaf _ => .error .thrown
      | .child c => match addPath del strict f nested (k' :: ks) c with
          | .error e => .error e
          | .ok c' => .ok (put k (.child c') s)
      | .many l => if strict ∧ nested then .error .thrown
          else match mapAll (addPath del strict f true (k' :: ks)) l with
            | .error e => .error e
            | .ok l' => .ok (put k (.many l') s)

/-- `AddChild(name, delete)` – parameters.py:366-392: the store after the call. -/
def addChild (n : Str) (delete : Bool) (s : Srv A) : Res (Srv A) :=
  addPath delete false (fun _ v => .ok v) false (childParts n) s

/-- `child_params.store[new_key] = value` for a server or for every server of a list –
parameters.py:113-117. -/
def storeIn (k : Str) (v : Val A) (nested : Bool) : Val A → Res (Val A)
  | .leaf _ => .error .thrown
  | .child c => .ok (.child (put k v c))
  | .many l => if nested then .error .thrown
      else match mapAll (fun s => .ok (put k v s)) l with
        | .error e => .error e
        | .ok l' => .ok (.many l')

/-- `key.rsplit("::", 1)` – parameters.py:111-112: the text before and after the last separator. -/
def rsplit (n : Str) : Option (Str × Str) :=
  match findDelim n.reverse with
  | some (b, a) => some (a.reverse, b.reverse)
  | none => none

/-- `_set_item_from_hierarchy_string` – parameters.py:107-120. -/
def setH (n : Str) (v : Val A) (s : Srv A) : Res (Srv A) :=
  match rsplit n with
  | some (pre, k) => addPath false true (storeIn k v) false (childParts pre) s
  | none => .ok (put n v s)

/-- `self[key] = value`, `SetBool`, `SetReal`, `SetInt` with a plain value, a dictionary or a list of
dictionaries – parameters.py:89-105, 356-364. -/
def setItem (ws : Char → Bool) (n : Str) (v : Val A) (s : Srv A) : Res (Srv A) :=
  match conv ws v with
  | .error e => .error e
  | .ok v' => setH n v' s

/-- `self[key, description] = value` – parameters.py:92-105: only `str` keys are stored. -/
def setItemTuple (ws : Char → Bool) (_n : Str) (v : Val A) (s : Srv A) : Res (Srv A) :=
  match conv ws v with
  | .error e => .error e
  | .ok _ => .ok s

/-! ### item access -/

/-- `self[key]`, `access` – parameters.py:29-42, 59-61, 353-354. -/
def getItem (k : Str) (s : Srv A) : Srv A × Val A :=
  match find k s with
  | some v => (s, v)
  | none => (put k (.child .nil) s, .child .nil)

/-- `self[key, description, default]` – parameters.py:29-58. -/
def getItemD (ws : Char → Bool) (k : Str) (d : Val A) (s : Srv A) : Res (Srv A × Val A) :=
  match find k s with
  | some v => .ok (s, v)
  | none => match conv ws d with
      | .error e => .error e
      | .ok d' => .ok (put k d' s, d')

/-! ### merging, comparing, listing -/

mutual
/-- `AppendParamServer(p_server, overwrite)` – parameters.py:66-80; first argument: the remaining
entries of `p_server`. -/
def append (ov : Bool) : Srv A → Srv A → Res (Srv A)
  | .nil, s => .ok s
  | .cons k v r, s => match appendEntry ov k v (find k s) s with
      | .error e => .error e
      | .ok s' => append ov r s'
/-- one key – parameters.py:68-80. -/
def appendEntry (ov : Bool) (k : Str) : Val A → Option (Val A) → Srv A → Res (Srv A)
  | v, none, s => setH k v s
  | .child b, some (.child a), s => match append ov b a with
      | .error e => .error e
      | .ok a' => .ok (put k (.child a') s)
  | .leaf x, some _, s => if ov then setH k (.leaf x) s else .ok s
  | .many l, some _, s => if ov then setH k (.many l) s else .ok s
  | .child b, some (.leaf _), s => if ov then setH k (.child b) s else .ok s
  | .child b, some (.many _), s => if ov then setH k (.child b) s else .ok s
end

/-- comparison of two values that are not servers, `self.store[key] != value` negated –
parameters.py:319-321.  `eqv` is Python's `==` on plain values, `same` on lists of servers. -/
def valEq (eqv : A → A → Bool) (same : Srvs A → Srvs A → Bool) : Val A → Val A → Bool
  | .leaf a, .leaf b => eqv a b
  | .many l, .many m => same l m
  | _, _ => false

mutual
/-- `HasEqualParamsAs(other)` – parameters.py:299-322: the server of differing parameters (third
argument: the one built so far; first argument: the remaining entries of `other`). -/
def diff (eqv : A → A → Bool) (same : Srvs A → Srvs A → Bool) :
    Srv A → Srv A → Srv A → Res (Srv A)
  | .nil, _, acc => .ok acc
  | .cons k v r, s, acc => match diffEntry eqv same k v (find k s) acc with
      | .error e => .error e
      | .ok acc' => diff eqv same r s acc'
/-- one key – parameters.py:301-321. -/
def diffEntry (eqv : A → A → Bool) (same : Srvs A → Srvs A → Bool) (k : Str) :
    Val A → Option (Val A) → Srv A → Res (Srv A)
  | v, none, acc => setH k v acc
  | .child b, some (.child a), acc => match diff eqv same b a .nil with
      | .error e => .error e
      | .ok u => if 0 < len u then setH k (.child u) acc else .ok acc
  | .child b, some (.leaf _), acc => setH k (.child b) acc
  | .child b, some (.many _), acc => setH k (.child b) acc
  | .leaf x, some w, acc =>
      if valEq eqv same w (.leaf x) then .ok acc else setH k (.leaf x) acc
  | .many l, some w, acc =>
      if valEq eqv same w (.many l) then .ok acc else setH k (.many l) acc
end

/-- `self.HasEqualParamsAs(other)` – parameters.py:299-322: `True` when something differs. -/
def hasEqualParamsAs (eqv : A → A → Bool) (same : Srvs A → Srvs A → Bool) (s o : Srv A) :
    Res (Bool × Srv A) :=
  match diff eqv same o s .nil with
  | .error e => .error e
  | .ok u => .ok (decide (0 < len u), u)

mutual
/-- `FindKey` – parameters.py:82-93. -/
def findKey (x : Str) : Srv A → Option Str
  | .nil => none
  | .cons k v r => match findKeyVal x k v with
      | some n => some n
      | none => findKey x r
/-- one entry – parameters.py:84-92; an empty result of the inner call counts as not found. -/
def findKeyVal (x k : Str) : Val A → Option Str
  | .child c => match findKey x c with
      | some n => if n = [] then none else some (k ++ [':', ':'] ++ n)
      | none => none
  | .leaf _ => if x = k then some x else none
  | .many _ => if x = k then some x else none
end

/-- `check_append` – parameters.py:245-261; `ok` on plain values, see `PyVal.ok`. -/
def checkAppend (ok : A → Bool) : Val A → Bool
  | .leaf a => ok a
  | .many .nil => true
  | .many (.cons _ _) => false
  | .child _ => false

mutual
/-- `GetCondensedParamList` – parameters.py:244-281. -/
def condensed (ok : A → Bool) : Srv A → List (Str × Val A)
  | .nil => []
  | .cons k v r => condensedVal ok k v ++ condensed ok r
/-- one entry – parameters.py:265-279. -/
def condensedVal (ok : A → Bool) (k : Str) : Val A → List (Str × Val A)
  | .child c => ((condensed ok c).map (fun x => (k ++ [':', ':'] ++ x.1, x.2))).filter
      (fun x => checkAppend ok x.2)
  | .leaf a => if checkAppend ok (.leaf a) then [(k, .leaf a)] else []
  | .many l => if checkAppend ok (.many l) then [(k, .many l)] else []
end

/-- plain Python values. -/
inductive PyVal (F : Type) where
  | bool (b : Bool)
  | int (i : Int)
  | float (x : F)
  | str (s : Str)
  | none
  | list (l : List (PyVal F))

/-- `isinstance(v, float)`. -/
def PyVal.isFloat {F : Type} : PyVal F → Bool
  | .float _ => true
  | _ => false

/-- a list all of whose elements are floats – parameters.py:250, 256-258. -/
def PyVal.isFloats {F : Type} : PyVal F → Bool
  | .list l => l.all PyVal.isFloat
  | _ => false

/-- `check_append` on plain values – parameters.py:246-261. -/
def PyVal.ok {F : Type} : PyVal F → Bool
  | .bool _ => true
  | .int _ => true
  | .float _ => true
  | .str _ => true
  | .none => false
  | .list l => l.all PyVal.isFloat || l.all PyVal.isFloats

/-! ### histories -/

/-- calls of the API on one server. -/
inductive Op (A : Type) where
  | get (n : Str) (d : A)
  | set (n : Str) (v : Val A)
  | setTuple (n : Str) (v : Val A)
  | item (k : Str)
  | itemD (k : Str) (d : Val A)
  | addChild (n : Str) (delete : Bool)
  | del (k : Str)
  | append (o : Srv A) (ov : Bool)
  | load (d : Srv A)
  | clone

/-- one call – the functions above. -/
def step (ws : Char → Bool) (missing : A) (s : Srv A) : Op A → Res (Srv A)
  | .get n d => (get ws n d s).map Prod.fst
  | .set n v => setItem ws n v s
  | .setTuple n v => setItemTuple ws n v s
  | .item k => .ok (getItem k s).1
  | .itemD k d => (getItemD ws k d s).map Prod.fst
  | .addChild n dl => addChild n dl s
  | .del k => .ok (del k s)
  | .append o ov => append ov o s
  | .load d => fromDict ws d
  | .clone => clone ws missing s

end Bark.PS
