import Mathlib.Order.Basic
import Mathlib.Data.List.Basic
import Mathlib.Order.Defs.LinearOrder

/-!
Shared vocabulary of the model: outcomes of C++ calls that may fail, and `std::map`.
-/
namespace Bark

/-- Ways in which a C++ call can fail to return a value.
* `ub`     – undefined behaviour (null dereference, `back()` of an empty vector, index out of range)
* `thrown` – a C++ exception, e.g. `std::map::at` with an unknown key
* `diverges` – the call does not return
* `nan` – the call returns numbers that are not numbers (division of zero by zero) -/
inductive Fault where
  | ub
  | thrown
  | diverges
  | nan
  deriving DecidableEq, Repr

/-- Outcome of a C++ call. -/
abbrev Res (α : Type) := Except Fault α

/-- `std::map<κ, α>`: an association list that the operations below keep sorted by key.
Iteration order of `std::map` is the list order. -/
abbrev OMap (κ α : Type) := List (κ × α)

namespace OMap
variable {κ α : Type} [LinearOrder κ]

/-- `std::map::find` / `count` / `at`. -/
def find (k : κ) : OMap κ α → Option α
  | [] => none
  | (k', v) :: m => if k = k' then some v else find k m

/-- `m[k] = v`. -/
def insert (k : κ) (v : α) : OMap κ α → OMap κ α
  | [] => [(k, v)]
  | (k', v') :: m =>
      if k < k' then (k, v) :: (k', v') :: m
      else if k = k' then (k, v) :: m
      else (k', v') :: insert k v m

/-- `m.erase(k)`. -/
def erase (k : κ) (m : OMap κ α) : OMap κ α := m.filter (fun p => !decide (p.1 = k))

/-- keys in iteration order. -/
def keys (m : OMap κ α) : List κ := m.map Prod.fst

/-- in-place update of the value stored under `k` through the stored pointer
(`m[k]->mutate()` for an existing key). -/
def modify (k : κ) (f : α → α) : OMap κ α → OMap κ α
  | [] => []
  | (k', v) :: m => if k = k' then (k', f v) :: m else (k', v) :: modify k f m

/-- Invariant of `std::map`: strictly increasing keys. -/
def Sorted (m : OMap κ α) : Prop := m.Pairwise (fun a b => a.1 < b.1)

theorem sorted_nil : Sorted ([] : OMap κ α) := List.Pairwise.nil

theorem find_none_of_lt (k : κ) (m : OMap κ α) (h : ∀ p ∈ m, k < p.1) : find k m = none := by
  induction m with
  | nil => rfl
  | cons p m ih =>
    obtain ⟨k', v⟩ := p
    have h1 : k < k' := h (k', v) (by simp)
    simp only [find, if_neg (ne_of_lt h1)]
    exact ih (fun p hp => h p (by simp [hp]))

theorem find_insert (k k' : κ) (v : α) (m : OMap κ α) :
    find k' (insert k v m) = if k' = k then some v else find k' m := by
  induction m with
  | nil => simp [insert, find]
  | cons p m ih =>
    obtain ⟨a, b⟩ := p
    by_cases h1 : k < a
    · simp only [insert, if_pos h1, find]
    · by_cases h2 : k = a
      · subst h2
        simp only [insert, if_neg h1, if_true, find]
        by_cases h3 : k' = k <;> simp [h3]
      · simp only [insert, if_neg h1, if_neg h2, find, ih]
        by_cases h3 : k' = k
        · subst h3; simp [h2]
        · simp [h3]

theorem find_erase (k k' : κ) (m : OMap κ α) :
    find k' (erase k m) = if k' = k then none else find k' m := by
  induction m with
  | nil => simp [erase, find]
  | cons p m ih =>
    obtain ⟨a, b⟩ := p
    unfold erase at ih ⊢
    by_cases h : a = k
    · subst h
      rw [List.filter_cons_of_neg (by simp), ih]
      by_cases h2 : k' = a
      · simp [h2]
      · simp [h2, find]
    · rw [List.filter_cons_of_pos (by simp [h])]
      simp only [find, ih]
      by_cases h2 : k' = a
      · subst h2; simp [h]
      · simp [h2]

theorem mem_insert_sub {k : κ} {v : α} {m : OMap κ α} {p : κ × α} (h : p ∈ insert k v m) :
    p = (k, v) ∨ p ∈ m := by
  induction m with
  | nil => simp [insert] at h; exact Or.inl h
  | cons q m ih =>
    obtain ⟨a, b⟩ := q
    simp only [insert] at h
    split_ifs at h with h1 h2
    · simp at h; rcases h with h | h | h <;> simp [h]
    · simp at h; rcases h with h | h <;> simp [h]
    · simp at h
      rcases h with h | h
      · simp [h]
      · rcases ih h with h | h <;> simp [h]

theorem sorted_insert (k : κ) (v : α) {m : OMap κ α} (h : Sorted m) : Sorted (insert k v m) := by
  induction m with
  | nil => simp [insert, Sorted]
  | cons q m ih =>
    obtain ⟨a, b⟩ := q
    unfold Sorted at h ih ⊢
    rw [List.pairwise_cons] at h
    simp only [insert]
    split_ifs with h1 h2
    · refine List.pairwise_cons.2 ⟨?_, List.pairwise_cons.2 h⟩
      intro p hp
      rcases List.mem_cons.1 hp with hp | hp
      · subst hp; exact h1
      · exact lt_trans h1 (h.1 p hp)
    · subst h2; exact List.pairwise_cons.2 h
    · refine List.pairwise_cons.2 ⟨?_, ih h.2⟩
      intro p hp
      rcases mem_insert_sub hp with hp | hp
      · subst hp
        exact lt_of_le_of_ne (not_lt.1 h1) (fun e => h2 e.symm)
      · exact h.1 p hp

theorem sorted_erase (k : κ) {m : OMap κ α} (h : Sorted m) : Sorted (erase k m) :=
  List.Pairwise.filter _ h

theorem sorted_filter (f : κ × α → Bool) {m : OMap κ α} (h : Sorted m) : Sorted (m.filter f) :=
  List.Pairwise.filter _ h

theorem find_some_mem {k : κ} {v : α} {m : OMap κ α} (h : find k m = some v) : (k, v) ∈ m := by
  induction m with
  | nil => simp [find] at h
  | cons q m ih =>
    obtain ⟨a, b⟩ := q
    simp only [find] at h
    split_ifs at h with h1
    · subst h1; simp at h; simp [h]
    · exact List.mem_cons_of_mem _ (ih h)

theorem mem_find_some {k : κ} {v : α} {m : OMap κ α} (hs : Sorted m) (h : (k, v) ∈ m) :
    find k m = some v := by
  induction m with
  | nil => simp at h
  | cons q m ih =>
    obtain ⟨a, b⟩ := q
    have hs' := List.pairwise_cons.1 hs
    rcases List.mem_cons.1 h with h | h
    · cases h; simp [find]
    · have : a < k := hs'.1 _ h
      simp only [find, if_neg (ne_of_gt this)]
      exact ih hs'.2 h

theorem find_isSome_iff {k : κ} {m : OMap κ α} : (find k m).isSome ↔ k ∈ keys m := by
  induction m with
  | nil => simp [find, keys]
  | cons q m ih =>
    obtain ⟨a, b⟩ := q
    simp only [find, keys, List.map_cons, List.mem_cons]
    split_ifs with h
    · simp [h]
    · simp [h]; simpa [keys] using ih

theorem sorted_keys_nodup {m : OMap κ α} (h : Sorted m) : (keys m).Nodup := by
  unfold keys List.Nodup
  rw [List.pairwise_map]
  exact h.imp (fun h => ne_of_lt h)

theorem find_filter {m : OMap κ α} (hs : Sorted m) (f : κ × α → Bool) (k : κ) :
    find k (m.filter f) = (find k m).filter (fun v => f (k, v)) := by
  induction m with
  | nil => simp [find]
  | cons q m ih =>
    obtain ⟨a, b⟩ := q
    have hs' := List.pairwise_cons.1 hs
    by_cases hk : k = a
    · subst hk
      by_cases hf : f (k, b) = true
      · rw [List.filter_cons_of_pos hf]; simp [find, Option.filter, hf]
      · rw [List.filter_cons_of_neg hf]
        simp only [find, if_true, Option.filter]
        rw [if_neg hf]
        apply find_none_of_lt
        intro p hp
        exact hs'.1 p (List.mem_of_mem_filter hp)
    · by_cases hf : f (a, b) = true
      · rw [List.filter_cons_of_pos hf]; simp [find, hk, ih hs'.2]
      · rw [List.filter_cons_of_neg hf]; simp [find, hk, ih hs'.2]

theorem keys_modify (k : κ) (f : α → α) (m : OMap κ α) : keys (modify k f m) = keys m := by
  induction m with
  | nil => rfl
  | cons q m ih =>
    obtain ⟨a, b⟩ := q
    simp only [modify]
    split_ifs with h
    · simp [keys]
    · simp only [keys, List.map_cons]; unfold keys at ih; rw [ih]

theorem find_modify (k k' : κ) (f : α → α) (m : OMap κ α) :
    find k' (modify k f m) = if k' = k then (find k' m).map f else find k' m := by
  induction m with
  | nil => simp [modify, find]
  | cons q m ih =>
    obtain ⟨a, b⟩ := q
    simp only [modify]
    by_cases h : k = a
    · subst h
      by_cases h2 : k' = k
      · subst h2; simp [find]
      · simp [find, h2]
    · simp only [if_neg h, find, ih]
      by_cases h2 : k' = a
      · subst h2; simp [Ne.symm h]
      · simp [h2]

theorem sorted_iff_keys {m : OMap κ α} : Sorted m ↔ (keys m).Pairwise (· < ·) := by
  unfold Sorted keys; rw [List.pairwise_map]

theorem sorted_modify (k : κ) (f : α → α) {m : OMap κ α} (h : Sorted m) : Sorted (modify k f m) := by
  rw [sorted_iff_keys, keys_modify]; exact sorted_iff_keys.1 h

/-- Two sorted maps with the same lookups are equal. -/
theorem ext {m n : OMap κ α} (hm : Sorted m) (hn : Sorted n) (h : ∀ k, find k m = find k n) :
    m = n := by
  have hmem : ∀ p, p ∈ m ↔ p ∈ n := by
    intro ⟨k, v⟩
    constructor
    · intro hp; exact find_some_mem ((h k) ▸ mem_find_some hm hp)
    · intro hp; exact find_some_mem ((h k).symm ▸ mem_find_some hn hp)
  have nd : ∀ l : OMap κ α, Sorted l → l.Nodup := fun l hl =>
    hl.imp (fun hab e => (ne_of_lt hab) (congrArg Prod.fst e))
  have hp : m.Perm n := (List.perm_ext_iff_of_nodup (nd m hm) (nd n hn)).2 hmem
  exact hp.eq_of_pairwise (fun a b _ _ h1 h2 => absurd (lt_trans h1 h2) (lt_irrefl _)) hm hn

end OMap
end Bark
