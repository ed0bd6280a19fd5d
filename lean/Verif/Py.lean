/-
Basic Python notions used by every other file of the model: exceptions as values and
insertion-ordered dictionaries.
-/
namespace Fossil

/-- Python exceptions that the modelled functions can raise (as values).
Models `raise`/implicit raises in /repo/fossil/*.py. The message is not modelled. -/
inductive Err where
  | indexError
  | keyError
  | valueError
  | typeError
  | nameError
  | attributeError
  | assertionError
  | notImplemented
  | runtimeError
  | zeroDivision
deriving DecidableEq, Repr

/-- A Python `dict`: association list in insertion order.
Models the built-in dict used throughout /repo/fossil (Python >= 3.7 ordering). -/
abbrev Dict (κ : Type) (α : Type _) := List (κ × α)

namespace Dict
variable {κ : Type} {α : Type _} {β : Type _} [DecidableEq κ]

/-- `d[k] = v`: overwrite in place if the key exists, else append. -/
def set : Dict κ α → κ → α → Dict κ α
  | [], k, v => [(k, v)]
  | (k', v') :: d, k, v => if k' = k then (k', v) :: d else (k', v') :: set d k v

/-- `d.get(k)`. -/
def get? : Dict κ α → κ → Option α
  | [], _ => none
  | (k', v') :: d, k => if k' = k then some v' else get? d k

/-- `d[k]`: raises KeyError when absent. -/
def get (d : Dict κ α) (k : κ) : Except Err α :=
  match d.get? k with
  | some v => .ok v
  | none => .error .keyError

/-- `d.keys()`. -/
def keys (d : Dict κ α) : List κ := d.map Prod.fst

/-- `d.values()`. -/
def values (d : Dict κ α) : List α := d.map Prod.snd

/-- `d.pop(k)` (as a state change; absent key: KeyError). -/
def erase : Dict κ α → κ → Dict κ α
  | [], _ => []
  | (k', v') :: d, k => if k' = k then d else (k', v') :: erase d k

/-- `{k: f(v) for k, v in d.items()}`. -/
def mapVals (f : α → β) (d : Dict κ α) : Dict κ β := d.map (fun p => (p.1, f p.2))

/-! ### lemmas about dictionaries -/

@[simp] theorem get?_nil (k : κ) : get? ([] : Dict κ α) k = none := rfl
@[simp] theorem get?_cons (k' k : κ) (v : α) (d : Dict κ α) :
    get? ((k', v) :: d) k = if k' = k then some v else get? d k := rfl

theorem get?_set (d : Dict κ α) (k k' : κ) (v : α) :
    (d.set k v).get? k' = if k = k' then some v else d.get? k' := by
  induction d with
  | nil => simp [set]
  | cons p d ih =>
    obtain ⟨a, b⟩ := p
    simp only [set]
    by_cases h : a = k
    · subst h; by_cases h2 : a = k' <;> simp [h2]
    · simp only [h, if_false, get?_cons, ih]
      by_cases h2 : a = k'
      · subst h2; simp [Ne.symm h]
      · simp [h2]

theorem get?_set_self (d : Dict κ α) (k : κ) (v : α) : (d.set k v).get? k = some v := by
  simp [get?_set]

theorem get?_eq_some_mem {d : Dict κ α} {k : κ} {v : α} (h : d.get? k = some v) : (k, v) ∈ d := by
  induction d with
  | nil => simp at h
  | cons p d ih =>
    obtain ⟨a, b⟩ := p
    simp only [get?_cons] at h
    by_cases h2 : a = k
    · simp [h2] at h; simp [h2, h]
    · simp [h2] at h; exact List.mem_cons_of_mem _ (ih h)

theorem get?_isSome_iff {d : Dict κ α} {k : κ} : (d.get? k).isSome ↔ k ∈ d.keys := by
  induction d with
  | nil => simp [keys]
  | cons p d ih =>
    obtain ⟨a, b⟩ := p
    simp only [get?_cons, keys, List.map_cons, List.mem_cons]
    by_cases h2 : a = k
    · simp [h2]
    · simp [h2, Ne.symm h2]; simpa [keys] using ih

theorem get?_eq_none_iff {d : Dict κ α} {k : κ} : d.get? k = none ↔ k ∉ d.keys := by
  rw [← get?_isSome_iff]; cases d.get? k <;> simp

theorem mem_get?_of_nodup {d : Dict κ α} (hd : d.keys.Nodup) {k : κ} {v : α} (h : (k, v) ∈ d) :
    d.get? k = some v := by
  induction d with
  | nil => simp at h
  | cons p d ih =>
    obtain ⟨a, b⟩ := p
    simp only [keys, List.map_cons, List.nodup_cons] at hd
    simp only [List.mem_cons, Prod.mk.injEq] at h
    rcases h with ⟨rfl, rfl⟩ | h
    · simp
    · have : a ≠ k := by
        rintro rfl
        exact hd.1 (List.mem_map_of_mem (f := Prod.fst) h)
      simp [this]; exact ih hd.2 h

theorem keys_set (d : Dict κ α) (k : κ) (v : α) :
    (d.set k v).keys = if k ∈ d.keys then d.keys else d.keys ++ [k] := by
  induction d with
  | nil => simp [set, keys]
  | cons p d ih =>
    obtain ⟨a, b⟩ := p
    simp only [set]
    by_cases h : a = k
    · simp [h, keys]
    · have h' : ¬ k = a := fun e => h e.symm
      simp only [h, if_false]
      simp only [keys, List.map_cons, List.mem_cons, h', false_or] at ih ⊢
      rw [ih]
      by_cases h3 : k ∈ List.map Prod.fst d <;> simp [h3]

theorem nodup_keys_set (d : Dict κ α) (k : κ) (v : α) (h : d.keys.Nodup) :
    (d.set k v).keys.Nodup := by
  rw [keys_set]
  split
  · exact h
  · rename_i hk
    rw [List.nodup_append]
    refine ⟨h, by simp, ?_⟩
    intro a ha b hb e
    simp only [List.mem_singleton] at hb
    subst hb; subst e; exact hk ha

theorem mem_keys_set (d : Dict κ α) (k k' : κ) (v : α) :
    k' ∈ (d.set k v).keys ↔ k' = k ∨ k' ∈ d.keys := by
  rw [keys_set]
  split
  · rename_i h
    constructor
    · exact Or.inr
    · rintro (rfl | h') <;> assumption
  · simp [or_comm]

@[simp] theorem get?_mapVals (f : α → β) (d : Dict κ α) (k : κ) :
    (mapVals f d).get? k = (d.get? k).map f := by
  induction d with
  | nil => simp [mapVals]
  | cons p d ih =>
    obtain ⟨a, b⟩ := p
    simp only [mapVals, List.map_cons, get?_cons]
    by_cases h : a = k
    · simp [h]
    · simp [h]; simpa [mapVals] using ih

omit [DecidableEq κ] in
@[simp] theorem keys_mapVals (f : α → β) (d : Dict κ α) : (mapVals f d).keys = d.keys := by
  simp [mapVals, keys]

end Dict

/-- A successful sequence of two steps: both succeed. -/
theorem except_bind_ok {α β : Type _} {x : Except Err α} {f : α → Except Err β} {b : β}
    (h : x.bind f = .ok b) : ∃ a, x = .ok a ∧ f a = .ok b := by
  cases x with
  | error e => cases h
  | ok a => exact ⟨a, rfl, h⟩

end Fossil
