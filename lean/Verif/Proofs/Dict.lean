/-
Lemmas on dicts.
-/
import Verif.Model.Feature

namespace Malstroem
namespace Dict
variable {κ ν : Type} [DecidableEq κ]

theorem get?_set (d : Dict κ ν) (k k' : κ) (v : ν) : (d.set k v).get? k' = if k = k' then some v else d.get? k' := by
  induction d with
  | nil => simp [set, get?]
  | cons x d ih =>
    obtain ⟨a, b⟩ := x
    by_cases h : a = k
    · subst h; by_cases h' : a = k' <;> simp [set, get?, h']
    · by_cases h' : a = k'
      · subst h'
        have : ¬ k = a := fun e => h e.symm
        simp [set, get?, h, this]
      · simp [set, get?, h, h', ih]

theorem get?_eq_none {d : Dict κ ν} {k : κ} : d.get? k = none ↔ k ∉ d.map (·.1) := by
  induction d with
  | nil => simp [get?]
  | cons x d ih =>
    obtain ⟨a, b⟩ := x
    by_cases h : a = k
    · simp [get?, h]
    · have : ¬ k = a := fun e => h e.symm
      simp [get?, h, ih, this]

theorem mem_of_get? {d : Dict κ ν} {k : κ} {v : ν} (h : d.get? k = some v) : (k, v) ∈ d := by
  induction d with
  | nil => simp [get?] at h
  | cons x d ih =>
    obtain ⟨a, b⟩ := x
    by_cases ha : a = k
    · simp [get?, ha] at h; simp [ha, h]
    · simp only [get?, ha, if_false] at h
      exact List.mem_cons_of_mem _ (ih h)

theorem get?_of_mem {d : Dict κ ν} (hd : (d.map (·.1)).Nodup) {k : κ} {v : ν} (h : (k, v) ∈ d) : d.get? k = some v := by
  induction d with
  | nil => cases h
  | cons x d ih =>
    obtain ⟨a, b⟩ := x
    simp only [List.map_cons, List.nodup_cons] at hd
    rcases List.mem_cons.1 h with he | h
    · obtain ⟨rfl, rfl⟩ := Prod.mk.inj he; simp [get?]
    · have : a ≠ k := fun e => hd.1 (e ▸ List.mem_map_of_mem (f := (·.1)) h)
      simp only [get?, this, if_false]
      exact ih hd.2 h

theorem set_new {d : Dict κ ν} {k : κ} (h : k ∉ d.map (·.1)) (v : ν) : d.set k v = d ++ [(k, v)] := by
  induction d with
  | nil => rfl
  | cons x d ih =>
    obtain ⟨a, b⟩ := x
    simp only [List.map_cons, List.mem_cons, not_or] at h
    have : ¬ a = k := fun e => h.1 e.symm
    simp [set, this, ih h.2]

theorem keys_set (d : Dict κ ν) (k : κ) (v : ν) :
    (d.set k v).map (·.1) = if k ∈ d.map (·.1) then d.map (·.1) else d.map (·.1) ++ [k] := by
  induction d with
  | nil => simp [set]
  | cons x d ih =>
    obtain ⟨a, b⟩ := x
    by_cases h : a = k
    · simp [set, h]
    · have h' : ¬ k = a := fun e => h e.symm
      simp only [set, h, if_false, List.map_cons, ih, List.mem_cons, h', false_or]
      split <;> simp

theorem getItem_ok {d : Dict κ ν} {k : κ} {v : ν} : d.getItem k = .ok v ↔ d.get? k = some v := by
  unfold getItem
  cases d.get? k <;> simp

end Dict

theorem mapM_ok {α β : Type} {f : α → Except PyErr β} {g : α → β} : ∀ {l : List α}, (∀ x ∈ l, f x = .ok (g x)) →
    l.mapM f = .ok (l.map g) := by
  intro l
  induction l with
  | nil => intro _; rfl
  | cons x l ih =>
    intro h
    rw [List.mapM_cons, h x (by simp), ih fun y hy => h y (List.mem_cons_of_mem _ hy)]
    rfl

theorem except_bind_ok {ε α β : Type} {x : Except ε α} {f : α → Except ε β} {b : β} (h : (x >>= f) = .ok b) :
    ∃ a, x = .ok a ∧ f a = .ok b := by
  rcases x with e | a
  · cases h
  · exact ⟨a, rfl, h⟩

end Malstroem
