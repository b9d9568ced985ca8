import Verif.Model.Database
import Verif.Lemmas.Py

namespace Aiootp.Database

/-! ### dictionaries -/

section
variable {α : Type}

theorem Dict.get_set (d : Dict α) (k : String) (v : α) (j : String) : (d.set k v).get j = if j = k then some v else d.get j := by
  induction d with
  | nil =>
    simp only [Dict.set, Dict.get]
    by_cases h : k = j
    · simp [h]
    · simp [h, Ne.symm h]
  | cons p d ih =>
    obtain ⟨a, b⟩ := p
    simp only [Dict.set]
    by_cases ha : a = k
    · subst ha
      simp only [if_true, Dict.get]
      by_cases hj : a = j
      · simp [hj]
      · simp [hj, Ne.symm hj]
    · simp only [ha, if_false, Dict.get, ih]
      by_cases hj : a = j
      · subst hj; simp [ha]
      · simp [hj]

theorem Dict.get_del (d : Dict α) (k j : String) : (d.del k).get j = if j = k then none else d.get j := by
  induction d with
  | nil => simp [Dict.del, Dict.get]
  | cons p d ih =>
    obtain ⟨a, b⟩ := p
    simp only [Dict.del]
    by_cases ha : a = k
    · subst ha
      simp only [if_true, ih, Dict.get]
      by_cases hj : j = a
      · simp [hj]
      · simp [hj, Ne.symm hj]
    · simp only [ha, if_false, Dict.get, ih]
      by_cases hj : a = j
      · subst hj; simp [ha]
      · simp [hj]

theorem Dict.get_of_mem {d : Dict α} {k : String} {v : α} (h : (k, v) ∈ d) : ∃ w, d.get k = some w := by
  induction d with
  | nil => cases h
  | cons p d ih =>
    obtain ⟨a, b⟩ := p
    simp only [Dict.get]
    by_cases ha : a = k
    · exact ⟨b, by simp [ha]⟩
    · simp only [ha, if_false]
      rcases List.mem_cons.1 h with h | h
      · cases h; exact absurd rfl ha
      · exact ih h

theorem Dict.mem_of_get {d : Dict α} {k : String} {v : α} (h : d.get k = some v) : (k, v) ∈ d := by
  induction d with
  | nil => cases h
  | cons p d ih =>
    obtain ⟨a, b⟩ := p
    simp only [Dict.get] at h
    by_cases ha : a = k
    · simp only [ha, if_true, Option.some.injEq] at h; subst ha; subst h; exact List.mem_cons_self
    · simp only [ha, if_false] at h; exact List.mem_cons_of_mem _ (ih h)

def Dict.names (d : Dict α) : List String := d.map (·.1)

theorem Dict.names_set (d : Dict α) (k : String) (v : α) : (d.set k v).names = if k ∈ d.names then d.names else d.names ++ [k] := by
  induction d with
  | nil => simp [Dict.set, Dict.names]
  | cons p d ih =>
    obtain ⟨a, b⟩ := p
    simp only [Dict.set]
    by_cases ha : a = k
    · subst ha; simp [Dict.names]
    · simp only [Dict.names] at ih
      simp only [ha, if_false, Dict.names, List.map_cons, ih, List.mem_cons, Ne.symm ha, false_or]
      by_cases hk : k ∈ d.map (·.1) <;> simp [hk]

theorem Dict.names_del (d : Dict α) (k : String) : (d.del k).names = d.names.filter (fun j => j ≠ k) := by
  induction d with
  | nil => rfl
  | cons p d ih =>
    obtain ⟨a, b⟩ := p
    simp only [Dict.del]
    simp only [Dict.names] at ih
    by_cases ha : a = k
    · simp [ha, Dict.names, ih]
    · simp [ha, Dict.names, ih]

theorem Dict.nodup_set {d : Dict α} (h : d.names.Nodup) (k : String) (v : α) : (d.set k v).names.Nodup := by
  rw [Dict.names_set]
  split
  · exact h
  · rename_i hk
    rw [List.nodup_append]
    exact ⟨h, by simp, by intro a ha b hb; simp at hb; subst hb; rintro rfl; exact hk ha⟩

theorem Dict.nodup_del {d : Dict α} (h : d.names.Nodup) (k : String) : (d.del k).names.Nodup := by
  rw [Dict.names_del]; exact h.filter _

theorem Dict.mem_names {d : Dict α} {k : String} : k ∈ d.names ↔ ∃ v, d.get k = some v := by
  constructor
  · intro h
    simp only [Dict.names, List.mem_map] at h
    obtain ⟨⟨a, b⟩, h, rfl⟩ := h
    exact Dict.get_of_mem h
  · rintro ⟨v, h⟩
    simp only [Dict.names, List.mem_map]
    exact ⟨_, Dict.mem_of_get h, rfl⟩

theorem Dict.mem_iff {d : Dict α} (h : d.names.Nodup) {k : String} {v : α} : (k, v) ∈ d ↔ d.get k = some v := by
  refine ⟨fun hm => ?_, Dict.mem_of_get⟩
  induction d with
  | nil => cases hm
  | cons p d ih =>
    obtain ⟨a, b⟩ := p
    simp only [Dict.names, List.map_cons, List.nodup_cons] at h
    simp only [Dict.get]
    rcases List.mem_cons.1 hm with hm | hm
    · cases hm; simp
    · have : a ≠ k := by
        rintro rfl
        exact h.1 (List.mem_map.2 ⟨_, hm, rfl⟩)
      simp only [this, if_false]
      exact ih h.2 hm

end

/-! ### writes -/

theorem applyAll_append (disk : Disk) (a b : List Write) : disk.applyAll (a ++ b) = (disk.applyAll a).applyAll b := by
  simp [Disk.applyAll]

def Write.name : Write → String
  | .put n _ => n
  | .unlink n => n

theorem apply_other (disk : Disk) (w : Write) {n : String} (h : n ≠ w.name) : disk.apply w n = disk n := by
  cases w <;> simp [Disk.apply, Write.name] at h ⊢ <;> intro h2 <;> exact absurd h2 h

theorem applyAll_other (ws : List Write) {n : String} : ∀ (disk : Disk), (∀ w ∈ ws, n ≠ w.name) → disk.applyAll ws n = disk n := by
  induction ws with
  | nil => intro disk _; rfl
  | cons w ws ih =>
    intro disk h
    have := ih (disk.apply w) (fun w hw => h w (List.mem_cons_of_mem _ hw))
    rw [show disk.applyAll (w :: ws) = (disk.apply w).applyAll ws from rfl, this]
    exact apply_other disk w (h w List.mem_cons_self)

end Aiootp.Database
