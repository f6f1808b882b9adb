import Verif.Py
/-! Lemmas about insertion-ordered dictionaries. -/
namespace Verif
namespace Dict
variable {κ ν : Type} [DecidableEq κ]

@[simp] theorem get_nil (k : κ) : get k ([] : Dict κ ν) = none := rfl

theorem get_cons (k k' : κ) (v : ν) (d : Dict κ ν) :
    get k ((k', v) :: d) = if k' = k then some v else get k d := rfl

@[simp] theorem get_set_self (k : κ) (v : ν) (d : Dict κ ν) : get k (set k v d) = some v := by
  induction d with
  | nil => simp [set, get]
  | cons p d ih =>
    obtain ⟨k', v'⟩ := p
    by_cases h : k' = k <;> simp [set, get, h, ih]

theorem get_set_ne {k k' : κ} (h : k ≠ k') (v : ν) (d : Dict κ ν) :
    get k (set k' v d) = get k d := by
  induction d with
  | nil => simp [set, get, Ne.symm h]
  | cons p d ih =>
    obtain ⟨k₀, v₀⟩ := p
    by_cases h0 : k₀ = k'
    · subst h0; simp [set, get, Ne.symm h]
    · by_cases h1 : k₀ = k
      · subst h1; simp [set, get, h0]
      · simp [set, get, h0, h1, ih]

theorem get_set (k k' : κ) (v : ν) (d : Dict κ ν) :
    get k (set k' v d) = if k = k' then some v else get k d := by
  by_cases h : k = k'
  · subst h; simp
  · simp [h, get_set_ne h]

theorem get_isSome_iff (k : κ) (d : Dict κ ν) : (get k d).isSome ↔ k ∈ keys d := by
  induction d with
  | nil => simp [get, keys]
  | cons p d ih =>
    obtain ⟨k', v⟩ := p
    by_cases h : k' = k
    · simp [get, keys, h]
    · have : k ≠ k' := fun e => h e.symm
      simp only [get, h, if_false, keys, List.map_cons, List.mem_cons, this, false_or]
      exact ih

theorem get_eq_none_iff (k : κ) (d : Dict κ ν) : get k d = none ↔ k ∉ keys d := by
  rw [← get_isSome_iff]; cases get k d <;> simp

theorem get_mem {k : κ} {v : ν} {d : Dict κ ν} (h : get k d = some v) : (k, v) ∈ d := by
  induction d with
  | nil => simp [get] at h
  | cons p d ih =>
    obtain ⟨k', v'⟩ := p
    by_cases hk : k' = k
    · simp [get, hk] at h; subst hk; subst h; simp
    · simp [get, hk] at h; exact List.mem_cons_of_mem _ (ih h)

theorem get_of_mem_nodup {k : κ} {v : ν} {d : Dict κ ν} (hd : Nodup d) (h : (k, v) ∈ d) :
    get k d = some v := by
  induction d with
  | nil => simp at h
  | cons p d ih =>
    obtain ⟨k', v'⟩ := p
    simp only [Nodup, keys, List.map_cons, List.nodup_cons] at hd
    rcases List.mem_cons.1 h with h | h
    · cases h; simp [get]
    · have : k' ≠ k := by
        rintro rfl
        exact hd.1 (List.mem_map.2 ⟨(k', v), h, rfl⟩)
      simp [get, this, ih hd.2 h]

theorem keys_set (k : κ) (v : ν) (d : Dict κ ν) :
    keys (set k v d) = if k ∈ keys d then keys d else keys d ++ [k] := by
  induction d with
  | nil => simp [set, keys]
  | cons p d ih =>
    obtain ⟨k', v'⟩ := p
    by_cases h : k' = k
    · simp [set, keys, h]
    · have hne : k ≠ k' := fun e => h e.symm
      simp only [set, h, if_false]
      show k' :: keys (set k v d) = _
      rw [ih]
      by_cases hm : k ∈ keys d
      · have : k ∈ keys ((k', v') :: d) := List.mem_cons_of_mem _ hm
        rw [if_pos hm, if_pos this]; rfl
      · have : k ∉ keys ((k', v') :: d) := by
          intro hh; rcases List.mem_cons.1 hh with hh | hh
          · exact hne hh
          · exact hm hh
        rw [if_neg hm, if_neg this]; rfl

theorem nodup_set (k : κ) (v : ν) {d : Dict κ ν} (h : Nodup d) : Nodup (set k v d) := by
  unfold Nodup; rw [keys_set]
  by_cases hm : k ∈ keys d
  · rw [if_pos hm]; exact h
  · simp only [hm, if_false]
    rw [List.nodup_append]
    refine ⟨h, by simp, ?_⟩
    intro a ha b hb
    simp at hb; subst hb
    rintro rfl; exact hm ha

theorem set_of_get {k : κ} {v : ν} {d : Dict κ ν} (h : get k d = some v) : set k v d = d := by
  induction d with
  | nil => simp [get] at h
  | cons p d ih =>
    obtain ⟨k', v'⟩ := p
    by_cases hk : k' = k
    · simp [get, hk] at h; simp [set, hk, h]
    · simp [get, hk] at h; simp [set, hk, ih h]

theorem has_iff (k : κ) (d : Dict κ ν) : has k d = true ↔ (get k d).isSome := Iff.rfl

end Dict

theorem dropPrefix_eq_some {p s r : Str} : dropPrefix p s = some r ↔ s = p ++ r := by
  induction p generalizing s with
  | nil => simp [dropPrefix, eq_comm]
  | cons c p ih =>
    cases s with
    | nil => simp [dropPrefix]
    | cons d s =>
      by_cases h : c = d
      · subst h; simp [dropPrefix, ih]
      · simp [dropPrefix, h]; intro e; exact absurd e.symm h

theorem dropPrefix_eq_none {p s : Str} : dropPrefix p s = none ↔ ¬ p <+: s := by
  constructor
  · intro h ⟨r, hr⟩
    rw [(dropPrefix_eq_some (p := p) (r := r)).2 hr.symm] at h; cases h
  · intro h
    cases hd : dropPrefix p s with
    | none => rfl
    | some r => exact absurd ⟨r, (dropPrefix_eq_some.1 hd).symm⟩ h

end Verif
