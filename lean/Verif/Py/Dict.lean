/-!
# Python dictionaries

Insertion-ordered dictionaries, as the language reference defines them: assigning to an existing key
keeps its position, assigning to a new key appends.  Used by the models of the registries of nrpy.
-/
namespace Verif.Py

/-- A Python `dict`: association list in insertion order. -/
abbrev Dict (K V : Type) := List (K × V)

namespace Dict
variable {K V : Type} [DecidableEq K]

/-- `d.get(k)`. -/
def get? : Dict K V → K → Option V
  | [], _ => none
  | (k', v) :: d, k => if k' = k then some v else get? d k

/-- `k in d`. -/
def contains (d : Dict K V) (k : K) : Bool := (get? d k).isSome

/-- `d[k] = v`. -/
def set : Dict K V → K → V → Dict K V
  | [], k, v => [(k, v)]
  | (k', v') :: d, k, v => if k' = k then (k', v) :: d else (k', v') :: set d k v

/-- `d.update(e)`. -/
def update (d e : Dict K V) : Dict K V := e.foldl (fun acc kv => acc.set kv.1 kv.2) d

/-- `list(d.keys())`. -/
def keys (d : Dict K V) : List K := d.map Prod.fst

/-- Well-formedness: no key occurs twice (always true of a Python dictionary). -/
def Wf (d : Dict K V) : Prop := (keys d).Nodup

theorem get?_set_self (d : Dict K V) (k : K) (v : V) : get? (set d k v) k = some v := by
  induction d with
  | nil => simp [set, get?]
  | cons a d ih =>
    obtain ⟨k', v'⟩ := a
    by_cases h : k' = k
    · simp [set, get?, h]
    · simp [set, get?, h, ih]

theorem get?_set_ne (d : Dict K V) {k k2 : K} (v : V) (h : k2 ≠ k) :
    get? (set d k v) k2 = get? d k2 := by
  induction d with
  | nil => simp [set, get?, Ne.symm h]
  | cons a d ih =>
    obtain ⟨k', v'⟩ := a
    by_cases hk : k' = k
    · subst hk; simp [set, get?, Ne.symm h]
    · simp [set, get?, hk, ih]

theorem get?_set (d : Dict K V) (k k2 : K) (v : V) :
    get? (set d k v) k2 = if k2 = k then some v else get? d k2 := by
  by_cases h : k2 = k
  · subst h; simp [get?_set_self]
  · simp [h, get?_set_ne]

theorem contains_iff (d : Dict K V) (k : K) : contains d k = true ↔ ∃ v, get? d k = some v := by
  simp [contains, Option.isSome_iff_exists]

theorem contains_false_iff (d : Dict K V) (k : K) : contains d k = false ↔ get? d k = none := by
  simp [contains]

theorem mem_keys_iff (d : Dict K V) (k : K) : k ∈ keys d ↔ ∃ v, get? d k = some v := by
  induction d with
  | nil => simp [keys, get?]
  | cons a d ih =>
    obtain ⟨k', v'⟩ := a
    by_cases h : k' = k
    · subst h; simp [keys, get?]
    · have : k ∈ keys ((k', v') :: d) ↔ k ∈ keys d := by
        simp [keys, Ne.symm h]
      rw [this, ih]; simp [get?, h]

theorem keys_set (d : Dict K V) (k : K) (v : V) :
    keys (set d k v) = if k ∈ keys d then keys d else keys d ++ [k] := by
  induction d with
  | nil => simp [set, keys]
  | cons a d ih =>
    obtain ⟨k', v'⟩ := a
    by_cases h : k' = k
    · subst h; simp [set, keys]
    · have e : keys (set ((k', v') :: d) k v) = k' :: keys (set d k v) := by
        simp [set, h, keys]
      have e2 : keys ((k', v') :: d) = k' :: keys d := rfl
      rw [e, ih, e2]
      by_cases hm : k ∈ keys d
      · simp [hm]
      · simp [hm, Ne.symm h]

omit [DecidableEq K] in
theorem Wf.nil : Wf ([] : Dict K V) := by simp [Wf, keys]

theorem Wf.set {d : Dict K V} (h : Wf d) (k : K) (v : V) : Wf (set d k v) := by
  unfold Wf at *
  rw [keys_set]
  by_cases hm : k ∈ keys d
  · simp [hm, h]
  · simp only [hm, if_false]
    rw [List.nodup_append]
    refine ⟨h, by simp, ?_⟩
    intro a ha b hb
    simp at hb
    subst hb
    intro hab
    exact hm (hab ▸ ha)

theorem get?_of_mem {d : Dict K V} (h : Wf d) {k : K} {v : V} (hm : (k, v) ∈ d) :
    get? d k = some v := by
  induction d with
  | nil => simp at hm
  | cons a d ih =>
    obtain ⟨k', v'⟩ := a
    have hw : k' ∉ keys d ∧ Wf d := by
      have : (k' :: keys d).Nodup := h
      exact ⟨(List.nodup_cons.1 this).1, (List.nodup_cons.1 this).2⟩
    rcases List.mem_cons.1 hm with h1 | h1
    · cases h1; simp [get?]
    · have : k' ≠ k := by
        intro hk; subst hk
        exact hw.1 (List.mem_map.2 ⟨(k', v), h1, rfl⟩)
      simp [get?, this, ih hw.2 h1]

theorem mem_of_get? {d : Dict K V} {k : K} {v : V} (h : get? d k = some v) : (k, v) ∈ d := by
  induction d with
  | nil => simp [get?] at h
  | cons a d ih =>
    obtain ⟨k', v'⟩ := a
    by_cases hk : k' = k
    · subst hk
      simp [get?] at h
      subst h; simp
    · simp [get?, hk] at h
      exact List.mem_cons_of_mem _ (ih h)

theorem Wf.update {d : Dict K V} (h : Wf d) (e : Dict K V) : Wf (update d e) := by
  unfold Dict.update
  induction e generalizing d with
  | nil => exact h
  | cons a e ih => exact ih (h.set a.1 a.2)

/-- `d.update(e)` looked up at `k`: the value in `e` when present, otherwise the old one
(for a duplicate-free `e`). -/
theorem get?_update (d e : Dict K V) (he : Wf e) (k : K) :
    get? (update d e) k = (get? e k).or (get? d k) := by
  unfold Dict.update
  induction e generalizing d with
  | nil => simp [get?]
  | cons a e ih =>
    obtain ⟨k', v'⟩ := a
    have hw : k' ∉ keys e ∧ Wf e := by
      have : (k' :: keys e).Nodup := he
      exact ⟨(List.nodup_cons.1 this).1, (List.nodup_cons.1 this).2⟩
    simp only [List.foldl_cons]
    rw [ih _ hw.2, get?_set]
    by_cases hk : k' = k
    · subst hk
      have : get? e k' = none := by
        cases hg : get? e k' with
        | none => rfl
        | some v => exact absurd ((mem_keys_iff e k').2 ⟨v, hg⟩) hw.1
      simp [get?, this]
    · simp [get?, hk, Ne.symm hk]

end Dict
end Verif.Py
