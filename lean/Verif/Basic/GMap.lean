/-!
# Go maps

A Go `map[K]V` is modelled as an association list.  `get?` returns the first binding, `set` replaces the
binding in place or appends it, `del` removes every binding of the key.  `WF` (no repeated key) is kept by all
operations and stated as a separate predicate.  Go iterates over maps in random order; the model
iterates in list order, and property theorems are stated so that they do not depend on it.
-/
namespace Verif

abbrev GMap (K : Type u) (V : Type v) := List (K × V)

set_option linter.unusedSectionVars false

namespace GMap

variable {K : Type u} {V : Type v} [DecidableEq K]

/-- `v, ok := m[k]` -/
def get? : GMap K V → K → Option V
  | [], _ => none
  | (k', v) :: m, k => if k' = k then some v else get? m k

/-- `m[k] = v` -/
def set : GMap K V → K → V → GMap K V
  | [], k, v => [(k, v)]
  | (k', v') :: m, k, v => if k' = k then (k, v) :: m else (k', v') :: set m k v

/-- `delete(m, k)` -/
def del (m : GMap K V) (k : K) : GMap K V := m.filter (fun p => p.1 ≠ k)

/-- the keys, in list order -/
def keys (m : GMap K V) : List K := m.map Prod.fst

/-- the values, in list order -/
def vals (m : GMap K V) : List V := m.map Prod.snd

/-- No key is bound twice. -/
def WF (m : GMap K V) : Prop := m.keys.Nodup

@[simp] theorem get?_nil (k : K) : get? ([] : GMap K V) k = none := rfl

theorem get?_cons (k' : K) (v : V) (m : GMap K V) (k : K) :
    get? ((k', v) :: m) k = if k' = k then some v else get? m k := rfl

theorem get?_set (m : GMap K V) (k k' : K) (v : V) :
    (m.set k v).get? k' = if k = k' then some v else m.get? k' := by
  induction m with
  | nil => simp [set, get?]
  | cons p m ih =>
    obtain ⟨a, b⟩ := p
    simp only [set]
    by_cases h : a = k
    · subst h; simp only [if_true, get?]; by_cases h2 : a = k' <;> simp [h2]
    · simp only [h, if_false, get?, ih]
      by_cases h2 : a = k'
      · subst h2; simp [Ne.symm h]
      · simp [h2]

@[simp] theorem get?_set_self (m : GMap K V) (k : K) (v : V) : (m.set k v).get? k = some v := by
  simp [get?_set]

theorem get?_set_ne (m : GMap K V) {k k' : K} (v : V) (h : k ≠ k') :
    (m.set k v).get? k' = m.get? k' := by simp [get?_set, h]

theorem get?_del (m : GMap K V) (k k' : K) :
    (m.del k).get? k' = if k = k' then none else m.get? k' := by
  induction m with
  | nil => simp [del, get?]
  | cons p m ih =>
    obtain ⟨a, b⟩ := p
    simp only [del] at ih ⊢
    rw [List.filter_cons]
    by_cases h : a = k
    · subst h
      simp only [ne_eq, not_true_eq_false, decide_false, Bool.false_eq_true, if_false, ih, get?]
      by_cases h2 : a = k' <;> simp [h2]
    · simp only [ne_eq, h, not_false_eq_true, decide_true, if_true, get?, ih]
      by_cases h2 : a = k'
      · subst h2; simp [Ne.symm h]
      · simp [h2]

theorem mem_keys_set (m : GMap K V) (k : K) (v : V) (a : K) :
    a ∈ (m.set k v).keys ↔ a = k ∨ a ∈ m.keys := by
  induction m with
  | nil => simp [set, keys]
  | cons p m ih =>
    obtain ⟨b, w⟩ := p
    simp only [set]
    by_cases h : b = k
    · subst h; simp [keys]
    · simp only [h, if_false]
      simp only [keys, List.map_cons, List.mem_cons] at ih ⊢
      rw [ih]
      constructor
      · rintro (h1 | h1 | h1) <;> simp [h1]
      · rintro (h1 | h1 | h1) <;> simp [h1]

theorem WF_nil : WF ([] : GMap K V) := by simp [WF, keys]

theorem WF.set {m : GMap K V} (h : m.WF) (k : K) (v : V) : (m.set k v).WF := by
  induction m with
  | nil => simp [GMap.set, WF, keys]
  | cons p m ih =>
    obtain ⟨a, b⟩ := p
    simp only [WF, keys, List.map_cons, List.nodup_cons] at h
    simp only [GMap.set]
    by_cases hk : a = k
    · subst hk; simp only [if_true, WF, keys, List.map_cons, List.nodup_cons]; exact h
    · simp only [hk, if_false, WF, keys, List.map_cons, List.nodup_cons]
      refine ⟨?_, ih h.2⟩
      intro hc
      rcases (mem_keys_set m k v a).1 hc with h1 | h1
      · exact hk h1
      · exact h.1 h1

theorem WF.del {m : GMap K V} (h : m.WF) (k : K) : (m.del k).WF := by
  unfold WF keys GMap.del at *
  exact List.Nodup.sublist (List.Sublist.map _ List.filter_sublist) h

theorem mem_of_get? {m : GMap K V} {k : K} {v : V} (h : m.get? k = some v) : (k, v) ∈ m := by
  induction m with
  | nil => simp [get?] at h
  | cons p m ih =>
    obtain ⟨a, b⟩ := p
    simp only [get?] at h
    by_cases hk : a = k
    · simp only [hk, if_true, Option.some.injEq] at h; subst h; subst hk; simp
    · simp only [hk, if_false] at h; exact List.mem_cons_of_mem _ (ih h)

theorem get?_of_mem {m : GMap K V} (hw : m.WF) {k : K} {v : V} (h : (k, v) ∈ m) :
    m.get? k = some v := by
  induction m with
  | nil => simp at h
  | cons p m ih =>
    obtain ⟨a, b⟩ := p
    simp only [WF, keys, List.map_cons, List.nodup_cons] at hw
    simp only [get?]
    rcases List.mem_cons.1 h with h1 | h1
    · simp only [Prod.mk.injEq] at h1; simp [h1.1, h1.2]
    · have : a ≠ k := by
        rintro rfl
        exact hw.1 (List.mem_map.2 ⟨(a, v), h1, rfl⟩)
      simp only [this, if_false]
      exact ih hw.2 h1

theorem mem_iff_get? {m : GMap K V} (hw : m.WF) {k : K} {v : V} :
    (k, v) ∈ m ↔ m.get? k = some v := ⟨get?_of_mem hw, mem_of_get?⟩

theorem get?_eq_none_iff {m : GMap K V} {k : K} : m.get? k = none ↔ k ∉ m.keys := by
  induction m with
  | nil => simp [get?, keys]
  | cons p m ih =>
    obtain ⟨a, b⟩ := p
    simp only [get?, keys, List.map_cons, List.mem_cons, not_or]
    by_cases hk : a = k
    · subst hk; simp
    · simp only [hk, if_false, ih, keys]; simp [Ne.symm hk]

theorem mem_keys_iff {m : GMap K V} {k : K} : k ∈ m.keys ↔ ∃ v, m.get? k = some v := by
  rw [← Option.isSome_iff_exists, ← Option.ne_none_iff_isSome, ne_eq, get?_eq_none_iff, Classical.not_not]

theorem mem_keys_of_mem {m : GMap K V} {k : K} {v : V} (h : (k, v) ∈ m) : k ∈ m.keys :=
  List.mem_map.2 ⟨(k, v), h, rfl⟩

/-- `set` on an absent key appends at the end (the shape of the list). -/
theorem set_eq_append {m : GMap K V} {k : K} (h : m.get? k = none) (v : V) :
    m.set k v = m ++ [(k, v)] := by
  induction m with
  | nil => rfl
  | cons p m ih =>
    obtain ⟨a, b⟩ := p
    simp only [get?] at h
    by_cases hk : a = k
    · simp [hk] at h
    · simp only [hk, if_false] at h
      simp [set, hk, ih h]

/-- keys after overwriting an existing key are unchanged. -/
theorem keys_set_of_mem {m : GMap K V} {k : K} (h : k ∈ m.keys) (v : V) :
    (m.set k v).keys = m.keys := by
  induction m with
  | nil => simp [keys] at h
  | cons p m ih =>
    obtain ⟨a, b⟩ := p
    simp only [set]
    by_cases hk : a = k
    · subst hk; simp [keys]
    · simp only [hk, if_false]
      simp only [keys, List.map_cons, List.mem_cons] at h ih ⊢
      rcases h with h | h
      · exact absurd h.symm hk
      · rw [ih h]

end GMap
end Verif
