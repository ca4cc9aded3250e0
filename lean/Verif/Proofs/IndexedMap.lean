import Verif.Model.IndexedMap

/-!
# The index invariant of the indexed map
-/
namespace Verif.Proofs
open Verif Verif.Model

variable {T : Type}

/-- Key `k` sits in the bucket of value `v`. -/
def InB (index : Index) (v k : String) : Prop := k ∈ (index.get? v).getD []

/-- An index is a well-formed map of non-empty buckets without repetition. -/
structure GoodIndex (index : Index) : Prop where
  wf : GMap.WF index
  ne : ∀ v ks, index.get? v = some ks → ks ≠ [] ∧ ks.Nodup

theorem mem_add {k : KeySet} {s x : String} : x ∈ KeySet.add k s ↔ x ∈ k ∨ x = s := by
  unfold KeySet.add
  split
  · constructor
    · exact Or.inl
    · rintro (h | rfl) <;> assumption
  · simp

theorem nodup_add {k : KeySet} {s : String} (h : k.Nodup) : (KeySet.add k s).Nodup := by
  unfold KeySet.add
  split
  · exact h
  · rename_i hs
    rw [List.nodup_append]
    refine ⟨h, by simp, ?_⟩
    intro a ha b hb
    simp only [List.mem_singleton] at hb
    rintro rfl
    subst hb
    exact hs ha

theorem mem_remove {k : KeySet} {s x : String} : x ∈ KeySet.remove k s ↔ x ∈ k ∧ x ≠ s := by
  simp [KeySet.remove]

theorem GoodIndex.nil : GoodIndex [] := ⟨GMap.WF_nil, by simp⟩

theorem InB_nil (v k : String) : ¬ InB [] v k := by simp [InB]

theorem unindexVals_good (key : String) : ∀ (vals : List String) (index : Index), GoodIndex index →
    GoodIndex (unindexVals key vals index)
  | [], _, h => h
  | v :: vs, index, h => by
    simp only [unindexVals]
    cases hg : index.get? v with
    | none => exact unindexVals_good key vs index h
    | some set =>
      simp only
      split
      · refine unindexVals_good key vs _ ⟨h.wf.del v, ?_⟩
        intro v' ks hks
        rw [GMap.get?_del] at hks
        split at hks
        · simp at hks
        · exact h.ne v' ks hks
      · rename_i hl
        refine unindexVals_good key vs _ ⟨h.wf.set v _, ?_⟩
        intro v' ks hks
        rw [GMap.get?_set] at hks
        split at hks
        · simp only [Option.some.injEq] at hks
          subst hks
          refine ⟨by rintro h0; rw [h0] at hl; exact hl rfl, ?_⟩
          exact List.Nodup.sublist List.filter_sublist (h.ne v set hg).2
        · exact h.ne v' ks hks

theorem unindexVals_inB (key : String) : ∀ (vals : List String) (index : Index) (v k : String),
    InB (unindexVals key vals index) v k ↔ InB index v k ∧ ¬ (k = key ∧ v ∈ vals)
  | [], index, v, k => by simp [unindexVals]
  | w :: vs, index, v, k => by
    simp only [unindexVals]
    cases hg : index.get? w with
    | none =>
      simp only
      rw [unindexVals_inB key vs index v k]
      constructor
      · rintro ⟨h1, h2⟩
        refine ⟨h1, ?_⟩
        rintro ⟨h3, h4⟩
        rcases List.mem_cons.1 h4 with h5 | h5
        · subst h5; simp [InB, hg] at h1
        · exact h2 ⟨h3, h5⟩
      · rintro ⟨h1, h2⟩
        exact ⟨h1, fun ⟨h3, h4⟩ => h2 ⟨h3, List.mem_cons_of_mem _ h4⟩⟩
    | some set =>
      simp only
      have key1 : ∀ (ix' : Index), (∀ v k, InB ix' v k ↔ InB index v k ∧ ¬ (k = key ∧ v = w)) →
          (InB (unindexVals key vs ix') v k ↔ InB index v k ∧ ¬ (k = key ∧ v ∈ w :: vs)) := by
        intro ix' hix
        rw [unindexVals_inB key vs ix' v k, hix]
        constructor
        · rintro ⟨⟨h1, h2⟩, h3⟩
          refine ⟨h1, ?_⟩
          rintro ⟨h4, h5⟩
          rcases List.mem_cons.1 h5 with h6 | h6
          · exact h2 ⟨h4, h6⟩
          · exact h3 ⟨h4, h6⟩
        · rintro ⟨h1, h2⟩
          exact ⟨⟨h1, fun ⟨h3, h4⟩ => h2 ⟨h3, by simp [h4]⟩⟩, fun ⟨h3, h4⟩ => h2 ⟨h3, by simp [h4]⟩⟩
      split
      · rename_i hl
        apply key1
        intro v' k'
        unfold InB
        rw [GMap.get?_del]
        by_cases hv : w = v'
        · subst hv
          simp only [if_true, Option.getD_none, List.not_mem_nil, hg, Option.getD_some, and_true, false_iff, not_and,
            Classical.not_not]
          intro hm
          apply Classical.byContradiction
          intro hne
          have : k' ∈ KeySet.remove set key := mem_remove.2 ⟨hm, hne⟩
          rw [List.length_eq_zero_iff.1 hl] at this
          simp at this
        · simp [hv, Ne.symm hv]
      · apply key1
        intro v' k'
        unfold InB
        rw [GMap.get?_set]
        by_cases hv : w = v'
        · subst hv
          simp [hg, mem_remove]
        · simp [hv, Ne.symm hv]

theorem reindexVals_good (key : String) : ∀ (vals : List String) (index : Index), GoodIndex index →
    GoodIndex (reindexVals key vals index)
  | [], _, h => h
  | v :: vs, index, h => by
    simp only [reindexVals]
    refine reindexVals_good key vs _ ⟨h.wf.set v _, ?_⟩
    intro v' ks hks
    rw [GMap.get?_set] at hks
    split at hks
    · simp only [Option.some.injEq] at hks
      subst hks
      constructor
      · intro h0
        have : key ∈ KeySet.add ((index.get? v).getD []) key := mem_add.2 (Or.inr rfl)
        rw [h0] at this; simp at this
      · apply nodup_add
        cases hg : index.get? v with
        | none => simp
        | some s => exact (h.ne v s hg).2
    · exact h.ne v' ks hks

theorem reindexVals_inB (key : String) : ∀ (vals : List String) (index : Index) (v k : String),
    InB (reindexVals key vals index) v k ↔ InB index v k ∨ (k = key ∧ v ∈ vals)
  | [], index, v, k => by simp [reindexVals]
  | w :: vs, index, v, k => by
    simp only [reindexVals]
    rw [reindexVals_inB key vs _ v k]
    have : InB (index.set w (KeySet.add ((index.get? w).getD []) key)) v k ↔ InB index v k ∨ (k = key ∧ v = w) := by
      unfold InB
      rw [GMap.get?_set]
      by_cases hv : w = v
      · subst hv; simp [mem_add]
      · simp [hv, Ne.symm hv]
    rw [this]
    simp only [List.mem_cons]
    constructor
    · rintro ((h | ⟨h1, h2⟩) | ⟨h1, h2⟩)
      · exact Or.inl h
      · exact Or.inr ⟨h1, Or.inl h2⟩
      · exact Or.inr ⟨h1, Or.inr h2⟩
    · rintro (h | ⟨h1, h2 | h2⟩)
      · exact Or.inl (Or.inl h)
      · exact Or.inl (Or.inr ⟨h1, h2⟩)
      · exact Or.inr ⟨h1, h2⟩

theorem unindexVals_nil (key : String) (vals : List String) : unindexVals key vals [] = [] := by
  induction vals with
  | nil => rfl
  | cons v vs ih => simp [unindexVals, ih]

theorem unindexAll_wf (key : String) (obj : T) : ∀ (ixr : GMap String (Indexer T)) (ix : GMap String Index),
    ix.WF → (unindexAll key obj ixr ix).WF
  | [], _, h => h
  | (n, f) :: rest, ix, h => by
    simp only [unindexAll]
    split
    · exact unindexAll_wf key obj rest ix h
    · exact unindexAll_wf key obj rest _ (h.set n _)

theorem unindexAll_other (key : String) (obj : T) : ∀ (ixr : GMap String (Indexer T)) (ix : GMap String Index) (name : String),
    name ∉ ixr.keys → (unindexAll key obj ixr ix).get? name = ix.get? name
  | [], _, _, _ => rfl
  | (n, f) :: rest, ix, name, h => by
    simp only [GMap.keys, List.map_cons, List.mem_cons, not_or] at h
    simp only [unindexAll]
    split
    · exact unindexAll_other key obj rest ix name h.2
    · rw [unindexAll_other key obj rest _ name h.2, GMap.get?_set_ne _ _ (Ne.symm h.1)]

theorem unindexAll_get (key : String) (obj : T) : ∀ (ixr : GMap String (Indexer T)) (ix : GMap String Index),
    ixr.WF → ∀ name f, ixr.get? name = some f →
      ((unindexAll key obj ixr ix).get? name).getD [] = unindexVals key (f obj) ((ix.get? name).getD [])
  | [], _, _, _, _, h => by simp at h
  | (n, g) :: rest, ix, hw, name, f, h => by
    simp only [GMap.WF, GMap.keys, List.map_cons, List.nodup_cons] at hw
    simp only [GMap.get?_cons] at h
    simp only [unindexAll]
    by_cases hn : n = name
    · subst hn
      simp only [if_true, Option.some.injEq] at h
      subst h
      cases hg : ix.get? n with
      | none =>
        simp only
        rw [unindexAll_other key obj rest ix n hw.1, hg]
        simp [unindexVals_nil]
      | some index =>
        simp only
        rw [unindexAll_other key obj rest _ n hw.1, GMap.get?_set_self]
        simp
    · simp only [hn, if_false] at h
      split
      · exact unindexAll_get key obj rest ix hw.2 name f h
      · rw [unindexAll_get key obj rest _ hw.2 name f h, GMap.get?_set_ne _ _ hn]

theorem reindexAll_wf (key : String) (obj : T) : ∀ (ixr : GMap String (Indexer T)) (ix : GMap String Index),
    ix.WF → (reindexAll key obj ixr ix).WF
  | [], _, h => h
  | (n, f) :: rest, ix, h => by
    simp only [reindexAll]
    exact reindexAll_wf key obj rest _ (h.set n _)

theorem reindexAll_other (key : String) (obj : T) : ∀ (ixr : GMap String (Indexer T)) (ix : GMap String Index) (name : String),
    name ∉ ixr.keys → (reindexAll key obj ixr ix).get? name = ix.get? name
  | [], _, _, _ => rfl
  | (n, f) :: rest, ix, name, h => by
    simp only [GMap.keys, List.map_cons, List.mem_cons, not_or] at h
    simp only [reindexAll]
    rw [reindexAll_other key obj rest _ name h.2, GMap.get?_set_ne _ _ (Ne.symm h.1)]

theorem reindexAll_get (key : String) (obj : T) : ∀ (ixr : GMap String (Indexer T)) (ix : GMap String Index),
    ixr.WF → ∀ name f, ixr.get? name = some f →
      ((reindexAll key obj ixr ix).get? name).getD [] = reindexVals key (f obj) ((ix.get? name).getD [])
  | [], _, _, _, _, h => by simp at h
  | (n, g) :: rest, ix, hw, name, f, h => by
    simp only [GMap.WF, GMap.keys, List.map_cons, List.nodup_cons] at hw
    simp only [GMap.get?_cons] at h
    simp only [reindexAll]
    by_cases hn : n = name
    · subst hn
      simp only [if_true, Option.some.injEq] at h
      subst h
      rw [reindexAll_other key obj rest _ n hw.1, GMap.get?_set_self]
      simp
    · simp only [hn, if_false] at h
      rw [reindexAll_get key obj rest _ hw.2 name f h, GMap.get?_set_ne _ _ hn]

/-- The index `index` of indexer `f` describes exactly the items. -/
structure BucketOK (f : Indexer T) (items : String → Option T) (index : Index) : Prop where
  good : GoodIndex index
  mem : ∀ v k, InB index v k ↔ ∃ x, items k = some x ∧ v ∈ f x

/-- What holds of an indexed map in every reachable state. -/
structure SIMInv (m : SIM T) : Prop where
  items : m.items.WF
  indexers : m.indexers.WF
  pos : ∀ k c, m.items.get? k = some c → 1 ≤ c.version
  each : ∀ name f, m.indexers.get? name = some f →
    BucketOK f (fun k => (m.items.get? k).map VC.resource) ((m.indicies.get? name).getD [])

theorem SIMInv.new (ixr : GMap String (Indexer T)) (h : ixr.WF) : SIMInv (SIM.new ixr) where
  items := GMap.WF_nil
  indexers := h
  pos := by simp [SIM.new]
  each := by
    intro name f _
    refine ⟨GoodIndex.nil, ?_⟩
    intro v k
    simp [SIM.new, InB]

theorem SIM.versionOf_nonneg {m : SIM T} (h : SIMInv m) (k : String) : 0 ≤ m.versionOf k := by
  unfold SIM.versionOf
  split
  · have := h.pos k _ ‹_›; omega
  · exact Int.le_refl 0

/-- version 0 means absent -/
theorem SIM.versionOf_eq_zero {m : SIM T} (h : SIMInv m) (k : String) : m.versionOf k = 0 ↔ m.items.get? k = none := by
  unfold SIM.versionOf
  split
  · rename_i c hc
    have := h.pos k c hc
    simp [hc]; omega
  · simp [*]

theorem put_items (m : SIM T) (key : String) (obj : T) :
    (m.put key obj).1.items = m.items.set key { resource := obj, version := m.versionOf key + 1 } := rfl

theorem put_indexers (m : SIM T) (key : String) (obj : T) : (m.put key obj).1.indexers = m.indexers := rfl

theorem put_get (m : SIM T) (key : String) (obj : T) (k : String) :
    (m.put key obj).1.items.get? k
      = if key = k then some { resource := obj, version := m.versionOf key + 1 } else m.items.get? k := by
  rw [put_items, GMap.get?_set]

theorem put_delta (m : SIM T) (key : String) (obj : T) :
    (m.put key obj).2 = { prev := (m.items.get? key).map VC.resource, next := obj } := rfl

theorem SIMInv.put {m : SIM T} (h : SIMInv m) (key : String) (obj : T) : SIMInv (m.put key obj).1 where
  items := by rw [put_items]; exact h.items.set _ _
  indexers := h.indexers
  pos := by
    intro k c hc
    rw [put_get] at hc
    split at hc
    · simp only [Option.some.injEq] at hc; subst hc
      have := SIM.versionOf_nonneg h key
      simp; omega
    · exact h.pos k c hc
  each := by
    intro name f hf
    have hf' : m.indexers.get? name = some f := hf
    have hb := h.each name f hf'
    have hix : (((m.put key obj).1.indicies).get? name).getD [] =
        reindexVals key (f obj) (match (m.items.get? key).map VC.resource with
          | some p => unindexVals key (f p) ((m.indicies.get? name).getD [])
          | none => (m.indicies.get? name).getD []) := by
      simp only [SIM.put, SIM.reindex]
      rw [reindexAll_get key obj _ _ h.indexers name f hf']
      cases hg : (m.items.get? key).map VC.resource with
      | none => rfl
      | some p => simp only [unindexAll_get key p _ _ h.indexers name f hf']
    rw [hix]
    refine ⟨?_, ?_⟩
    · apply reindexVals_good
      split
      · exact unindexVals_good _ _ _ hb.good
      · exact hb.good
    · intro v k
      rw [reindexVals_inB, put_get]
      have h1 : (InB (match (m.items.get? key).map VC.resource with
          | some p => unindexVals key (f p) ((m.indicies.get? name).getD [])
          | none => (m.indicies.get? name).getD []) v k) ↔
          k ≠ key ∧ ∃ x, (m.items.get? k).map VC.resource = some x ∧ v ∈ f x := by
        cases hg : (m.items.get? key).map VC.resource with
        | none =>
          simp only
          rw [hb.mem]
          constructor
          · rintro ⟨x, hx, hv⟩
            refine ⟨?_, x, hx, hv⟩
            rintro rfl
            rw [hg] at hx; simp at hx
          · rintro ⟨_, h⟩; exact h
        | some p =>
          simp only
          rw [unindexVals_inB, hb.mem]
          constructor
          · rintro ⟨⟨x, hx, hv⟩, h2⟩
            refine ⟨?_, x, hx, hv⟩
            rintro rfl
            rw [hg] at hx
            simp only [Option.some.injEq] at hx
            subst hx
            exact h2 ⟨rfl, hv⟩
          · rintro ⟨h2, x, hx, hv⟩
            exact ⟨⟨x, hx, hv⟩, fun h3 => h2 h3.1⟩
      rw [h1]
      by_cases hk : key = k
      · subst hk; simp
      · simp [hk, Ne.symm hk]

theorem SIMInv.delete {m : SIM T} (h : SIMInv m) (key : String) : SIMInv (m.delete key).1 := by
  unfold SIM.delete
  cases hg : m.items.get? key with
  | none => exact h
  | some d =>
    simp only
    refine ⟨h.items.del _, h.indexers, ?_, ?_⟩
    · intro k c hc
      simp only [GMap.get?_del] at hc
      split at hc
      · simp at hc
      · exact h.pos k c hc
    · intro name f hf
      have hb := h.each name f hf
      simp only
      rw [unindexAll_get key d.resource _ _ h.indexers name f hf]
      refine ⟨unindexVals_good _ _ _ hb.good, ?_⟩
      intro v k
      rw [unindexVals_inB, hb.mem, GMap.get?_del]
      by_cases hk : key = k
      · subst hk; simp [hg]
      · simp [hk, Ne.symm hk]

theorem delete_get {m : SIM T} (key k : String) :
    (m.delete key).1.items.get? k = if key = k then none else m.items.get? k := by
  unfold SIM.delete
  cases hg : m.items.get? key with
  | none =>
    simp only
    split
    · rename_i h; subst h; exact hg
    · rfl
  | some d => simp only [GMap.get?_del]

theorem delete_snd {m : SIM T} (key : String) : (m.delete key).2 = m.items.get? key := by
  unfold SIM.delete
  cases hg : m.items.get? key <;> rfl

theorem delete_indexers {m : SIM T} (key : String) : (m.delete key).1.indexers = m.indexers := by
  unfold SIM.delete
  cases hg : m.items.get? key <;> rfl

theorem replaceItems_keys (old : SIM T) : ∀ items : GMap String T, (replaceItems old items).keys = items.keys
  | [] => rfl
  | (k, v) :: rest => by
    have := replaceItems_keys old rest
    simp only [GMap.keys] at this
    simp [replaceItems, GMap.keys, this]

theorem replaceItems_get (old : SIM T) : ∀ (items : GMap String T) (k : String),
    (replaceItems old items).get? k = (items.get? k).map fun v => { resource := v, version := old.versionOf k + 1 }
  | [], _ => rfl
  | (a, v) :: rest, k => by
    simp only [replaceItems, GMap.get?_cons]
    split
    · rename_i h; subst h; rfl
    · exact replaceItems_get old rest k

theorem reindexEach_bucket (ixr : GMap String (Indexer T)) (hw : ixr.WF) (name : String) (f : Indexer T)
    (hf : ixr.get? name = some f) : ∀ (items : GMap String T) (ix : GMap String Index),
    GoodIndex ((ix.get? name).getD []) →
    GoodIndex (((reindexEach ixr items ix).get? name).getD []) ∧
    ∀ v k, InB (((reindexEach ixr items ix).get? name).getD []) v k ↔
      InB ((ix.get? name).getD []) v k ∨ ∃ x, (k, x) ∈ items ∧ v ∈ f x
  | [], ix, h => by simp [reindexEach, h]
  | (a, x) :: rest, ix, h => by
    simp only [reindexEach]
    have e := reindexAll_get a x ixr ix hw name f hf
    have g : GoodIndex (((reindexAll a x ixr ix).get? name).getD []) := by rw [e]; exact reindexVals_good _ _ _ h
    have r := reindexEach_bucket ixr hw name f hf rest _ g
    refine ⟨r.1, ?_⟩
    intro v k
    rw [r.2 v k, e, reindexVals_inB]
    constructor
    · rintro ((h1 | ⟨h1, h2⟩) | ⟨y, h1, h2⟩)
      · exact Or.inl h1
      · exact Or.inr ⟨x, by simp [h1], h2⟩
      · exact Or.inr ⟨y, by simp [h1], h2⟩
    · rintro (h1 | ⟨y, h1, h2⟩)
      · exact Or.inl (Or.inl h1)
      · rcases List.mem_cons.1 h1 with h3 | h3
        · simp only [Prod.mk.injEq] at h3
          obtain ⟨rfl, rfl⟩ := h3
          exact Or.inl (Or.inr ⟨rfl, h2⟩)
        · exact Or.inr ⟨y, h3, h2⟩

theorem SIMInv.replace {m : SIM T} (h : SIMInv m) (items : GMap String T) (hi : items.WF) : SIMInv (m.replace items) where
  items := by
    show GMap.WF (replaceItems m items)
    unfold GMap.WF
    rw [replaceItems_keys]; exact hi
  indexers := h.indexers
  pos := by
    intro k c hc
    simp only [SIM.replace, replaceItems_get] at hc
    cases hg : items.get? k with
    | none => simp [hg] at hc
    | some v =>
      simp only [hg, Option.map_some, Option.some.injEq] at hc
      subst hc
      have := SIM.versionOf_nonneg h k
      simp; omega
  each := by
    intro name f hf
    have r := reindexEach_bucket m.indexers h.indexers name f hf items [] GoodIndex.nil
    refine ⟨r.1, ?_⟩
    intro v k
    show InB _ v k ↔ _
    simp only [SIM.replace]
    rw [r.2 v k]
    simp only [replaceItems_get, Option.map_map]
    constructor
    · rintro (h1 | ⟨x, h1, h2⟩)
      · simp [InB] at h1
      · exact ⟨x, by simp [GMap.get?_of_mem hi h1], h2⟩
    · rintro ⟨x, h1, h2⟩
      right
      refine ⟨x, ?_, h2⟩
      cases hg : items.get? k with
      | none => simp [hg] at h1
      | some y =>
        simp only [hg, Option.map_some, Option.some.injEq, Function.comp] at h1
        subst h1
        exact GMap.mem_of_get? hg

theorem replace_get (m : SIM T) (items : GMap String T) (k : String) :
    (m.replace items).items.get? k = (items.get? k).map fun v => { resource := v, version := m.versionOf k + 1 } :=
  replaceItems_get m items k

theorem SIMInv.update {m : SIM T} (h : SIMInv m) (key : String) (obj : T) (cond : List Cond) :
    SIMInv (m.update key obj cond).1 := by
  unfold SIM.update
  split
  · exact h
  · exact h.put key obj

theorem SIMInv.patch {m : SIM T} (h : SIMInv m) (key : String) (p : Option T → POut T) (cond : List Cond) :
    SIMInv (m.patch key p cond).1 := by
  unfold SIM.patch
  split
  · exact h
  · split
    · exact h.put key _
    · exact h
    · exact h
    · exact h

/-! ## Index lookups -/

theorem foldl_add_mem : ∀ (l acc : List String) (x : String), x ∈ l.foldl KeySet.add acc ↔ x ∈ acc ∨ x ∈ l
  | [], acc, x => by simp
  | a :: l, acc, x => by
    rw [List.foldl_cons, foldl_add_mem l, mem_add, List.mem_cons]
    constructor
    · rintro ((h | h) | h)
      · exact Or.inl h
      · exact Or.inr (Or.inl h)
      · exact Or.inr (Or.inr h)
    · rintro (h | h | h)
      · exact Or.inl (Or.inl h)
      · exact Or.inl (Or.inr h)
      · exact Or.inr h

theorem foldl_add_nodup : ∀ (l acc : List String), acc.Nodup → (l.foldl KeySet.add acc).Nodup
  | [], _, h => h
  | a :: l, acc, h => by
    rw [List.foldl_cons]
    exact foldl_add_nodup l _ (nodup_add h)

theorem collectKeys_mem (index : Index) : ∀ (vals acc : List String) (k : String),
    k ∈ collectKeys index vals acc ↔ k ∈ acc ∨ ∃ v ∈ vals, InB index v k
  | [], acc, k => by simp [collectKeys]
  | v :: vs, acc, k => by
    simp only [collectKeys]
    rw [collectKeys_mem index vs, foldl_add_mem]
    simp only [List.mem_cons, exists_eq_or_imp, InB]
    constructor
    · rintro ((h | h) | h)
      · exact Or.inl h
      · exact Or.inr (Or.inl h)
      · exact Or.inr (Or.inr h)
    · rintro (h | h | h)
      · exact Or.inl (Or.inl h)
      · exact Or.inl (Or.inr h)
      · exact Or.inr h

theorem collectKeys_nodup (index : Index) : ∀ (vals acc : List String), acc.Nodup → (collectKeys index vals acc).Nodup
  | [], _, h => h
  | v :: vs, acc, h => by
    simp only [collectKeys]
    exact collectKeys_nodup index vs _ (foldl_add_nodup _ _ h)

/-- The keys an index lookup visits: each stored key sharing a value with the exemplar, once. -/
theorem index_keys {m : SIM T} [Inhabited T] (h : SIMInv m) {name : String} {f : Indexer T}
    (hf : m.indexers.get? name = some f) (obj : T) :
    ∃ ks : List String, ks.Nodup ∧
      (∀ k, k ∈ ks ↔ ∃ c, m.items.get? k = some c ∧ ∃ v, v ∈ f obj ∧ v ∈ f c.resource) ∧
      m.index name obj = .ok (ks.map fun k => (m.items.get? k).getD VC.zero) := by
  refine ⟨collectKeys ((m.indicies.get? name).getD []) (f obj) [], collectKeys_nodup _ _ _ (by simp), ?_, ?_⟩
  · intro k
    rw [collectKeys_mem]
    simp only [List.not_mem_nil, false_or]
    constructor
    · rintro ⟨v, hv, hb⟩
      obtain ⟨x, hx, hvx⟩ := ((h.each name f hf).mem v k).1 hb
      cases hg : m.items.get? k with
      | none => simp [hg] at hx
      | some c =>
        simp only [hg, Option.map_some, Option.some.injEq] at hx
        subst hx
        exact ⟨c, rfl, v, hv, hvx⟩
    · rintro ⟨c, hc, v, hv, hvc⟩
      exact ⟨v, hv, ((h.each name f hf).mem v k).2 ⟨c.resource, by simp [hc], hvc⟩⟩
  · simp [SIM.index, hf]

theorem indexValues_spec {m : SIM T} (h : SIMInv m) {name : String} {f : Indexer T}
    (hf : m.indexers.get? name = some f) :
    ∃ vs, m.indexValues name = .ok vs ∧ vs.Nodup ∧
      ∀ v, v ∈ vs ↔ ∃ k c, m.items.get? k = some c ∧ v ∈ f c.resource := by
  refine ⟨((m.indicies.get? name).getD []).keys, by simp [SIM.indexValues, hf], (h.each name f hf).good.wf, ?_⟩
  intro v
  have hb := h.each name f hf
  rw [GMap.mem_keys_iff]
  constructor
  · rintro ⟨ks, hks⟩
    obtain ⟨k, hk⟩ := List.exists_mem_of_ne_nil _ (hb.good.ne v ks hks).1
    obtain ⟨x, hx, hv⟩ := (hb.mem v k).1 (by simp [InB, hks, hk])
    cases hg : m.items.get? k with
    | none => simp [hg] at hx
    | some c =>
      simp only [hg, Option.map_some, Option.some.injEq] at hx
      subst hx
      exact ⟨k, c, hg, hv⟩
  · rintro ⟨k, c, hc, hv⟩
    have : InB ((m.indicies.get? name).getD []) v k := (hb.mem v k).2 ⟨c.resource, by simp [hc], hv⟩
    unfold InB at this
    cases hg : GMap.get? ((m.indicies.get? name).getD []) v with
    | none => rw [hg] at this; simp at this
    | some ks => exact ⟨ks, rfl⟩

end Verif.Proofs
