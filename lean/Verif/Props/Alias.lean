import Verif.Spec.Alias
import Verif.Proofs.IndexedMap

/-!
# Store property C34: annotation maps shared with the caller
-/
namespace Verif.Props
open Verif Verif.Model Verif.Spec Verif.Proofs

def siteA : MapHeap := fun r => if r = 1 then [(siteAnnotationKey, "A")] else []

/-- An exemplar for the site index: reference 2 is the caller's map for the question. -/
def askSite (heap : MapHeap) (site : String) : MapHeap := fun r => if r = 2 then [(siteAnnotationKey, site)] else heap r

/-- C34 is false.  The caller adds an entry with site A and then changes its map to site B: the entry is not found under B.  After deleting
the entry the store is empty, but the index lists site A, and looking it up returns an entry that is not stored: the zero entry. -/
theorem C34_counterexample :
    let e : SharedEntry := { key := "h1", source := "r1", annotations := 1 }
    let ask : SharedEntry := { key := "", source := "", annotations := 2 }
    let s := Shared.run siteA [.put e, .write 1 siteAnnotationKey "B", .write 2 siteAnnotationKey "B"]
    let s' := Shared.run siteA [.put e, .write 1 siteAnnotationKey "B", .delete "h1", .write 2 siteAnnotationKey "A"]
    s.now.items.get? "h1" = some ⟨e, 1⟩ ∧ s.heap 1 = [(siteAnnotationKey, "B")] ∧ s.now.index indexBySite ask = .ok [] ∧
    s'.now.items = [] ∧ s'.now.indexValues indexBySite = .ok ["A"] ∧ s'.now.index indexBySite ask = .ok [VC.zero] := by
  intro e ask s s'
  exact ⟨by rfl, by rfl, by rfl, by rfl, by rfl, by rfl⟩

/-- No write of the sequence goes to a map held by an entry stored at that time. -/
def Disciplined : Shared → List SharedOp → Prop
  | _, [] => True
  | s, op :: ops =>
    (∀ ref k v, op = .write ref k v → ∀ key c, s.sim.items.get? key = some c → c.resource.annotations ≠ ref) ∧ Disciplined (s.step op) ops

theorem sharedInv_step {s : Shared} (h : SIMInv s.now) (op : SharedOp)
    (hd : ∀ ref k v, op = .write ref k v → ∀ key c, s.sim.items.get? key = some c → c.resource.annotations ≠ ref) : SIMInv (s.step op).now := by
  cases op with
  | put e => exact h.put e.key e
  | delete key =>
    have := h.delete key
    have hx : (s.step (.delete key)).now = (s.now.delete key).1 := by
      have hi : (s.now.delete key).1.indexers = sharedIndexers s.heap := delete_indexers (m := s.now) key
      show { (s.now.delete key).1 with indexers := sharedIndexers s.heap } = (s.now.delete key).1
      rw [← hi]
    rw [hx]; exact this
  | write ref k v =>
    have hw := hd ref k v rfl
    refine ⟨h.items, ?_, h.pos, ?_⟩
    · show List.Nodup [indexBySource, indexBySite]
      decide
    · intro name f hf
      -- the index functions agree with the old ones on stored entries
      have agree : ∃ f0, (sharedIndexers s.heap).get? name = some f0 ∧ ∀ key c, s.sim.items.get? key = some c → f c.resource = f0 c.resource := by
        simp only [Shared.step, Shared.now, sharedIndexers, GMap.get?_cons] at hf ⊢
        split at hf
        · rename_i hn
          simp only [hn, if_true]
          refine ⟨_, rfl, ?_⟩
          intro key c _
          simp only [Option.some.injEq] at hf
          subst hf; rfl
        · rename_i hn
          simp only [hn, if_false]
          split at hf
          · rename_i hn2
            simp only [hn2, if_true]
            refine ⟨_, rfl, ?_⟩
            intro key c hc
            simp only [Option.some.injEq] at hf
            subst hf
            simp only [hw key c hc, if_false]
          · simp at hf
      obtain ⟨f0, hf0, hag⟩ := agree
      have hb := h.each name f0 hf0
      refine ⟨hb.good, ?_⟩
      intro vv kk
      show InB ((s.sim.indicies.get? name).getD []) vv kk ↔ _
      rw [show s.sim.indicies = s.now.indicies from rfl, hb.mem vv kk]
      simp only [Shared.now, Shared.step]
      constructor
      · rintro ⟨x, hx, hv⟩
        refine ⟨x, hx, ?_⟩
        cases hg : s.sim.items.get? kk with
        | none => simp [hg] at hx
        | some c =>
          simp only [hg, Option.map_some, Option.some.injEq] at hx
          subst hx
          rw [hag kk c hg]; exact hv
      · rintro ⟨x, hx, hv⟩
        refine ⟨x, hx, ?_⟩
        cases hg : s.sim.items.get? kk with
        | none => simp [hg] at hx
        | some c =>
          simp only [hg, Option.map_some, Option.some.injEq] at hx
          subst hx
          rw [← hag kk c hg]; exact hv

theorem shared_items (ops : List SharedOp) : ∀ (s : Shared) (key : String),
    ((ops.foldl Shared.step s).sim.items.get? key).map VC.resource =
      ops.foldl (fun m op =>
        match op with
        | .put e => if e.key = key then some e else m
        | .delete k => if k = key then none else m
        | .write _ _ _ => m) ((s.sim.items.get? key).map VC.resource) := by
  induction ops with
  | nil => intro s key; rfl
  | cons op ops ih =>
    intro s key
    simp only [List.foldl_cons]
    rw [ih]
    congr 1
    cases op with
    | put e =>
      simp only [Shared.step, put_get]
      split <;> rfl
    | delete k =>
      simp only [Shared.step, delete_get]
      split <;> rfl
    | write ref k v => rfl

theorem shared_heap (ops : List SharedOp) (k : String) : ∀ (s : Shared) (ref : Nat),
    ((ops.foldl Shared.step s).heap ref).get? k =
      ops.foldl (fun m op =>
        match op with
        | .write r k' v => if r = ref ∧ k' = k then some v else m
        | _ => m) ((s.heap ref).get? k) := by
  induction ops with
  | nil => intro s ref; rfl
  | cons op ops ih =>
    intro s ref
    simp only [List.foldl_cons]
    rw [ih]
    congr 1
    cases op with
    | put e => rfl
    | delete k => rfl
    | write r k' v =>
      simp only [Shared.step]
      by_cases hr : r = ref
      · subst hr
        simp only [if_true, GMap.get?_set, true_and]
      · simp only [hr, Ne.symm hr, if_false, false_and]

theorem disciplined_of (heap : MapHeap) : ∀ (ops pre : List SharedOp), LeavesStored (pre ++ ops) →
    Disciplined (pre.foldl Shared.step { heap := heap, sim := SIM.new (sharedIndexers heap) }) ops := by
  intro ops
  induction ops with
  | nil => intros; exact trivial
  | cons op ops ih =>
    intro pre h
    refine ⟨?_, ?_⟩
    · rintro ref k v rfl key c hc
      refine h pre ref k v ops rfl key c.resource ?_
      have := shared_items pre { heap := heap, sim := SIM.new (sharedIndexers heap) } key
      rw [hc] at this
      exact this.symm
    · have := ih (pre ++ [op]) (by simpa using h)
      simpa [List.foldl_append] using this

theorem run_putLast (heap : MapHeap) (ops : List SharedOp) (k : String) :
    ((Shared.run heap ops).sim.items.get? k).map VC.resource = putLast ops k := shared_items ops _ k

/-- From the keys found by a lookup to the entries stored. -/
theorem storedExactly_of (heap : MapHeap) (ops : List SharedOp) {P : SharedEntry → Prop} {l : List (VC SharedEntry)}
    (h : ∃ ks : List String, ks.Nodup ∧ (∀ k, k ∈ ks ↔ ∃ c, (Shared.run heap ops).sim.items.get? k = some c ∧ P c.resource) ∧
      l = ks.map fun k => ((Shared.run heap ops).sim.items.get? k).getD VC.zero) : StoredExactly ops P (l.map VC.resource) := by
  obtain ⟨ks, h1, h2, rfl⟩ := h
  have hm : ∀ k e, putLast ops k = some e ↔ ∃ c, (Shared.run heap ops).sim.items.get? k = some c ∧ c.resource = e := by
    intro k e
    rw [← run_putLast heap, Option.map_eq_some_iff]
  refine ⟨ks, h1, fun k => ?_, ?_⟩
  · rw [h2]
    constructor
    · rintro ⟨c, hc, hp⟩; exact ⟨c.resource, (hm k _).2 ⟨c, hc, rfl⟩, hp⟩
    · rintro ⟨e, he, hp⟩
      obtain ⟨c, hc, rfl⟩ := (hm k e).1 he
      exact ⟨c, hc, hp⟩
  · simp only [List.map_map]
    refine List.map_congr_left fun k hk => ?_
    obtain ⟨c, hc, _⟩ := (h2 k).1 hk
    simp only [Function.comp, hc, Option.getD_some]
    exact ((hm k _).2 ⟨c, hc, rfl⟩).symm

/-- C34 for callers that do not write to the map of an entry while it is stored: after any such history a lookup by site returns exactly the entries stored whose
site, by their annotations as they are now, is that of the question; a lookup by source those with its source; and the sites and sources listed are those of
entries stored.  Missing for C34: writes to maps of stored entries (false, `C34_counterexample`). -/
theorem C34_disciplined_partial (heap : MapHeap) (ops : List SharedOp) (hd : LeavesStored ops) (ask : SharedEntry) :
    (∃ l, (Shared.run heap ops).now.index "site" ask = .ok l ∧
      StoredExactly ops (fun e => siteNow heap ops e = siteNow heap ops ask) (l.map VC.resource)) ∧
    (∃ l, (Shared.run heap ops).now.index "source" ask = .ok l ∧ StoredExactly ops (fun e => e.source = ask.source) (l.map VC.resource)) ∧
    (∃ vs, (Shared.run heap ops).now.indexValues "site" = .ok vs ∧ vs.Nodup ∧ ∀ v, v ∈ vs ↔ ∃ k e, putLast ops k = some e ∧ siteNow heap ops e = v) ∧
    (∃ vs, (Shared.run heap ops).now.indexValues "source" = .ok vs ∧ vs.Nodup ∧ ∀ v, v ∈ vs ↔ ∃ k e, putLast ops k = some e ∧ e.source = v) := by
  have hinv : SIMInv (Shared.run heap ops).now := by
    have : ∀ (ops : List SharedOp) (s0 : Shared), SIMInv s0.now → Disciplined s0 ops → SIMInv (ops.foldl Shared.step s0).now := by
      intro ops
      induction ops with
      | nil => intro s0 h _; exact h
      | cons op ops ih =>
        intro s0 h hd
        exact ih _ (sharedInv_step h op hd.1) hd.2
    refine this ops _ ?_ (disciplined_of heap ops [] hd)
    exact SIMInv.new (sharedIndexers heap) (by show List.Nodup [indexBySource, indexBySite]; decide)
  have hsite : (Shared.run heap ops).now.indexers.get? "site" = some fun e => [siteNow heap ops e] := by
    have : (Shared.run heap ops).now.indexers.get? "site" =
        some fun e => [(((Shared.run heap ops).heap e.annotations).get? siteAnnotationKey).getD siteUnknownValue] := rfl
    rw [this]
    congr 1
    funext e
    have h1 : ((Shared.run heap ops).heap e.annotations).get? siteAnnotationKey = written heap ops e.annotations "skupper.io/flow/site-id" :=
      shared_heap ops _ _ _
    rw [h1, siteNow]
    cases written heap ops e.annotations "skupper.io/flow/site-id" <;> rfl
  have hsource : (Shared.run heap ops).now.indexers.get? "source" = some fun e => [e.source] := rfl
  have lookup : ∀ (name : String) (g : SharedEntry → String), (Shared.run heap ops).now.indexers.get? name = some (fun e => [g e]) →
      (∃ l, (Shared.run heap ops).now.index name ask = .ok l ∧ StoredExactly ops (fun e => g e = g ask) (l.map VC.resource)) ∧
      (∃ vs, (Shared.run heap ops).now.indexValues name = .ok vs ∧ vs.Nodup ∧ ∀ v, v ∈ vs ↔ ∃ k e, putLast ops k = some e ∧ g e = v) := by
    intro name g hf
    constructor
    · obtain ⟨ks, h1, h2, h3⟩ := index_keys hinv hf ask
      refine ⟨_, h3, storedExactly_of heap ops ⟨ks, h1, fun k => ?_, rfl⟩⟩
      rw [h2]
      simp only [List.mem_singleton, exists_eq_left]
      constructor
      · rintro ⟨c, hc, hg⟩; exact ⟨c, hc, hg.symm⟩
      · rintro ⟨c, hc, hg⟩; exact ⟨c, hc, hg.symm⟩
    · obtain ⟨vs, h1, h2, h3⟩ := indexValues_spec hinv hf
      refine ⟨vs, h1, h2, fun v => ?_⟩
      rw [h3]
      simp only [List.mem_singleton]
      constructor
      · rintro ⟨k, c, hc, rfl⟩
        have hc' : (Shared.run heap ops).sim.items.get? k = some c := hc
        exact ⟨k, c.resource, by rw [← run_putLast heap, hc']; rfl, rfl⟩
      · rintro ⟨k, e, he, rfl⟩
        rw [← run_putLast heap, Option.map_eq_some_iff] at he
        obtain ⟨c, hc, rfl⟩ := he
        exact ⟨k, c, hc, rfl⟩
  exact ⟨(lookup "site" (siteNow heap ops) hsite).1, (lookup "source" SharedEntry.source hsource).1, (lookup "site" (siteNow heap ops) hsite).2,
    (lookup "source" SharedEntry.source hsource).2⟩

/-- Instance: a history that reuses a map after deleting its entry. -/
example : LeavesStored
    [.put { key := "h1", source := "r1", annotations := 1 }, .delete "h1", .write 1 siteAnnotationKey "B",
     .put { key := "h2", source := "r1", annotations := 1 }] := by
  intro pre ref k v post h key e he
  match pre, h with
  | [], h => cases h
  | [_], h => simp at h
  | [_, _], h =>
    simp only [List.cons_append, List.nil_append, List.cons.injEq] at h
    obtain ⟨rfl, rfl, _⟩ := h
    simp only [putLast, List.foldl_cons, List.foldl_nil] at he
    split at he
    · cases he
    · simp at he
  | [_, _, _], h => simp at h
  | [_, _, _, _], h => simp at h
  | _ :: _ :: _ :: _ :: _ :: _, h => simp at h

end Verif.Props
