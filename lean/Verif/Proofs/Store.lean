import Verif.Proofs.IndexedMap
import Verif.Proofs.Token
import Verif.Spec.Store

/-!
# The cache refines the abstract store
-/
namespace Verif.Proofs
open Verif Verif.Model Verif.Spec

set_option linter.unusedSectionVars false
set_option linter.unusedSimpArgs false

variable {R : Type}

/-- Lookup in the concrete store. -/
def view (c : Cache R) : AMap R := fun k => (c.storage.items.get? k).map VC.resource

theorem mergeLoop_spec : ∀ (next curr : Attrs) (ch : Bool), GMap.WF next →
    ((mergeLoop next curr ch).1 = true ↔ ch = true ∨ ¬ ∀ p ∈ next, curr.get? p.1 = some p.2) ∧
    ∀ k, (mergeLoop next curr ch).2.get? k = GMap.get? (next ++ curr) k
  | [], curr, ch, _ => by simp [mergeLoop]
  | (nK, nV) :: rest, curr, ch, hw => by
    simp only [GMap.WF, GMap.keys, List.map_cons, List.nodup_cons] at hw
    have hrest : ∀ p ∈ rest, p.1 ≠ nK := by
      rintro p hp rfl
      exact hw.1 (List.mem_map.2 ⟨p, hp, rfl⟩)
    have app : ∀ (c' : Attrs), (∀ k, k ≠ nK → c'.get? k = curr.get? k) → c'.get? nK = some nV →
        ∀ k, GMap.get? (rest ++ c') k = GMap.get? ((nK, nV) :: (rest ++ curr)) k := by
      intro c' h1 h2
      have h3 : ∀ (l : Attrs), (∀ p ∈ l, p.1 ≠ nK) → GMap.get? (l ++ c') nK = some nV := by
        intro l hl
        induction l with
        | nil => exact h2
        | cons q l ih =>
          obtain ⟨a, b⟩ := q
          have := hl (a, b) (by simp)
          simp only [List.cons_append, GMap.get?_cons, this, if_false]
          exact ih (fun p hp => hl p (by simp [hp]))
      have h4 : ∀ (l : Attrs) (k : Any), k ≠ nK → GMap.get? (l ++ c') k = GMap.get? (l ++ curr) k := by
        intro l k hk
        induction l with
        | nil => exact h1 k hk
        | cons q l ih =>
          obtain ⟨a, b⟩ := q
          simp only [List.cons_append, GMap.get?_cons, ih]
      intro k
      rw [GMap.get?_cons]
      split
      · rename_i h; subst h; exact h3 rest hrest
      · rename_i h; exact h4 rest k (Ne.symm h)
    have hold : ∀ (c' : Attrs), (∀ k, k ≠ nK → c'.get? k = curr.get? k) →
        ((∀ p ∈ rest, c'.get? p.1 = some p.2) ↔ (∀ p ∈ rest, curr.get? p.1 = some p.2)) := by
      intro c' h1
      constructor
      · intro h p hp; rw [← h1 _ (hrest p hp)]; exact h p hp
      · intro h p hp; rw [h1 _ (hrest p hp)]; exact h p hp
    simp only [mergeLoop]
    cases hg : curr.get? nK with
    | none =>
      simp only
      have ih := mergeLoop_spec rest (curr.set nK nV) true hw.2
      refine ⟨?_, ?_⟩
      · rw [ih.1]; simp [hg]
      · intro k
        rw [ih.2 k]
        exact app _ (fun k hk => GMap.get?_set_ne _ _ (Ne.symm hk)) (by simp) k
    | some cV =>
      simp only
      by_cases hv : cV = nV
      · subst hv
        simp only [ne_eq, not_true_eq_false, if_false]
        have ih := mergeLoop_spec rest curr ch hw.2
        refine ⟨?_, ?_⟩
        · rw [ih.1]
          simp [hg]
        · intro k
          rw [ih.2 k]
          exact app _ (fun _ _ => rfl) hg k
      · simp only [ne_eq, hv, not_false_eq_true, if_true]
        have ih := mergeLoop_spec rest (curr.set nK nV) true hw.2
        refine ⟨?_, ?_⟩
        · rw [ih.1]; simp [hg, hv]
        · intro k
          rw [ih.2 k]
          exact app _ (fun k hk => GMap.get?_set_ne _ _ (Ne.symm hk)) (by simp) k

/-- What a successful patch stores. -/
theorem recordPatch_ok {ops : RecOps R} (hl : LawfulOps ops) {s : SourceRef} {r : R} {now : GoTime}
    {old : Option (Entry R)} {e : Entry R} (h : recordPatch ops s r now old = .ok e) :
    accumulated ops old s r now = some e := by
  cases old with
  | none =>
    simp only [recordPatch] at h
    simp only [accumulated]
    cases ht : ops.typeMeta r with
    | ok tm => simp only [ht, POut.ok.injEq] at h; simp [h]
    | err e => simp [ht] at h
    | panic m => simp [ht] at h
  | some o =>
    simp only [recordPatch] at h
    simp only [accumulated]
    cases ha : ops.encode o.record with
    | err e => simp [ha] at h
    | panic m => simp [ha] at h
    | ok a =>
      cases hb : ops.encode r with
      | err e => simp [ha, hb] at h
      | panic m => simp [ha, hb] at h
      | ok b =>
        simp only [ha, hb] at h
        have hm := mergeLoop_spec b a false (hl.encode_wf r b hb)
        cases hml : mergeLoop b a false with
        | mk ch merged =>
          rw [hml] at hm h
          cases ch with
          | false => simp at h
          | true =>
            have h1 : ¬ ∀ p ∈ b, a.get? p.1 = some p.2 := by
              have := hm.1.1 rfl
              simpa only [Bool.false_eq_true, false_or] using this
            simp only at h
            rw [hl.decode_congr merged (b ++ a) hm.2] at h
            simp only [if_neg h1]
            cases hd : ops.decode (b ++ a) with
            | err e => simp [hd] at h
            | panic m => simp [hd] at h
            | ok raw =>
              simp only [hd] at h
              split at h
              · simp only [POut.ok.injEq] at h; simp [← h, Entry.stamp]
              · simp at h

theorem recordPatch_noChange {ops : RecOps R} (hl : LawfulOps ops) {s : SourceRef} {r : R} {now : GoTime}
    {old : Option (Entry R)} (h : recordPatch ops s r now old = .noChange) :
    ∃ o a b, old = some o ∧ ops.encode o.record = .ok a ∧ ops.encode r = .ok b ∧ ∀ p ∈ b, a.get? p.1 = some p.2 := by
  cases old with
  | none =>
    simp only [recordPatch] at h
    cases ht : ops.typeMeta r <;> simp [ht] at h
  | some o =>
    simp only [recordPatch] at h
    cases ha : ops.encode o.record with
    | err e => simp [ha] at h
    | panic m => simp [ha] at h
    | ok a =>
      cases hb : ops.encode r with
      | err e => simp [ha, hb] at h
      | panic m => simp [ha, hb] at h
      | ok b =>
        simp only [ha, hb] at h
        have hm := mergeLoop_spec b a false (hl.encode_wf r b hb)
        cases hml : mergeLoop b a false with
        | mk ch merged =>
          rw [hml] at hm h
          cases ch with
          | false =>
            refine ⟨o, a, b, rfl, ha, rfl, ?_⟩
            have := hm.1
            simp only [Bool.false_eq_true, false_or, false_iff, Classical.not_not] at this
            exact this
          | true =>
            simp only at h
            cases hd : ops.decode merged with
            | err e => simp [hd] at h
            | panic m => simp [hd] at h
            | ok raw => simp only [hd] at h; split at h <;> simp at h

theorem recordPatch_noChange_iff {ops : RecOps R} (hl : LawfulOps ops) {s : SourceRef} {r : R} {now : GoTime}
    {o : Entry R} {a b : Attrs} (ha : ops.encode o.record = .ok a) (hb : ops.encode r = .ok b)
    (h : ∀ p ∈ b, a.get? p.1 = some p.2) : recordPatch ops s r now (some o) = .noChange := by
  simp only [recordPatch, ha, hb]
  have hm := (mergeLoop_spec b a false (hl.encode_wf r b hb)).1
  cases hml : mergeLoop b a false with
  | mk ch merged =>
    rw [hml] at hm
    cases ch with
    | false => rfl
    | true =>
      simp only [Bool.false_eq_true, false_or, true_iff] at hm
      exact absurd h hm

theorem accumulated_noChange {ops : RecOps R} {s : SourceRef} {r : R} {now : GoTime} {o : Entry R} {a b : Attrs}
    (ha : ops.encode o.record = .ok a) (hb : ops.encode r = .ok b) (h : ∀ p ∈ b, a.get? p.1 = some p.2) :
    accumulated ops (some o) s r now = none := by
  simp [accumulated, ha, hb, if_pos h]

theorem collectItems_ok {kf : KeyFunc R} : ∀ (es : List (Entry R)) (acc items : GMap String (Entry R)),
    GMap.WF acc → collectItems kf es acc = .ok items →
    GMap.WF items ∧ (∀ e ∈ es, ∃ k, kf e = .ok k) ∧
    ∀ k, items.get? k = (lastWithKey kf es k).or (acc.get? k)
  | [], acc, items, hw, h => by
    simp only [collectItems, Res.ok.injEq] at h
    subst h
    simp [lastWithKey, hw]
  | e :: es, acc, items, hw, h => by
    simp only [collectItems] at h
    rw [Res.bind_eq_ok] at h
    obtain ⟨k, hk, h⟩ := h
    obtain ⟨h1, h2, h3⟩ := collectItems_ok es (acc.set k e) items (hw.set k e) h
    refine ⟨h1, ?_, ?_⟩
    · intro x hx
      rcases List.mem_cons.1 hx with rfl | hx
      · exact ⟨k, hk⟩
      · exact h2 x hx
    · intro k'
      rw [h3 k', GMap.get?_set]
      simp only [lastWithKey, List.filter_cons, hk, Res.ok.injEq]
      by_cases hkk : k = k'
      · subst hkk
        simp only [decide_true, if_true]
        rw [List.getLast?_cons]
        cases hl : (es.filter fun e => decide (kf e = Res.ok k)).getLast? with
        | none => simp
        | some x => simp
      · simp [hkk]

theorem collectItems_isOk {kf : KeyFunc R} : ∀ (es : List (Entry R)) (acc : GMap String (Entry R)),
    (∀ e ∈ es, ∃ k, kf e = .ok k) → ∃ items, collectItems kf es acc = .ok items
  | [], acc, _ => ⟨acc, rfl⟩
  | e :: es, acc, h => by
    obtain ⟨k, hk⟩ := h e (by simp)
    simp only [collectItems, hk, Res.bind_ok]
    exact collectItems_isOk es _ (fun x hx => h x (by simp [hx]))

/-- The reachable-state invariant of a cache. -/
structure CacheInv (c : Cache R) : Prop where
  sim : SIMInv c.storage

theorem view_put (c : Cache R) (k : String) (e : Entry R) :
    view { c with storage := (c.storage.put k e).1 } = (Effect.put k e).apply (view c) := by
  funext k'
  simp only [view, Effect.apply, put_get]
  by_cases h : k = k'
  · subst h; simp
  · simp [h, Ne.symm h]

/-! ### The operations, unfolded -/

variable [Inhabited R]

inductive StepCase (ops : RecOps R) (c : Cache R) (op : Op R) : Effect R → Prop
  | nothing : (c.step ops op).1 = c → StepCase ops c op .nothing
  | put (k : String) (e : Entry R) : (c.step ops op).1 = { c with storage := (c.storage.put k e).1 } →
      (c.step ops op).2.res = .ok () →
      StepCase ops c op (.put k e)
  | remove (k : String) : (c.step ops op).1 = { c with storage := (c.storage.delete k).1 } → (c.step ops op).2.res = .ok () →
      StepCase ops c op (.remove k)
  | reset (items : GMap String (Entry R)) (m : AMap R) : GMap.WF items → (∀ k, items.get? k = m k) →
      (c.step ops op).1 = { c with storage := c.storage.replace items } → (c.step ops op).2.res = .ok () → StepCase ops c op (.reset m)

theorem step_case {ops : RecOps R} (hl : LawfulOps ops) (c : Cache R) (op : Op R) :
    StepCase ops c op (effect ops c.keyFunc (view c) op (c.step ops op).2.res) := by
  cases op with
  | add e now =>
    cases hk : c.keyFunc e with
    | err m => simp only [Cache.step, Cache.add, hk, Out.fail, effect]; exact .nothing (by simp [Cache.step, Cache.add, hk])
    | panic m => simp only [Cache.step, Cache.add, hk, Out.fail, effect]; exact .nothing (by simp [Cache.step, Cache.add, hk])
    | ok k =>
      cases hf : firstFail (c.storage.versionOf k) [whenNotExists] with
      | some m =>
        have : (c.step ops (.add e now)) = (c, { res := .err ("update condition error: " ++ m) }) := by
          simp [Cache.step, Cache.add, hk, SIM.update, hf]
        rw [this]; exact .nothing (by rw [this])
      | none =>
        have h1 : (c.step ops (.add e now)).1 = { c with storage := (c.storage.put k (e.stamp now)).1 } := by
          simp [Cache.step, Cache.add, hk, SIM.update, hf]
        have h2 : (c.step ops (.add e now)).2.res = .ok () := by
          simp [Cache.step, Cache.add, hk, SIM.update, hf]
        rw [h2]
        simp only [effect, hk]
        exact .put k _ h1 h2
  | update e im now =>
    cases hk : c.keyFunc e with
    | err m => simp only [Cache.step, Cache.update, hk, Out.fail, effect]; exact .nothing (by simp [Cache.step, Cache.update, hk])
    | panic m => simp only [Cache.step, Cache.update, hk, Out.fail, effect]; exact .nothing (by simp [Cache.step, Cache.update, hk])
    | ok k =>
      cases hc : getConditional im with
      | err m =>
        have : (c.step ops (.update e im now)) = (c, { res := .err m }) := by
          simp [Cache.step, Cache.update, hk, hc, Out.fail]
        rw [this]; exact .nothing (by rw [this])
      | panic m =>
        have : (c.step ops (.update e im now)) = (c, { res := .panic m }) := by
          simp [Cache.step, Cache.update, hk, hc, Out.fail]
        rw [this]; exact .nothing (by rw [this])
      | ok conds =>
        cases hf : firstFail (c.storage.versionOf k) conds with
        | some m =>
          have : (c.step ops (.update e im now)) = (c, { res := .err ("update condition error: " ++ m) }) := by
            simp [Cache.step, Cache.update, hk, hc, SIM.update, hf]
          rw [this]; exact .nothing (by rw [this])
        | none =>
          have h1 : (c.step ops (.update e im now)).1 = { c with storage := (c.storage.put k (e.stamp now)).1 } := by
            simp [Cache.step, Cache.update, hk, hc, SIM.update, hf]
          have h2 : (c.step ops (.update e im now)).2.res = .ok () := by
            simp [Cache.step, Cache.update, hk, hc, SIM.update, hf]
          rw [h2]
          simp only [effect, hk]
          exact .put k _ h1 h2
  | delete e =>
    cases hk : c.keyFunc e with
    | err m => simp only [Cache.step, Cache.delete, hk, Out.fail, effect]; exact .nothing (by simp [Cache.step, Cache.delete, hk])
    | panic m => simp only [Cache.step, Cache.delete, hk, Out.fail, effect]; exact .nothing (by simp [Cache.step, Cache.delete, hk])
    | ok k =>
      have h1 : (c.step ops (.delete e)).1 = { c with storage := (c.storage.delete k).1 } := by
        simp only [Cache.step, Cache.delete, hk]
        cases hd : c.storage.delete k with
        | mk s d => cases d <;> rfl
      have h2 : (c.step ops (.delete e)).2.res = .ok () := by
        simp only [Cache.step, Cache.delete, hk]
        cases hd : c.storage.delete k with
        | mk s d => cases d <;> rfl
      rw [h2]
      simp only [effect, hk]
      exact .remove k h1 h2
  | replace es =>
    cases hc : collectItems c.keyFunc es [] with
    | err m =>
      have : (c.step ops (.replace es)) = (c, { res := .err m }) := by simp [Cache.step, Cache.replace, hc, Out.fail]
      rw [this]; exact .nothing (by rw [this])
    | panic m =>
      have : (c.step ops (.replace es)) = (c, { res := .panic m }) := by simp [Cache.step, Cache.replace, hc, Out.fail]
      rw [this]; exact .nothing (by rw [this])
    | ok items =>
      have h1 : (c.step ops (.replace es)) = ({ c with storage := c.storage.replace items }, { res := .ok () }) := by
        simp [Cache.step, Cache.replace, hc]
      obtain ⟨hw, _, hg⟩ := collectItems_ok es [] items GMap.WF_nil hc
      rw [h1]
      simp only [effect]
      refine .reset items _ hw ?_ (by rw [h1]) (by rw [h1])
      intro k; rw [hg k]; simp
  | accumulate s r now =>
    cases hk : c.keyFunc (Entry.ofRecord r) with
    | err m => simp only [Cache.step, Cache.accumulate, hk, Out.fail, effect]; exact .nothing (by simp [Cache.step, Cache.accumulate, hk])
    | panic m => simp only [Cache.step, Cache.accumulate, hk, Out.fail, effect]; exact .nothing (by simp [Cache.step, Cache.accumulate, hk])
    | ok k =>
      cases hp : recordPatch ops s r now ((c.storage.items.get? k).map VC.resource) with
      | noChange =>
        have : (c.step ops (.accumulate s r now)) = (c, { res := .ok () }) := by
          simp [Cache.step, Cache.accumulate, hk, SIM.patch, firstFail, hp]
        rw [this]
        obtain ⟨o, a, b, ho, ha, hb, hall⟩ := recordPatch_noChange hl hp
        have hacc : accumulated ops (view c k) s r now = none := by
          unfold view; rw [ho]; exact accumulated_noChange ha hb hall
        simp only [effect, hk, hacc]
        exact .nothing (by rw [this])
      | err e =>
        have h1 : (c.step ops (.accumulate s r now)).1 = c := by
          simp [Cache.step, Cache.accumulate, hk, SIM.patch, firstFail, hp]
        have h2 : (c.step ops (.accumulate s r now)).2.res = .err ("patch apply error: " ++ e) := by
          simp [Cache.step, Cache.accumulate, hk, SIM.patch, firstFail, hp]
        rw [h2]; exact .nothing h1
      | panic e =>
        have h1 : (c.step ops (.accumulate s r now)).1 = c := by
          simp [Cache.step, Cache.accumulate, hk, SIM.patch, firstFail, hp]
        have h2 : (c.step ops (.accumulate s r now)).2.res = .panic e := by
          simp [Cache.step, Cache.accumulate, hk, SIM.patch, firstFail, hp]
        rw [h2]; exact .nothing h1
      | ok e =>
        have h1 : (c.step ops (.accumulate s r now)).1 = { c with storage := (c.storage.put k e).1 } := by
          simp [Cache.step, Cache.accumulate, hk, SIM.patch, firstFail, hp]
        have h2 : (c.step ops (.accumulate s r now)).2.res = .ok () := by
          simp [Cache.step, Cache.accumulate, hk, SIM.patch, firstFail, hp]
        have hacc : accumulated ops (view c k) s r now = some e := recordPatch_ok hl hp
        rw [h2]
        simp only [effect, hk, hacc]
        exact .put k e h1 h2
  | get e => simp only [effect]; exact .nothing rfl
  | list sel n => simp only [effect]; exact .nothing rfl
  | index i e sel n => simp only [effect]; exact .nothing rfl
  | indexValues i => simp only [effect]; exact .nothing rfl

theorem step_keyFunc {ops : RecOps R} (hl : LawfulOps ops) (c : Cache R) (op : Op R) :
    (c.step ops op).1.keyFunc = c.keyFunc ∧ (c.step ops op).1.handlers = c.handlers ∧
    (c.step ops op).1.storage.indexers = c.storage.indexers := by
  have h := step_case hl c op
  generalize effect ops c.keyFunc (view c) op (c.step ops op).2.res = ef at h
  cases h with
  | nothing h => rw [h]; exact ⟨rfl, rfl, rfl⟩
  | put k e h _ => rw [h]; exact ⟨rfl, rfl, rfl⟩
  | remove k h _ => rw [h]; exact ⟨rfl, rfl, delete_indexers k⟩
  | reset items m _ _ h _ => rw [h]; exact ⟨rfl, rfl, rfl⟩

theorem step_inv {ops : RecOps R} (hl : LawfulOps ops) {c : Cache R} (hi : SIMInv c.storage) (op : Op R) :
    SIMInv (c.step ops op).1.storage := by
  have h := step_case hl c op
  generalize effect ops c.keyFunc (view c) op (c.step ops op).2.res = ef at h
  cases h with
  | nothing h => rw [h]; exact hi
  | put k e h _ => rw [h]; exact hi.put k e
  | remove k h _ => rw [h]; exact hi.delete k
  | reset items m hw _ h _ => rw [h]; exact hi.replace items hw

theorem step_view {ops : RecOps R} (hl : LawfulOps ops) (c : Cache R) (op : Op R) :
    view (c.step ops op).1 = (effect ops c.keyFunc (view c) op (c.step ops op).2.res).apply (view c) := by
  have h := step_case hl c op
  generalize effect ops c.keyFunc (view c) op (c.step ops op).2.res = ef at h
  cases h with
  | nothing h => rw [h]; rfl
  | put k e h _ => rw [h]; exact view_put c k e
  | remove k h _ =>
    rw [h]
    funext k'
    simp only [view, Effect.apply, delete_get]
    by_cases hk : k = k'
    · subst hk; simp
    · simp [hk, Ne.symm hk]
  | reset items m hw hm h _ =>
    rw [h]
    funext k'
    simp only [view, Effect.apply, replace_get, Option.map_map, ← hm k']
    cases items.get? k' <;> rfl

/-- How a call changes versions. -/
theorem step_version {ops : RecOps R} (hl : LawfulOps ops) (c : Cache R) (op : Op R) (k : String) :
    ((effect ops c.keyFunc (view c) op (c.step ops op).2.res).writes k →
      (c.step ops op).1.storage.versionOf k = c.storage.versionOf k + 1) ∧
    (¬ (effect ops c.keyFunc (view c) op (c.step ops op).2.res).writes k →
     ¬ (effect ops c.keyFunc (view c) op (c.step ops op).2.res).removes k →
      (c.step ops op).1.storage.items.get? k = c.storage.items.get? k) ∧
    ((effect ops c.keyFunc (view c) op (c.step ops op).2.res).removes k →
      (c.step ops op).1.storage.items.get? k = none) := by
  have h := step_case hl c op
  generalize effect ops c.keyFunc (view c) op (c.step ops op).2.res = ef at h
  cases h with
  | nothing h => rw [h]; simp [Effect.writes, Effect.removes]
  | put k' e h _ =>
    rw [h]
    simp only [Effect.writes, Effect.removes, SIM.versionOf, put_get]
    refine ⟨?_, ?_, by simp⟩
    · rintro rfl; simp [SIM.versionOf]
    · intro hk _; rw [if_neg (Ne.symm hk)]
  | remove k' h _ =>
    rw [h]
    simp only [Effect.writes, Effect.removes, delete_get]
    refine ⟨by simp, ?_, ?_⟩
    · intro _ hk; rw [if_neg (Ne.symm hk)]
    · rintro rfl; simp
  | reset items m hw hm h _ =>
    rw [h]
    simp only [Effect.writes, Effect.removes, SIM.versionOf, replace_get, ← hm k]
    cases hg : items.get? k <;> simp [SIM.versionOf]

/-! ### Histories -/

theorem run_append (ops : RecOps R) : ∀ (h1 h2 : List (Op R)) (c : Cache R),
    (c.run ops (h1 ++ h2)).1 = ((c.run ops h1).1.run ops h2).1 ∧
    (c.run ops (h1 ++ h2)).2 = (c.run ops h1).2 ++ ((c.run ops h1).1.run ops h2).2
  | [], h2, c => by simp [Cache.run]
  | op :: h1, h2, c => by
    have := run_append ops h1 h2 (c.step ops op).1
    simp only [Cache.run, List.cons_append]
    exact ⟨this.1, by rw [this.2]⟩

theorem run_inv {ops : RecOps R} (hl : LawfulOps ops) : ∀ (h : List (Op R)) (c : Cache R), SIMInv c.storage →
    SIMInv (c.run ops h).1.storage ∧ (c.run ops h).1.keyFunc = c.keyFunc ∧ (c.run ops h).1.handlers = c.handlers ∧
    (c.run ops h).1.storage.indexers = c.storage.indexers
  | [], c, hi => ⟨hi, rfl, rfl, rfl⟩
  | op :: h, c, hi => by
    have ih := run_inv hl h (c.step ops op).1 (step_inv hl hi op)
    have hk := step_keyFunc hl c op
    simp only [Cache.run]
    exact ⟨ih.1, ih.2.1.trans hk.1, ih.2.2.1.trans hk.2.1, ih.2.2.2.trans hk.2.2⟩

theorem run_view {ops : RecOps R} (hl : LawfulOps ops) : ∀ (h : List (Op R)) (c : Cache R),
    view (c.run ops h).1 = replay ops c.keyFunc (view c) (c.run ops h).2
  | [], c => rfl
  | op :: h, c => by
    have ih := run_view hl h (c.step ops op).1
    simp only [Cache.run, replay, List.foldl_cons]
    rw [← step_view hl c op, ih, (step_keyFunc hl c op).1]
    rfl

theorem run_version_le {ops : RecOps R} (hl : LawfulOps ops) (k : String) : ∀ (h : List (Op R)) (c : Cache R), SIMInv c.storage →
    (c.run ops h).1.storage.versionOf k ≤ c.storage.versionOf k + h.length
  | [], c, _ => by simp [Cache.run]
  | op :: h, c, hi => by
    have ih := run_version_le hl k h (c.step ops op).1 (step_inv hl hi op)
    have hv := step_version hl c op k
    have hpos := SIM.versionOf_nonneg hi k
    have : (c.step ops op).1.storage.versionOf k ≤ c.storage.versionOf k + 1 := by
      by_cases hw : (effect ops c.keyFunc (view c) op (c.step ops op).2.res).writes k
      · rw [hv.1 hw]; exact Int.le_refl _
      · by_cases hr : (effect ops c.keyFunc (view c) op (c.step ops op).2.res).removes k
        · unfold SIM.versionOf at *; rw [hv.2.2 hr]; simp only; omega
        · unfold SIM.versionOf at *; rw [hv.2.1 hw hr]; omega
    simp only [Cache.run, List.length_cons]
    omega

/-- Versions over a history that never removes the key: they never decrease, and stay the same exactly when the key is never written. -/
theorem run_version_mono {ops : RecOps R} (hl : LawfulOps ops) (k : String) : ∀ (h : List (Op R)) (c : Cache R),
    NeverRemoved ops c.keyFunc k (view c) (c.run ops h).2 →
    c.storage.versionOf k ≤ (c.run ops h).1.storage.versionOf k ∧
    ((c.run ops h).1.storage.versionOf k = c.storage.versionOf k ↔ NeverWritten ops c.keyFunc k (view c) (c.run ops h).2)
  | [], c, _ => by simp [Cache.run, NeverWritten]
  | op :: h, c, hn => by
    simp only [Cache.run, NeverRemoved] at hn
    have hk := (step_keyFunc hl c op).1
    rw [← step_view hl c op, ← hk] at hn
    have ih := run_version_mono hl k h (c.step ops op).1 hn.2
    have hv := step_version hl c op k
    simp only [Cache.run, NeverWritten]
    rw [← step_view hl c op]
    rw [hk] at ih hn
    by_cases hw : (effect ops c.keyFunc (view c) op (c.step ops op).2.res).writes k
    · have := hv.1 hw
      refine ⟨by omega, ?_⟩
      constructor
      · intro he; omega
      · intro he; exact absurd hw he.1
    · have hsame : (c.step ops op).1.storage.versionOf k = c.storage.versionOf k := by
        unfold SIM.versionOf; rw [hv.2.1 hw hn.1]
      rw [hsame] at ih
      exact ⟨ih.1, ih.2.trans ⟨fun h => ⟨hw, h⟩, fun h => h.2⟩⟩

theorem new_inv (ops : RecOps R) (cfg : CacheConfig R) (h : GoodConfig cfg) : SIMInv (newCache ops cfg).storage := by
  apply SIMInv.new
  cases hc : cfg.indexers with
  | none =>
    simp only [Option.getD_none]
    show List.Nodup [indexBySource, indexBySite]
    decide
  | some ixr => exact h ixr hc

theorem new_keyFunc (ops : RecOps R) (cfg : CacheConfig R) : (newCache ops cfg).keyFunc = keyOf ops cfg := by
  unfold newCache keyOf
  cases cfg.key <;> rfl

theorem after_inv {ops : RecOps R} (hl : LawfulOps ops) (cfg : CacheConfig R) (hc : GoodConfig cfg) (h : List (Op R)) :
    SIMInv (after ops cfg h).storage := (run_inv hl h _ (new_inv ops cfg hc)).1

theorem after_keyFunc {ops : RecOps R} (hl : LawfulOps ops) (cfg : CacheConfig R) (hc : GoodConfig cfg) (h : List (Op R)) :
    (after ops cfg h).keyFunc = keyOf ops cfg := by
  rw [← new_keyFunc]; exact (run_inv hl h _ (new_inv ops cfg hc)).2.1

theorem after_handlers {ops : RecOps R} (hl : LawfulOps ops) (cfg : CacheConfig R) (hc : GoodConfig cfg) (h : List (Op R)) :
    (after ops cfg h).handlers = cfg.handlers := (run_inv hl h _ (new_inv ops cfg hc)).2.2.1

theorem after_indexers {ops : RecOps R} (hl : LawfulOps ops) (cfg : CacheConfig R) (hc : GoodConfig cfg) (h : List (Op R)) :
    (after ops cfg h).storage.indexers = cfg.indexers.getD defaultIndexers := (run_inv hl h _ (new_inv ops cfg hc)).2.2.2

theorem indexers_get (cfg : CacheConfig R) (name : String) :
    (cfg.indexers.getD defaultIndexers).get? name = indexerOf cfg name := by
  unfold indexerOf
  cases cfg.indexers with
  | some ixr => rfl
  | none =>
    simp only [Option.getD_none, defaultIndexers, GMap.get?_cons, indexBySource, indexBySite, GMap.get?_nil]
    by_cases h1 : name = "source"
    · subst h1; rfl
    · by_cases h2 : name = "site"
      · subst h2
        simp only [show ("source" : String) ≠ "site" by decide, if_false, if_true, h1, Option.some.injEq]
        funext e
        cases h : e.md.annotations.get? siteAnnotationKey <;> simp [siteAnnotationKey] at h <;>
          simp [h, siteUnknownValue, siteAnnotationKey]
      · simp [h1, h2, Ne.symm h1, Ne.symm h2]

theorem content_eq {ops : RecOps R} (hl : LawfulOps ops) (cfg : CacheConfig R) (h : List (Op R)) :
    content ops cfg h = view (after ops cfg h) := by
  have := run_view hl h (newCache ops cfg)
  unfold after content historyOf
  rw [this, new_keyFunc]
  congr 1

theorem view_some {c : Cache R} {k : String} {e : Entry R} : view c k = some e ↔ ∃ v, c.storage.items.get? k = some ⟨e, v⟩ := by
  unfold view
  cases h : c.storage.items.get? k with
  | none => simp
  | some cc => cases cc; simp

theorem view_none {c : Cache R} {k : String} : view c k = none ↔ c.storage.items.get? k = none := by
  simp [view]

/-- The unsorted listing of all entries. -/
theorem list_exact {c : Cache R} (hi : SIMInv c.storage) :
    ListsExactly (view c) (fun _ => True) (c.storage.list.map VC.resource) := by
  refine ⟨c.storage.items.keys, hi.items, ?_, ?_⟩
  · intro k
    rw [GMap.mem_keys_iff]
    constructor
    · rintro ⟨v, hv⟩; exact ⟨v.resource, by simp [view, hv], trivial⟩
    · rintro ⟨e, he, _⟩; obtain ⟨v, hv⟩ := view_some.1 he; exact ⟨_, hv⟩
  · simp only [SIM.list, GMap.vals, GMap.keys, List.map_map]
    apply List.map_congr_left
    rintro ⟨k, cc⟩ hm
    simp [view, GMap.get?_of_mem hi.items hm]

theorem index_exact {c : Cache R} (hi : SIMInv c.storage) {name : String} {f : Indexer (Entry R)}
    (hf : c.storage.indexers.get? name = some f) (e : Entry R) :
    ∃ l, c.storage.index name e = .ok l ∧ ListsExactly (view c) (fun x => ∃ v, v ∈ f e ∧ v ∈ f x) (l.map VC.resource) := by
  obtain ⟨ks, h1, h2, h3⟩ := index_keys hi hf e
  refine ⟨_, h3, ks, h1, ?_, ?_⟩
  · intro k
    rw [h2]
    constructor
    · rintro ⟨cc, hc, hv⟩; exact ⟨cc.resource, by simp [view, hc], hv⟩
    · rintro ⟨x, hx, hv⟩; obtain ⟨v, hv'⟩ := view_some.1 hx; exact ⟨_, hv', hv⟩
  · simp only [List.map_map]
    apply List.map_congr_left
    intro k hk
    obtain ⟨cc, hc, _⟩ := (h2 k).1 hk
    simp [view, hc]

end Verif.Proofs
