import Verif.Spec.Fixture
import Verif.Props.Dispatch
import Verif.Proofs.Merge
import Std.Data.String.ToNat

/-!
# C63, C65, C71-C73: the fixture server
-/
namespace Verif.Props
open Verif Verif.Model Verif.Spec Verif.Proofs

/-! ## C63 -/

/-- The type lookup of the tool. -/
theorem recordTypeMap_get (flows logs : Bool) (tm : TypeMeta) :
    (recordTypeMap (getRecordTypes flows logs) []).get? tm = if configured flows logs tm then some tm.type else none := by
  obtain ⟨a, t⟩ := tm
  cases flows <;> cases logs <;>
    simp only [getRecordTypes, configured, recordTypeMap, GMap.get?_set, GMap.get?_nil, TypeMeta.mk.injEq, List.cons_append, List.nil_append,
      List.append_nil, if_true, if_false, Bool.false_eq_true, false_and, or_false, true_and] <;>
    by_cases ha : a = "flow/v1" <;> simp only [ha, true_and, false_and, if_false, eq_comm] <;>
    grind

theorem groupLoop_get {J : Type} (unm : String → J → Option (Mem GoTime)) (flows logs : Bool) (src : SourceRef) :
    ∀ (data : List (PartialEntry J)) (acc : GMap SourceRef (List (Entry (GoRec GoTime)))),
      (groupLoop unm (recordTypeMap (getRecordTypes flows logs) []) data acc).get? src =
        if groupOf unm flows logs data src = [] then acc.get? src
        else some ((acc.get? src).getD [] ++ groupOf unm flows logs data src)
  | [], acc => by simp [groupLoop, groupOf]
  | p :: ps, acc => by
    have ih := groupLoop_get unm flows logs src ps
    simp only [groupLoop, recordTypeMap_get]
    by_cases hc : configured flows logs p.typeMeta
    · simp only [hc, if_true]
      cases hu : unm p.typeMeta.type p.record with
      | none =>
        have : loadedEntry unm flows logs p = none := by simp [loadedEntry, hc, hu]
        have hg : groupOf unm flows logs (p :: ps) src = groupOf unm flows logs ps src := by simp [groupOf, this]
        rw [hg]; exact ih acc
      | some mem =>
        have hl : loadedEntry unm flows logs p = some ⟨p.md, p.typeMeta, .pointer ⟨p.typeMeta.type, mem⟩⟩ := by simp [loadedEntry, hc, hu]
        simp only [ih, GMap.get?_set]
        by_cases hs : p.md.source = src
        · have hg : groupOf unm flows logs (p :: ps) src =
              ⟨p.md, p.typeMeta, .pointer ⟨p.typeMeta.type, mem⟩⟩ :: groupOf unm flows logs ps src := by
            simp [groupOf, hl, hs]
          rw [hg]
          by_cases hn : groupOf unm flows logs ps src = [] <;> simp [hn, hs]
        · have hg : groupOf unm flows logs (p :: ps) src = groupOf unm flows logs ps src := by
            simp [groupOf, hl, hs]
          rw [hg]; simp [hs]
    · have : loadedEntry unm flows logs p = none := by simp [loadedEntry, hc]
      have hg : groupOf unm flows logs (p :: ps) src = groupOf unm flows logs ps src := by simp [groupOf, this]
      rw [hg]; simp only [hc, if_false]; exact ih acc

theorem groupLoop_wf {J : Type} (unm : String → J → Option (Mem GoTime)) (types : GMap TypeMeta String) :
    ∀ (data : List (PartialEntry J)) (acc : GMap SourceRef (List (Entry (GoRec GoTime)))), acc.WF → (groupLoop unm types data acc).WF
  | [], acc, h => h
  | p :: ps, acc, h => by
    simp only [groupLoop]
    split
    · exact groupLoop_wf unm types ps acc h
    · split
      · exact groupLoop_wf unm types ps acc h
      · exact groupLoop_wf unm types ps _ (h.set _ _)

/-- C63: the group of a source is the list of its loaded entries in upload order; sources without any have no group; each
source has one group. -/
theorem C63_group {J : Type} (unm : String → J → Option (Mem GoTime)) (flows logs : Bool) (data : List (PartialEntry J)) :
    (groupEntriesBySource unm flows logs data).WF ∧
    ∀ src, (groupEntriesBySource unm flows logs data).get? src =
      if groupOf unm flows logs data src = [] then none else some (groupOf unm flows logs data src) := by
  refine ⟨groupLoop_wf unm _ data [] GMap.WF_nil, fun src => ?_⟩
  have := groupLoop_get unm flows logs src data []
  simpa [groupEntriesBySource] using this

/-- C63: nothing is lost or duplicated: the groups together are a rearrangement of the loaded entries. -/
theorem C63_lossless {J : Type} (unm : String → J → Option (Mem GoTime)) (flows logs : Bool) (data : List (PartialEntry J)) :
    ((groupEntriesBySource unm flows logs data).vals.flatten).Perm (data.filterMap (loadedEntry unm flows logs)) := by
  obtain ⟨hw, hg⟩ := C63_group unm flows logs data
  generalize groupEntriesBySource unm flows logs data = g at hw hg
  have hkeys : ∀ e ∈ data.filterMap (loadedEntry unm flows logs), e.md.source ∈ g.keys := by
    intro e he
    rw [GMap.mem_keys_iff, hg]
    have : e ∈ groupOf unm flows logs data e.md.source := by simp [groupOf]; simpa using he
    rw [if_neg (by intro h; rw [h] at this; cases this)]
    exact ⟨_, rfl⟩
  have hv : ∀ p ∈ g, p.2 = (data.filterMap (loadedEntry unm flows logs)).filter fun e => e.md.source = p.1 := by
    intro p hp
    have := GMap.get?_of_mem hw (k := p.1) (v := p.2) hp
    rw [hg] at this
    split at this
    · cases this
    · simpa [groupOf] using (Option.some.inj this).symm
  clear hg
  generalize data.filterMap (loadedEntry unm flows logs) = l at hkeys hv
  induction g generalizing l with
  | nil =>
    have : l = [] := by
      cases l with
      | nil => rfl
      | cons e es => exact absurd (hkeys e (by simp)) (by simp [GMap.keys])
    simp [GMap.vals, this]
  | cons p g ih =>
    simp only [GMap.WF, GMap.keys, List.map_cons, List.nodup_cons] at hw
    have h1 := ih hw.2 (l.filter fun e => ¬ e.md.source = p.1) (by
      intro e he
      have he' := List.mem_filter.1 he
      have := hkeys e he'.1
      simp only [GMap.keys, List.map_cons, List.mem_cons] at this
      rcases this with h | h
      · simp [h] at he'
      · exact h) (by
      intro q hq
      rw [hv q (by simp [hq]), List.filter_filter]
      apply List.filter_congr
      intro e _
      by_cases he : e.md.source = q.1
      · have : q.1 ≠ p.1 := fun h => hw.1 (h ▸ List.mem_map_of_mem hq)
        simp [he, this]
      · simp [he])
    simp only [GMap.vals, List.map_cons, List.flatten_cons] at h1 ⊢
    rw [hv p (by simp)]
    refine (List.Perm.append_left _ h1).trans ?_
    have := List.filter_append_perm (fun e : Entry (GoRec GoTime) => decide (e.md.source = p.1)) l
    simpa using this

/-! ## C71: what an upload loads -/

theorem lastWithKey_cons {kf : KeyFunc (GoRec GoTime)} {e : Entry (GoRec GoTime)} {es : List (Entry (GoRec GoTime))} {k ke : String}
    (h : kf e = .ok ke) : lastWithKey kf (e :: es) k = if ke = k then some ((lastWithKey kf es k).getD e) else lastWithKey kf es k := by
  simp only [lastWithKey, List.filter_cons, h, Res.ok.injEq]
  by_cases hk : ke = k
  · simp only [hk, decide_true, if_true, List.getLast?_cons]
  · simp [hk]

theorem lastWithKey_none {kf : KeyFunc (GoRec GoTime)} {es : List (Entry (GoRec GoTime))} {k : String}
    (h : ∀ e ∈ es, kf e ≠ .ok k) : lastWithKey kf es k = none := by
  simp only [lastWithKey]
  rw [List.filter_eq_nil_iff.2 (by intro a ha; simpa using h a ha)]
  rfl

theorem lastWithKey_mem {kf : KeyFunc (GoRec GoTime)} {es : List (Entry (GoRec GoTime))} {k : String} {e : Entry (GoRec GoTime)}
    (h : lastWithKey kf es k = some e) : e ∈ es ∧ kf e = .ok k := by
  have := List.mem_of_getLast? h
  simpa using List.mem_filter.1 this

theorem survivors_sub : ∀ (es : List (Entry (GoRec GoTime))), ∀ e ∈ survivors es, e ∈ es
  | [], e, h => h
  | x :: es, e, h => by
    simp only [survivors] at h
    split at h
    · exact List.mem_cons_of_mem _ (survivors_sub es e h)
    · rcases List.mem_cons.1 h with h | h
      · simp [h]
      · exact List.mem_cons_of_mem _ (survivors_sub es e h)

theorem survivors_last {kf : KeyFunc (GoRec GoTime)} {key : Entry (GoRec GoTime) → String} : ∀ (es : List (Entry (GoRec GoTime))),
    (∀ e ∈ es, kf e = .ok (key e)) → (∀ a ∈ es, ∀ b ∈ es, sameRecord a b = true ↔ key a = key b) →
    ((survivors es).map key).Nodup ∧ (∀ e ∈ survivors es, lastWithKey kf es (key e) = some e) ∧
      ∀ k e, lastWithKey kf es k = some e → e ∈ survivors es
  | [], _, _ => by simp [survivors, lastWithKey]
  | x :: es, hk, hs => by
    obtain ⟨i1, i2, i3⟩ := survivors_last (kf := kf) es (fun e he => hk e (by simp [he]))
      (fun a ha b hb => hs a (by simp [ha]) b (by simp [hb]))
    have hx := hk x (by simp)
    by_cases ha : es.any (sameRecord x)
    · obtain ⟨y, hy, hxy⟩ := List.any_eq_true.1 ha
      have hkey := (hs x (by simp) y (by simp [hy])).1 hxy
      have hsome : ∃ z, lastWithKey kf es (key x) = some z := by
        cases hl : lastWithKey kf es (key x) with
        | some z => exact ⟨z, rfl⟩
        | none =>
          simp only [lastWithKey, List.getLast?_eq_none_iff, List.filter_eq_nil_iff] at hl
          exact absurd (by rw [hk y (by simp [hy]), hkey]; simp) (hl y hy)
      simp only [survivors, ha, if_true]
      refine ⟨i1, fun e he => ?_, fun k e h => ?_⟩
      · rw [lastWithKey_cons hx, i2 e he]
        split <;> simp
      · rw [lastWithKey_cons hx] at h
        split at h
        · rename_i hkk
          obtain ⟨z, hz⟩ := hsome
          rw [← hkk, hz] at h
          simp only [Option.getD_some, Option.some.injEq] at h
          subst h
          exact i3 _ _ hz
        · exact i3 _ _ h
    · have hno : ∀ y ∈ es, key y ≠ key x := by
        intro y hy h
        exact ha (List.any_eq_true.2 ⟨y, hy, (hs x (by simp) y (by simp [hy])).2 h.symm⟩)
      have hnone : lastWithKey kf es (key x) = none :=
        lastWithKey_none (fun e he h => hno e he (by rw [hk e (by simp [he])] at h; simpa using h))
      simp only [survivors, ha, Bool.false_eq_true, if_false]
      refine ⟨?_, ?_, ?_⟩
      · simp only [List.map_cons, List.nodup_cons]
        refine ⟨fun h => ?_, i1⟩
        obtain ⟨y, hy, h⟩ := List.mem_map.1 h
        exact hno y (survivors_sub es y hy) h
      · intro e he
        rcases List.mem_cons.1 he with rfl | he
        · rw [lastWithKey_cons hx, hnone]; simp
        · rw [lastWithKey_cons hx, if_neg (fun h => hno e (survivors_sub es e he) h.symm)]
          exact i2 e he
      · intro k e h
        rw [lastWithKey_cons hx] at h
        split at h
        · rename_i hkk
          rw [← hkk, hnone] at h
          simp only [Option.getD_none, Option.some.injEq] at h
          simp [h]
        · exact List.mem_cons_of_mem _ (i3 _ _ h)

/-- Listing exactly the last entries per key is listing the survivors. -/
theorem lists_survivors {kf : KeyFunc (GoRec GoTime)} {key : Entry (GoRec GoTime) → String} {es l : List (Entry (GoRec GoTime))}
    (hk : ∀ e ∈ es, kf e = .ok (key e)) (hs : ∀ a ∈ es, ∀ b ∈ es, sameRecord a b = true ↔ key a = key b)
    {P : Entry (GoRec GoTime) → Prop} [DecidablePred P] (hl : ListsExactly (lastWithKey kf es) P l) :
    l.Perm ((survivors es).filter P) := by
  obtain ⟨i1, i2, i3⟩ := survivors_last (kf := kf) es hk hs
  obtain ⟨ks, h1, h2, h3⟩ := hl
  have hp : ks.Perm (((survivors es).filter P).map key) := by
    rw [List.perm_ext_iff_of_nodup h1 ((List.Sublist.map key List.filter_sublist).nodup i1)]
    intro k
    rw [h2]
    simp only [List.mem_map, List.mem_filter, decide_eq_true_eq]
    constructor
    · rintro ⟨e, he, hP⟩
      have := lastWithKey_mem he
      exact ⟨e, ⟨i3 _ _ he, hP⟩, by have h := this.2; rw [hk e this.1] at h; simpa using h⟩
    · rintro ⟨e, ⟨he, hP⟩, rfl⟩
      exact ⟨e, i2 e he, hP⟩
  have h4 : (l.map some).Perm (((survivors es).filter P).map some) := by
    rw [h3]
    refine (hp.map _).trans ?_
    rw [List.map_map, List.map_congr_left (g := some)]
    intro e he
    exact i2 e (List.mem_filter.1 he).1
  have h5 := h4.filterMap id
  simpa [List.filterMap_map] using h5

/-- The key the store of the tool gives to a loaded entry. -/
def fixtureKey (e : Entry (GoRec GoTime)) : String := e.typeMeta.str ++ "/" ++ (entryID e).getD ""

/-- The shape of a loaded entry. -/
def Loaded (flows logs : Bool) (e : Entry (GoRec GoTime)) : Prop :=
  configured flows logs e.typeMeta ∧ ∃ m, e.record = .pointer ⟨e.typeMeta.type, m⟩

theorem loadedEntry_loaded {J : Type} {unm : String → J → Option (Mem GoTime)} {flows logs : Bool} {p : PartialEntry J}
    {e : Entry (GoRec GoTime)} (h : loadedEntry unm flows logs p = some e) : Loaded flows logs e := by
  simp only [loadedEntry] at h
  split at h
  · rename_i hc
    obtain ⟨m, _, rfl⟩ := Option.map_eq_some_iff.1 h
    exact ⟨hc, m, rfl⟩
  · cases h

theorem groupOf_loaded {J : Type} {unm : String → J → Option (Mem GoTime)} {flows logs : Bool} {data : List (PartialEntry J)}
    {src : SourceRef} {e : Entry (GoRec GoTime)} (h : e ∈ groupOf unm flows logs data src) : Loaded flows logs e ∧ e.md.source = src := by
  simp only [groupOf, List.mem_filter, List.mem_filterMap, decide_eq_true_eq] at h
  obtain ⟨⟨p, _, hp⟩, hs⟩ := h
  exact ⟨loadedEntry_loaded hp, hs⟩

theorem loaded_key {flows logs : Bool} {e : Entry (GoRec GoTime)} (h : Loaded flows logs e) :
    keyByTypeAndID vanOps e = .ok (fixtureKey e) := by
  obtain ⟨_, m, hm⟩ := h
  simp only [keyByTypeAndID, fixtureKey, entryID, hm, vanOps, vanIdentity, recIdentity, Res.map]
  cases m [0, 0] <;> rfl

theorem configured_plain {flows logs : Bool} {tm : TypeMeta} (h : configured flows logs tm) : '/' ∉ tm.type.toList := by
  rcases h with ⟨_, h | h | h | h | h | h | ⟨_, h⟩ | ⟨_, h⟩⟩ <;> rw [h] <;> decide

theorem loaded_same {flows logs : Bool} {a b : Entry (GoRec GoTime)} (ha : Loaded flows logs a) (hb : Loaded flows logs b) :
    sameRecord a b = true ↔ fixtureKey a = fixtureKey b := by
  have hid : ∀ e, Loaded flows logs e → ∃ s, entryID e = some s := by
    rintro e ⟨_, m, hm⟩
    simp only [entryID, hm]
    cases m [0, 0] <;> exact ⟨_, rfl⟩
  obtain ⟨sa, hsa⟩ := hid a ha
  obtain ⟨sb, hsb⟩ := hid b hb
  simp only [sameRecord, fixtureKey, hsa, hsb, Option.getD_some, Option.some.injEq, decide_eq_true_eq, TypeMeta.str]
  constructor
  · rintro ⟨h1, h2⟩; rw [h1, h2]
  · intro h
    have h' := congrArg String.toList h
    simp only [String.toList_append, ha.1.1, hb.1.1, List.append_assoc] at h'
    have h'' := List.append_cancel_left (List.append_cancel_left h')
    have hsep : "/".toList = ['/'] := by decide
    rw [hsep] at h''
    obtain ⟨h1, h2⟩ := split_first_sep (configured_plain ha.1) (configured_plain hb.1) h''
    refine ⟨?_, String.toList_inj.1 h2⟩
    have : a.typeMeta = ⟨a.typeMeta.apiVersion, a.typeMeta.type⟩ := rfl
    rw [this, ha.1.1, String.toList_inj.1 h1, ← hb.1.1]

theorem fixture_good : GoodConfig (fixtureConfig vanOps) := by
  intro ixr h
  simp only [fixtureConfig, Option.some.injEq] at h
  subst h
  simp [GMap.WF, GMap.keys]

/-- The store of a source holds the survivors of its group. -/
theorem fixtureStoreOf_ok {flows logs : Bool} {es : List (Entry (GoRec GoTime))} (h : ∀ e ∈ es, Loaded flows logs e) :
    (fixtureStoreOf es).2.res = .ok () ∧
    (∃ l, (fixtureStoreOf es).1.list none 0 = .ok { entries := l, cont := "" } ∧ l.Perm (survivors es)) ∧
    ∀ tm : TypeMeta, '/' ∉ tm.type.toList → ∀ x : Entry (GoRec GoTime), x.typeMeta = tm →
      ∃ l, (fixtureStoreOf es).1.index "ByType" x none 0 = .ok { entries := l, cont := "" } ∧
        l.Perm ((survivors es).filter fun e => e.typeMeta = tm) := by
  have hk : ∀ e ∈ es, keyByTypeAndID vanOps e = .ok (fixtureKey e) := fun e he => loaded_key (h e he)
  have hs : ∀ a ∈ es, ∀ b ∈ es, sameRecord a b = true ↔ fixtureKey a = fixtureKey b := fun a ha b hb => loaded_same (h a ha) (h b hb)
  obtain ⟨_, h1, _⟩ := C20_replace_exact vanOps_lawful fixture_good [] es
  obtain ⟨r1, _, ⟨l, r3, r4⟩, r5⟩ := h1 (fun e he => ⟨_, hk e he⟩)
  refine ⟨r1, ⟨l, r3, ?_⟩, ?_⟩
  · have := lists_survivors (P := fun _ => True) hk hs r4
    simp only [decide_true] at this
    rwa [List.filter_eq_self.2 (fun _ _ => rfl)] at this
  · intro tm htm x hx
    obtain ⟨l, q1, q2⟩ := r5 "ByType" (fun e => [e.typeMeta.str]) x (by simp [indexerOf, fixtureConfig, GMap.get?])
    refine ⟨l, q1, ?_⟩
    have := lists_survivors (P := fun y => y.typeMeta.str = tm.str) hk hs (l := l) (by
      obtain ⟨ks, g1, g2, g3⟩ := q2
      refine ⟨ks, g1, fun k => ?_, g3⟩
      rw [g2]
      simp only [List.mem_singleton, exists_eq_left, hx, eq_comm]
      rfl)
    refine this.trans (List.Perm.of_eq (List.filter_congr ?_))
    intro e he
    have hpe := (h e (survivors_sub _ e he)).1
    simp only [decide_eq_decide]
    exact ⟨fun hh => typeMeta_str_inj (configured_plain hpe) htm hh, fun hh => by rw [hh]⟩

theorem sourceStores_ok {flows logs : Bool} : ∀ (g : GMap SourceRef (List (Entry (GoRec GoTime)))) (acc : GMap SourceRef (Cache (GoRec GoTime))),
    g.WF → (∀ p ∈ g, p.2 ≠ [] ∧ ∀ e ∈ p.2, Loaded flows logs e) → acc.WF →
    ∃ m, sourceStoresLoop g acc = .ok m ∧ m.WF ∧ ∀ src, m.get? src = match g.get? src with
      | some es => some (fixtureStoreOf es).1
      | none => acc.get? src
  | [], acc, _, _, ha => ⟨acc, rfl, ha, fun src => by simp⟩
  | (s, es) :: g, acc, hw, hl, ha => by
    obtain ⟨hne, hld⟩ := hl (s, es) (by simp)
    have hok := (fixtureStoreOf_ok hld).1
    simp only [GMap.WF, GMap.keys, List.map_cons, List.nodup_cons] at hw
    obtain ⟨m, h1, h2, h3⟩ := sourceStores_ok (flows := flows) (logs := logs) g (acc.set s (fixtureStoreOf es).1) hw.2
      (fun p hp => hl p (by simp [hp])) (ha.set _ _)
    refine ⟨m, ?_, h2, fun src => ?_⟩
    · simp only [sourceStoresLoop]
      rw [if_neg (by simpa using hne)]
      generalize hf : fixtureStoreOf es = f at hok h1
      obtain ⟨c, o⟩ := f
      obtain ⟨r, ev⟩ := o
      simp only at hok
      subst hok
      exact h1
    · rw [h3, GMap.get?_cons]
      by_cases hs : s = src
      · subst hs
        rw [GMap.get?_eq_none_iff.2 hw.1]
        simp
      · simp only [hs, if_false, GMap.get?_set]

/-- C71: an upload is always accepted, and the store of each source lists exactly the loaded entries of that source, the last one for each
record; a source without loaded entries has no store. -/
theorem C71_upload {J : Type} (unm : String → J → Option (Mem GoTime)) (flows logs : Bool) (data : List (PartialEntry J)) :
    ∃ cfg, serveFixture unm flows logs data = .ok cfg ∧ cfg.WF ∧ ∀ src,
      (groupOf unm flows logs data src = [] → cfg.get? src = none) ∧
      (groupOf unm flows logs data src ≠ [] → ∃ c l, cfg.get? src = some c ∧ c.list none 0 = .ok { entries := l, cont := "" } ∧
        l.Perm (survivors (groupOf unm flows logs data src))) := by
  obtain ⟨hw, hg⟩ := C63_group unm flows logs data
  obtain ⟨m, h1, h2, h3⟩ := sourceStores_ok (flows := flows) (logs := logs) _ [] hw (by
    intro p hp
    have := GMap.get?_of_mem hw (k := p.1) (v := p.2) hp
    rw [hg] at this
    split at this
    · cases this
    · rename_i hne
      rw [← Option.some.inj this]
      exact ⟨hne, fun e he => (groupOf_loaded he).1⟩) GMap.WF_nil
  refine ⟨m, h1, h2, fun src => ⟨fun h => ?_, fun h => ?_⟩⟩
  · rw [h3, hg, if_pos h]; rfl
  · have := (fixtureStoreOf_ok (flows := flows) (logs := logs) (fun e he => (groupOf_loaded (src := src) (data := data) (unm := unm) he).1)).2.1
    obtain ⟨l, h4, h5⟩ := this
    exact ⟨_, l, by rw [h3, hg, if_neg h], h4, h5⟩

theorem upload_get {J : Type} {unm : String → J → Option (Mem GoTime)} {flows logs : Bool} {data : List (PartialEntry J)}
    {cfg : GMap SourceRef (Cache (GoRec GoTime))} (h : serveFixture unm flows logs data = .ok cfg) :
    cfg.WF ∧ ∀ src, cfg.get? src = if groupOf unm flows logs data src = [] then none
      else some (fixtureStoreOf (groupOf unm flows logs data src)).1 := by
  obtain ⟨hw, hg⟩ := C63_group unm flows logs data
  obtain ⟨m, h1, h2, h3⟩ := sourceStores_ok (flows := flows) (logs := logs) _ [] hw (by
    intro p hp
    have := GMap.get?_of_mem hw (k := p.1) (v := p.2) hp
    rw [hg] at this
    split at this
    · cases this
    · rename_i hne
      rw [← Option.some.inj this]
      exact ⟨hne, fun e he => (groupOf_loaded he).1⟩) GMap.WF_nil
  have : serveFixture unm flows logs data = .ok m := h1
  rw [h] at this
  cases this
  refine ⟨h2, fun src => ?_⟩
  rw [h3, hg]
  by_cases hn : groupOf unm flows logs data src = [] <;> simp [hn]

/-! ## C72: the impersonated sources -/

theorem fixManagers_wf : ∀ (cfg : GMap SourceRef (Cache (GoRec GoTime))) (acc : GMap String FixManager), acc.WF → (fixManagers cfg acc).WF
  | [], _, h => h
  | (_, _) :: rest, _, h => fixManagers_wf rest _ (h.set _ _)

theorem fixManagers_some : ∀ (cfg : GMap SourceRef (Cache (GoRec GoTime))) (acc : GMap String FixManager) (n : String) (fm : FixManager),
    (fixManagers cfg acc).get? n = some fm →
    acc.get? n = some fm ∨ ∃ src c, (src, c) ∈ cfg ∧ src.name = n ∧ fm = fixManagerOf src c
  | [], acc, n, fm, h => .inl h
  | (s, c) :: rest, acc, n, fm, h => by
    rcases fixManagers_some rest _ n fm h with h | ⟨src, c', h1, h2, h3⟩
    · rw [GMap.get?_set] at h
      split at h
      · rename_i hn
        exact .inr ⟨s, c, by simp, hn, (Option.some.inj h).symm⟩
      · exact .inl h
    · exact .inr ⟨src, c', by simp [h1], h2, h3⟩

theorem fixManagers_isSome : ∀ (cfg : GMap SourceRef (Cache (GoRec GoTime))) (acc : GMap String FixManager) (n : String),
    ((acc.get? n).isSome ∨ ∃ src c, (src, c) ∈ cfg ∧ src.name = n) → ((fixManagers cfg acc).get? n).isSome
  | [], acc, n, h => by
    rcases h with h | ⟨_, _, h, _⟩
    · exact h
    · cases h
  | (s, c) :: rest, acc, n, h => by
    refine fixManagers_isSome rest _ n ?_
    rcases h with h | ⟨src, c', h, hn⟩
    · left; rw [GMap.get?_set]; split
      · rfl
      · exact h
    · rcases List.mem_cons.1 h with h | h
      · cases h; left; simp [hn]
      · exact .inr ⟨src, c', h, hn⟩

/-- C72: every manager impersonates a source of the upload with exactly its records, and every uploaded source name has a manager. -/
theorem C72_managers_partial {J : Type} {unm : String → J → Option (Mem GoTime)} {flows logs : Bool} {data : List (PartialEntry J)}
    {cfg : GMap SourceRef (Cache (GoRec GoTime))} (h : serveFixture unm flows logs data = .ok cfg) :
    (∀ n fm, (fixManagers cfg []).get? n = some fm → fm.source.name = n ∧ fm.address = "mc/sfe." ++ n ∧ fm.direct = "sfe." ++ n ∧
      (fm.altHeartbeats = true ↔ fm.source.type = "CONTROLLER") ∧
      groupOf unm flows logs data fm.source ≠ [] ∧
      ∃ l, fm.store.list none 0 = .ok { entries := l, cont := "" } ∧ l.Perm (survivors (groupOf unm flows logs data fm.source))) ∧
    (∀ src, groupOf unm flows logs data src ≠ [] → ∃ fm, (fixManagers cfg []).get? src.name = some fm) ∧
    ((∀ s1 s2, groupOf unm flows logs data s1 ≠ [] → groupOf unm flows logs data s2 ≠ [] → s1.name = s2.name → s1 = s2) →
      ∀ src, groupOf unm flows logs data src ≠ [] → ∃ fm, (fixManagers cfg []).get? src.name = some fm ∧ fm.source = src) := by
  obtain ⟨hw, hg⟩ := upload_get h
  have hmem : ∀ src c, (src, c) ∈ cfg → groupOf unm flows logs data src ≠ [] ∧ c = (fixtureStoreOf (groupOf unm flows logs data src)).1 := by
    intro src c hm
    have := GMap.get?_of_mem hw hm
    rw [hg] at this
    split at this
    · cases this
    · rename_i hne
      exact ⟨hne, (Option.some.inj this).symm⟩
  have hsome : ∀ src, groupOf unm flows logs data src ≠ [] → ∃ fm, (fixManagers cfg []).get? src.name = some fm := by
    intro src hs
    have := hg src
    rw [if_neg hs] at this
    exact Option.isSome_iff_exists.1 (fixManagers_isSome cfg [] src.name (.inr ⟨src, _, GMap.mem_of_get? this, rfl⟩))
  refine ⟨?_, hsome, ?_⟩
  · intro n fm hfm
    rcases fixManagers_some cfg [] n fm hfm with h | ⟨src, c, h1, h2, h3⟩
    · cases h
    · obtain ⟨hne, hc⟩ := hmem src c h1
      subst h3
      refine ⟨h2, by simp [fixManagerOf, h2], by simp [fixManagerOf, h2], by simp [fixManagerOf], hne, ?_⟩
      have := (fixtureStoreOf_ok (flows := flows) (logs := logs)
        (fun e he => (groupOf_loaded (src := src) (data := data) (unm := unm) he).1)).2.1
      rw [← hc] at this
      exact this
  · intro hu src hs
    obtain ⟨fm, hfm⟩ := hsome src hs
    refine ⟨fm, hfm, ?_⟩
    rcases fixManagers_some cfg [] _ fm hfm with h | ⟨s, c, h1, h2, h3⟩
    · cases h
    · subst h3
      exact hu s src (hmem s c h1).1 hs h2

/-! ### Concrete uploads: the decoder of the examples takes the memory of the record as it is -/

/-- A decoder for examples. -/
def exUnm : String → Option (Mem GoTime) → Option (Mem GoTime) := fun _ j => j

/-- A flow record in memory. -/
def exFlowMem (id : String) (counter : Option String) : Mem GoTime := fun p =>
  if p = [0, 0] then .str id
  else if p = [2] then (match counter with
    | some c => .ptr (.str c)
    | none => .nilp)
  else .nilp

/-- An uploaded flow. -/
def exFlowUp (src : SourceRef) (id : String) (counter : Option String) : PartialEntry (Option (Mem GoTime)) :=
  { md := { Metadata.zero with source := src }, typeMeta := ⟨"flow/v1", "FlowRecord"⟩, record := some (exFlowMem id counter) }

def exR1 : SourceRef := ⟨"1", "ROUTER", "r1"⟩
def exR2 : SourceRef := ⟨"1", "ROUTER", "r2"⟩
def exC1 : SourceRef := ⟨"1", "CONTROLLER", "r1"⟩

/-- Two routers, each with a flow; the flow of the first names that of the second. One further entry does not parse and one has an unknown type. -/
def exUpload : List (PartialEntry (Option (Mem GoTime))) :=
  [exFlowUp exR1 "f1" (some "f2"), { exFlowUp exR1 "f9" none with record := none }, exFlowUp exR2 "f2" none,
   { exFlowUp exR1 "f8" none with typeMeta := ⟨"flow/v1", "HostRecord"⟩ }]

example : ((groupEntriesBySource exUnm true true exUpload).get? exR1).map List.length = some 1 ∧
    ((groupEntriesBySource exUnm true true exUpload).get? exR2).map List.length = some 1 ∧
    ((groupEntriesBySource exUnm false true exUpload).get? exR1) = none := by
  refine ⟨?_, ?_, ?_⟩ <;> rfl

/-- C72 is false in general: of two uploaded sources with the same name only one is impersonated. -/
theorem C72_counterexample :
    ∃ cfg, serveFixture exUnm true true [exFlowUp exR1 "f1" none, exFlowUp exC1 "f2" none] = .ok cfg ∧
      (∃ c1 c2, cfg.get? exR1 = some c1 ∧ cfg.get? exC1 = some c2) ∧
      (∀ n fm, (fixManagers cfg []).get? n = some fm → fm.source = exC1) := by
  refine ⟨_, rfl, ⟨_, _, rfl, rfl⟩, ?_⟩
  intro n fm h
  change GMap.get? [("r1", fixManagerOf exC1 _)] n = some fm at h
  have hm := GMap.mem_of_get? h
  simp only [List.mem_singleton, Prod.mk.injEq] at hm
  rw [hm.2]; rfl

/-! ## C65: flow replay -/

/-- The entry is a flow record with this memory. -/
def IsFlow (e : Entry (GoRec GoTime)) (m : Mem GoTime) : Prop := e.record = flowRec m

/-- What the maps of `ServeFlows` say about the flows seen. -/
structure FlowInv (all : List (Entry (GoRec GoTime))) (es : GMap String (Entry (GoRec GoTime))) (ids : GMap String String) : Prop where
  es_mem : ∀ id e, es.get? id = some e → e ∈ all ∧ ∃ m, IsFlow e m ∧ strField (m flowID) = id
  es_some : ∀ e ∈ all, ∀ m, IsFlow e m → (es.get? (strField (m flowID))).isSome
  ids_mem : ∀ id c, ids.get? id = some c → c ≠ "" ∧ ∃ e ∈ all, ∃ m, IsFlow e m ∧ strField (m flowID) = id ∧ ptrStr (m flowCounterflow) = some c
  ids_some : ∀ e ∈ all, ∀ m, IsFlow e m → ∀ c, ptrStr (m flowCounterflow) = some c → c ≠ "" → (ids.get? (strField (m flowID))).isSome
  ids_wf : ids.WF

theorem FlowInv.nil : FlowInv [] [] [] where
  es_mem := by simp
  es_some := by simp
  ids_mem := by simp
  ids_some := by simp
  ids_wf := GMap.WF_nil

theorem isFlow_inj {e : Entry (GoRec GoTime)} {m m' : Mem GoTime} (h : IsFlow e m) (h' : IsFlow e m') : m = m' := by
  unfold IsFlow at h h'
  rw [h] at h'
  simp only [flowRec, GoRec.pointer.injEq, RecVal.mk.injEq, true_and] at h'
  exact h'

theorem flowLoop_inv : ∀ (l all : List (Entry (GoRec GoTime))) (es : GMap String (Entry (GoRec GoTime))) (ids : GMap String String),
    FlowInv all es ids → (∀ e ∈ l, ∃ m, IsFlow e m) →
    ∃ es' ids', flowLoop l es ids = .ok (es', ids') ∧ FlowInv (all ++ l) es' ids'
  | [], all, es, ids, h, _ => ⟨es, ids, rfl, by simpa using h⟩
  | e :: l, all, es, ids, h, hl => by
    obtain ⟨m, hm⟩ := hl e (by simp)
    have has : asFlow e.record = .ok m := by rw [hm]; simp [asFlow, flowRec]
    have key : ∀ ids', (ids' = match ptrStr (m flowCounterflow) with
        | some c => if c ≠ "" then ids.set (strField (m flowID)) c else ids
        | none => ids) → FlowInv (all ++ [e]) (es.set (strField (m flowID)) e) ids' := by
      intro ids' hids
      refine ⟨?_, ?_, ?_, ?_, ?_⟩
      · intro id x hx
        rw [GMap.get?_set] at hx
        split at hx
        · rename_i hid
          cases hx
          exact ⟨by simp, m, hm, hid⟩
        · obtain ⟨h1, h2⟩ := h.es_mem id x hx
          exact ⟨by simp [h1], h2⟩
      · intro x hx mx hmx
        rw [GMap.get?_set]
        split
        · rfl
        · rename_i hne
          rcases List.mem_append.1 hx with hx | hx
          · exact h.es_some x hx mx hmx
          · simp only [List.mem_singleton] at hx
            subst hx
            rw [isFlow_inj hm hmx] at hne
            exact absurd rfl hne
      · intro id c hc
        have old : ids.get? id = some c → c ≠ "" ∧ ∃ x ∈ all ++ [e], ∃ mx, IsFlow x mx ∧ strField (mx flowID) = id ∧
            ptrStr (mx flowCounterflow) = some c := by
          intro hc
          obtain ⟨h0, x, h1, h2⟩ := h.ids_mem id c hc
          exact ⟨h0, x, by simp [h1], h2⟩
        subst hids
        cases hp : ptrStr (m flowCounterflow) with
        | none => simp only [hp] at hc; exact old hc
        | some c' =>
          simp only [hp] at hc
          split at hc
          · rename_i hne
            rw [GMap.get?_set] at hc
            split at hc
            · rename_i hid
              cases hc
              exact ⟨hne, e, by simp, m, hm, hid, hp⟩
            · exact old hc
          · exact old hc
      · intro x hx mx hmx c hc hne
        have old : x ∈ all → ids'.get? (strField (mx flowID)) = none → False := by
          intro hx hn
          have := h.ids_some x hx mx hmx c hc hne
          subst hids
          cases hp : ptrStr (m flowCounterflow) with
          | none => simp only [hp] at hn; simp [hn] at this
          | some c' =>
            simp only [hp] at hn
            split at hn
            · rw [GMap.get?_set] at hn
              split at hn
              · cases hn
              · simp [hn] at this
            · simp [hn] at this
        rcases List.mem_append.1 hx with hx | hx
        · cases hn : ids'.get? (strField (mx flowID)) with
          | none => exact absurd (old hx hn) (by simp)
          | some _ => rfl
        · simp only [List.mem_singleton] at hx
          subst hx
          have := isFlow_inj hm hmx
          subst this
          subst hids
          simp [hc, hne]
      · subst hids
        split
        · split
          · exact h.ids_wf.set _ _
          · exact h.ids_wf
        · exact h.ids_wf
    obtain ⟨es', ids', h1, h2⟩ := flowLoop_inv l (all ++ [e]) _ _ (key _ rfl) (fun x hx => hl x (by simp [hx]))
    refine ⟨es', ids', ?_, by simpa using h2⟩
    simp only [flowLoop, has, Res.bind_ok]
    cases hp : ptrStr (m flowCounterflow) with
    | none => simpa [hp] using h1
    | some c => simpa [hp] using h1

/-- The flows `ServeFlows` reads from a store. -/
def FlowsOf (c : Cache (GoRec GoTime)) (l : List (Entry (GoRec GoTime))) : Prop :=
  c.index "ByType" { md := Metadata.zero, typeMeta := ⟨"flow/v1", "FlowRecord"⟩, record := .nil } none 0 = .ok { entries := l, cont := "" }

theorem flowStores_inv : ∀ (cs : List (Cache (GoRec GoTime))) (all : List (Entry (GoRec GoTime)))
    (es : GMap String (Entry (GoRec GoTime))) (ids : GMap String String),
    FlowInv all es ids → (∀ c ∈ cs, ∃ l, FlowsOf c l ∧ ∀ e ∈ l, ∃ m, IsFlow e m) →
    ∃ es' ids' more, flowStores cs es ids = .ok (es', ids') ∧ FlowInv (all ++ more) es' ids' ∧
      ∀ e, e ∈ more ↔ ∃ c ∈ cs, ∃ l, FlowsOf c l ∧ e ∈ l
  | [], all, es, ids, h, _ => ⟨es, ids, [], rfl, by simpa using h, by simp⟩
  | c :: cs, all, es, ids, h, hc => by
    obtain ⟨l, h1, h2⟩ := hc c (by simp)
    obtain ⟨es1, ids1, g1, g2⟩ := flowLoop_inv l all es ids h h2
    obtain ⟨es2, ids2, more, g3, g4, g5⟩ := flowStores_inv cs _ es1 ids1 g2 (fun c hm => hc c (by simp [hm]))
    refine ⟨es2, ids2, l ++ more, ?_, by simpa using g4, fun e => ?_⟩
    · have h1' := h1
      unfold FlowsOf at h1'
      simp only [flowStores, h1', g1, Res.bind_ok, g3]
    · simp only [List.mem_append, g5, List.mem_cons]
      constructor
      · rintro (he | ⟨c', hc', l', hl', he⟩)
        · exact ⟨c, .inl rfl, l, h1, he⟩
        · exact ⟨c', .inr hc', l', hl', he⟩
      · rintro ⟨c', rfl | hc', l', hl', he⟩
        · unfold FlowsOf at h1 hl'
          rw [h1] at hl'
          cases hl'
          exact .inl he
        · exact .inr ⟨c', hc', l', hl', he⟩

theorem mem_flowPairs {es : GMap String (Entry (GoRec GoTime))} {p : FlowPair} : ∀ {ids : GMap String String},
    p ∈ flowPairs es ids ↔ ∃ s c, (s, c) ∈ ids ∧ p = { server := (es.get? s).getD default, client := (es.get? c).getD default }
  | [] => by simp [flowPairs]
  | (s, c) :: ids => by
    simp only [flowPairs, List.mem_cons, mem_flowPairs (ids := ids), Prod.mk.injEq]
    constructor
    · rintro (h | ⟨s', c', h1, h2⟩)
      · exact ⟨s, c, .inl ⟨rfl, rfl⟩, h⟩
      · exact ⟨s', c', .inr h1, h2⟩
    · rintro ⟨s', c', (⟨rfl, rfl⟩ | h1), h2⟩
      · exact .inl h2
      · exact .inr ⟨s', c', h1, h2⟩

/-- The flows a fixture server replays after an upload: the last entry for each flow record of each source. -/
def LiveFlow {J : Type} (unm : String → J → Option (Mem GoTime)) (flows logs : Bool) (data : List (PartialEntry J)) (id : String)
    (counter : Option String) : Prop :=
  ∃ src, (id, counter) ∈ flowRefs (survivors (groupOf unm flows logs data src))

/-- Uploaded sources have different names. -/
def NamesUnique {J : Type} (unm : String → J → Option (Mem GoTime)) (flows logs : Bool) (data : List (PartialEntry J)) : Prop :=
  ∀ s1 s2, groupOf unm flows logs data s1 ≠ [] → groupOf unm flows logs data s2 ≠ [] → s1.name = s2.name → s1 = s2

theorem mem_flowRefs {flows logs : Bool} {es : List (Entry (GoRec GoTime))} (hl : ∀ e ∈ es, Loaded flows logs e) {id : String} {c : Option String} :
    (id, c) ∈ flowRefs es ↔ ∃ e ∈ es, e.typeMeta = ⟨"flow/v1", "FlowRecord"⟩ ∧ ∃ m, IsFlow e m ∧ strField (m flowID) = id ∧
      c = (match ptrStr (m flowCounterflow) with
        | some x => if x = "" then none else some x
        | none => none) := by
  simp only [flowRefs, List.mem_filterMap]
  constructor
  · rintro ⟨e, he, h⟩
    obtain ⟨hc, m, hm⟩ := hl e he
    refine ⟨e, he, ?_⟩
    simp only [hm] at h
    split at h
    · rename_i htm
      refine ⟨htm, m, by rw [IsFlow, hm, htm]; rfl, ?_⟩
      simp only [entryID, hm] at h
      unfold flowID flowCounterflow
      cases h0 : m [0, 0] <;> cases h2 : m [2] <;> simp only [h0, h2, ptrStr, strField] at h ⊢ <;> try (cases h; exact ⟨rfl, rfl⟩)
      all_goals
        rename_i v
        cases v <;> simp only [Option.some.injEq, Prod.mk.injEq] at h <;> exact ⟨h.1, h.2.symm⟩
    · cases h
  · rintro ⟨e, he, htm, m, hm, h1, h2⟩
    refine ⟨e, he, ?_⟩
    rw [IsFlow] at hm
    simp only [hm, flowRec, htm, if_true, entryID]
    unfold flowID flowCounterflow at *
    cases h0 : m [0, 0] <;> cases h3 : m [2] <;> simp only [h0, h3, ptrStr, strField] at h1 h2 ⊢ <;> try (rw [h1, h2])
    all_goals
      rename_i v
      cases v <;> simp_all

/-- The entries `ServeFlows` works on, in whatever order it goes through the stores, and that its managers exist. -/
theorem flows_of_stores {J : Type} {unm : String → J → Option (Mem GoTime)} {flows logs : Bool} {data : List (PartialEntry J)}
    {cfg : GMap SourceRef (Cache (GoRec GoTime))} (h : serveFixture unm flows logs data = .ok cfg)
    {cs : List (Cache (GoRec GoTime))} (hcs : ∀ c, c ∈ cs ↔ c ∈ (fixManagers cfg []).map fun p => p.2.store) :
    ∃ es ids all, flowStores cs [] [] = .ok (es, ids) ∧ FlowInv all es ids ∧
      (∀ e ∈ all, ∃ src, e ∈ survivors (groupOf unm flows logs data src) ∧ e.typeMeta = ⟨"flow/v1", "FlowRecord"⟩ ∧
        ((fixManagers cfg []).get? e.md.source.name).isSome) ∧
      (NamesUnique unm flows logs data → ∀ src, ∀ e ∈ survivors (groupOf unm flows logs data src),
        e.typeMeta = ⟨"flow/v1", "FlowRecord"⟩ → e ∈ all) := by
  have hmg := C72_managers_partial h
  obtain ⟨hw, hg⟩ := upload_get h
  have hmw := fixManagers_wf cfg [] GMap.WF_nil
  -- the store of a manager
  have hst : ∀ n fm, (fixManagers cfg []).get? n = some fm → fm.source.name = n ∧
      fm.store = (fixtureStoreOf (groupOf unm flows logs data fm.source)).1 := by
    intro n fm hfm
    rcases fixManagers_some cfg [] n fm hfm with hh | ⟨src, c, h1, h2, h3⟩
    · cases hh
    · subst h3
      have := GMap.get?_of_mem hw h1
      rw [hg] at this
      split at this
      · cases this
      · exact ⟨h2, (Option.some.inj this).symm⟩
  have hfl : ∀ src, ∃ l, FlowsOf (fixtureStoreOf (groupOf unm flows logs data src)).1 l ∧
      ∀ e, e ∈ l ↔ e ∈ survivors (groupOf unm flows logs data src) ∧ e.typeMeta = ⟨"flow/v1", "FlowRecord"⟩ := by
    intro src
    obtain ⟨l, h1, h2⟩ := (fixtureStoreOf_ok (flows := flows) (logs := logs)
      (fun e he => (groupOf_loaded (src := src) (data := data) (unm := unm) he).1)).2.2 ⟨"flow/v1", "FlowRecord"⟩ (by decide)
      { md := Metadata.zero, typeMeta := ⟨"flow/v1", "FlowRecord"⟩, record := .nil } rfl
    refine ⟨l, h1, fun e => ?_⟩
    rw [h2.mem_iff, List.mem_filter, decide_eq_true_eq]
  have hisflow : ∀ src, ∀ e ∈ survivors (groupOf unm flows logs data src), e.typeMeta = ⟨"flow/v1", "FlowRecord"⟩ → ∃ m, IsFlow e m := by
    intro src e he ht
    obtain ⟨⟨_, m, hm⟩, _⟩ := groupOf_loaded (survivors_sub _ e he)
    exact ⟨m, by rw [IsFlow, hm, ht]; rfl⟩
  obtain ⟨es, ids, all, g1, g2, g3⟩ := flowStores_inv cs [] [] [] .nil (by
    intro c hc
    obtain ⟨⟨n, fm⟩, hp, rfl⟩ := List.mem_map.1 ((hcs _).1 hc)
    obtain ⟨_, h2⟩ := hst n fm (GMap.get?_of_mem hmw hp)
    obtain ⟨l, h3, h4⟩ := hfl fm.source
    exact ⟨l, by rw [h2]; exact h3, fun e he => hisflow fm.source e ((h4 e).1 he).1 ((h4 e).1 he).2⟩)
  simp only [List.nil_append] at g2
  refine ⟨es, ids, all, g1, g2, fun e he => ?_, fun hu src e he ht => ?_⟩
  · obtain ⟨c, hc, l, hl, hel⟩ := (g3 e).1 he
    obtain ⟨⟨n, fm⟩, hp, rfl⟩ := List.mem_map.1 ((hcs _).1 hc)
    have hget := GMap.get?_of_mem hmw hp
    obtain ⟨h1, h2⟩ := hst n fm hget
    obtain ⟨l', h3, h4⟩ := hfl fm.source
    simp only at hl
    rw [h2] at hl
    unfold FlowsOf at h3 hl
    rw [h3] at hl
    cases hl
    refine ⟨fm.source, ((h4 e).1 hel).1, ((h4 e).1 hel).2, ?_⟩
    rw [(groupOf_loaded (survivors_sub _ e ((h4 e).1 hel).1)).2, h1, hget]
    rfl
  · have hne : groupOf unm flows logs data src ≠ [] := by
      intro hn; rw [hn] at he; simp [survivors] at he
    obtain ⟨fm, hfm, hsrc⟩ := hmg.2.2 hu src hne
    obtain ⟨h1, h2⟩ := hst _ fm hfm
    obtain ⟨l, h3, h4⟩ := hfl fm.source
    refine (g3 e).2 ⟨fm.store, (hcs _).2 (List.mem_map.2 ⟨(src.name, fm), GMap.mem_of_get? hfm, rfl⟩), l, by rw [h2]; exact h3, ?_⟩
    rw [h4, hsrc]
    exact ⟨he, ht⟩

/-- An order `range` may go through a map in. -/
def AnyOrder (order : GMap String String → GMap String String) : Prop := ∀ m, (order m).Perm m

/-- C65 for uploads in which every counterflow of a loaded flow is itself loaded, with a non-negative number of flows that a slice can hold: neither the
handler nor any of the goroutines it starts panics.  Missing for C65: dangling counterflows (false, `C65_counterexample`), negative
numbers of flows (false, `C65_negative_flows`) and numbers too large for a slice (false, `C65_too_many_flows`). -/
theorem C65_replay_partial {J : Type} {unm : String → J → Option (Mem GoTime)} {flows logs : Bool} {data : List (PartialEntry J)}
    {cfg : GMap SourceRef (Cache (GoRec GoTime))} (h : serveFixture unm flows logs data = .ok cfg)
    (hu : NamesUnique unm flows logs data)
    (hclosed : ∀ id c, LiveFlow unm flows logs data id (some c) → ∃ x, LiveFlow unm flows logs data c x)
    {cs : List (Cache (GoRec GoTime))} (hcs : cs.Perm ((fixManagers cfg []).map fun p => p.2.store)) {order : GMap String String → GMap String String} (hord : AnyOrder order)
    (n : Int) (hn : 0 ≤ n) (hn' : n ≤ 2 ^ 45) (env : Nat → FakeEnv) :
    ∃ outs, serveFlows cs order (fixManagers cfg []) n env = .ok outs ∧ ∀ o ∈ outs, ∃ us, o = .ok us := by
  obtain ⟨es, ids, all, h1, h2, h3, h4⟩ := flows_of_stores h (cs := cs) fun c => hcs.mem_iff
  refine ⟨_, by rw [serveFlows, h1]; rfl, ?_⟩
  intro o ho
  obtain ⟨i, hi, rfl⟩ := List.mem_mapIdx.1 ho
  have hp := List.getElem_mem hi
  generalize (flowPairs es (order ids))[i] = pair at hp ⊢
  obtain ⟨sid, cid, hm, rfl⟩ := mem_flowPairs.1 hp
  obtain ⟨hcne, e, he, m, hem, hid, hcf⟩ := h2.ids_mem sid cid (GMap.get?_of_mem h2.ids_wf ((hord ids).mem_iff.1 hm))
  -- every id of a live flow is found
  have hfound : ∀ e ∈ all, ∀ m, IsFlow e m → ∃ x mx, es.get? (strField (m flowID)) = some x ∧ IsFlow x mx ∧
      ((fixManagers cfg []).get? x.md.source.name).isSome := by
    intro e he m hm
    obtain ⟨x, hx⟩ := Option.isSome_iff_exists.1 (h2.es_some e he m hm)
    obtain ⟨hxa, mx, hmx, _⟩ := h2.es_mem _ x hx
    obtain ⟨_, _, _, hs⟩ := h3 x hxa
    exact ⟨x, mx, hx, hmx, hs⟩
  obtain ⟨x, mx, hx, hmx, hsx⟩ := hfound e he m hem
  rw [hid] at hx
  obtain ⟨src, hsrc, htm, _⟩ := h3 e he
  have hlive : LiveFlow unm flows logs data sid (some cid) := by
    refine ⟨src, (mem_flowRefs (flows := flows) (logs := logs) (fun e he => (groupOf_loaded (survivors_sub _ e he)).1)).2
      ⟨e, hsrc, htm, m, hem, hid, by simp [hcf, hcne]⟩⟩
  obtain ⟨y, src', hy⟩ := hclosed sid cid hlive
  obtain ⟨e', he', htm', m', hm', hid', _⟩ :=
    (mem_flowRefs (flows := flows) (logs := logs) (fun e he => (groupOf_loaded (survivors_sub _ e he)).1)).1 hy
  obtain ⟨z, mz, hz, hmz, hsz⟩ := hfound e' (h4 hu src' e' he' htm') m' hm'
  rw [hid'] at hz
  simp only [hx, hz, Option.getD_some]
  have a1 : asFlow x.record = .ok mx := by rw [hmx]; simp [asFlow, flowRec]
  have a2 : asFlow z.record = .ok mz := by rw [hmz]; simp [asFlow, flowRec]
  simp only [fakeFlow, a1, a2, Res.bind_ok, hsx, hsz, if_neg (show ¬ (n < 0 ∨ maxPointers < n) by unfold maxPointers; omega), and_self, not_true_eq_false, and_false, if_false]
  exact ⟨_, rfl⟩

theorem asFlow_no_err (g : GoRec GoTime) (m : String) : asFlow g ≠ .err m := by
  unfold asFlow
  cases g <;> simp
  all_goals (split <;> simp)

/-- C65, the other side: with unique flow IDs, one dangling counterflow is enough to crash the server, whatever else was uploaded. -/
theorem C65_dangling_crashes {J : Type} {unm : String → J → Option (Mem GoTime)} {flows logs : Bool} {data : List (PartialEntry J)}
    {cfg : GMap SourceRef (Cache (GoRec GoTime))} (h : serveFixture unm flows logs data = .ok cfg)
    (hu : NamesUnique unm flows logs data)
    (hids : ∀ id c c', LiveFlow unm flows logs data id c → LiveFlow unm flows logs data id c' → c = c')
    {id c : String} (hl : LiveFlow unm flows logs data id (some c)) (hd : ∀ x, ¬ LiveFlow unm flows logs data c x)
    {cs : List (Cache (GoRec GoTime))} (hcs : cs.Perm ((fixManagers cfg []).map fun p => p.2.store)) {order : GMap String String → GMap String String} (hord : AnyOrder order)
    (n : Int) (env : Nat → FakeEnv) :
    ∃ outs, serveFlows cs order (fixManagers cfg []) n env = .ok outs ∧ ∃ o ∈ outs, ∃ msg, o = .panic msg := by
  obtain ⟨es, ids, all, h1, h2, h3, h4⟩ := flows_of_stores h (cs := cs) fun c => hcs.mem_iff
  have hrefs : ∀ src id c, (id, c) ∈ flowRefs (survivors (groupOf unm flows logs data src)) ↔ _ := fun src id c =>
    mem_flowRefs (flows := flows) (logs := logs) (id := id) (c := c) (es := survivors (groupOf unm flows logs data src))
      (fun e he => (groupOf_loaded (survivors_sub _ e he)).1)
  refine ⟨_, by rw [serveFlows, h1]; rfl, ?_⟩
  obtain ⟨src, hsrc⟩ := hl
  obtain ⟨e, he, htm, m, hem, hid, hcf⟩ := (hrefs src id (some c)).1 hsrc
  have hcf' : ptrStr (m flowCounterflow) = some c ∧ c ≠ "" := by
    cases hp : ptrStr (m flowCounterflow) with
    | none => simp [hp] at hcf
    | some x =>
      simp only [hp] at hcf
      split at hcf
      · cases hcf
      · rename_i hne
        cases hcf
        exact ⟨rfl, hne⟩
  have hall := h4 hu src e he htm
  obtain ⟨c', hc'⟩ := Option.isSome_iff_exists.1 (h2.ids_some e hall m hem c hcf'.1 hcf'.2)
  rw [hid] at hc'
  have hlive : ∀ x ∈ all, ∀ mx, IsFlow x mx → ∀ k, k = (match ptrStr (mx flowCounterflow) with
        | some x => if x = "" then none else some x
        | none => none) → LiveFlow unm flows logs data (strField (mx flowID)) k := by
    intro x hx mx hmx k hk
    obtain ⟨s, hs, ht, _⟩ := h3 x hx
    exact ⟨s, (hrefs s _ k).2 ⟨x, hs, ht, mx, hmx, rfl, hk⟩⟩
  have hcc : c' = c := by
    obtain ⟨hne, x, hx, mx, hmx, hidx, hcx⟩ := h2.ids_mem id c' hc'
    have l1 := hlive x hx mx hmx (some c') (by simp [hcx, hne])
    rw [hidx] at l1
    have := hids id _ _ l1 ⟨src, hsrc⟩
    exact Option.some.inj this
  subst hcc
  have hnone : es.get? c' = none := by
    cases hg : es.get? c' with
    | none => rfl
    | some x =>
      obtain ⟨hx, mx, hmx, hidx⟩ := h2.es_mem c' x hg
      have := hlive x hx mx hmx _ rfl
      rw [hidx] at this
      exact absurd this (hd _)
  have hp : (⟨(es.get? id).getD default, (es.get? c').getD default⟩ : FlowPair) ∈ flowPairs es (order ids) :=
    mem_flowPairs.2 ⟨id, c', (hord ids).mem_iff.2 (GMap.mem_of_get? hc'), rfl⟩
  obtain ⟨i, hi, hget⟩ := List.getElem_of_mem hp
  refine ⟨_, List.mem_mapIdx.2 ⟨i, hi, rfl⟩, ?_⟩
  rw [hget]
  simp only [hnone, Option.getD_none, fakeFlow]
  have hdef : asFlow (default : Entry (GoRec GoTime)).record = .panic "interface conversion" := rfl
  cases hax : asFlow ((es.get? id).getD default).record with
  | ok a => exact ⟨_, by simp only [Res.bind_ok, hdef]; rfl⟩
  | err a => exact absurd hax (asFlow_no_err _ a)
  | panic a => exact ⟨_, rfl⟩

/-- C65 is false: a flow whose counterflow was not uploaded crashes the server as soon as replay is requested. -/
theorem C65_counterexample :
    ∃ cfg, serveFixture exUnm true true [exFlowUp exR1 "f1" (some "f2")] = .ok cfg ∧
      ∀ env, ∃ outs, serveFlows ((fixManagers cfg []).map fun p => p.2.store) id (fixManagers cfg []) 1 env = .ok outs ∧ ∃ o ∈ outs, ∃ msg, o = .panic msg := by
  refine ⟨_, rfl, fun env => ⟨_, rfl, ?_⟩⟩
  exact ⟨_, List.mem_cons_self, _, rfl⟩

/-- C65 is also false for a negative number of flows, with complete pairs. -/
theorem C65_negative_flows :
    ∃ cfg, serveFixture exUnm true true exUpload = .ok cfg ∧
      ∀ env, ∃ outs, serveFlows ((fixManagers cfg []).map fun p => p.2.store) id (fixManagers cfg []) (-1) env = .ok outs ∧ ∃ o ∈ outs, ∃ msg, o = .panic msg := by
  refine ⟨_, rfl, fun env => ⟨_, rfl, ?_⟩⟩
  exact ⟨_, List.mem_cons_self, _, rfl⟩

/-- Whatever has been uploaded, a number of flows that a slice cannot hold makes every goroutine of the request panic. -/
theorem C65_makeslice (stores : List (Cache (GoRec GoTime))) (order : GMap String String → GMap String String) (managers : GMap String FixManager) {n : Int} (hn : n < 0 ∨ 2 ^ 45 < n) (env : Nat → FakeEnv) {outs : List (Res (List (Side × RecordUpdate)))}
    (h : serveFlows stores order managers n env = .ok outs) : ∀ o ∈ outs, ∃ msg, o = .panic msg := by
  have key : ∀ (e : FakeEnv) (og : FlowPair) (a b : Bool), ∃ msg, fakeFlow e og a b n 4 = .panic msg := by
    intro e og a b
    unfold fakeFlow
    cases hs : asFlow og.server.record with
    | err m => exact absurd hs (asFlow_no_err _ _)
    | panic m => exact ⟨m, rfl⟩
    | ok s =>
      cases hc : asFlow og.client.record with
      | err m => exact absurd hc (asFlow_no_err _ _)
      | panic m => exact ⟨m, rfl⟩
      | ok c => exact ⟨_, by simp only [Res.bind_ok]; exact if_pos hn⟩
  unfold serveFlows at h
  obtain ⟨st, _, h⟩ := Res.bind_eq_ok.1 h
  obtain rfl := Res.ok.inj h
  intro o ho
  obtain ⟨i, hi, rfl⟩ := List.mem_mapIdx.1 ho
  exact key ..

/-- C65 is false for every number of flows that a slice cannot hold, with complete pairs. -/
theorem C65_too_many_flows (n : Int) (hn : 2 ^ 45 < n) :
    ∃ cfg, serveFixture exUnm true true exUpload = .ok cfg ∧
      ∀ env, ∃ outs, serveFlows ((fixManagers cfg []).map fun p => p.2.store) id (fixManagers cfg []) n env = .ok outs ∧ ∃ o ∈ outs, ∃ msg, o = .panic msg := by
  have hc : ∃ cfg, serveFixture exUnm true true exUpload = .ok cfg ∧ ∀ env, ∃ o outs, serveFlows ((fixManagers cfg []).map fun p => p.2.store) id (fixManagers cfg []) n env = .ok (o :: outs) := ⟨_, rfl, fun env => ⟨_, _, rfl⟩⟩
  obtain ⟨cfg, h1, h2⟩ := hc
  refine ⟨cfg, h1, fun env => ?_⟩
  obtain ⟨o, outs, h3⟩ := h2 env
  exact ⟨_, h3, o, List.mem_cons_self, C65_makeslice _ _ _ (.inr hn) env h3 o List.mem_cons_self⟩

/-- The hypotheses of `C65_replay_partial` hold for an upload with a real pair of flows in two sources. -/
example : NamesUnique exUnm true true exUpload ∧ LiveFlow exUnm true true exUpload "f1" (some "f2") ∧
    (∀ id c, LiveFlow exUnm true true exUpload id (some c) → ∃ x, LiveFlow exUnm true true exUpload c x) := by
  have hg : ∀ src, groupOf exUnm true true exUpload src =
      ([⟨{ Metadata.zero with source := exR1 }, ⟨"flow/v1", "FlowRecord"⟩, flowRec (exFlowMem "f1" (some "f2"))⟩,
        ⟨{ Metadata.zero with source := exR2 }, ⟨"flow/v1", "FlowRecord"⟩, flowRec (exFlowMem "f2" none)⟩] : List (Entry (GoRec GoTime))).filter
          fun e => e.md.source = src := fun src => rfl
  have hlive : ∀ id c, LiveFlow exUnm true true exUpload id c → (id = "f1" ∧ c = some "f2") ∨ (id = "f2" ∧ c = none) := by
    rintro id c ⟨src, h⟩
    rw [hg] at h
    by_cases h1 : exR1 = src
    · subst h1
      have : (id, c) ∈ [("f1", some "f2")] := h
      simp only [List.mem_singleton, Prod.mk.injEq] at this
      exact .inl this
    · by_cases h2 : exR2 = src
      · subst h2
        have : (id, c) ∈ [("f2", none)] := h
        simp only [List.mem_singleton, Prod.mk.injEq] at this
        exact .inr this
      · simp [h1, h2, survivors, flowRefs] at h
  refine ⟨?_, ⟨exR1, ?_⟩, ?_⟩
  · intro s1 s2 h1 h2 hn
    have key : ∀ s, groupOf exUnm true true exUpload s ≠ [] → s = exR1 ∨ s = exR2 := by
      intro s h
      rw [hg] at h
      by_cases h1 : exR1 = s
      · exact .inl h1.symm
      · by_cases h2 : exR2 = s
        · exact .inr h2.symm
        · simp [h1, h2] at h
    rcases key s1 h1 with rfl | rfl <;> rcases key s2 h2 with rfl | rfl <;> first | rfl | exact absurd hn (by decide)
  · show _ ∈ [("f1", some "f2")]
    simp
  · intro id c h
    rcases hlive id _ h with ⟨_, h⟩ | ⟨_, h⟩
    · cases h
      exact ⟨none, exR2, show _ ∈ [("f2", none)] by simp⟩
    · cases h

/-! ## C73: the replayed flows -/

theorem filter_single {α : Type} (P : α → Bool) : ∀ (l : List α) (j : Nat) (hj : j < l.length),
    (∀ i (hi : i < l.length), P l[i] = decide (i = j)) → l.filter P = [l[j]]
  | [], j, hj, _ => by simp at hj
  | a :: l, 0, _, h => by
    have h0 := h 0 (by simp)
    simp only [List.getElem_cons_zero, decide_true] at h0
    rw [List.filter_cons, if_pos h0]
    congr 1
    rw [List.filter_eq_nil_iff]
    intro x hx
    obtain ⟨i, hi, rfl⟩ := List.getElem_of_mem hx
    have := h (i + 1) (by simpa using hi)
    simp only [List.getElem_cons_succ] at this
    rw [this]; simp
  | a :: l, j + 1, hj, h => by
    have h0 := h 0 (by simp)
    simp only [List.getElem_cons_zero] at h0
    rw [List.filter_cons, if_neg (by rw [h0]; simp)]
    rw [filter_single P l j (by simpa using hj) (fun i hi => by
      have := h (i + 1) (by simpa using hi)
      simpa using this)]
    simp

theorem fakeId_inj {b : String} {i j : Nat} (h : fakeId b i = fakeId b j) : i = j := by
  simp only [fakeId] at h
  have h' := congrArg String.toList h
  simp only [String.toList_append] at h'
  have := String.toList_inj.1 (List.append_cancel_left h')
  exact Nat.repr_injective this

/-- The i-th flow of the list has the i-th id. -/
def IdsOk (b : String) (fl : List (Mem GoTime)) : Prop := ∀ i (h : i < fl.length), fl[i] [0, 0] = .str (fakeId b i)

theorem fakeNext_other {et : Option GoTime} {i : Nat} {m : Mem GoTime} {p : Path} (h : p ≠ [5] ∧ p ≠ [6] ∧ p ≠ [0, 2]) :
    fakeNext et i m p = m p := by
  simp [fakeNext, Mem.set, flowEnd, flowLatency, flowOctets, h]

theorem fakeNext_end {et : Option GoTime} {i : Nat} {m : Mem GoTime} : fakeNext et i m [0, 2] = (match et with
    | some t => .ptr (.custom t)
    | none => .nilp) := by
  cases et <;> simp [fakeNext, Mem.set, flowEnd]

theorem idsOk_next {b : String} {fl : List (Mem GoTime)} (h : IdsOk b fl) (et : Option GoTime) : IdsOk b (fl.mapIdx (fakeNext et)) := by
  intro i hi
  simp only [List.getElem_mapIdx]
  rw [fakeNext_other ⟨by simp, by simp, by simp⟩]
  exact h i (by simpa using hi)

/-- The further updates of one flow. -/
def chainUps (endAt : GoTime) : Nat → Nat → Mem GoTime → List RecordUpdate
  | 0, _, _ => []
  | n + 1, i, m =>
    let m' := fakeNext (if n = 0 then some endAt else none) i m
    { prev := flowRec m, curr := flowRec m' } :: chainUps endAt n i m'

theorem updatesFor_append (a b : List (Side × RecordUpdate)) (s : Side) (id : String) :
    updatesFor (a ++ b) s id = updatesFor a s id ++ updatesFor b s id := by simp [updatesFor]

theorem updatesFor_same {us : List RecordUpdate} {s : Side} {id : String} :
    updatesFor (us.map fun u => (s, u)) s id = us.filter fun u => decide (pointerID u.curr = some id) := by
  simp only [updatesFor, List.filter_map, List.map_map]
  rw [show (Prod.snd ∘ fun u : RecordUpdate => (s, u)) = (_root_.id : RecordUpdate → RecordUpdate) from rfl, List.map_id]
  congr 1
  funext u
  simp

theorem updatesFor_other {us : List RecordUpdate} {s s' : Side} {id : String} (h : s ≠ s') :
    updatesFor (us.map fun u => (s, u)) s' id = [] := by
  simp only [updatesFor, List.filter_map, List.map_map]
  rw [List.filter_eq_nil_iff.2 (by intro u _; simp [h])]
  rfl

theorem round_single {b : String} {fl : List (Mem GoTime)} (h : IdsOk b fl) (et : Option GoTime) {j : Nat} (hj : j < fl.length) :
    ((fakeRound et fl).2.filter fun u => decide (pointerID u.curr = some (fakeId b j))) =
      [{ prev := flowRec fl[j], curr := flowRec (fakeNext et j fl[j]) }] := by
  have := filter_single (fun u : RecordUpdate => decide (pointerID u.curr = some (fakeId b j))) (fakeRound et fl).2 j (by simpa [fakeRound] using hj) (by
    intro i hi
    have hi' : i < fl.length := by simpa [fakeRound] using hi
    simp only [fakeRound, List.getElem_mapIdx, pointerID, flowRec]
    rw [fakeNext_other ⟨by simp, by simp, by simp⟩, h i hi']
    simp only [Option.some.injEq, decide_eq_decide]
    exact ⟨fakeId_inj, fun h => by rw [h]⟩)
  rw [this]
  simp [fakeRound]

theorem rounds_single (env : FakeEnv) : ∀ (n : Nat) (srv cli : List (Mem GoTime)), IdsOk env.srvID srv → IdsOk env.cliID cli →
    (∀ j (hj : j < srv.length), updatesFor (fakeRounds env n srv cli) .server (fakeId env.srvID j) = chainUps env.endAt n j srv[j]) ∧
    (∀ j (hj : j < cli.length), updatesFor (fakeRounds env n srv cli) .client (fakeId env.cliID j) = chainUps env.endAt n j cli[j])
  | 0, srv, cli, _, _ => by simp [fakeRounds, updatesFor, chainUps]
  | n + 1, srv, cli, h1, h2 => by
    obtain ⟨i1, i2⟩ := rounds_single env n (fakeRound (if n = 0 then some env.endAt else none) srv).1
      (fakeRound (if n = 0 then some env.endAt else none) cli).1 (idsOk_next h1 _) (idsOk_next h2 _)
    constructor
    · intro j hj
      simp only [fakeRounds, updatesFor_append, updatesFor_same, updatesFor_other (s := Side.client) (s' := Side.server) (by simp), round_single h1 _ hj]
      rw [i1 j (by simpa [fakeRound] using hj)]
      simp [fakeRound, chainUps]
    · intro j hj
      simp only [fakeRounds, updatesFor_append, updatesFor_same, updatesFor_other (s := Side.server) (s' := Side.client) (by simp), round_single h2 _ hj]
      rw [i2 j (by simpa [fakeRound] using hj)]
      simp [fakeRound, chainUps]

/-- What the updates of one flow look like. -/
theorem chainUps_spec (endAt : GoTime) (i : Nat) : ∀ (n : Nat) (m : Mem GoTime),
    (chainUps endAt n i m).length = n ∧ Continues (flowRec m) (chainUps endAt n i m) ∧
    (∀ u ∈ chainUps endAt n i m, ∀ p, p ≠ [5] → p ≠ [6] → p ≠ [0, 2] → fieldOf p u.curr = some (m p)) ∧
    (∀ u ∈ (chainUps endAt n i m).dropLast, fieldOf [0, 2] u.curr = some .nilp) ∧
    (0 < n → ∃ u, (chainUps endAt n i m).getLast? = some u ∧ fieldOf [0, 2] u.curr = some (.ptr (.custom endAt)))
  | 0, m => by simp [chainUps, Continues]
  | n + 1, m => by
    obtain ⟨c1, c2, c3, c4, c5⟩ := chainUps_spec endAt i n (fakeNext (if n = 0 then some endAt else none) i m)
    refine ⟨by simp [chainUps, c1], ⟨rfl, c2⟩, ?_, ?_, ?_⟩
    · intro u hu p h1 h2 h3
      simp only [chainUps, List.mem_cons] at hu
      rcases hu with rfl | hu
      · simp only [fieldOf, flowRec]
        rw [fakeNext_other ⟨h1, h2, h3⟩]
      · rw [c3 u hu p h1 h2 h3, fakeNext_other ⟨h1, h2, h3⟩]
    · intro u hu
      simp only [chainUps] at hu
      cases n with
      | zero => simp [chainUps] at hu
      | succ n =>
        rw [List.dropLast_cons_of_ne_nil (by intro h; rw [h] at c1; simp at c1)] at hu
        rcases List.mem_cons.1 hu with rfl | hu
        · simp [fieldOf, flowRec, fakeNext_end]
        · exact c4 u hu
    · intro _
      cases n with
      | zero => exact ⟨{ prev := flowRec m, curr := flowRec (fakeNext (some endAt) i m) }, rfl, by simp [fieldOf, flowRec, fakeNext_end]⟩
      | succ n =>
        obtain ⟨u, h1, h2⟩ := c5 (by omega)
        exact ⟨u, by simp only [chainUps, List.getLast?_cons] at h1 ⊢; simp_all, h2⟩

theorem initial_single {b : String} {fl : List (Mem GoTime)} (h : IdsOk b fl) {j : Nat} (hj : j < fl.length) :
    ((fl.map fun m => ({ curr := flowRec m } : RecordUpdate)).filter fun u => decide (pointerID u.curr = some (fakeId b j))) =
      [{ curr := flowRec fl[j] }] := by
  have := filter_single (fun u : RecordUpdate => decide (pointerID u.curr = some (fakeId b j)))
    (fl.map fun m => ({ curr := flowRec m } : RecordUpdate)) j (by simpa using hj) (by
    intro i hi
    have hi' : i < fl.length := by simpa using hi
    simp only [List.getElem_map, pointerID, flowRec]
    rw [h i hi']
    simp only [Option.some.injEq, decide_eq_decide]
    exact ⟨fakeId_inj, fun h => by rw [h]⟩)
  rw [this]
  simp

/-- The history of the replayed flow number `i` that starts as `m`. -/
structure ReplayedFlow (m : Mem GoTime) (increments i : Nat) (endAt : GoTime) (us : List RecordUpdate) : Prop where
  /-- one update to create it, then one per increment -/
  count : us.length = increments + 1
  /-- each update continues from the one before -/
  chained : Continues .nil us
  /-- all but octets, latency and end time stay as they are at the start -/
  steady : ∀ u ∈ us, ∀ p, p ≠ [5] → p ≠ [6] → p ≠ [0, 2] → fieldOf p u.curr = some (m p)
  /-- the flow is open until the last update -/
  opened : ∀ u ∈ us.dropLast, fieldOf [0, 2] u.curr = some .nilp
  /-- the last update ends it -/
  ended : ∃ u, us.getLast? = some u ∧ fieldOf [0, 2] u.curr = some (.ptr (.custom endAt))
  /-- octets and latency grow from update to update -/
  counts : ∀ j u, us[j]? = some u → fieldOf [5] u.curr = some (.ptr (.u64 (grown i (countOf (m [5])) j))) ∧
    fieldOf [6] u.curr = some (.ptr (.u64 (grown i (countOf (m [6])) j)))

theorem grown_succ (i : Nat) (x : UInt64) : ∀ j, grown i (x + x / UInt64.ofNat (i + 1)) j = grown i x (j + 1)
  | 0 => rfl
  | j + 1 => by simp only [grown, grown_succ i x j]

theorem ptrU64_countOf (v : FVal GoTime) : (ptrU64 v).getD 0 = countOf v := by
  unfold ptrU64 countOf
  split <;> simp_all

theorem share_countOf (v : FVal GoTime) (n : UInt64) : (match ptrU64 v with | some l => l / n | none => 0) = countOf v / n := by
  rw [← ptrU64_countOf]
  cases ptrU64 v <;> simp

theorem chainUps_counts (endAt : GoTime) (i : Nat) : ∀ (n : Nat) (m : Mem GoTime) (j : Nat) (u : RecordUpdate), (chainUps endAt n i m)[j]? = some u →
    fieldOf [5] u.curr = some (.ptr (.u64 (grown i (countOf (m [5])) (j + 1)))) ∧
    fieldOf [6] u.curr = some (.ptr (.u64 (grown i (countOf (m [6])) (j + 1))))
  | 0, m, j, u, h => by simp [chainUps] at h
  | n + 1, m, 0, u, h => by
    simp only [chainUps, List.getElem?_cons_zero, Option.some.injEq] at h
    subst h
    simp [fieldOf, flowRec, fakeNext, Mem.set, flowOctets, flowLatency, flowEnd, grown, ptrU64_countOf]
  | n + 1, m, j + 1, u, h => by
    simp only [chainUps, List.getElem?_cons_succ] at h
    obtain ⟨h1, h2⟩ := chainUps_counts endAt i n _ j u h
    rw [h1, h2]
    have e5 : fakeNext (if n = 0 then some endAt else none) i m [5] = .ptr (.u64 (countOf (m [5]) + countOf (m [5]) / UInt64.ofNat (i + 1))) := by
      simp [fakeNext, Mem.set, flowOctets, flowLatency, flowEnd, ptrU64_countOf]
    have e6 : fakeNext (if n = 0 then some endAt else none) i m [6] = .ptr (.u64 (countOf (m [6]) + countOf (m [6]) / UInt64.ofNat (i + 1))) := by
      simp [fakeNext, Mem.set, flowOctets, flowLatency, flowEnd, ptrU64_countOf]
    rw [e5, e6]
    exact ⟨by rw [← grown_succ i (countOf (m [5]))]; rfl, by rw [← grown_succ i (countOf (m [6]))]; rfl⟩

theorem replayed_of_chain {m : Mem GoTime} (hm : m [0, 2] = .nilp) (h5 : ∃ x, m [5] = .ptr (.u64 x)) (h6 : ∃ x, m [6] = .ptr (.u64 x)) {n : Nat} (hn : 0 < n)
    (endAt : GoTime) (i : Nat) : ReplayedFlow m n i endAt ({ curr := flowRec m } :: chainUps endAt n i m) := by
  obtain ⟨c1, c2, c3, c4, c5⟩ := chainUps_spec endAt i n m
  have hne : chainUps endAt n i m ≠ [] := by intro h; rw [h] at c1; simp at c1; omega
  refine ⟨by simp [c1], ⟨rfl, c2⟩, ?_, ?_, ?_, ?_⟩
  · intro u hu p h1 h2 h3
    rcases List.mem_cons.1 hu with rfl | hu
    · rfl
    · exact c3 u hu p h1 h2 h3
  · intro u hu
    rw [List.dropLast_cons_of_ne_nil hne] at hu
    rcases List.mem_cons.1 hu with rfl | hu
    · simp [fieldOf, flowRec, hm]
    · exact c4 u hu
  · obtain ⟨u, h1, h2⟩ := c5 hn
    exact ⟨u, by rw [List.getLast?_cons, h1]; rfl, h2⟩
  · intro j u hu
    cases j with
    | zero =>
      simp only [List.getElem?_cons_zero, Option.some.injEq] at hu
      subst hu
      obtain ⟨x, hx⟩ := h5
      obtain ⟨y, hy⟩ := h6
      simp [fieldOf, flowRec, hx, hy, grown, countOf]
    | succ j => exact chainUps_counts endAt i n m j u (by simpa using hu)

/-- C73: a replay request for `flows` flows creates, for each of them, a server flow and a client flow; each has a complete and chained
history that ends the flow in the last update; the server flow names the client flow as counterflow and keeps parent, source and
trace of the recorded flow, and the client flow keeps parent and source; octets start as recorded and the latency as a share of the recorded one, and
both grow in every increment. -/
theorem C73_replayed {env : FakeEnv} {og : FlowPair} {s c : Mem GoTime} (hs : og.server.record = flowRec s) (hc : og.client.record = flowRec c)
    {flows increments : Nat} (hf : flows ≤ 2 ^ 45) (hi : 0 < increments) :
    ∃ us, fakeFlow env og true true flows increments = .ok us ∧ ∀ i < flows,
      (∃ m, ReplayedFlow m increments i env.endAt (updatesFor us .server (fakeId env.srvID i)) ∧
        m [0, 0] = .str (fakeId env.srvID i) ∧ m [2] = .ptr (.str (fakeId env.cliID i)) ∧
        m [1] = s [1] ∧ m [3] = s [3] ∧ m [4] = s [4] ∧ m [8] = s [8] ∧
        m [5] = .ptr (.u64 (countOf (s [5]))) ∧ m [6] = .ptr (.u64 (countOf (s [6]) / UInt64.ofNat increments))) ∧
      (∃ m, ReplayedFlow m increments i env.endAt (updatesFor us .client (fakeId env.cliID i)) ∧
        m [0, 0] = .str (fakeId env.cliID i) ∧ m [1] = c [1] ∧ m [3] = c [3] ∧ m [4] = c [4] ∧
        m [5] = .ptr (.u64 (countOf (c [5]))) ∧ m [6] = .ptr (.u64 (countOf (c [6]) / UInt64.ofNat increments))) := by
  have a1 : asFlow og.server.record = .ok s := by rw [hs]; simp [asFlow, flowRec]
  have a2 : asFlow og.client.record = .ok c := by rw [hc]; simp [asFlow, flowRec]
  have hflow : ¬ ((flows : Int) < 0 ∨ maxPointers < (flows : Int)) := by unfold maxPointers; omega
  refine ⟨_, by simp only [fakeFlow, a1, a2, Res.bind_ok, hflow, if_false, and_self, not_true_eq_false, and_false]; rfl, ?_⟩
  intro i hlt
  have ids1 : IdsOk env.srvID ((List.range (flows : Int).toNat).map (fakeServer env s increments)) := by
    intro k hk
    simp [fakeServer, Mem.set, flowID, flowTrace, flowLatency, flowOctets, flowSourcePort, flowSourceHost, flowParent, flowCounterflow, flowStart]
  have ids2 : IdsOk env.cliID ((List.range (flows : Int).toNat).map (fakeClient env c increments)) := by
    intro k hk
    simp [fakeClient, Mem.set, flowID, flowLatency, flowOctets, flowSourcePort, flowSourceHost, flowParent, flowStart]
  obtain ⟨r1, r2⟩ := rounds_single env increments _ _ ids1 ids2
  have l1 : i < ((List.range (flows : Int).toNat).map (fakeServer env s increments)).length := by simpa using hlt
  have l2 : i < ((List.range (flows : Int).toNat).map (fakeClient env c increments)).length := by simpa using hlt
  constructor
  · refine ⟨fakeServer env s increments i, ?_, ?_⟩
    · have e0 : ((List.range (flows : Int).toNat).map (fakeServer env s increments))[i] = fakeServer env s increments i := by simp
      rw [updatesFor_append, updatesFor_append, r1 i l1, e0]
      have e1 := initial_single ids1 l1
      rw [e0] at e1
      have := updatesFor_same (us := ((List.range (flows : Int).toNat).map (fakeServer env s increments)).map fun m => ({ curr := flowRec m } : RecordUpdate))
        (s := .server) (id := fakeId env.srvID i)
      rw [List.map_map] at this
      rw [show ((List.range (flows : Int).toNat).map (fakeServer env s increments)).map (fun m => (Side.server, ({ curr := flowRec m } : RecordUpdate))) =
        ((List.range (flows : Int).toNat).map (fakeServer env s increments)).map ((fun u => (Side.server, u)) ∘ fun m => ({ curr := flowRec m } : RecordUpdate)) from rfl,
        this, e1]
      have := updatesFor_other (us := ((List.range (flows : Int).toNat).map (fakeClient env c increments)).map fun m => ({ curr := flowRec m } : RecordUpdate))
        (s := .client) (s' := .server) (id := fakeId env.srvID i) (by simp)
      rw [List.map_map] at this
      rw [show ((List.range (flows : Int).toNat).map (fakeClient env c increments)).map (fun m => (Side.client, ({ curr := flowRec m } : RecordUpdate))) =
        ((List.range (flows : Int).toNat).map (fakeClient env c increments)).map ((fun u => (Side.client, u)) ∘ fun m => ({ curr := flowRec m } : RecordUpdate)) from rfl,
        this]
      exact replayed_of_chain (by
        simp [fakeServer, Mem.set, flowID, flowTrace, flowLatency, flowOctets, flowSourcePort, flowSourceHost, flowParent, flowCounterflow, flowStart]
        rfl) ⟨_, by simp [fakeServer, Mem.set, flowID, flowTrace, flowLatency, flowOctets, flowSourcePort, flowSourceHost, flowParent, flowCounterflow, flowStart]; rfl⟩
        ⟨_, by simp [fakeServer, Mem.set, flowID, flowTrace, flowLatency, flowOctets, flowSourcePort, flowSourceHost, flowParent, flowCounterflow, flowStart]; rfl⟩ hi env.endAt i
    · simp [fakeServer, Mem.set, flowID, flowTrace, flowLatency, flowOctets, flowSourcePort, flowSourceHost, flowParent, flowCounterflow, flowStart]
      exact ⟨ptrU64_countOf _, share_countOf _ _⟩
  · refine ⟨fakeClient env c increments i, ?_, ?_⟩
    · have e0 : ((List.range (flows : Int).toNat).map (fakeClient env c increments))[i] = fakeClient env c increments i := by simp
      rw [updatesFor_append, updatesFor_append, r2 i l2, e0]
      have e1 := initial_single ids2 l2
      rw [e0] at e1
      have := updatesFor_same (us := ((List.range (flows : Int).toNat).map (fakeClient env c increments)).map fun m => ({ curr := flowRec m } : RecordUpdate))
        (s := .client) (id := fakeId env.cliID i)
      rw [List.map_map] at this
      rw [show ((List.range (flows : Int).toNat).map (fakeClient env c increments)).map (fun m => (Side.client, ({ curr := flowRec m } : RecordUpdate))) =
        ((List.range (flows : Int).toNat).map (fakeClient env c increments)).map ((fun u => (Side.client, u)) ∘ fun m => ({ curr := flowRec m } : RecordUpdate)) from rfl,
        this, e1]
      have := updatesFor_other (us := ((List.range (flows : Int).toNat).map (fakeServer env s increments)).map fun m => ({ curr := flowRec m } : RecordUpdate))
        (s := .server) (s' := .client) (id := fakeId env.cliID i) (by simp)
      rw [List.map_map] at this
      rw [show ((List.range (flows : Int).toNat).map (fakeServer env s increments)).map (fun m => (Side.server, ({ curr := flowRec m } : RecordUpdate))) =
        ((List.range (flows : Int).toNat).map (fakeServer env s increments)).map ((fun u => (Side.server, u)) ∘ fun m => ({ curr := flowRec m } : RecordUpdate)) from rfl,
        this]
      exact replayed_of_chain (by
        simp [fakeClient, Mem.set, flowID, flowLatency, flowOctets, flowSourcePort, flowSourceHost, flowParent, flowStart]
        rfl) ⟨_, by simp [fakeClient, Mem.set, flowID, flowLatency, flowOctets, flowSourcePort, flowSourceHost, flowParent, flowStart]; rfl⟩
        ⟨_, by simp [fakeClient, Mem.set, flowID, flowLatency, flowOctets, flowSourcePort, flowSourceHost, flowParent, flowStart]; rfl⟩ hi env.endAt i
    · simp [fakeClient, Mem.set, flowID, flowLatency, flowOctets, flowSourcePort, flowSourceHost, flowParent, flowStart]
      exact ⟨ptrU64_countOf _, share_countOf _ _⟩

/-- Instance: two flows in four increments for a pair of recorded flows: 20 updates. -/
example : (fakeFlow ⟨"aa", "bb", ⟨1700000000, 0⟩, ⟨1700000003, 0⟩⟩
    ⟨⟨Metadata.zero, ⟨"flow/v1", "FlowRecord"⟩, flowRec (exFlowMem "f1" (some "f2"))⟩,
     ⟨Metadata.zero, ⟨"flow/v1", "FlowRecord"⟩, flowRec (exFlowMem "f2" none)⟩⟩ true true 2 4).map
      (fun us => (us.length, (updatesFor us .client "bb:1").length)) = .ok (20, 5) := by decide +kernel

end Verif.Props
