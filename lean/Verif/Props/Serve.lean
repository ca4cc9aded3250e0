import Verif.Spec.Serve
import Verif.Props.Dispatch
import Verif.Props.Fixture

/-!
# C78, C81: the record server
-/
namespace Verif.Props
open Verif Verif.Model Verif.Spec Verif.Proofs

theorem jsonFieldOk_iff (v : FVal GoTime) : jsonFieldOk v = true ↔ ∀ t, v = .ptr (.custom t) → Writable t := by
  unfold jsonFieldOk
  split
  · simp [jsonTimeOk, Writable]
  · rename_i h
    simp only [true_iff]
    exact fun t ht => (h t ht).elim

theorem jsonEntryOk_iff (e : Entry (GoRec GoTime)) : jsonEntryOk e = true ↔ ∀ t ∈ timesOf e, Writable t := by
  have hf : ∀ (v : FVal GoTime) t, timeIn v = some t ↔ v = .ptr (.custom t) := by
    intro v t
    unfold timeIn
    split
    · simp
    · rename_i h
      simp only [reduceCtorEq, false_iff]
      exact fun ht => h t ht
  have hr : ∀ r : RecVal GoTime, (jsonFieldOk (r.mem [0, 1]) && jsonFieldOk (r.mem [0, 2])) = true ↔
      ∀ t ∈ ([r.mem [0, 1], r.mem [0, 2]]).filterMap timeIn, Writable t := by
    intro r
    simp only [Bool.and_eq_true, jsonFieldOk_iff, List.mem_filterMap, hf]
    constructor
    · rintro ⟨h1, h2⟩ t ⟨v, hv, hvt⟩
      simp only [List.mem_cons, List.not_mem_nil, or_false] at hv
      rcases hv with rfl | rfl
      · exact h1 t hvt
      · exact h2 t hvt
    · intro h
      exact ⟨fun t ht => h t ⟨_, by simp, ht⟩, fun t ht => h t ⟨_, by simp, ht⟩⟩
  obtain ⟨md, tm, rec⟩ := e
  unfold jsonEntryOk timesOf
  rw [Bool.and_eq_true, List.forall_mem_cons]
  refine and_congr (by simp [jsonTimeOk, Writable]) ?_
  cases rec with
  | nil => simp [jsonRecordOk]
  | nilPointer => simp [jsonRecordOk]
  | value r => exact hr r
  | pointer r => exact hr r

theorem answer_body (st : Nat) (l : List (Entry (GoRec GoTime))) :
    (answer st l).body = some l ∧ (∀ e ∈ l, ∀ t ∈ timesOf e, Writable t) ∨ (answer st l).body = none ∧ ∃ e ∈ l, ∃ t ∈ timesOf e, ¬ Writable t := by
  unfold answer
  by_cases h : l.all jsonEntryOk = true
  · left
    simp only [h, if_true, true_and]
    intro e he
    exact (jsonEntryOk_iff e).1 (List.all_eq_true.1 h e he)
  · right
    refine ⟨by simp only [h, if_false, Bool.false_eq_true], ?_⟩
    simp only [List.all_eq_true, Classical.not_forall] at h
    obtain ⟨e, he, h⟩ := h
    rw [jsonEntryOk_iff] at h
    simp only [Classical.not_forall] at h
    obtain ⟨t, ht, h⟩ := h
    exact ⟨e, he, t, ht, h⟩

theorem lists_mem {R : Type} {m : AMap R} {P : Entry R → Prop} {l : List (Entry R)} (h : ListsExactly m P l) (e : Entry R) :
    e ∈ l ↔ ∃ k, m k = some e ∧ P e := by
  obtain ⟨ks, _, h2, h3⟩ := h
  constructor
  · intro he
    have : some e ∈ ks.map m := by rw [← h3]; exact List.mem_map_of_mem he
    obtain ⟨k, hk, hm⟩ := List.mem_map.1 this
    obtain ⟨e', h4, h5⟩ := (h2 k).1 hk
    rw [hm] at h4
    obtain rfl := Option.some.inj h4
    exact ⟨k, hm, h5⟩
  · rintro ⟨k, hk, hp⟩
    have hk' : k ∈ ks := (h2 k).2 ⟨e, hk, hp⟩
    have : some e ∈ l.map some := by rw [h3]; exact List.mem_map.2 ⟨k, hk', hk⟩
    simpa using this

/-- C78, the part that holds: after any history of the store, a request for "/" is answered with status 200; the body lists every stored entry exactly once
if all their times are in the years 0 to 9999, and is empty otherwise.  Missing: an answer in the latter case (false, `C78_counterexample`). -/
theorem C78_root_partial (h : List (Op (GoRec GoTime))) :
    ∃ a, serveRoot (after vanOps (fixtureConfig vanOps) h) "/" = .ok a ∧ a.status = 200 ∧
      ((∀ k e, content vanOps (fixtureConfig vanOps) h k = some e → ∀ t ∈ timesOf e, Writable t) →
        ∃ l, a.body = some l ∧ ListsExactly (content vanOps (fixtureConfig vanOps) h) (fun _ => True) l) ∧
      ((∃ k e, content vanOps (fixtureConfig vanOps) h k = some e ∧ ∃ t ∈ timesOf e, ¬ Writable t) → a.body = none) := by
  have hle : ListsExactly (content vanOps (fixtureConfig vanOps) h) (fun _ => True)
      ((after vanOps (fixtureConfig vanOps) h).storage.list.map VC.resource) := by
    rw [content_eq vanOps_lawful]
    exact list_exact (after_inv vanOps_lawful _ fixture_good h)
  refine ⟨_, by simp only [serveRoot, Cache.list]; rfl, rfl, ?_, ?_⟩
  · intro hw
    rcases answer_body 200 ((after vanOps (fixtureConfig vanOps) h).storage.list.map VC.resource) with ⟨h1, _⟩ | ⟨_, e, he, t, ht, hn⟩
    · exact ⟨_, h1, hle⟩
    · obtain ⟨k, hk, _⟩ := (lists_mem hle e).1 he
      exact absurd (hw k e hk t ht) hn
  · rintro ⟨k, e, hk, t, ht, hn⟩
    rcases answer_body 200 ((after vanOps (fixtureConfig vanOps) h).storage.list.map VC.resource) with ⟨_, h1⟩ | ⟨h1, _⟩
    · exact absurd (h1 e ((lists_mem hle e).2 ⟨k, hk, trivial⟩) t ht) hn
    · exact h1

/-- C78: the same for the path of a type and the entries with that type. -/
theorem C78_type_partial (h : List (Op (GoRec GoTime))) (tm : TypeMeta) :
    ∃ a, serveType (after vanOps (fixtureConfig vanOps) h) tm = .ok a ∧ a.status = 200 ∧
      ((∀ k e, content vanOps (fixtureConfig vanOps) h k = some e → e.typeMeta.str = tm.str → ∀ t ∈ timesOf e, Writable t) →
        ∃ l, a.body = some l ∧ ListsExactly (content vanOps (fixtureConfig vanOps) h) (fun e => e.typeMeta.str = tm.str) l) := by
  obtain ⟨l, h1, h2⟩ := C17_index_exact vanOps_lawful fixture_good h (name := "ByType") (f := fun e => [e.typeMeta.str]) (by rfl)
    { md := Metadata.zero, typeMeta := tm, record := .nil } 0
  have h2' : ListsExactly (content vanOps (fixtureConfig vanOps) h) (fun e => e.typeMeta.str = tm.str) l := by
    obtain ⟨ks, g1, g2, g3⟩ := h2
    refine ⟨ks, g1, fun k => ?_, g3⟩
    rw [g2]
    simp only [List.mem_singleton, exists_eq_left]
    constructor <;> rintro ⟨e, h3, h4⟩ <;> exact ⟨e, h3, h4.symm⟩
  refine ⟨_, by simp only [serveType, h1]; rfl, rfl, fun hw => ?_⟩
  rcases answer_body 200 l with ⟨h3, _⟩ | ⟨_, e, he, t, ht, hn⟩
  · exact ⟨_, h3, h2'⟩
  · obtain ⟨k, hk, hp⟩ := (lists_mem h2' e).1 he
    exact absurd (hw k e hk hp t ht) hn

/-- C78: every other path is answered with status 404 and no data. -/
theorem C78_not_found (c : Cache (GoRec GoTime)) {path : String} (h : path ≠ "/") : serveRoot c path = .ok { status := 404, body := some [] } := by
  simp [serveRoot, h, answer]

/-- Attributes of a site whose start time is in the year 10000. -/
def farAttrs : Attrs := [(.u32 0, .u32 0), (.u32 1, .str "site1"), (.u32 3, .u64 253402300800000000)]

/-- A record as decoded from a message. -/
def farRecord : GoRec GoTime :=
  match decode vanEnv vanRegistry (some farAttrs) with
  | .ok r => r
  | _ => .nil

/-- C78 is false: one record with a time after the year 9999, as a source can send it, empties the answer for all records. -/
theorem C78_counterexample :
    (decode vanEnv vanRegistry (some farAttrs)).isOk = true ∧
    ∃ a, serveRoot (after vanOps (fixtureConfig vanOps) [.accumulate exSrc (hostRec "h1" "x") t0, .accumulate exSrc farRecord t0]) "/" = .ok a ∧
      a.status = 200 ∧ a.body.isNone = true := by
  refine ⟨by decide +kernel, _, rfl, ?_, ?_⟩ <;> decide +kernel

/-! ## C81 -/

theorem serve_sources (types : List String) : ∀ (evs : List ServeEv) (s : Serve) (k : String → Option Info),
    s.sources.WF → (∀ id, s.sources.get? id = (k id).map refOf) →
    (evs.foldl (Serve.step types) s).sources.WF ∧
    ∀ id, (evs.foldl (Serve.step types) s).sources.get? id =
      (evs.foldl (fun k ev =>
        match ev with
        | .discovered i true => if i.id = id then some i else k
        | .forgotten i => if i.id = id then none else k
        | _ => k) (k id)).map refOf := by
  intro evs
  induction evs with
  | nil => intro s k hw h; exact ⟨hw, h⟩
  | cons ev evs ih =>
    intro s k hw h
    simp only [List.foldl_cons]
    refine ih (Serve.step types s ev) (fun id =>
      match ev with
      | .discovered i true => if i.id = id then some i else k id
      | .forgotten i => if i.id = id then none else k id
      | _ => k id) ?_ ?_
    · cases ev with
      | discovered i w =>
        cases w
        · exact hw
        · exact hw.set _ _
      | forgotten i => exact hw.del _
      | records src rs => exact hw
    · intro id
      cases ev with
      | discovered i w =>
        cases w
        · exact h id
        · simp only [Serve.step, if_true, GMap.get?_set]
          by_cases hi : i.id = id
          · simp [hi, sourceRefOf, refOf]
          · simp [hi, h id]
      | forgotten i =>
        simp only [Serve.step, GMap.get?_del]
        by_cases hi : i.id = id
        · simp [hi]
        · simp [hi, h id]
      | records src rs => exact h id

/-- C81: "/sources/" lists exactly the sources that were discovered, and watched, and not forgotten since, each once. -/
theorem C81_sources (types : List String) (evs : List ServeEv) :
    ∃ ids : List String, ids.Nodup ∧ (∀ id, id ∈ ids ↔ (knownSource id evs).isSome = true) ∧
      (Serve.run types evs).listSources.map some = ids.map fun id => (knownSource id evs).map refOf := by
  obtain ⟨hw, hg⟩ := serve_sources types evs { store := newCache vanOps (fixtureConfig vanOps) } (fun _ => none) GMap.WF_nil (fun _ => rfl)
  refine ⟨(Serve.run types evs).sources.keys, hw, fun id => ?_, ?_⟩
  · rw [GMap.mem_keys_iff]
    have := hg id
    simp only [knownSource, Serve.run]
    rw [this]
    cases List.foldl _ none evs <;> simp
  · simp only [Serve.listSources, GMap.vals, GMap.keys, List.map_map]
    refine List.map_congr_left fun p hp => ?_
    have := GMap.get?_of_mem hw (k := p.1) (v := p.2) hp
    rw [hg p.1] at this
    exact this.symm

theorem accumulate_sources (P : SourceRef → Prop) {c : Cache (GoRec GoTime)} (h : ∀ k e, view c k = some e → P e.md.source)
    {src : SourceRef} (hp : P src) (r : GoRec GoTime) (now : GoTime) {k : String} {e : Entry (GoRec GoTime)}
    (he : view (c.accumulate vanOps src r now).1 k = some e) : P e.md.source := by
  have hv := step_view vanOps_lawful c (.accumulate src r now)
  simp only [Cache.step] at hv
  rw [hv] at he
  generalize (c.accumulate vanOps src r now).2.res = res at he
  unfold effect at he
  cases res with
  | err m => exact h k e he
  | panic m => exact h k e he
  | ok u =>
    simp only at he
    split at he
    · rename_i k' hk'
      split at he
      · rename_i e' hacc
        simp only [Effect.apply] at he
        split at he
        · obtain rfl := Option.some.inj he
          unfold accumulated at hacc
          split at hacc
          · split at hacc
            · obtain rfl := Option.some.inj hacc
              exact hp
            · cases hacc
          · rename_i old hold
            split at hacc
            · split at hacc
              · cases hacc
              · split at hacc
                · obtain rfl := Option.some.inj hacc
                  exact h _ old hold
                · cases hacc
            · cases hacc
        · exact h k e he
      · exact h k e he
    · exact h k e he

theorem dispatch_sources (P : SourceRef → Prop) (acc : GMap String Nat) {src : SourceRef} (hp : P src) : ∀ (rs : List (GoRec GoTime × GoTime))
    (s : Stores (GoRec GoTime)), (∀ i, SIMInv (s i).storage ∧ ∀ k e, view (s i) k = some e → P e.md.source) →
    ∀ i, SIMInv ((dispatch vanOps acc src rs s).1 i).storage ∧ ∀ k e, view ((dispatch vanOps acc src rs s).1 i) k = some e → P e.md.source := by
  intro rs
  induction rs with
  | nil => intro s h; exact h
  | cons p rs ih =>
    obtain ⟨r, now⟩ := p
    intro s h
    unfold dispatch
    cases vanOps.typeMeta r with
    | err m => exact h
    | panic m => exact h
    | ok tm =>
      simp only
      cases acc.get? tm.str with
      | none => exact ih s h
      | some j =>
        simp only
        have hs : ∀ i, SIMInv (if i = j then ((s j).accumulate vanOps src r now).1 else s i).storage ∧
            ∀ k e, view (if i = j then ((s j).accumulate vanOps src r now).1 else s i) k = some e → P e.md.source := by
          intro i
          by_cases hij : i = j
          · simp only [hij, if_true]
            exact ⟨step_inv vanOps_lawful (h j).1 (.accumulate src r now), fun k e he => accumulate_sources P (h j).2 hp r now he⟩
          · simp only [hij, if_false]
            exact h i
        split
        · exact hs
        · exact ih _ hs

theorem serve_store_sources (types : List String) (P : SourceRef → Prop) : ∀ (evs : List ServeEv) (s : Serve),
    (∀ src rs, ServeEv.records src rs ∈ evs → P src) → (SIMInv s.store.storage ∧ ∀ k e, view s.store k = some e → P e.md.source) →
    SIMInv (evs.foldl (Serve.step types) s).store.storage ∧ ∀ k e, view (evs.foldl (Serve.step types) s).store k = some e → P e.md.source := by
  intro evs
  induction evs with
  | nil => intro s _ h; exact h
  | cons ev evs ih =>
    intro s hm h
    simp only [List.foldl_cons]
    refine ih _ (fun src rs hs => hm src rs (List.mem_cons_of_mem _ hs)) ?_
    cases ev with
    | discovered i w => cases w <;> exact h
    | forgotten i => exact h
    | records src rs => exact dispatch_sources P _ (hm src rs List.mem_cons_self) rs (fun _ => s.store) (fun _ => h) 0

/-- C81, the part that holds: every record in the answer to "/" carries the reference of a source that sent a message and was discovered before that.
Missing: that the source has not been forgotten since (false, `C81_counterexample`). -/
theorem C81_served_partial (types : List String) (evs : List ServeEv) (hf : FromClients evs) {a : HttpAnswer}
    (ha : serveRoot (Serve.run types evs).store "/" = .ok a) {l : List (Entry (GoRec GoTime))} (hl : a.body = some l) {e : Entry (GoRec GoTime)} (he : e ∈ l) :
    ∃ pre rs post i, evs = pre ++ .records e.md.source rs :: post ∧ refOf i = e.md.source ∧ ServeEv.discovered i true ∈ pre := by
  obtain ⟨hi, hv⟩ := serve_store_sources types (fun src => ∃ rs, ServeEv.records src rs ∈ evs) evs { store := newCache vanOps (fixtureConfig vanOps) }
    (fun src rs h => ⟨rs, h⟩) ⟨new_inv vanOps _ fixture_good, fun k e h => by
      have : view (newCache vanOps (fixtureConfig vanOps)) k = none := rfl
      rw [this] at h; cases h⟩
  have hle := list_exact hi
  have hbody : l = (Serve.run types evs).store.storage.list.map VC.resource := by
    simp only [serveRoot, ne_eq, not_true_eq_false, if_false, Cache.list, Res.ok.injEq] at ha
    subst ha
    simp only [answer] at hl
    split at hl
    · exact (Option.some.inj hl).symm
    · cases hl
  rw [hbody] at he
  obtain ⟨k, hk, _⟩ := (lists_mem hle e).1 he
  obtain ⟨rs, hrs⟩ := hv k e hk
  obtain ⟨pre, post, heq⟩ := List.append_of_mem hrs
  obtain ⟨i, h1, h2⟩ := hf pre _ rs post heq
  exact ⟨pre, rs, post, i, heq, h1, h2⟩

/-- A discovered router. -/
def exRouterInfo : Info := { id := "r1", version := 1, type := "ROUTER", address := "mc/sfe.r1", direct := "sfe.r1" }

/-- The router is discovered, sends a record, and is forgotten. -/
def exServeEvs : List ServeEv := [.discovered exRouterInfo true, .records (refOf exRouterInfo) [(hostRec "h1" "x", t0)], .forgotten exRouterInfo]

/-- C81 is false: after the source is forgotten it is not listed, but its record is still served. -/
theorem C81_counterexample : FromClients exServeEvs ∧ (Serve.run ["HostRecord"] exServeEvs).listSources = [] ∧
    ∃ a, serveRoot (Serve.run ["HostRecord"] exServeEvs).store "/" = .ok a ∧
      (a.body.map fun l => l.map fun e => e.md.source) = some [refOf exRouterInfo] := by
  refine ⟨?_, by decide +kernel, _, rfl, by decide +kernel⟩
  intro pre src rs post h
  match pre, h with
  | [], h => cases h
  | [_], h =>
    simp only [exServeEvs, List.cons_append, List.nil_append, List.cons.injEq] at h
    obtain ⟨rfl, h2, _⟩ := h
    cases h2
    exact ⟨exRouterInfo, rfl, List.mem_singleton.2 rfl⟩
  | [_, _], h => simp [exServeEvs] at h
  | [_, _, _], h => simp [exServeEvs] at h
  | _ :: _ :: _ :: _ :: _, h => simp [exServeEvs] at h

/-- Instance: before it is forgotten the router is listed. -/
example : (Serve.run ["HostRecord"] (exServeEvs.take 2)).listSources = [refOf exRouterInfo] := by decide +kernel

/-- Instance: and its record is served with status 200, under "/" and under its type. -/
example : ∃ a, serveRoot (Serve.run ["HostRecord"] (exServeEvs.take 2)).store "/" = .ok a ∧ a.status = 200 ∧ (a.body.map List.length) = some 1 :=
  ⟨_, rfl, by decide +kernel, by decide +kernel⟩
example : ∃ a, serveType (Serve.run ["HostRecord"] (exServeEvs.take 2)).store ⟨"flow/v1", "HostRecord"⟩ = .ok a ∧ a.status = 200 ∧ (a.body.map List.length) = some 1 :=
  ⟨_, rfl, by decide +kernel, by decide +kernel⟩

end Verif.Props
