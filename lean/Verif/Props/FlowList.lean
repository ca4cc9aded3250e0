import Verif.Props.Fixture

/-!
# The pairs of flows that GET /flows lists (C127)

`ServeFlows` collects the flows of all sources in one map by ID, and the counterflows in another.
-/
namespace Verif.Props
open Verif Verif.Model Verif.Spec

/-- `e` is the last uploaded entry of a flow of some source; the flow has this ID and names this counterflow. -/
def UploadedFlow {J : Type} (unm : String → J → Option (Mem GoTime)) (flows logs : Bool) (data : List (PartialEntry J)) (e : Entry (GoRec GoTime)) (id : String)
    (counter : Option String) : Prop :=
  ∃ src, e ∈ survivors (groupOf unm flows logs data src) ∧ (id, counter) ∈ flowRefs [e]

/-- The pairs are exactly those of an uploaded flow and the uploaded flow it names, each once. -/
def PairsListed {J : Type} (unm : String → J → Option (Mem GoTime)) (flows logs : Bool) (data : List (PartialEntry J)) (ps : List FlowPair) : Prop :=
  (ps.map FlowPair.server).Nodup ∧ ∀ p, p ∈ ps ↔ ∃ id c c', UploadedFlow unm flows logs data p.server id (some c) ∧ UploadedFlow unm flows logs data p.client c c'

/-- No two uploaded flows have the same ID, in whatever sources. -/
def FlowIDsUnique {J : Type} (unm : String → J → Option (Mem GoTime)) (flows logs : Bool) (data : List (PartialEntry J)) : Prop :=
  ∀ e e' id c c', UploadedFlow unm flows logs data e id c → UploadedFlow unm flows logs data e' id c' → e = e'

theorem uploadedFlow_iff {J : Type} {unm : String → J → Option (Mem GoTime)} {flows logs : Bool} {data : List (PartialEntry J)} {e : Entry (GoRec GoTime)} {id : String} {c : Option String} :
    UploadedFlow unm flows logs data e id c ↔ ∃ src, e ∈ survivors (groupOf unm flows logs data src) ∧ e.typeMeta = ⟨"flow/v1", "FlowRecord"⟩ ∧ ∃ m, IsFlow e m ∧ strField (m flowID) = id ∧
      c = (match ptrStr (m flowCounterflow) with
        | some x => if x = "" then none else some x
        | none => none) := by
  unfold UploadedFlow
  constructor
  · rintro ⟨src, h, h'⟩
    refine ⟨src, h, ?_⟩
    obtain ⟨e', h1, h2⟩ := (mem_flowRefs (flows := flows) (logs := logs) (es := [e]) (fun x hx => by
      rw [List.mem_singleton] at hx; subst hx; exact (groupOf_loaded (survivors_sub _ _ h)).1)).1 h'
    rw [List.mem_singleton] at h1
    subst h1
    exact h2
  · rintro ⟨src, h, h'⟩
    refine ⟨src, h, ?_⟩
    exact (mem_flowRefs (flows := flows) (logs := logs) (es := [e]) (fun x hx => by
      rw [List.mem_singleton] at hx; subst hx; exact (groupOf_loaded (survivors_sub _ _ h)).1)).2 ⟨e, List.mem_singleton.2 rfl, h'⟩

theorem servers_nodup {es : GMap String (Entry (GoRec GoTime))} (hes : ∀ id x, es.get? id = some x → ∃ m, IsFlow x m ∧ strField (m flowID) = id) :
    ∀ {ids : GMap String String}, ids.WF → (∀ s c, (s, c) ∈ ids → ∃ x, es.get? s = some x) → ((flowPairs es ids).map FlowPair.server).Nodup
  | [], _, _ => List.nodup_nil
  | (s, c) :: ids, hw, hk => by
    have hw' : s ∉ GMap.keys ids ∧ GMap.WF ids := List.nodup_cons.1 hw
    simp only [flowPairs, List.map_cons, List.nodup_cons]
    refine ⟨?_, servers_nodup hes hw'.2 fun s' c' h => hk s' c' (List.mem_cons_of_mem _ h)⟩
    intro hm
    obtain ⟨p, hp, he⟩ := List.mem_map.1 hm
    obtain ⟨s', c', hin, rfl⟩ := mem_flowPairs.1 hp
    obtain ⟨x, hx⟩ := hk s c (List.mem_cons_self ..)
    obtain ⟨y, hy⟩ := hk s' c' (List.mem_cons_of_mem _ hin)
    simp only [hx, hy, Option.getD_some] at he
    subst he
    obtain ⟨m, h1, h2⟩ := hes s _ hx
    obtain ⟨m', h3, h4⟩ := hes s' _ hy
    rw [isFlow_inj h1 h3, h4] at h2
    subst h2
    exact hw'.1 (List.mem_map.2 ⟨(s', c'), hin, rfl⟩)

/-- With flow IDs that are unique over all sources, and sources with different names: every flow that names a counterflow is listed exactly once, with the flow it names or, if that was not uploaded, with
an empty entry.  This is so whatever order the maps are gone through.  Missing for C127: flow IDs used twice (false, `C127_same_id`, `C127_mixed`) and counterflows that were not uploaded (false,
`C127_half`). -/
theorem C127_listed_partial {J : Type} {unm : String → J → Option (Mem GoTime)} {flows logs : Bool} {data : List (PartialEntry J)} {cfg : GMap SourceRef (Cache (GoRec GoTime))}
    (h : serveFixture unm flows logs data = .ok cfg) (hu : NamesUnique unm flows logs data) (hid : FlowIDsUnique unm flows logs data)
    {cs : List (Cache (GoRec GoTime))} (hcs : cs.Perm ((fixManagers cfg []).map fun p => p.2.store)) {order : GMap String String → GMap String String} (ho : AnyOrder order) :
    ∃ ps, listFlows cs order = .ok ps ∧ (ps.map FlowPair.server).Nodup ∧
      ∀ p, p ∈ ps ↔ ∃ id c, UploadedFlow unm flows logs data p.server id (some c) ∧
        ((∃ c', UploadedFlow unm flows logs data p.client c c') ∨ (p.client = default ∧ ∀ e c', ¬ UploadedFlow unm flows logs data e c c')) := by
  obtain ⟨es, ids, all, h1, h2, h3, h4⟩ := flows_of_stores h (cs := cs) fun c => hcs.mem_iff
  have up : ∀ e, e ∈ all ↔ ∃ src, e ∈ survivors (groupOf unm flows logs data src) ∧ e.typeMeta = ⟨"flow/v1", "FlowRecord"⟩ := fun e =>
    ⟨fun he => let ⟨src, a, b, _⟩ := h3 e he; ⟨src, a, b⟩, fun ⟨src, a, b⟩ => h4 hu src e a b⟩
  -- an ID finds the flow uploaded with it
  have found : ∀ e id c, UploadedFlow unm flows logs data e id c → es.get? id = some e := by
    intro e id c he
    obtain ⟨src, a, b, m, hm, hi, hc⟩ := uploadedFlow_iff.1 he
    obtain ⟨x, hx⟩ := Option.isSome_iff_exists.1 (h2.es_some e ((up e).2 ⟨src, a, b⟩) m hm)
    rw [hi] at hx
    obtain ⟨hxa, mx, hmx, hix⟩ := h2.es_mem _ x hx
    obtain ⟨src', a', b'⟩ := (up x).1 hxa
    rw [hx, hid e x id c _ he (uploadedFlow_iff.2 ⟨src', a', b', mx, hmx, hix, rfl⟩)]
  have found' : ∀ e id, es.get? id = some e → ∃ c, UploadedFlow unm flows logs data e id c := by
    intro e id he
    obtain ⟨hxa, mx, hmx, hix⟩ := h2.es_mem _ e he
    obtain ⟨src', a', b'⟩ := (up e).1 hxa
    exact ⟨_, uploadedFlow_iff.2 ⟨src', a', b', mx, hmx, hix, rfl⟩⟩
  have named : ∀ id c, ids.get? id = some c ↔ ∃ e, UploadedFlow unm flows logs data e id (some c) := by
    have one : ∀ id c, ids.get? id = some c → ∃ e, UploadedFlow unm flows logs data e id (some c) := by
      intro id c hc
      obtain ⟨hne, x, hx, mx, hmx, hix, hcx⟩ := h2.ids_mem id c hc
      obtain ⟨src', a', b'⟩ := (up x).1 hx
      exact ⟨x, uploadedFlow_iff.2 ⟨src', a', b', mx, hmx, hix, by simp [hcx, hne]⟩⟩
    intro id c
    refine ⟨one id c, ?_⟩
    rintro ⟨e, he⟩
    obtain ⟨src, a, b, m, hm, hi, hc⟩ := uploadedFlow_iff.1 he
    have hcc : ∃ x, ptrStr (m flowCounterflow) = some x ∧ x ≠ "" := by
      cases hp : ptrStr (m flowCounterflow) with
      | none => simp [hp] at hc
      | some x =>
        refine ⟨x, rfl, ?_⟩
        rintro rfl
        simp [hp] at hc
    obtain ⟨x, hx, hne⟩ := hcc
    obtain ⟨c', hc'⟩ := Option.isSome_iff_exists.1 (h2.ids_some e ((up e).2 ⟨src, a, b⟩) m hm x hx hne)
    rw [hi] at hc'
    obtain ⟨e', he'⟩ := one id c' hc'
    have : e' = e := hid e' e id _ _ he' he
    subst this
    obtain ⟨src', a', b', m', hm', hi', hcm⟩ := uploadedFlow_iff.1 he'
    rw [isFlow_inj hm' hm, ← hc] at hcm
    rw [hc', hcm]
  have hw : (order ids).WF := (((ho ids).map Prod.fst).nodup_iff).2 h2.ids_wf
  have hmem : ∀ s c, (s, c) ∈ order ids ↔ ids.get? s = some c := fun s c => (ho ids).mem_iff.trans (GMap.mem_iff_get? h2.ids_wf)
  refine ⟨flowPairs es (order ids), by rw [listFlows, h1]; rfl, ?_, ?_⟩
  · refine servers_nodup (fun id x hx => ?_) hw fun s c hs => ?_
    · obtain ⟨_, m, h5, h6⟩ := h2.es_mem id x hx
      exact ⟨m, h5, h6⟩
    · obtain ⟨e, he⟩ := (named s c).1 ((hmem s c).1 hs)
      exact ⟨e, found e s _ he⟩
  · intro p
    rw [mem_flowPairs]
    constructor
    · rintro ⟨s, c, hsc, rfl⟩
      obtain ⟨e, he⟩ := (named s c).1 ((hmem s c).1 hsc)
      refine ⟨s, c, by simpa only [found e s _ he, Option.getD_some] using he, ?_⟩
      cases hc : es.get? c with
      | some x => exact .inl (found' x c hc)
      | none =>
        refine .inr ⟨rfl, fun e' c' he' => ?_⟩
        rw [found e' c c' he'] at hc
        cases hc
    · rintro ⟨id, c, he, hc⟩
      refine ⟨id, c, (hmem id c).2 ((named id c).2 ⟨_, he⟩), ?_⟩
      rw [found _ _ _ he]
      rcases hc with ⟨c', hc⟩ | ⟨hd, hc⟩
      · rw [found _ _ _ hc]
        rfl
      · have : es.get? c = none := by
          cases hg : es.get? c with
          | none => rfl
          | some x =>
            obtain ⟨c', hc'⟩ := found' x c hg
            exact absurd hc' (hc x c')
        rw [this, Option.getD_none, ← hd]
        rfl

/-- Where, besides, every counterflow named was uploaded, the list is that of the property. -/
theorem C127_complete_partial {J : Type} {unm : String → J → Option (Mem GoTime)} {flows logs : Bool} {data : List (PartialEntry J)} {cfg : GMap SourceRef (Cache (GoRec GoTime))}
    (h : serveFixture unm flows logs data = .ok cfg) (hu : NamesUnique unm flows logs data) (hid : FlowIDsUnique unm flows logs data)
    (hclosed : ∀ e id c, UploadedFlow unm flows logs data e id (some c) → ∃ e' c', UploadedFlow unm flows logs data e' c c')
    {cs : List (Cache (GoRec GoTime))} (hcs : cs.Perm ((fixManagers cfg []).map fun p => p.2.store)) {order : GMap String String → GMap String String} (ho : AnyOrder order) :
    ∃ ps, listFlows cs order = .ok ps ∧ PairsListed unm flows logs data ps := by
  obtain ⟨ps, h1, h2, h3⟩ := C127_listed_partial h hu hid hcs ho
  refine ⟨ps, h1, h2, fun p => (h3 p).trans ⟨?_, ?_⟩⟩
  · rintro ⟨id, c, he, ⟨c', hc⟩ | ⟨_, hc⟩⟩
    · exact ⟨id, c, c', he, hc⟩
    · obtain ⟨e', c', h4⟩ := hclosed _ _ _ he
      exact absurd h4 (hc e' c')
  · rintro ⟨id, c, c', he, hc⟩
    exact ⟨id, c, he, .inl ⟨c', hc⟩⟩

/-- The property: for every upload and every order. -/
def FlowsListed : Prop := ∀ (data : List (PartialEntry (Option (Mem GoTime)))) (cfg : GMap SourceRef (Cache (GoRec GoTime))), serveFixture exUnm true true data = .ok cfg → NamesUnique exUnm true true data →
  ∀ order, AnyOrder order → ∃ ps, listFlows ((fixManagers cfg []).map fun p => p.2.store) order = .ok ps ∧ PairsListed exUnm true true data ps

theorem namesUnique_of {J : Type} {unm : String → J → Option (Mem GoTime)} {flows logs : Bool} {data : List (PartialEntry J)}
    (h : ∀ p ∈ data, ∀ q ∈ data, p.md.source.name = q.md.source.name → p.md.source = q.md.source) : NamesUnique unm flows logs data := by
  have key : ∀ s, groupOf unm flows logs data s ≠ [] → ∃ p ∈ data, p.md.source = s := by
    intro s hs
    obtain ⟨e, he⟩ := List.exists_mem_of_ne_nil _ hs
    obtain ⟨h1, h2⟩ := List.mem_filter.1 he
    obtain ⟨p, hp, hl⟩ := List.mem_filterMap.1 h1
    refine ⟨p, hp, ?_⟩
    unfold loadedEntry at hl
    split at hl
    · obtain ⟨m, _, rfl⟩ := Option.map_eq_some_iff.1 hl
      exact of_decide_eq_true h2
    · cases hl
  intro s1 s2 h1 h2 hn
  obtain ⟨p, hp, rfl⟩ := key s1 h1
  obtain ⟨q, hq, rfl⟩ := key s2 h2
  exact h p hp q hq hn

/-- A flow whose counterflow was not uploaded is listed as a pair with an empty entry. -/
theorem C127_half : ¬ FlowsListed := by
  intro H
  obtain ⟨ps, h1, h2, h3⟩ := H [exFlowUp exR1 "f1" (some "f2")] _ rfl (namesUnique_of (by simp)) id fun m => List.Perm.refl _
  obtain rfl := Res.ok.inj h1
  obtain ⟨id, c, c', _, src, _, hc⟩ := (h3 _).1 (List.mem_cons_self ..)
  exact nomatch (show (c, c') ∈ [] from hc)

/-- Two sources with a flow of the same ID, and complete pairs: only one of the two is listed. -/
theorem C127_same_id : ¬ FlowsListed := by
  intro H
  obtain ⟨ps, h1, h2, h3⟩ := H [exFlowUp exR1 "f1" (some "f2"), exFlowUp exR2 "f1" (some "f2"), exFlowUp exR1 "f2" none] _ rfl (namesUnique_of (by simp [exFlowUp, exR1, exR2])) id fun m => List.Perm.refl _
  obtain rfl := Res.ok.inj h1
  have p1 := (h3 ⟨⟨{ Metadata.zero with source := exR1 }, ⟨"flow/v1", "FlowRecord"⟩, flowRec (exFlowMem "f1" (some "f2"))⟩,
    ⟨{ Metadata.zero with source := exR1 }, ⟨"flow/v1", "FlowRecord"⟩, flowRec (exFlowMem "f2" none)⟩⟩).2
      ⟨"f1", "f2", none, ⟨exR1, List.mem_cons_self .., List.mem_cons_self ..⟩, ⟨exR1, List.mem_cons_of_mem _ (List.mem_cons_self ..), List.mem_cons_self ..⟩⟩
  have p2 := (h3 ⟨⟨{ Metadata.zero with source := exR2 }, ⟨"flow/v1", "FlowRecord"⟩, flowRec (exFlowMem "f1" (some "f2"))⟩,
    ⟨{ Metadata.zero with source := exR1 }, ⟨"flow/v1", "FlowRecord"⟩, flowRec (exFlowMem "f2" none)⟩⟩).2
      ⟨"f1", "f2", none, ⟨exR2, List.mem_cons_self .., List.mem_cons_self ..⟩, ⟨exR1, List.mem_cons_of_mem _ (List.mem_cons_self ..), List.mem_cons_self ..⟩⟩
  have e : ∀ {p q : FlowPair} {l : List FlowPair}, l.length = 1 → p ∈ l → q ∈ l → p = q := by
    intro p q l hl hp hq
    obtain ⟨x, rfl⟩ := List.length_eq_one_iff.1 hl
    rw [List.mem_singleton.1 hp, List.mem_singleton.1 hq]
  have := congrArg (fun p => p.server.md.source.name) (e rfl p1 p2)
  exact absurd this (by decide)

/-- And what is listed may be no pair at all: the flow of one source with the counterflow that the flow of another source names. -/
theorem C127_mixed : ∃ (cfg : GMap SourceRef (Cache (GoRec GoTime))) (p : FlowPair), serveFixture exUnm true true [exFlowUp exR1 "f1" (some "f2"), exFlowUp exR2 "f1" none, exFlowUp exR1 "f2" none] = .ok cfg ∧
    listFlows ((fixManagers cfg []).map fun p => p.2.store) id = .ok [p] ∧ flowRefs [p.server] = [("f1", none)] ∧ flowRefs [p.client] = [("f2", none)] :=
  ⟨_, _, rfl, rfl, rfl, rfl⟩

/-- An upload for which `C127_complete_partial` applies has a pair to list. -/
example : NamesUnique exUnm true true exUpload ∧ ∃ cfg p, serveFixture exUnm true true exUpload = .ok cfg ∧ listFlows ((fixManagers cfg []).map fun p => p.2.store) id = .ok [p] ∧
    flowRefs [p.server] = [("f1", some "f2")] ∧ p.server.md.source = exR1 ∧ flowRefs [p.client] = [("f2", none)] ∧ p.client.md.source = exR2 :=
  ⟨namesUnique_of (by simp [exUpload, exFlowUp, exR1, exR2]), _, _, rfl, rfl, rfl, rfl, rfl, rfl⟩

/-- Its other hypotheses hold for it too. -/
example : FlowIDsUnique exUnm true true exUpload ∧ ∀ e id c, UploadedFlow exUnm true true exUpload e id (some c) → ∃ e' c', UploadedFlow exUnm true true exUpload e' c c' := by
  have hg : ∀ src, groupOf exUnm true true exUpload src =
      ([⟨{ Metadata.zero with source := exR1 }, ⟨"flow/v1", "FlowRecord"⟩, flowRec (exFlowMem "f1" (some "f2"))⟩,
        ⟨{ Metadata.zero with source := exR2 }, ⟨"flow/v1", "FlowRecord"⟩, flowRec (exFlowMem "f2" none)⟩] : List (Entry (GoRec GoTime))).filter
          fun e => e.md.source = src := fun src => rfl
  have key : ∀ e id c, UploadedFlow exUnm true true exUpload e id c →
      (e = ⟨{ Metadata.zero with source := exR1 }, ⟨"flow/v1", "FlowRecord"⟩, flowRec (exFlowMem "f1" (some "f2"))⟩ ∧ id = "f1" ∧ c = some "f2") ∨
      (e = ⟨{ Metadata.zero with source := exR2 }, ⟨"flow/v1", "FlowRecord"⟩, flowRec (exFlowMem "f2" none)⟩ ∧ id = "f2" ∧ c = none) := by
    rintro e id c ⟨src, h, hr⟩
    have hm := survivors_sub _ _ h
    rw [hg] at hm
    rcases List.mem_cons.1 (List.mem_filter.1 hm).1 with rfl | hm
    · have : (id, c) ∈ [("f1", some "f2")] := hr
      simp only [List.mem_singleton, Prod.mk.injEq] at this
      exact .inl ⟨rfl, this⟩
    · rw [List.mem_singleton] at hm
      subst hm
      have : (id, c) ∈ [("f2", none)] := hr
      simp only [List.mem_singleton, Prod.mk.injEq] at this
      exact .inr ⟨rfl, this⟩
  constructor
  · intro e e' id c c' h1 h2
    rcases key _ _ _ h1 with ⟨rfl, rfl, _⟩ | ⟨rfl, rfl, _⟩ <;> rcases key _ _ _ h2 with ⟨rfl, h, _⟩ | ⟨rfl, h, _⟩ <;> first | rfl | exact absurd h (by decide)
  · intro e id c h
    rcases key _ _ _ h with ⟨_, _, hc⟩ | ⟨_, _, hc⟩
    · cases hc
      exact ⟨⟨{ Metadata.zero with source := exR2 }, ⟨"flow/v1", "FlowRecord"⟩, flowRec (exFlowMem "f2" none)⟩, none, exR2, List.mem_cons_self .., List.mem_cons_self ..⟩
    · cases hc

end Verif.Props
