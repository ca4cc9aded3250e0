import Verif.Model.FixtureStore
import Verif.Spec.Dispatch
import Verif.Props.Accumulate

/-!
# Store properties C30 – C32: dispatch, source index, key coherence
-/
namespace Verif.Props
open Verif Verif.Model Verif.Spec Verif.Proofs

variable {R : Type} [Inhabited R]

/-! ## C30 -/

theorem split_last_sep {c : Char} {a b a' b' : List Char} (hb : c ∉ b) (hb' : c ∉ b') (h : a ++ c :: b = a' ++ c :: b') :
    a = a' ∧ b = b' := by
  induction a generalizing a' with
  | nil =>
    cases a' with
    | nil => simp at h; exact ⟨rfl, h⟩
    | cons x xs =>
      simp at h
      exact absurd (h.2 ▸ (by simp : c ∈ xs ++ c :: b')) hb
  | cons x xs ih =>
    cases a' with
    | nil =>
      simp at h
      exact absurd (h.2 ▸ (by simp : c ∈ xs ++ c :: b)) hb'
    | cons y ys =>
      simp only [List.cons_append, List.cons.injEq] at h
      obtain ⟨h1, h2⟩ := ih h.2
      exact ⟨by rw [h.1, h1], h2⟩

theorem typeMeta_str_inj {a b : TypeMeta} (ha : PlainType a) (hb : PlainType b) (h : a.str = b.str) : a = b := by
  have := congrArg String.toList h
  simp only [TypeMeta.str, String.toList_append] at this
  rw [show "/".toList = ['/'] from rfl] at this
  simp only [List.append_assoc, List.singleton_append] at this
  obtain ⟨h1, h2⟩ := split_last_sep ha hb this
  have h1 := String.toList_inj.1 h1
  have h2 := String.toList_inj.1 h2
  cases a; cases b; simp_all

theorem copyReg_get : ∀ (m acc : GMap String Nat) (k : String), m.WF → (copyReg m acc).get? k = (m.get? k).or (acc.get? k) := by
  intro m
  induction m with
  | nil => intro acc k _; rfl
  | cons p m ih =>
    obtain ⟨k0, v⟩ := p
    intro acc k hw
    have hw' : GMap.WF m := (List.nodup_cons.1 hw).2
    have hn : k0 ∉ GMap.keys m := (List.nodup_cons.1 hw).1
    simp only [copyReg, ih _ _ hw', GMap.get?_cons, GMap.get?_set]
    by_cases hk : k0 = k
    · subst hk
      rw [GMap.get?_eq_none_iff.2 hn]
      simp
    · simp [hk]

/-- The registry invariant: the registry's map exists or is nil, and looks up the last registration. -/
def RegInv (cs : List RegCmd) (w : RegWorld) : Prop :=
  (∀ i, w.reg = some i → i < w.heap.length) ∧ (w.read w.reg).WF ∧
  ((∀ tm' i, RegCmd.register tm' i ∈ cs → PlainType tm') →
    ∀ tm, PlainType tm → (w.read w.reg).get? tm.str = lastRegistered cs tm)

theorem regInv_register {cs : List RegCmd} {w : RegWorld} (h : RegInv cs w) (tm : TypeMeta) (i : Nat) :
    RegInv (cs ++ [.register tm i]) (w.registerStore tm i) := by
  have hread : (w.registerStore tm i).read (w.registerStore tm i).reg = (w.read w.reg).set tm.str i := by
    unfold RegWorld.registerStore
    cases hr : w.reg with
    | none => simp [RegWorld.read]
    | some j =>
      simp only [RegWorld.read]
      rw [List.getElem?_set_self (h.1 j hr)]
      rfl
  refine ⟨?_, ?_, ?_⟩
  · intro j hj
    unfold RegWorld.registerStore at hj ⊢
    cases hr : w.reg with
    | none => simp only [hr] at hj ⊢; simp at hj ⊢; omega
    | some j' =>
      simp only [hr] at hj ⊢
      simp only [List.length_set]
      exact h.1 j (by rw [hr]; exact hj)
  · rw [hread]; exact h.2.1.set _ _
  · intro hp tm' htm'
    rw [hread, GMap.get?_set]
    have ih := h.2.2 (fun a b hab => hp a b (List.mem_append_left _ hab)) tm' htm'
    have hpt : PlainType tm := hp tm i (by simp)
    unfold lastRegistered at ih ⊢
    rw [List.filterMap_append]
    by_cases he : tm = tm'
    · subst he
      simp
    · have : tm.str ≠ tm'.str := fun hs => he (typeMeta_str_inj hpt htm' hs)
      simp [this, he, ih]

theorem regInv_new {cs : List RegCmd} {w : RegWorld} (h : RegInv cs w) (src : SourceRef) :
    RegInv (cs ++ [.newDispatcher src]) (w.newDispatcher src).1 := by
  have hread : (w.newDispatcher src).1.read (w.newDispatcher src).1.reg = w.read w.reg := by
    simp only [RegWorld.newDispatcher, RegWorld.read]
    cases hr : w.reg with
    | none => rfl
    | some j =>
      simp only
      rw [List.getElem?_append_left (h.1 j hr)]
  refine ⟨?_, ?_, ?_⟩
  · intro j hj
    have := h.1 j hj
    simp only [RegWorld.newDispatcher, List.length_append, List.length_singleton]
    omega
  · rw [hread]; exact h.2.1
  · intro hp tm' htm'
    rw [hread]
    have ih := h.2.2 (fun a b hab => hp a b (List.mem_append_left _ hab)) tm' htm'
    unfold lastRegistered at ih ⊢
    rw [List.filterMap_append]
    simp [ih]

theorem runReg_inv : ∀ (cs cs0 : List RegCmd) (w : RegWorld), RegInv cs0 w → RegInv (cs0 ++ cs) (runReg cs w).1 := by
  intro cs
  induction cs with
  | nil => intro cs0 w h; simpa [runReg] using h
  | cons c cs ih =>
    intro cs0 w h
    cases c with
    | register tm i => simpa [runReg, List.append_assoc] using ih _ _ (regInv_register h tm i)
    | newDispatcher src => simpa [runReg, List.append_assoc] using ih _ _ (regInv_new h src)

/-- A map that is not the registry's own is never written. -/
theorem runReg_frozen : ∀ (cs : List RegCmd) (w : RegWorld) (j : Nat), (∀ i, w.reg = some i → i < w.heap.length) → j < w.heap.length →
    w.reg ≠ some j → (runReg cs w).1.heap[j]? = w.heap[j]? := by
  intro cs
  induction cs with
  | nil => intros; rfl
  | cons c cs ih =>
    intro w j hreg hj hne
    cases c with
    | register tm i =>
      have step : (w.registerStore tm i).heap[j]? = w.heap[j]? ∧ j < (w.registerStore tm i).heap.length ∧
          (w.registerStore tm i).reg ≠ some j ∧ ∀ k, (w.registerStore tm i).reg = some k → k < (w.registerStore tm i).heap.length := by
        unfold RegWorld.registerStore
        cases hr : w.reg with
        | none =>
          simp only
          refine ⟨List.getElem?_append_left hj, by simp; omega, by simp; omega, ?_⟩
          intro k hk; simp at hk ⊢; omega
        | some j' =>
          simp only [List.length_set]
          refine ⟨List.getElem?_set_ne ?_, hj, by rw [hr] at hne; exact hne, by rw [hr] at hreg; exact hreg⟩
          intro he; subst he; exact hne hr
      simp only [runReg]
      rw [ih _ _ step.2.2.2 step.2.1 step.2.2.1]
      exact step.1
    | newDispatcher src =>
      simp only [runReg]
      rw [ih]
      · simp only [RegWorld.newDispatcher]; exact List.getElem?_append_left hj
      · intro k hk
        have := hreg k hk
        simp only [RegWorld.newDispatcher, List.length_append, List.length_singleton]; omega
      · simp only [RegWorld.newDispatcher, List.length_append, List.length_singleton]; omega
      · exact hne

theorem runReg_append : ∀ (cs cs' : List RegCmd) (w : RegWorld),
    runReg (cs ++ cs') w = ((runReg cs' (runReg cs w).1).1, (runReg cs w).2 ++ (runReg cs' (runReg cs w).1).2) := by
  intro cs
  induction cs with
  | nil => intro cs' w; rfl
  | cons c cs ih =>
    intro cs' w
    cases c with
    | register tm i => simp only [List.cons_append, runReg]; rw [ih]
    | newDispatcher src => simp only [List.cons_append, runReg]; rw [ih]

/-- The dispatcher made by the call after `cs1`, and what its map looks up, whatever is registered later. -/
theorem dispatcher_map (cs1 cs2 : List RegCmd) (src : SourceRef) (hreg : ∀ tm i, RegCmd.register tm i ∈ cs1 → PlainType tm) :
    ∃ d, (runReg (cs1 ++ .newDispatcher src :: cs2) {}).2[(runReg cs1 {}).2.length]? = some d ∧ d.source = src ∧
      ∀ tm, PlainType tm →
        ((runReg (cs1 ++ .newDispatcher src :: cs2) {}).1.read (some d.accumulators)).get? tm.str = lastRegistered cs1 tm := by
  have h0 : RegInv [] {} := ⟨by simp, GMap.WF_nil, fun _ _ _ => rfl⟩
  have h1 := runReg_inv cs1 [] {} h0
  simp only [List.nil_append] at h1
  rw [runReg_append]
  simp only [runReg]
  refine ⟨_, by rw [List.getElem?_append_right (Nat.le_refl _)]; simp; rfl, rfl, ?_⟩
  intro tm htm
  have h2 := regInv_new h1 src
  simp only [RegWorld.read]
  rw [runReg_frozen cs2 _ _ h2.1 (by simp [RegWorld.newDispatcher])]
  · simp only [RegWorld.newDispatcher, List.getElem?_concat_length, Option.getD_some]
    rw [copyReg_get _ _ _ h1.2.1, h1.2.2 hreg tm htm]
    simp
  · intro he
    exact absurd (h1.1 _ he) (Nat.lt_irrefl _)

omit [Inhabited R] in
theorem good_plain {g : GoRec GoTime} (h : GoodRecord vanRegistry g) {tm : TypeMeta} (ht : vanOps.typeMeta g = .ok tm) : PlainType tm := by
  obtain ⟨r, e, hr, hk, _⟩ := GoodRecord.val h
  have : tm = ⟨"flow/v1", r.tname⟩ := by
    cases g <;> simp [recVal] at hr <;> subst hr <;> exact (Res.ok.inj ht).symm
  subst this
  exact (show ∀ n ∈ recordKinds, '/' ∉ n.toList by decide) _ hk

theorem dispatch_routes (ops : RecOps R) (acc : GMap String Nat) (src : SourceRef) (cs : List RegCmd)
    (hacc : ∀ tm, PlainType tm → acc.get? tm.str = lastRegistered cs tm) : ∀ (msg : List (R × GoTime)) (s : Stores R),
    (∀ p ∈ msg, ∀ tm, ops.typeMeta p.1 = .ok tm → PlainType tm) → (dispatch ops acc src msg s).2 = none →
    ∀ i, (dispatch ops acc src msg s).1 i = ((s i).run ops (routed ops cs src msg i)).1 := by
  intro msg
  induction msg with
  | nil => intro s _ _ i; rfl
  | cons p msg ih =>
    obtain ⟨r, now⟩ := p
    intro s hm hn i
    have hm' : ∀ p ∈ msg, ∀ tm, ops.typeMeta p.1 = .ok tm → PlainType tm := fun p hp => hm p (List.mem_cons_of_mem _ hp)
    unfold dispatch at hn ⊢
    cases htm : ops.typeMeta r with
    | err m => simp only [htm] at hn; exact absurd hn (by simp)
    | panic m => simp only [htm] at hn; exact absurd hn (by simp)
    | ok tm =>
      simp only [htm] at hn ⊢
      have hl := hacc tm (hm _ List.mem_cons_self tm htm)
      cases hg : acc.get? tm.str with
      | none =>
        simp only [hg] at hn ⊢
        rw [ih s hm' hn i]
        have : routed ops cs src ((r, now) :: msg) i = routed ops cs src msg i := by
          simp [routed, htm, ← hl, hg]
        rw [this]
      | some j =>
        simp only [hg] at hn ⊢
        have hcont : ∀ hres : ((s j).accumulate ops src r now).2.res.isPanic = false,
            (dispatch ops acc src msg fun k => if k = j then ((s j).accumulate ops src r now).1 else s k).2 = none := by
          intro hres
          cases hr : ((s j).accumulate ops src r now).2.res with
          | ok u => simp only [hr] at hn; exact hn
          | err e => simp only [hr] at hn; exact hn
          | panic m => rw [hr] at hres; exact absurd hres (by simp)
        have main : ((s j).accumulate ops src r now).2.res.isPanic = false →
            (dispatch ops acc src msg fun k => if k = j then ((s j).accumulate ops src r now).1 else s k).1 i =
            ((s i).run ops (routed ops cs src ((r, now) :: msg) i)).1 := by
          intro hres
          rw [ih _ hm' (hcont hres) i]
          by_cases hij : i = j
          · subst hij
            have : routed ops cs src ((r, now) :: msg) i = .accumulate src r now :: routed ops cs src msg i := by
              simp [routed, htm, ← hl, hg]
            rw [this]
            simp only [if_true, Cache.run, Cache.step]
          · have : routed ops cs src ((r, now) :: msg) i = routed ops cs src msg i := by
              have : ¬ j = i := fun h => hij h.symm
              simp [routed, htm, ← hl, hg, this]
            rw [this]
            simp [hij]
        cases hr : ((s j).accumulate ops src r now).2.res with
        | ok u => exact main (by rw [hr]; rfl)
        | err e => exact main (by rw [hr]; rfl)
        | panic m => simp only [hr] at hn; exact absurd hn (by simp)

/-- C30: a dispatcher gives each store exactly the records whose type the store was most recently registered for when the dispatcher was
made, with the dispatcher's source, in message order — whatever the outcome of each — and nothing else, whatever is registered or
created later. -/
theorem C30_routing (cs1 cs2 : List RegCmd) (src : SourceRef) (hreg : ∀ tm i, RegCmd.register tm i ∈ cs1 → PlainType tm) :
    ∃ d, (runReg (cs1 ++ .newDispatcher src :: cs2) {}).2[(runReg cs1 {}).2.length]? = some d ∧
      ∀ (ops : RecOps R) (msg : List (R × GoTime)) (s : Stores R),
        (∀ p ∈ msg, ∀ tm, ops.typeMeta p.1 = .ok tm → PlainType tm) →
        let o := (runReg (cs1 ++ .newDispatcher src :: cs2) {}).1.dispatch ops d msg s
        o.2 = none → ∀ i, o.1 i = ((s i).run ops (routed ops cs1 src msg i)).1 := by
  obtain ⟨d, h1, h2, h3⟩ := dispatcher_map cs1 cs2 src hreg
  refine ⟨d, h1, ?_⟩
  intro ops msg s hm o ho i
  subst h2
  exact dispatch_routes ops _ d.source cs1 h3 msg s hm ho i

/-- C30: for the built-in record kinds and stores with the default key function dispatching never panics, so every store ends as after
its own calls followed by its part of the message. -/
theorem C30_routing_builtin (cs1 cs2 : List RegCmd) (src : SourceRef) (hreg : ∀ tm i, RegCmd.register tm i ∈ cs1 → PlainType tm)
    (cfg : Nat → CacheConfig (GoRec GoTime)) (hkey : ∀ i, (cfg i).key = none) (hc : ∀ i, GoodConfig (cfg i))
    (h : Nat → List (Op (GoRec GoTime))) (hh : ∀ i, ∀ op ∈ h i, Op.All (GoodRecord vanRegistry) op)
    (msg : List (GoRec GoTime × GoTime)) (hmsg : ∀ p ∈ msg, GoodRecord vanRegistry p.1) :
    ∃ d, (runReg (cs1 ++ .newDispatcher src :: cs2) {}).2[(runReg cs1 {}).2.length]? = some d ∧
      let o := (runReg (cs1 ++ .newDispatcher src :: cs2) {}).1.dispatch vanOps d msg (fun i => after vanOps (cfg i) (h i))
      o.2 = none ∧ ∀ i, o.1 i = after vanOps (cfg i) (h i ++ routed vanOps cs1 src msg i) := by
  obtain ⟨d, h1, h2⟩ := C30_routing (R := GoRec GoTime) cs1 cs2 src hreg
  refine ⟨d, h1, ?_⟩
  have nopanic : ∀ (acc : GMap String Nat) (src : SourceRef) (msg : List (GoRec GoTime × GoTime)) (h : Nat → List (Op (GoRec GoTime))),
      (∀ p ∈ msg, GoodRecord vanRegistry p.1) → (∀ i, ∀ op ∈ h i, Op.All (GoodRecord vanRegistry) op) →
      (dispatch vanOps acc src msg (fun i => after vanOps (cfg i) (h i))).2 = none := by
    intro acc src msg
    induction msg with
    | nil => intros; rfl
    | cons p msg ih =>
      obtain ⟨r, now⟩ := p
      intro h hm hh
      have hm' := fun p hp => hm p (List.mem_cons_of_mem _ hp)
      have hr := hm _ List.mem_cons_self
      unfold dispatch
      obtain ⟨tm, htm⟩ := GoodRecord.typeMeta hr
      have htm' : vanOps.typeMeta r = .ok tm := htm
      simp only [htm']
      cases hg : acc.get? tm.str with
      | none => exact ih h hm' hh
      | some j =>
        simp only
        have hnp := C25_accumulate_no_panic (hkey j) (hc j) (h j) (hh j) src r hr now
        have hs : (fun k => if k = j then ((after vanOps (cfg j) (h j)).accumulate vanOps src r now).1 else after vanOps (cfg k) (h k)) =
            fun k => after vanOps (cfg k) (if k = j then h j ++ [.accumulate src r now] else h k) := by
          funext k
          by_cases hk : k = j
          · subst hk
            simp only [if_true, after, (run_append vanOps (h k) [.accumulate src r now] _).1]
            rfl
          · simp [hk]
        have hrest : (dispatch vanOps acc src msg fun k =>
            if k = j then ((after vanOps (cfg j) (h j)).accumulate vanOps src r now).1 else after vanOps (cfg k) (h k)).2 = none := by
          rw [hs]
          refine ih _ hm' ?_
          intro k op hop
          by_cases hk : k = j
          · simp only [hk, if_true] at hop
            rcases List.mem_append.1 hop with hop | hop
            · exact hh j op hop
            · simp only [List.mem_singleton] at hop; subst hop; exact hr
          · simp only [hk, if_false] at hop; exact hh k op hop
        have hst : ((after vanOps (cfg j) (h j)).step vanOps (.accumulate src r now)).2 =
          ((after vanOps (cfg j) (h j)).accumulate vanOps src r now).2 := rfl
        rw [hst] at hnp
        cases hres : ((after vanOps (cfg j) (h j)).accumulate vanOps src r now).2.res with
        | ok u => exact hrest
        | err e => exact hrest
        | panic m => rw [hres] at hnp; exact absurd hnp (by simp)
  intro o
  have ho : o.2 = none := nopanic _ _ msg h hmsg hh
  refine ⟨ho, ?_⟩
  intro i
  rw [h2 vanOps msg _ ?_ ho i]
  · exact ((run_append vanOps (h i) _ _).1).symm
  · intro p hp tm htm
    exact good_plain (hmsg p hp) htm

/-- Instance: two types, one registered twice, a dispatcher made before a further registration; a message with three records. -/
def exRegs : List RegCmd := [.register ⟨"flow/v1", "HostRecord"⟩ 0, .register ⟨"flow/v1", "ProcessRecord"⟩ 0, .register ⟨"flow/v1", "HostRecord"⟩ 1]

example : (∀ tm i, RegCmd.register tm i ∈ exRegs → PlainType tm) ∧ GoodRecord vanRegistry (hostRec "h1" "x") ∧
    routed vanOps exRegs exSrc [(hostRec "h1" "x", t0), (procRec "p1" "img", t0), (hostRec "h2" "y", t1)] 1 =
      [.accumulate exSrc (hostRec "h1" "x") t0, .accumulate exSrc (hostRec "h2" "y") t1] ∧
    routed vanOps exRegs exSrc [(hostRec "h1" "x", t0), (procRec "p1" "img", t0), (hostRec "h2" "y", t1)] 0 =
      [.accumulate exSrc (procRec "p1" "img") t0] := by
  refine ⟨?_, hostRec_good _ _, rfl, rfl⟩
  intro tm i h
  simp only [exRegs, List.mem_cons, RegCmd.register.injEq, List.not_mem_nil, or_false] at h
  rcases h with ⟨rfl, _⟩ | ⟨rfl, _⟩ | ⟨rfl, _⟩ <;> (unfold PlainType; decide)

/-! ## C31 -/

/-- C31 is false: two sources with dots in their parts share a bucket, and Index returns both. -/
theorem C31_counterexample :
    ∃ e1 e2 : Entry (GoRec GoTime), e1.md.source ≠ e2.md.source ∧
      ∃ l, (after vanOps exCfg [.add e1 t0, .add e2 t0]).index "source" e1 none 0 = .ok { entries := l, cont := "" } ∧
        e2.stamp t0 ∈ l := by
  refine ⟨{ hostEntry "h1" "a" "" with md := { Metadata.zero with source := ⟨"a.b", "c", "d"⟩ } },
    { hostEntry "h2" "a" "" with md := { Metadata.zero with source := ⟨"a", "b.c", "d"⟩ } }, by decide, _, rfl, ?_⟩
  exact List.mem_cons_of_mem _ List.mem_cons_self

/-- API version and type of the source have no dot. -/
def DotFree (s : SourceRef) : Prop := '.' ∉ s.apiVersion.toList ∧ '.' ∉ s.type.toList

theorem split_first_sep {c : Char} : ∀ {a b a' b' : List Char}, c ∉ a → c ∉ a' → a ++ c :: b = a' ++ c :: b' → a = a' ∧ b = b' := by
  intro a
  induction a with
  | nil =>
    intro b a' b' _ ha' h
    cases a' with
    | nil => simp at h; exact ⟨rfl, h⟩
    | cons y ys => simp at h; exact absurd (by simp [h.1]) ha'
  | cons x xs ih =>
    intro b a' b' ha ha' h
    cases a' with
    | nil => simp at h; exact absurd (by simp [h.1]) ha
    | cons y ys =>
      simp only [List.cons_append, List.cons.injEq] at h
      obtain ⟨h1, h2⟩ := ih (fun hm => ha (List.mem_cons_of_mem _ hm)) (fun hm => ha' (List.mem_cons_of_mem _ hm)) h.2
      exact ⟨by rw [h.1, h1], h2⟩

theorem source_str_inj {a b : SourceRef} (ha : DotFree a) (hb : DotFree b) (h : a.str = b.str) : a = b := by
  have := congrArg String.toList h
  simp only [SourceRef.str, String.toList_append] at this
  rw [show ".".toList = ['.'] from rfl] at this
  simp only [List.append_assoc, List.singleton_append] at this
  obtain ⟨h1, h2⟩ := split_first_sep ha.1 hb.1 this
  obtain ⟨h2, h3⟩ := split_first_sep ha.2 hb.2 h2
  have h1 := String.toList_inj.1 h1
  have h2 := String.toList_inj.1 h2
  have h3 := String.toList_inj.1 h3
  cases a; cases b; simp_all

/-- C31 for sources whose API version and type have no dot: asking the default source index for an entry returns exactly the stored
entries of the same source.  Missing for C31: dots (false, `C31_counterexample`). -/
theorem C31_source_index_partial {ops : RecOps R} (hl : LawfulOps ops) {cfg : CacheConfig R} (hix : cfg.indexers = none)
    (h : List (Op R)) (e : Entry R) (he : DotFree e.md.source)
    (hdots : ∀ k x, content ops cfg h k = some x → DotFree x.md.source) :
    ∃ l, (after ops cfg h).index "source" e none 0 = .ok { entries := l, cont := "" } ∧
      ListsExactly (content ops cfg h) (fun x => x.md.source = e.md.source) l := by
  have hc : GoodConfig cfg := by intro ixr hi; rw [hix] at hi; exact absurd hi (by simp)
  obtain ⟨l, h1, h2⟩ := C17_index_exact hl hc h (name := "source") (f := fun e => [e.md.source.str]) (by simp [indexerOf, hix]) e 0
  refine ⟨l, h1, ?_⟩
  obtain ⟨ks, g1, g2, g3⟩ := h2
  refine ⟨ks, g1, ?_, g3⟩
  intro k
  rw [g2 k]
  constructor
  · rintro ⟨x, hx, v, hv1, hv2⟩
    refine ⟨x, hx, ?_⟩
    simp only [List.mem_singleton] at hv1 hv2
    exact source_str_inj (hdots k x hx) he (by rw [← hv2, hv1])
  · rintro ⟨x, hx, hs⟩
    exact ⟨x, hx, _, List.mem_singleton.2 rfl, by rw [hs]; exact List.mem_singleton.2 rfl⟩

/-- Instance: a vanflow source reference. -/
example : DotFree ⟨"1", "ROUTER", "r1.site"⟩ ∧ DotFree (hostEntry "h1" "a" "r1").md.source := by
  constructor <;> exact ⟨by decide, by decide⟩

/-! ## C32 -/

/-- C32 is false for the store of vanflow-tool: its key contains the type, but Accumulate computes the key of an entry without type.
Getting the entry just accumulated finds nothing, and a record of another kind with the same identity is merged into it. -/
theorem C32_counterexample :
    ∃ e, content vanOps (fixtureConfig vanOps) [.accumulate exSrc (hostRec "h1" "x") t0] "//h1" = some e ∧ e.record = hostRec "h1" "x" ∧
      ((after vanOps (fixtureConfig vanOps) [.accumulate exSrc (hostRec "h1" "x") t0]).get e).map Single.found = .ok false ∧
      (after vanOps (fixtureConfig vanOps) [.accumulate exSrc (hostRec "h1" "x") t0, .accumulate exSrc (procRec "h1" "y") t0]).storage.items.keys
        = ["//h1"] := by
  refine ⟨_, rfl, rfl, ?_, ?_⟩
  · decide +kernel
  · decide +kernel

/-- C32 for key functions that compute the same key from the accumulated record as from the stored entry (`CoherentKey`; the default
one is): after a history of calls, a successful Accumulate leaves an entry at the key of its record, and Get with this entry returns it.
Missing for C32: other key functions (false, `C32_counterexample`). -/
theorem C32_lookup_partial {ops : RecOps R} (hl : LawfulOps ops) {cfg : CacheConfig R} (hc : GoodConfig cfg) {Good : R → Prop}
    (hcoh : CoherentKey ops (keyOf ops cfg) Good) (h : List (Op R)) (hops : ∀ op ∈ h, Op.All Good op) (src : SourceRef) (r : R)
    (hr : Good r) (now : GoTime) (hok : ((after ops cfg h).step ops (.accumulate src r now)).2.res = .ok ()) :
    ∃ k e, keyOf ops cfg (Entry.ofRecord r) = .ok k ∧ content ops cfg (h ++ [.accumulate src r now]) k = some e ∧
      ∃ s, (after ops cfg (h ++ [.accumulate src r now])).get e = .ok s ∧ s.found = true ∧ s.entry = e := by
  have hall : ∀ op ∈ h ++ [.accumulate src r now], Op.All Good op := by
    intro op hop
    rcases List.mem_append.1 hop with hop | hop
    · exact hops op hop
    · simp only [List.mem_singleton] at hop; subst hop; exact hr
  have hinv := content_keyInv hl hcoh _ hall
  have hkf := after_keyFunc hl cfg hc h
  cases hk : keyOf ops cfg (Entry.ofRecord r) with
  | err m => simp only [Cache.step, Cache.accumulate, hkf, hk, Out.fail] at hok; exact absurd hok (by simp)
  | panic m => simp only [Cache.step, Cache.accumulate, hkf, hk, Out.fail] at hok; exact absurd hok (by simp)
  | ok k =>
    refine ⟨k, ?_⟩
    obtain ⟨e, he⟩ : ∃ e, content ops cfg (h ++ [.accumulate src r now]) k = some e := by
      rw [content_eq hl]
      have hrun : after ops cfg (h ++ [.accumulate src r now]) = ((after ops cfg h).step ops (.accumulate src r now)).1 := by
        unfold after
        rw [(run_append ops h [.accumulate src r now] _).1]; rfl
      rw [hrun]
      rw [accumulate_eq ops (after ops cfg h) src r now (k := k) (by rw [hkf]; exact hk)] at hok ⊢
      cases hp : recordPatch ops src r now (view (after ops cfg h) k) with
      | noChange =>
        cases hv : view (after ops cfg h) k with
        | some x => exact ⟨x, by simp⟩
        | none =>
          rw [hv] at hp
          simp only [recordPatch] at hp
          split at hp <;> exact absurd hp (by simp)
      | ok x =>
        refine ⟨x, ?_⟩
        simp [view, put_get]
      | err m => simp only [hp] at hok; exact absurd hok (by simp)
      | panic m => simp only [hp] at hok; exact absurd hok (by simp)
    refine ⟨e, rfl, he, ?_⟩
    obtain ⟨s, h1, h2⟩ := C13_get_latest_write hl hc (h ++ [.accumulate src r now]) e (hinv k e he).1
    rw [he] at h2
    exact ⟨s, h1, h2.1.2 (by simp), h2.2 e rfl⟩

/-- Instance: the default key function. -/
example : CoherentKey vanOps (keyOf vanOps exCfg) (GoodRecord vanRegistry) ∧
    ((after vanOps exCfg []).step vanOps (.accumulate exSrc (hostRec "h1" "x") t0)).2.res = .ok () := ⟨van_coherent, rfl⟩

end Verif.Props
