import Verif.Spec.Told
import Verif.Props.CollectorsKept

/-! # C106: flushes that do not make a collector go back -/
namespace Verif.Props
open Verif Verif.Model Verif.Spec Verif.Proofs

theorem latest_known {A B : List (GoRec GoTime)} {x : Any} (h : ∀ r ∈ B, ∀ y, attrOf r x = some y → latest A x = some y) : latest (A ++ B) x = latest A x := by
  induction B using List.reverseRecOn with
  | nil => simp
  | append_singleton B r ih =>
    have ih := ih fun w hw => h w (List.mem_append_left _ hw)
    rw [← List.append_assoc, latest_snoc, ih]
    cases hr : attrOf r x with
    | none => simp
    | some y => rw [h r (by simp) y hr]; simp

theorem onlyTold_prefix {id : String} {tm : TypeMeta} {a b : List MgrEv} (h : OnlyTold id tm b) (hp : a <+: b) : OnlyTold id tm a := by
  obtain ⟨t, rfl⟩ := hp
  rintro pre msg post rfl
  exact h pre msg (post ++ t) (by simp)

theorem toldOf_append (id : String) (tm : TypeMeta) (a b : List MgrEv) : toldOf id tm (a ++ b) = toldOf id tm a ++ toldOf id tm b := by
  simp [toldOf, queued_append]

/-- The flushes leave no trace in what was told last. -/
theorem told_updates {id : String} {tm : TypeMeta} {evs : List MgrEv} (h : OnlyTold id tm evs) (x : Any) : latest (toldOf id tm evs) x = latest (ofMine id tm (updateMsgs evs).flatten) x := by
  induction evs using List.reverseRecOn with
  | nil => rfl
  | append_singleton evs ev ih =>
    have ih := ih (onlyTold_prefix h (List.prefix_append _ _))
    rw [toldOf_append]
    have hu : updateMsgs (evs ++ [ev]) = updateMsgs evs ++ updateMsgs [ev] := List.filterMap_append
    rw [hu, List.flatten_append, ofMine_append]
    cases ev with
    | queueFlush m =>
      rw [latest_known, ih]
      · simp [updateMsgs, ofMine]
      · intro r hr y hy
        simp only [toldOf, queued, List.filterMap_cons, List.filterMap_nil, List.flatten_cons, List.flatten_nil, List.append_nil, List.mem_filter, decide_eq_true_eq] at hr
        exact h evs m [] rfl r hr.1 hr.2 x y hy
    | queueUpdate m =>
      show latestFrom none _ x = latestFrom none _ x
      rw [latestFrom_append, latestFrom_append]
      rw [show latestFrom none (toldOf id tm evs) x = latestFrom none (ofMine id tm (updateMsgs evs).flatten) x from ih]
      rfl
    | _ => simpa [toldOf, queued, updateMsgs, ofMine] using ih

/-- The first messages, flushes among them, tell of the first versions. -/
theorem first_told {cfg : MgrConfig} {id : String} {tm : TypeMeta} {evs : List MgrEv} {s s' : Src} (h : Src.Start cfg id tm s) (hr : Src.Run cfg id tm s evs s') (n : Nat) :
    ∃ j m, m ≤ s'.versions.length ∧ queued (evs.take j) = (queued evs).take n ∧ ofMine id tm (updateMsgs (evs.take j)).flatten = diffsOf (chain (s'.versions.take m)) := by
  have hP := pub_run h hr
  obtain ⟨⟨held, h1, _⟩, _, _⟩ := C37_updates_in_order h.1 (Proofs.Src.Run.toMgr hr)
  obtain ⟨j, hj⟩ := filterMap_prefix _ (show (queued evs).take n <+: queued evs from List.take_prefix _ _)
  have hpre : ofMine id tm (updateMsgs (evs.take j)).flatten <+: ofMine id tm (diffsOf (published evs)) := by
    have : updateMsgs (evs.take j) ++ updateMsgs (evs.drop j) = updateMsgs evs := by
      have h2 : updateMsgs (evs.take j ++ evs.drop j) = updateMsgs (evs.take j) ++ updateMsgs (evs.drop j) := List.filterMap_append
      rw [← h2, List.take_append_drop]
    rw [h1, ← this, List.flatten_append, List.append_assoc, List.append_assoc, ofMine_append]
    exact List.prefix_append _ _
  rw [(diffsOf_mine hP.good).1, hP.told, chain_take] at hpre
  obtain ⟨m, hm⟩ := filterMap_prefix _ hpre
  rw [chain_take, List.take_take] at hm
  exact ⟨j, min m s'.pub, by have := hP.pub; omega, hj.symm, hm⟩

theorem calm_run {cfg : MgrConfig} {id : String} {tm : TypeMeta} {evs : List MgrEv} {s s' : Src} (h : Src.CalmRun cfg id tm s evs s') : Src.Run cfg id tm s evs s' := by
  induction h with
  | nil => exact .nil
  | snoc _ hs _ ih => exact ih.snoc hs

theorem onlyTold_snoc {id : String} {tm : TypeMeta} {evs : List MgrEv} {ev : MgrEv} (h : OnlyTold id tm evs)
    (he : ∀ msg, ev = .queueFlush msg → ∀ r ∈ msg, Mine id tm r → ∀ x y, attrOf r x = some y → latest (toldOf id tm evs) x = some y) : OnlyTold id tm (evs ++ [ev]) := by
  intro pre msg post hs
  rcases List.eq_nil_or_concat post with rfl | ⟨post, e, rfl⟩
  · obtain ⟨rfl, h2⟩ := List.append_inj' hs rfl
    exact he msg (by simpa using h2)
  · rw [List.concat_eq_append, ← List.cons_append, ← List.append_assoc] at hs
    exact h pre msg post (List.append_inj' hs rfl).1

/-- **C106 (calm flushes).** The condition of `C106_told_partial` holds if, whenever a message of a flush is queued, all versions of the record are published and their updates taken: only a
flush that is served while updates of the record wait can make a collector go back. -/
theorem C106_calm {cfg : MgrConfig} {id : String} {tm : TypeMeta} {evs : List MgrEv} {s s' : Src} (h : Src.Start cfg id tm s) (hr : Src.CalmRun cfg id tm s evs s') : OnlyTold id tm evs := by
  induction hr with
  | nil =>
    intro pre msg post hs
    simp at hs
  | @snoc s1 s2 evs ev hr hs hcalm ih =>
    cases ev with
    | none => simpa using ih
    | some ev =>
      refine onlyTold_snoc ih ?_
      rintro msg rfl r hrm hmine x y hy
      obtain ⟨hp, hcq⟩ := hcalm msg rfl
      have hpc : ∃ q c, s1.mgr.pc = .sendFlush q c msg := by
        generalize hev : some (MgrEv.queueFlush msg) = ev at hs
        cases hs with
        | mgr _ _ hm =>
          simp only [Option.some.injEq] at hev
          subst hev
          cases hm with
          | queueFlush h1 _ => exact ⟨_, _, h1⟩
        | _ => simp at hev
      obtain ⟨q, c, hpc⟩ := hpc
      obtain ⟨_, hdead | ⟨V1, V2, buf, hi⟩⟩ := srcOK_run allTold_kept (srcOK_start (fun _ => rfl) h) (calm_run hr)
      · rcases hdead with hh | hh <;> rw [hpc] at hh <;> simp at hh
      · have hheld := hi.held
        rw [hpc] at hheld
        simp only [HeldBuf] at hheld
        subst hheld
        have hpend := hi.pending
        have hlen : (chain s1.versions).length = s1.versions.length := chainFrom_length _ _
        have hu : updOfMine id tm s1.mgr.changeQueue = [] := List.filter_eq_nil_iff.2 fun u hu => by simpa using hcq u hu
        rw [List.nil_append, hu, hp, ← hlen, List.drop_length] at hpend
        have hV2 : V2 = [] := by
          have := congrArg List.length hpend
          rw [chainFrom_length] at this
          exact List.length_eq_zero_iff.1 (by simpa using this.symm)
        subst hV2
        have hval : latest (toldOf id tm evs) x = latest V1 x := by
          have := hi.value x
          rw [List.append_nil] at this
          exact this
        have hsnap := hi.snap
        rw [hpc] at hsnap
        have hv := (hsnap r hrm).2 hmine
        rw [List.append_nil, Option.mem_toList] at hv
        obtain ⟨V, rfl⟩ := List.getLast?_eq_some_iff.1 hv
        rw [hval, latest_snoc, hy]
        rfl

/-- Instance of `C106_calm`: a host is written and published, its update taken and queued, and then a flush sends it again. -/
example : ∃ evs s, Src.CalmRun { numStores := 1 } "h1" ⟨"flow/v1", "HostRecord"⟩ { mgr := { stores := fun _ => after vanOps exCfg [] } } evs s ∧
    s.versions = [hostRec "h1" "x"] ∧ evs.filter queues = [.queueUpdate [hostRec "h1" "x"], .queueFlush [hostRec "h1" "x"]] ∧ OnlyTold "h1" ⟨"flow/v1", "HostRecord"⟩ evs := by
  have hst : Src.Start { numStores := 1 } "h1" ⟨"flow/v1", "HostRecord"⟩ { mgr := { stores := fun _ => after vanOps exCfg [] } } := by
    refine ⟨⟨rfl, rfl, rfl, rfl, rfl, rfl⟩, rfl, rfl, ?_⟩
    rintro i _ e ⟨res, h1, h2⟩
    have h3 : (after vanOps exCfg []).list none 0 = .ok { entries := [], cont := "" } := rfl
    have h1 := h3.symm.trans h1
    simp only [Res.ok.injEq] at h1
    subst h1
    simp at h2
  have r1 := Src.CalmRun.nil (cfg := { numStores := 1 }) (id := "h1") (tm := ⟨"flow/v1", "HostRecord"⟩) (s := { mgr := { stores := fun _ => after vanOps exCfg [] } })
  have r2 := r1.snoc (.write (.storeOp 0 (.accumulate exSrc (hostRec "h1" "x") t0)) (r := hostRec "h1" "x") ⟨hostRec_good _ _, rfl, rfl⟩ rfl (back_holds "x" _ { record := hostRec "h1" "x", md := { source := exSrc, updatedAt := t0, annotations := [] }, typeMeta := ⟨"flow/v1", "HostRecord"⟩ } rfl rfl)) (by simp)
  have r3 := r2.snoc (.publish rfl (.publish { curr := hostRec "h1" "x" } (by simp [changeQueueCap]))) (by simp)
  have r4 := r3.snoc (.mgr (by simp) (by simp) (.take rfl rfl)) (by simp)
  have r5 := r4.snoc (.mgr (by simp) (by simp) (.diff rfl rfl)) (by simp)
  have r6 := r5.snoc (.mgr (by simp) (by simp) (.queueUpdate (msg := [hostRec "h1" "x"]) rfl (by simp [Mgr.SendRoom, sendQueueCap]))) (by simp)
  have r8 := r6.snoc (.mgr (by simp) (by simp) .flushReceived) (by simp)
  have r9 := r8.snoc (.mgr (by simp) (by simp) (.takeFlush rfl (by simp [flushQueueCap]))) (by simp)
  have r10 := r9.snoc (.mgr (by simp) (by simp) (.flushBegin rfl)) (by simp)
  have r11 := r10.snoc (.mgr (by simp) (by simp) (.page 0 rfl rfl)) (by simp)
  have r12 := r11.snoc (.mgr (by simp) (by simp) (.queueFlush (msg := [hostRec "h1" "x"]) rfl (by simp [Mgr.SendRoom, sendQueueCap]))) (fun _ _ => ⟨rfl, fun u hu => by cases hu⟩)
  exact ⟨_, _, r12, rfl, by simp [queues]; rfl, C106_calm hst r12⟩

/-- The condition of `C106_forward_partial` is a special case. -/
theorem notFlushed_told {id : String} {tm : TypeMeta} {evs : List MgrEv} (h : NotFlushed id tm evs) : OnlyTold id tm evs := by
  rintro pre msg post rfl r hr hm
  exact absurd hm (h msg (by simp) r hr)

/-- **C106 (flushes that tell nothing new).** As `C106_forward_partial`, but flushes may send the record, if what they send of it has been sent before.  Missing: flushes that overtake updates, for
which the claim is false (`C106_counterexample`). -/
theorem C106_told_partial {k : SysCfg} {n0 : List MockEv} {c0 : List ClEv} {s0 s s' : Sys} {evs evs' : SysEv} (h0 : Sys.Start k n0 c0 s0) (hr : Sys.Run k s0 evs s)
    (hr' : Sys.Run k s evs' s') (hcr : s'.cl.crashed = false) (hl : Lossless (evs.m ++ evs'.m)) (ht : OnlyTold k.id k.tm (evs.m ++ evs'.m))
    {cs1 cs2 : List RegCmd} {ref : SourceRef} {i : Nat} {cfg : Nat → CacheConfig (GoRec GoTime)} {h : Nat → List (Op (GoRec GoTime))}
    (hc : Collects k cs1 cs2 ref i cfg h s0.stores) (hnone : content vanOps (cfg i) (h i) k.id = none) :
    ∃ m m' h1 h2, m ≤ m' ∧ m' ≤ s'.src.versions.length ∧ s.src.versions <+: s'.src.versions ∧ s.stores i = after vanOps (cfg i) h1 ∧ s'.stores i = after vanOps (cfg i) h2 ∧
      (∀ x, shown (cfg i) h1 k.id x = latest (s.src.versions.take m) x) ∧ ∀ x, shown (cfg i) h2 k.id x = latest (s'.src.versions.take m') x := by
  have hrr := sys_trans hr hr'
  have hj := start_join h0
  have hvp := versions_prefix (sys_src hr')
  have hl1 : Lossless evs.m := fun rs => ⟨fun h => (hl rs).1 (List.mem_append_left _ h), fun h => (hl rs).2.1 (List.mem_append_left _ h), fun h => (hl rs).2.2 (List.mem_append_left _ h)⟩
  have hI := coll_run hj hr
  obtain ⟨done, pend, clock, hdel, hcol, hpd, _⟩ := hI.told (not_crashed hr' hcr) (C100_no_panic hj hr hc).1
  have hI2 : CollInv k done s0.stores evs s := ⟨hI.handlers, fun _ _ => ⟨done, pend, clock, hdel, hcol, hpd, List.prefix_rfl⟩⟩
  obtain ⟨done', pend', clock', hdel', hcol', _, hdd⟩ := (coll_from hI2 hr').told hcr (C100_no_panic hj hrr hc).1
  obtain ⟨n1, h1, e1, g1⟩ := shown_now h0 hr hl1 hc hnone (by rw [hdel]; exact List.prefix_append _ _) hcol
  obtain ⟨_, h2, e2, g2⟩ := shown_now h0 hrr hl hc hnone (by rw [hdel']; exact List.prefix_append _ _) hcol'
  obtain ⟨j, m, hm, p1, f1⟩ := first_told h0.src (sys_src hr) done.length
  obtain ⟨j', m', hm', p2, f2⟩ := first_told h0.src (sys_src hrr) done'.length
  have hkind : ∀ r ∈ s'.src.versions, Enc r := fun r hr => ⟨((pub_run h0.src (sys_src hrr)).kind r hr).1.1, ((pub_run h0.src (sys_src hrr)).kind r hr).2⟩
  have hEnc : ∀ m, ∀ r ∈ s'.src.versions.take m, Enc r := fun m r hr => hkind r (List.mem_of_mem_take hr)
  have htake : ∀ j ≤ s.src.versions.length, s.src.versions.take j = s'.src.versions.take j := by
    intro j hj
    obtain ⟨t, ht⟩ := hvp
    rw [← ht, List.take_append_of_le_length hj]
  rw [htake m hm] at f1
  have w1 : evs.m.take j <+: evs.m ++ evs'.m := (List.take_prefix _ _).trans (List.prefix_append _ _)
  have w2 : (evs.m ++ evs'.m).take j' <+: evs.m ++ evs'.m := List.take_prefix _ _
  have q1 : ∀ x, shown (cfg i) h1 k.id x = latest (s'.src.versions.take m) x := fun x => by
    rw [g1, ← p1, ← latest_chain (hEnc m), ← f1]
    exact told_updates (onlyTold_prefix ht w1) x
  have q2 : ∀ x, shown (cfg i) h2 k.id x = latest (s'.src.versions.take m') x := fun x => by
    have p2 : queued ((evs.m ++ evs'.m).take j') = (queued (evs.m ++ evs'.m)).take done'.length := p2
    rw [g2, ← latest_chain (hEnc m'), ← f2]
    rw [show (queued _).take done'.length = _ from p2.symm]
    exact told_updates (onlyTold_prefix ht w2) x
  by_cases hmm : m ≤ m'
  · exact ⟨m, m', h1, h2, hmm, hm', hvp, e1, e2, by rw [htake m hm]; exact q1, q2⟩
  have hle : m' ≤ m := by omega
  suffices hs : ∀ x, latest (s'.src.versions.take m) x = latest (s'.src.versions.take m') x from
    ⟨m', m', h1, h2, Nat.le_refl _, hm', hvp, e1, e2, by rw [htake m' (Nat.le_trans hle hm)]; exact fun x => (q1 x).trans (hs x), q2⟩
  have hq : (queued evs.m).take done.length = (queued (evs.m ++ evs'.m)).take done.length := by rw [queued_append, List.take_append_of_le_length n1]
  rcases List.prefix_or_prefix_of_prefix w1 w2 with hw | hw
  · have a1 : diffsOf (chain (s'.src.versions.take m')) <+: diffsOf (chain (s'.src.versions.take m)) := by
      obtain ⟨t, ht⟩ : s'.src.versions.take m' <+: s'.src.versions.take m := List.take_prefix_take_left hle
      unfold chain
      rw [← ht, chainFrom_append, diffsOf_append]
      exact List.prefix_append _ _
    have a2 : diffsOf (chain (s'.src.versions.take m)) <+: diffsOf (chain (s'.src.versions.take m')) := by
      rw [← f1, ← f2]
      obtain ⟨t, ht⟩ := hw
      rw [show (SysEv.m _).take j' = _ from ht.symm, show updateMsgs (evs.m.take j ++ t) = _ from List.filterMap_append, List.flatten_append, ofMine_append]
      exact List.prefix_append _ _
    have heq := a1.eq_of_length (Nat.le_antisymm a1.length_le a2.length_le)
    intro x
    rw [← latest_chain (hEnc m), ← heq, latest_chain (hEnc m')]
  · have b1 : (queued (evs.m ++ evs'.m)).take done'.length <+: (queued (evs.m ++ evs'.m)).take done.length := by
      rw [← hq, ← p1, show (queued _).take done'.length = _ from p2.symm]
      obtain ⟨t, ht⟩ := hw
      rw [← ht, queued_append]
      exact List.prefix_append _ _
    have b2 : (queued (evs.m ++ evs'.m)).take done.length <+: (queued (evs.m ++ evs'.m)).take done'.length := List.take_prefix_take_left hdd.length_le
    have heq := b1.eq_of_length (Nat.le_antisymm b1.length_le b2.length_le)
    intro x
    rw [← q1, ← q2, g1, g2, hq, show (queued _).take done'.length = _ from heq]

theorem queued_filter (evs : List MgrEv) : queued (evs.filter queues) = queued evs := by
  induction evs with
  | nil => rfl
  | cons ev evs ih =>
    have cons : ∀ e l, queued (e :: l) = queued [e] ++ queued l := fun e l => queued_append [e] l
    cases ev with
    | queueUpdate m => rw [List.filter_cons_of_pos rfl, cons, ih, ← cons]
    | queueFlush m => rw [List.filter_cons_of_pos rfl, cons, ih, ← cons]
    | _ => rw [List.filter_cons_of_neg (by simp [queues]), ih]; rfl

theorem onlyTold_filter {id : String} {tm : TypeMeta} {evs : List MgrEv} (h : OnlyTold id tm (evs.filter queues)) : OnlyTold id tm evs := by
  rintro pre msg post rfl r hr hm x y hy
  have := h (pre.filter queues) msg (post.filter queues) (by rw [List.filter_append, List.filter_cons_of_pos rfl]) r hr hm x y hy
  rwa [toldOf, queued_filter] at this

/-- Instance of `C106_told_partial`: in the run of `C129_kept` a flush sends the host, after an update did; at the beginning collector 0 shows nothing, at the end the host. -/
example : ∃ evs1 evs2 s1 s m m' h1 h2, Net.Run netCfg net0 evs1 s1 ∧ Net.Run netCfg s1 evs2 s ∧ MgrEv.flushReceived ∈ evs2.m ∧ m ≤ m' ∧ s1.stores 0 0 = after vanOps exCfg h1 ∧
    s.stores 0 0 = after vanOps exCfg h2 ∧ (∀ x, shown exCfg h1 "h1" x = latest (s1.src.versions.take m) x) ∧
    ∀ x, shown exCfg h2 "h1" x = latest ([hostRec "h1" "x", hostRec "h1" "x"].take m') x := by
  obtain ⟨evs1, evs2, s1, s, d0, m2, r1, r2, hj, hs0, hs1, hq, hl, ⟨hf, hp1, hp2⟩, ho, hc0, hc1, hst, hv, hm, e2, hque⟩ := kept_example
  have ht : OnlyTold "h1" ⟨"flow/v1", "HostRecord"⟩ (evs1.m ++ evs2.m) := by
    apply onlyTold_filter
    rw [hque]
    intro pre msg post hsplit r hr _ x y hy
    match pre, hsplit with
    | [], h => simp at h
    | [a], h =>
      simp only [List.cons_append, List.nil_append, List.cons.injEq, MgrEv.queueFlush.injEq] at h
      obtain ⟨rfl, rfl, _⟩ := h
      simp only [List.mem_singleton] at hr
      subst hr
      have : toldOf "h1" ⟨"flow/v1", "HostRecord"⟩ [.queueUpdate [hostRec "h1" "x"]] = [hostRec "h1" "x"] := by
        have h2 : Mine "h1" ⟨"flow/v1", "HostRecord"⟩ (hostRec "h1" "x") := ⟨rfl, rfl⟩
        simp only [toldOf, queued, List.filterMap_cons, List.filterMap_nil, List.flatten_cons, List.flatten_nil, List.append_nil, List.filter_cons, List.filter_nil, h2, decide_true, if_true]
      rw [this]
      show (attrOf _ x).or none = some y
      rw [hy]; rfl
    | a :: b :: l, h => simp at h
  obtain ⟨m, m', h1, h2, g1, _, _, g2, g3, g4, g5⟩ := C106_told_partial net0_start (net_run netCfg_apart r1 0) (net_run netCfg_apart r2 0) hc0 hl ht (net_collects 0) rfl
  rw [show (s.view 0).src.versions = s.src.versions from rfl, hv] at g5
  exact ⟨evs1, evs2, s1, s, m, m', h1, h2, r1, r2, by rw [hf]; simp, g1, g2, g3, g4, g5⟩

end Verif.Props
