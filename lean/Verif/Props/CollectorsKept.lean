import Verif.Spec.Told
import Verif.Props.Collectors

/-! # C129: two collectors that agree

The run of `Props/Collectors`, but the record that is written the second time still has its name.  The hypotheses of `C129_kept` hold of it. -/
namespace Verif.Props
open Verif Verif.Model Verif.Spec Verif.Proofs

/-- The calls on the store of the source. -/
def keptOps : List (Op (GoRec GoTime)) := [.accumulate exSrc (hostRec "h1" "x") t0, .update (hostEntry "h1" "x" "r1") none t0]

theorem kept_stays {evs : List MgrEv} (h : opsOn 0 evs = []) : Stays exCfg keptOps 0 "h1" (fun e => Mine "h1" ⟨"flow/v1", "HostRecord"⟩ e.record) evs := by
  have two : ∀ p, p <+: evs → keptOps ++ opsOn 0 p = keptOps := by
    rintro p ⟨q, rfl⟩
    rw [opsOn_append] at h
    rw [(List.append_eq_nil_iff.1 h).1, List.append_nil]
  have hs : SortedKeys (content vanOps exCfg keptOps) (fun _ => True) 0 ["h1"] := by
    refine ⟨List.pairwise_singleton _ _, ?_⟩
    intro k
    have hcon : content vanOps exCfg keptOps k = (if k = "h1" then some ((hostEntry "h1" "x" "r1").stamp t0) else none) := by
      by_cases hk : k = "h1"
      · subst hk; rfl
      · have : content vanOps exCfg keptOps k = (if k = "h1" then some ((hostEntry "h1" "x" "r1").stamp t0) else content vanOps exCfg lateOps k) := rfl
        rw [this, if_neg hk, if_neg hk]
        have hcon : content vanOps exCfg lateOps k = (if k = "h1" then some { record := hostRec "h1" "x", md := { source := exSrc, updatedAt := t0, annotations := [] }, typeMeta := ⟨"flow/v1", "HostRecord"⟩ } else none) := rfl
        rw [hcon, if_neg hk]
    rw [hcon]
    by_cases h : k = "h1" <;> simp [h]
  refine ⟨exCfg_good, van_coherent, ?_, ?_, ?_, ?_⟩
  · rw [h, List.append_nil]
    intro op hop
    simp only [keptOps, List.mem_cons, List.not_mem_nil, or_false] at hop
    rcases hop with rfl | rfl <;> exact hostRec_good _ _
  · intro p hp
    rw [two p hp]
    exact ⟨_, rfl, rfl, rfl⟩
  · intro p ev hp x _
    rw [two _ hp, two _ ((List.prefix_append p [ev]).trans hp)]
    exact id
  · intro p hp ks hks
    rw [two p hp] at hks
    rw [sortedKeys_unique hks hs]
    decide

/-- The run: a host with a name is told to collector 0; it is written once more as it is, which is no change; collector 1 joins; a flush is served. -/
theorem kept_example : ∃ evs1 evs2 s1 s d0 m2, Net.Run netCfg net0 evs1 s1 ∧ Net.Run netCfg s1 evs2 s ∧
    Sys.Join (netCfg.at 1) ([.newReceiver 0 "mc/sfe.c1", .step 0, .subscribed 0, .newSender 0 "mc/sfe.c1"] ++ evs1.n) d0 (s1.view 1) ∧
    (s.view 0).Still (netCfg.at 0) ∧ (s.view 1).Still (netCfg.at 1) ∧ s.src.mgr.flushQueue = 0 ∧ Lossless (evs1.m ++ evs2.m) ∧
    (evs2.m = .flushReceived :: evs2.m.tail ∧ opsOn 0 evs2.m = [] ∧ opsOn 0 evs1.m = keptOps) ∧ (∀ r, MockEv.closeReceiver r ∉ evs1.n ++ evs2.n) ∧ (s.cl 0).crashed = false ∧ (s.cl 1).crashed = false ∧ s1.stores 1 = (fun _ => after vanOps exCfg []) ∧
    s.src.versions = [hostRec "h1" "x", hostRec "h1" "x"] ∧ sentMsgs evs2.m = [m2] ∧ RecordMsg.encode vanRegistry { records := [hostRec "h1" "x"] } = .ok m2 ∧
    (evs1.m ++ evs2.m).filter queues = [.queueUpdate [hostRec "h1" "x"], .queueFlush [hostRec "h1" "x"]] := by
  obtain ⟨m1, e1⟩ : ∃ m, RecordMsg.encode vanRegistry { records := [hostRec "h1" "x"] } = .ok m := ⟨_, rfl⟩
  obtain ⟨m2, e2⟩ : ∃ m, RecordMsg.encode vanRegistry { records := [hostRec "h1" "x"] } = .ok m := ⟨_, rfl⟩
  have r0 : Net.Run netCfg net0 {} net0 := .nil
  have a1 := r0.snoc (.of 0 (.source (.write (.storeOp 0 (.accumulate exSrc (hostRec "h1" "x") t0)) (r := hostRec "h1" "x") ⟨hostRec_good _ _, rfl, rfl⟩ rfl net_x) (by simp) (by simp)) (by simp))
  have a2 := a1.snoc (.of 0 (.source (.publish rfl (.publish { curr := hostRec "h1" "x" } (show 0 < 256 by decide))) (by simp) (by simp)) (by simp))
  have a3 := a2.snoc (.of 0 (.source (.mgr (by simp) (by simp) (.take rfl rfl)) (by simp) (by simp)) (by simp))
  have a4 := a3.snoc (.of 0 (.source (.mgr (by simp) (by simp) (.diff rfl rfl)) (by simp) (by simp)) (by simp))
  have a5 := a4.snoc (.of 0 (.source (.mgr (by simp) (by simp) (.queueUpdate (msg := [hostRec "h1" "x"]) rfl (show 0 < 256 by decide))) (by simp) (by simp)) (by simp))
  have a6 := a5.snoc (.of 0 (.source (.mgr (by simp) (by simp) (.takeMsg rfl (List.cons_ne_nil _ _))) (by simp) (by simp)) (by simp))
  have a7 := a6.snoc (.of 0 (.send (o := 0) rfl rfl e1 (.call (i := 0) (x := { addr := "mc/sfe.c1" }) 0 none rfl) rfl) (by simp))
  have a8 := a7.snoc (.of 0 (.router (.startGo (o := 0) rfl rfl rfl rfl rfl) (by simp) (by simp) (by simp)) (by simp))
  have a9 := a8.snoc (.of 0 (.router (.get (o := 0) rfl rfl) (by simp) (by simp) (by simp)) (by simp))
  have a10 := a9.snoc (.of 0 (.router (.lock (o := 0) (mc := 0) rfl rfl rfl rfl (List.cons_ne_nil _ _)) (by simp) (by simp) (by simp)) (by simp))
  have a11 := a10.snoc (.of 0 (.router (.offer (o := 0) rfl rfl rfl rfl) (by simp) (by simp) (by simp)) (by simp))
  have a12 := a11.snoc (.of 0 (.router (.put (o := 0) rfl rfl rfl (show 0 < 256 by decide)) (by simp) (by simp) (by simp)) (by simp))
  have a13 := a12.snoc (.of 0 (.sent (o := 0) rfl (.finish rfl rfl) (.mgr (by simp) (by simp) (.send rfl e1 rfl))) (by simp))
  have a14 := a13.snoc (.of 0 (.next (m := 0) rfl rfl (.recv (r := 0) rfl rfl rfl) rfl (.deliver (l := 0) _ rfl rfl)) (by
    intro d hd m
    simp only [netCfg, List.mem_singleton, MockEv.recv.injEq, not_and]
    exact fun h => absurd h hd))
  obtain ⟨q1, hq1⟩ := (C100_no_panic (start_join net0_start) (net_run netCfg_apart a14 0) (net_collects 0)).2 m1 (by simp [deliveredTo, NetEv.view, netCfg, NetCfg.at])
  have a15 := a14.snoc (.of 0 (.client rfl rfl (.decoded (l := 0) rfl rfl hq1) (by simp) (by simp) (by simp) (by simp)) (by simp))
  have a16 := a15.snoc (.of 0 (.client rfl rfl (.fetch (l := 0) rfl rfl rfl) (by simp) (by simp) (by simp) (by simp)) (by simp))
  have a17 := a16.snoc (.of 0 (.client rfl rfl (.call (l := 0) (h := 3) rfl rfl) (by simp) (by simp) (by simp [netCfg, NetCfg.at]) (by simp)) (by simp))
  cases hd1 : (lateCfg.world.dispatch vanOps lateCfg.disp (q1.records.zipIdx.map fun p => (p.1, (fun _ => t0) p.2)) (fun _ => after vanOps exCfg [])) with
  | mk st1 po1 =>
  cases po1 with
  | some p =>
    have := (C100_no_panic (start_join net0_start) (net_run netCfg_apart (a17.snoc (.of 0 (.dispatchPanic (fun _ => t0) rfl rfl (.call (l := 0) rfl rfl) hd1) (by simp))) 0) (net_collects 0)).1
    cases this
  | none =>
  have a18 := a17.snoc (.of 0 (.dispatch (fun _ => t0) rfl rfl (.call (l := 0) rfl rfl) hd1) (by simp))
  have a19 := a18.snoc (.of 0 (.client rfl rfl (.again (l := 0) rfl rfl) (by simp) (by simp) (by simp) (by simp)) (by simp))
  have b1 := a19.snoc (.of 0 (.source (.write (.storeOp 0 (.update (hostEntry "h1" "x" "r1") none t0)) (r := hostRec "h1" "x") ⟨hostRec_good _ _, rfl, rfl⟩ rfl
    (back_holds "x" _ ((hostEntry "h1" "x" "r1").stamp t0) rfl rfl)) (by simp) (by simp)) (by simp))
  have b2 := b1.snoc (.of 0 (.source (.publish rfl (.publish { prev := hostRec "h1" "x", curr := hostRec "h1" "x" } (show 0 < 256 by decide))) (by simp) (by simp)) (by simp))
  have b3 := b2.snoc (.of 0 (.source (.mgr (by simp) (by simp) (.take rfl rfl)) (by simp) (by simp)) (by simp))
  have b4 := b3.snoc (.of 0 (.source (.mgr (by simp) (by simp) (.diff (msg := []) rfl rfl)) (by simp) (by simp)) (by simp))
  have b5 := b4.snoc (.of 0 (.router (.newReceiver "mc/sfe.c1" 256) (by simp) (by simp) (by simp)) (by simp))
  have b6 := b5.snoc (.of 0 (.router (.subGet (r := 1) rfl rfl) (by simp) (by simp) (by simp)) (by simp))
  have b7 := b6.snoc (.of 0 (.router (.subscribe (r := 1) (mc := 0) rfl rfl rfl rfl) (by simp) (by simp) (by simp)) (by simp))
  have c0 := net_here b7
  have hj := net_joined b7 (by simp [netBefore]; and_intros <;> rfl) rfl rfl rfl
  have c1 := c0.snoc (.of 0 (.source (.mgr (by simp) (by simp) .flushReceived) (by simp) (by simp)) (by simp))
  have c2 := c1.snoc (.of 0 (.source (.mgr (by simp) (by simp) (.takeFlush rfl (show 0 < 1 by decide))) (by simp) (by simp)) (by simp))
  have c3 := c2.snoc (.of 0 (.source (.mgr (by simp) (by simp) (.flushBegin rfl)) (by simp) (by simp)) (by simp))
  have c4 := c3.snoc (.of 0 (.source (.mgr (by simp) (by simp) (.page 0 rfl rfl)) (by simp) (by simp)) (by simp))
  have c5 := c4.snoc (.of 0 (.source (.mgr (by simp) (by simp) (.queueFlush (msg := [hostRec "h1" "x"]) rfl (show 0 < 256 by decide))) (by simp) (by simp)) (by simp))
  have c6 := c5.snoc (.of 0 (.source (.mgr (by simp) (by simp) (.flushEnd rfl)) (by simp) (by simp)) (by simp))
  have c7 := c6.snoc (.of 0 (.source (.mgr (by simp) (by simp) (.takeMsg rfl (List.cons_ne_nil _ _))) (by simp) (by simp)) (by simp))
  have c8 := c7.snoc (.of 0 (.send (o := 1) rfl rfl e2 (.call (i := 0) (x := { addr := "mc/sfe.c1" }) 1 none rfl) rfl) (by simp))
  have c9 := c8.snoc (.of 0 (.router (.startGo (o := 1) rfl rfl rfl rfl rfl) (by simp) (by simp) (by simp)) (by simp))
  have c10 := c9.snoc (.of 0 (.router (.get (o := 1) rfl rfl) (by simp) (by simp) (by simp)) (by simp))
  have c11 := c10.snoc (.of 0 (.router (.lock (o := 1) (mc := 0) rfl rfl rfl rfl (List.cons_ne_nil _ _)) (by simp) (by simp) (by simp)) (by simp))
  have c12 := c11.snoc (.of 0 (.router (.offer (o := 1) rfl rfl rfl rfl) (by simp) (by simp) (by simp)) (by simp))
  have c13 := c12.snoc (.of 0 (.router (.put (o := 1) rfl rfl rfl (show 0 < 256 by decide)) (by simp) (by simp) (by simp)) (by simp))
  have c14 := c13.snoc (.of 0 (.router (.offer (o := 1) rfl rfl rfl rfl) (by simp) (by simp) (by simp)) (by simp))
  have c15 := c14.snoc (.of 0 (.router (.put (o := 1) rfl rfl rfl (show 0 < 256 by decide)) (by simp) (by simp) (by simp)) (by simp))
  have c16 := c15.snoc (.of 0 (.sent (o := 1) rfl (.finish rfl rfl) (.mgr (by simp) (by simp) (.send rfl e2 rfl))) (by simp))
  have c17 := c16.snoc (.of 0 (.next (m := 1) rfl rfl (.recv (r := 0) rfl rfl rfl) rfl (.deliver (l := 0) _ rfl rfl)) (by
    intro d hd m
    simp only [netCfg, List.mem_singleton, MockEv.recv.injEq, not_and]
    exact fun h => absurd h hd))
  have c18 := c17.snoc (.of 1 (.next (m := 1) rfl rfl (.recv (r := 1) rfl rfl rfl) rfl (.deliver (l := 0) _ rfl rfl)) (by
    intro d hd m
    simp only [netCfg, List.mem_singleton, MockEv.recv.injEq, not_and]
    exact fun h => absurd h hd))
  obtain ⟨q2, hq2⟩ := (C100_no_panic hj (net_run netCfg_apart c18 1) (net_collects 1)).2 m2 (by simp [deliveredTo, NetEv.view, netCfg, NetCfg.at])
  have c19 := c18.snoc (.of 0 (.client rfl rfl (.decoded (l := 0) rfl rfl hq2) (by simp) (by simp) (by simp) (by simp)) (by simp))
  have c20 := c19.snoc (.of 0 (.client rfl rfl (.fetch (l := 0) rfl rfl rfl) (by simp) (by simp) (by simp) (by simp)) (by simp))
  have c21 := c20.snoc (.of 0 (.client rfl rfl (.call (l := 0) (h := 3) rfl rfl) (by simp) (by simp) (by simp [netCfg, NetCfg.at]) (by simp)) (by simp))
  cases hd2 : (lateCfg.world.dispatch vanOps lateCfg.disp (q2.records.zipIdx.map fun p => (p.1, (fun _ => t0) p.2)) st1) with
  | mk st2 po2 =>
  cases po2 with
  | some p =>
    have := (C100_no_panic (start_join net0_start) (sys_trans (net_run netCfg_apart b7 0) (net_run netCfg_apart (c21.snoc (.of 0 (.dispatchPanic (fun _ => t0) rfl rfl (.call (l := 0) rfl rfl) hd2) (by simp))) 0)) (net_collects 0)).1
    cases this
  | none =>
  have c22 := c21.snoc (.of 0 (.dispatch (fun _ => t0) rfl rfl (.call (l := 0) rfl rfl) hd2) (by simp))
  have c23 := c22.snoc (.of 0 (.client rfl rfl (.again (l := 0) rfl rfl) (by simp) (by simp) (by simp) (by simp)) (by simp))
  have d1 := c23.snoc (.of 1 (.client rfl rfl (.decoded (l := 0) rfl rfl hq2) (by simp) (by simp) (by simp) (by simp)) (by simp))
  have d2 := d1.snoc (.of 1 (.client rfl rfl (.fetch (l := 0) rfl rfl rfl) (by simp) (by simp) (by simp) (by simp)) (by simp))
  have d3 := d2.snoc (.of 1 (.client rfl rfl (.call (l := 0) (h := 3) rfl rfl) (by simp) (by simp) (by simp [netCfg, NetCfg.at]) (by simp)) (by simp))
  cases hd3 : (lateCfg.world.dispatch vanOps lateCfg.disp (q2.records.zipIdx.map fun p => (p.1, (fun _ => t0) p.2)) (fun _ => after vanOps exCfg [])) with
  | mk st3 po3 =>
  cases po3 with
  | some p =>
    have := (C100_no_panic hj (net_run netCfg_apart (d3.snoc (.of 1 (.dispatchPanic (fun _ => t0) rfl rfl (.call (l := 0) rfl rfl) hd3) (by simp))) 1) (net_collects 1)).1
    cases this
  | none =>
  have d4 := d3.snoc (.of 1 (.dispatch (fun _ => t0) rfl rfl (.call (l := 0) rfl rfl) hd3) (by simp))
  have d5 := d4.snoc (.of 1 (.client rfl rfl (.again (l := 0) rfl rfl) (by simp) (by simp) (by simp) (by simp)) (by simp))
  refine ⟨_, _, _, _, _, m2, b7, d5, hj, ⟨⟨rfl, rfl, rfl, rfl⟩, rfl, ?_, _, rfl, rfl⟩, ⟨⟨rfl, rfl, rfl, rfl⟩, rfl, ?_, _, rfl, rfl⟩, rfl, by intro rs; simp, ⟨by simp, by simp [opsOn], by simp [opsOn, keptOps]⟩, by intro r; simp, rfl, rfl, rfl, rfl, by simp [sentMsgs], e2, by simp [queues]; rfl⟩
  · intro x hx
    cases hx
    rfl
  · intro x hx
    cases hx
    rfl

theorem kept_never : NeverCleared [hostRec "h1" "x", hostRec "h1" "x"] := by
  intro a b h y hy
  have ha : a = hostRec "h1" "x" := by simpa using h.subset (List.mem_cons_self)
  have hb : b = hostRec "h1" "x" := by simpa using h.subset (List.mem_cons_of_mem _ List.mem_cons_self)
  rw [hb, ← ha]
  exact hy

/-- Instance of `C129_kept`. -/
example : ∃ s0 evs1 s1 evs2 s, Net.Run netCfg s0 evs1 s1 ∧ Net.Run netCfg s1 evs2 s ∧ ∃ g g' e e', s.stores 0 0 = after vanOps exCfg g ∧ s.stores 1 0 = after vanOps exCfg g' ∧
    content vanOps exCfg g "h1" = some e ∧ content vanOps exCfg g' "h1" = some e' ∧ (∀ x, attrOf e.record x = attrOf e'.record x) := by
  obtain ⟨evs1, evs2, s1, s, d0, m2, r1, r2, hj, hs0, hs1, hq, hl, ⟨hf, hp1, hp2⟩, ho, hc0, hc1, hst, hv, hm, e2, _⟩ := kept_example
  have hcol := net_collects 1
  rw [← hst] at hcol
  generalize evs2.m.tail = post at hf
  rw [hf] at hp1
  obtain ⟨g, g', e, e', g1, g2, g3, g4, g5⟩ := C129_kept netCfg_apart (start_join net0_start) r1 hj r2 hs0 hs1 hq (by have := ho 0; simpa [netCfg] using this)
    (by have := ho 1; simpa [netCfg] using this) hc0 hc1 (pre := []) (post := post) hf
    (fun rs => ⟨fun h => (hl rs).1 (by simp [hf, h]), fun h => (hl rs).2.1 (by simp [hf, h]), fun h => (hl rs).2.2 (by simp [hf, h])⟩)
    (j := 0) (by decide) (cm := exCfg) (hj0 := []) rfl (key := "h1") (by rw [List.append_nil, hp2]; exact kept_stays (by simpa [opsOn] using hp1)) (v := hostRec "h1" "x") (by rw [hv]; rfl) (by rw [hv]; exact kept_never) (net_collects 0) hcol
    rfl rfl
  exact ⟨net0, evs1, s1, evs2, s, r1, r2, g, g', e, e', g1, g2, g3, g4, g5⟩

end Verif.Props
