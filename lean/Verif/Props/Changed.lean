import Verif.Spec.Changed
import Verif.Props.Reconnect
import Verif.Props.Forward

/-! # C128: what changes after a collector has joined -/
namespace Verif.Props
open Verif Verif.Model Verif.Spec Verif.Proofs

theorem changedSince_snoc {n : Nat} {vs : List (GoRec GoTime)} {r : GoRec GoTime} {x : Any} (h : ChangedSince n (vs ++ [r]) x) :
    ChangedSince n vs x ∨ ∃ y, attrOf r x = some y ∧ attrOf (lastOr .nil vs) x ≠ some y := by
  obtain ⟨p, w, q, y, h1, h2, h3, h4⟩ := h
  rcases List.eq_nil_or_concat q with rfl | ⟨q', z, rfl⟩
  · right
    obtain ⟨rfl, h6⟩ := List.append_inj' h1 rfl
    obtain rfl := List.singleton_inj.1 h6
    refine ⟨y, h3, ?_⟩
    cases hl : vs.getLast? with
    | none => simp [lastOr, hl, attrOf_nil]
    | some w => simpa [lastOr, hl] using h4 w hl
  · left
    rw [List.concat_eq_append, ← List.cons_append, ← List.append_assoc] at h1
    obtain ⟨h5, _⟩ := List.append_inj' h1 rfl
    exact ⟨p, w, q', y, h5, h2, h3, h4⟩

/-- Whatever was known of an attribute before, it has its latest value in the end, if it has changed since there were `n` versions. -/
def ToldSince (n : Nat) (x : Any) : Claim := fun Q V1 V2 => ChangedSince n (V1 ++ V2) x → ∀ y, latestFrom (latestFrom y Q x) (diffsOf (chainFrom (lastOr .nil V1) V2)) x = latest (V1 ++ V2) x

theorem toldSince_kept (n : Nat) (x : Any) : Kept (ToldSince n x) where
  emit := by
    intro Q V1 va vb _ h hc y
    rw [List.append_assoc] at hc
    have h := h hc y
    rw [← List.append_assoc] at h
    rw [← h, lastOr_append, chainFrom_append, diffsOf_append, latestFrom_append, latestFrom_append]
  snap := by
    intro Q V1 V2 r hV hr h hc y
    rw [latestFrom_append]
    exact snapshot_absorbed hV (h hc y) hr
  grow := by
    intro Q V1 V2 r hV h hc y
    have hV' : ∀ w ∈ V1 ++ V2, Enc w := fun w hw => hV w (by rw [← List.append_assoc]; exact List.mem_append_left _ hw)
    have hr : Enc r := hV r (by simp)
    rw [← List.append_assoc] at hc ⊢
    rw [chainFrom_append, diffsOf_append, latestFrom_append, ← lastOr_append]
    rcases changedSince_snoc hc with hc | ⟨z, h1, h2⟩
    · rw [h hc y]
      exact version_added hV' hr x
    · have hp : lastOr .nil (V1 ++ V2) = .nil ∨ ∃ a, vanOps.encode (lastOr .nil (V1 ++ V2)) = .ok a := by
        cases hl : (V1 ++ V2).getLast? with
        | none => left; simp [lastOr, hl]
        | some w => right; simp only [lastOr, hl, Option.getD_some]; exact (hV' w (List.mem_of_getLast? hl)).2
      have hL : latest (V1 ++ V2 ++ [r]) x = some z := by unfold latest; rw [latestFrom_append]; simp [latestFrom, h1]
      rw [hL]
      rcases contribution (u := { prev := lastOr .nil (V1 ++ V2), curr := r }) hp hr x with ⟨v, c1, c2⟩ | ⟨_, c2⟩
      · simp only at c1
        rw [h1] at c1
        obtain rfl := Option.some.inj c1
        exact c2 _
      · exact absurd (c2 z h1) h2

/-- The claim begins to hold at any time. -/
theorem toldSince_start {cfg : MgrConfig} {id : String} {tm : TypeMeta} {evs : List MgrEv} {s : Src} (h : SrcOK (fun _ _ _ => True) cfg id tm evs s) (x : Any) :
    SrcOK (ToldSince s.versions.length x) cfg id tm [] s := by
  obtain ⟨hQ, hd | ⟨V1, V2, buf, h⟩⟩ := h
  · exact ⟨hQ, .inl hd⟩
  · refine ⟨hQ, .inr ⟨V1, V2, buf, h.versions, h.held, h.pending, h.good, h.snap, h.stores, h.pub, h.kind, fun hc => ?_, by simp [queued]⟩⟩
    obtain ⟨p, w, q, y, h1, h2, _⟩ := hc
    rw [← h.versions] at h1
    rw [h1] at h2
    simp only [List.length_append, List.length_cons] at h2
    omega

/-- Said of the manager's messages: a collector that gets all those put in the queue from some time on, after any others, has the latest value of what has changed since that time. -/
theorem changed_core {mcfg : MgrConfig} {id : String} {tm : TypeMeta} {s0 s1 s' : Src} {evs1 evs2 : List MgrEv} (hstart : Src.Start mcfg id tm s0)
    (hrun1 : Src.Run mcfg id tm s0 evs1 s1) (hrun2 : Src.Run mcfg id tm s1 evs2 s') (hd : s'.Drained) {x : Any} (hch : ChangedSince s1.versions.length s'.versions x)
    (cs1 cs2 : List RegCmd) (src : SourceRef) (hreg : ∀ tm i, RegCmd.register tm i ∈ cs1 → PlainType tm) {i : Nat}
    (hi : ∀ tm', lastRegistered cs1 tm' = some i ↔ tm' = tm)
    (cfg : Nat → CacheConfig (GoRec GoTime)) (hkey : ∀ i, (cfg i).key = none) (hc : ∀ i, GoodConfig (cfg i))
    (h : Nat → List (Op (GoRec GoTime))) (hh : ∀ i, ∀ op ∈ h i, Op.All (GoodRecord vanRegistry) op)
    (hstale : ∀ e, content vanOps (cfg i) (h i) id = some e → OfKind id tm e.record ∧ Encodable e.record) (clock : Nat → Nat → GoTime)
    {rss0 : List (List (GoRec GoTime))} {msgs : List Msg} (hg0 : ∀ rs ∈ rss0, ∀ r ∈ rs, GoodRecord vanRegistry r)
    (hpw : Pointwise (fun rs m => RecordMsg.encode vanRegistry { records := rs } = .ok m) (rss0 ++ queued evs2) msgs) :
    ∃ d, (runReg (cs1 ++ .newDispatcher src :: cs2) {}).2[(runReg cs1 {}).2.length]? = some d ∧
      let o := collect (runReg (cs1 ++ .newDispatcher src :: cs2) {}).1 d clock 0 msgs (fun i => after vanOps (cfg i) (h i))
      o.2 = none ∧ ∃ h' e, o.1 i = after vanOps (cfg i) h' ∧ content vanOps (cfg i) h' id = some e ∧ OfKind id tm e.record ∧ attrOf e.record x = latest s'.versions x := by
  have hok1 := srcOK_run true_kept (srcOK_start trivial hstart) hrun1
  obtain ⟨hval, hgood, _⟩ := srcOK_drained (srcOK_run (toldSince_kept _ x) (toldSince_start hok1 x) hrun2) hd
  have hval := hval (by rw [List.append_nil]; exact hch)
  rw [List.append_nil] at hval
  have hval : ∀ y, latestFrom y (ofMine id tm (queued evs2).flatten) x = latest s'.versions x := hval
  have hmine : ofMine id tm (rss0 ++ queued evs2).flatten = ofMine id tm rss0.flatten ++ ofMine id tm (queued evs2).flatten := by simp [ofMine]
  have hinit : ∃ S f0, StoreHas id tm src S f0 (after vanOps (cfg i) (h i)) [] := by
    cases hcont : content vanOps (cfg i) (h i) id with
    | none => exact ⟨src, _, Or.inl ⟨rfl, by rw [← content_eq vanOps_lawful]; exact hcont, rfl, rfl⟩⟩
    | some e =>
      obtain ⟨g1, g2⟩ := hstale e hcont
      exact ⟨e.md.source, fun k => attrOf e.record k, Or.inr ⟨e, by rw [← content_eq vanOps_lawful]; exact hcont, g1, rfl, g2, fun k => rfl⟩⟩
  obtain ⟨S, f0, hinit⟩ := hinit
  obtain ⟨d, hd1, h2, h', h3, h4⟩ := collector_result cs1 cs2 src hreg hi cfg hkey hc h hh hinit clock
    (by
      intro r hr
      rw [List.flatten_append] at hr
      rcases List.mem_append.1 hr with hr | hr
      · obtain ⟨rs, h1, h2⟩ := List.mem_flatten.1 hr
        exact hg0 rs h1 r h2
      · exact hgood r hr) hpw
  rw [hmine] at h4
  obtain ⟨e, a, g1, g2, g3, g5, g6⟩ := h4 (by
    intro hnil
    rw [(List.append_eq_nil_iff.1 hnil).2] at hval
    have a1 := hval none
    have a2 := hval (some (.u32 0))
    rw [← a1] at a2
    cases a2)
  refine ⟨d, hd1, h2, h', e, h3, g1, g2, ?_⟩
  rw [attrOf_ok g5, g6, latestFrom_append]
  exact hval _

/-- **C128.** A collector has joined a source that may have done anything before.  An attribute of a record changes after that, and from the change on no message is lost on the side of the
manager.  However source, manager, router and collector interleave, and without any flush: once everything is published, sent, received and handled, the collector's store has an entry of the
record in which this attribute has its latest value. -/
theorem C128_changed {k : SysCfg} {n0 : List MockEv} {c0 : List ClEv} {s0 s1 s : Sys} {evs1 evs2 : SysEv} (h0 : Sys.Join k n0 c0 s0) (hr1 : Sys.Run k s0 evs1 s1) (hr2 : Sys.Run k s1 evs2 s)
    (hstill : s.Still k) (hopen : MockEv.closeReceiver k.rcv ∉ n0 ++ evs1.n ++ evs2.n) (hcr : s.cl.crashed = false) (hl : Lossless evs2.m) {x : Any}
    (hch : ChangedSince s1.src.versions.length s.src.versions x)
    {cs1 cs2 : List RegCmd} {ref : SourceRef} {i : Nat} {cfg : Nat → CacheConfig (GoRec GoTime)} {h : Nat → List (Op (GoRec GoTime))}
    (hc : Collects k cs1 cs2 ref i cfg h s0.stores)
    (hstale : ∀ e, content vanOps (cfg i) (h i) k.id = some e → OfKind k.id k.tm e.record ∧ Encodable e.record) :
    ∃ h' e, s.stores i = after vanOps (cfg i) h' ∧ content vanOps (cfg i) h' k.id = some e ∧ OfKind k.id k.tm e.record ∧ attrOf e.record x = latest s.src.versions x := by
  have hr := sys_trans hr1 hr2
  obtain ⟨clock, hcol⟩ := (C100_delivered h0 hr hstill (by simpa using hopen)).2 hcr (C100_no_panic h0 hr hc).1
  obtain ⟨s00, hist, hstart, hrun0⟩ := h0.src
  have hrun1 := src_trans hrun0 (sys_src hr1)
  have hmgr1 := Proofs.Src.Run.toMgr hrun1
  have hgood := queued_good hstart hrun1
  have hq1 := (C37_updates_in_order hstart.1 hmgr1).2.2
  obtain ⟨rss, k1, k2⟩ := pointwise_of_all (bs := sentMsgs evs1.m) (P := fun rs => ∀ r ∈ rs, GoodRecord vanRegistry r)
    (R := fun rs m => RecordMsg.encode vanRegistry { records := rs } = .ok m) fun m hm => by
      obtain ⟨rs, h1, h2⟩ := sent_encoded hmgr1 (m := m) (by rw [sentMsgs_append]; exact List.mem_append_right _ hm)
      exact ⟨rs, fun r hr => hgood r (List.mem_flatten.2 ⟨rs, by rw [hq1]; exact List.mem_append_left _ h1, hr⟩), h2⟩
  have hmgr2 := Proofs.Src.Run.toMgr (sys_src hr2)
  have hf := fifo hmgr2
  rw [hstill.1.2.2.2, List.append_nil] at hf
  have hpw := sent_handled hmgr2 hl
  rw [← hf] at hpw
  have hpw := pointwise_append k2 hpw
  rw [← List.append_assoc] at hpw
  obtain ⟨d, hd, _, h', e', q⟩ := changed_core hstart hrun1 (sys_src hr2) hstill.1 hch cs1 cs2 ref hc.plain hc.only cfg hc.key hc.good h hc.hist hstale clock (by
    intro rs hrs r hr
    rcases List.mem_append.1 hrs with hrs | hrs
    · exact k1 rs hrs r hr
    · exact hgood r (List.mem_flatten.2 ⟨rs, by rw [hq1]; exact List.mem_append_right _ hrs, hr⟩)) hpw
  rw [hc.disp] at hd
  obtain rfl := Option.some.inj hd
  rw [← sentMsgs_append, ← hc.world, ← hc.stores] at q
  rw [show evs1.m ++ evs2.m = ({ m := evs1.m ++ evs2.m, n := evs1.n ++ evs2.n, c := evs1.c ++ evs2.c } : SysEv).m from rfl, hcol] at q
  exact ⟨h', e', q⟩

/-- **C128 (a Send under way).** The same for a receiver that is subscribed while the manager is in a Send which the router has begun to hand out: that message the collector does not get. -/
theorem C128_before {k : SysCfg} {n0 : List MockEv} {c0 : List ClEv} {s0 s : Sys} {evs : SysEv} (h0 : Sys.Before k n0 c0 s0) (hrcv : MockEv.newReceiver k.rcv k.addr ∈ n0)
    (hsub : MockEv.subscribed k.rcv ∈ n0) (hr : Sys.Run k s0 evs s) (hstill : s.Still k) (hopen : MockEv.closeReceiver k.rcv ∉ n0 ++ evs.n) (hcr : s.cl.crashed = false)
    (hl : Lossless evs.m) {x : Any} (hch : ChangedSince s0.src.versions.length s.src.versions x)
    {cs1 cs2 : List RegCmd} {ref : SourceRef} {i : Nat} {cfg : Nat → CacheConfig (GoRec GoTime)} {h : Nat → List (Op (GoRec GoTime))}
    (hc : Collects k cs1 cs2 ref i cfg h s0.stores)
    (hstale : ∀ e, content vanOps (cfg i) (h i) k.id = some e → OfKind k.id k.tm e.record ∧ Encodable e.record) :
    ∃ h' e, s.stores i = after vanOps (cfg i) h' ∧ content vanOps (cfg i) h' k.id = some e ∧ OfKind k.id k.tm e.record ∧ attrOf e.record x = latest s.src.versions x := by
  by_cases hun : ∀ o, s0.sending = some o → ∀ a m, MockEv.accepted o a m ∉ n0
  · exact C128_changed (before_join h0 hrcv hsub hun) .nil hr hstill (by simpa using hopen) hcr hl hch hc hstale
  · simp only [not_forall, not_not] at hun
    obtain ⟨o, ho, x', m, hacc⟩ := hun
    have hAll := mock_trans h0.mock (sys_mock hr)
    have hu : ∀ a, MockEv.newReceiver k.rcv a ∈ n0 ++ evs.n → a = k.addr := by
      intro a ha
      obtain ⟨y, y1, y2⟩ := ((delInv_run hAll).new _ _).1 ha
      obtain ⟨z, z1, z2⟩ := ((delInv_run hAll).new _ _).1 (List.mem_append_left _ hrcv)
      rw [y1] at z1
      obtain rfl := Option.some.inj z1
      rw [← y2, z2]
    have hsrc := sys_src hr
    rcases until_return h0.mock (pre_start h0) ho hacc hr hu with ⟨h1, _⟩ | ⟨eR, e2, y, sR, rs, msg, q1, q2, q3, q4, q5, q5', q6, q7, q8, rfl⟩
    · rw [hstill.2.1] at h1; cases h1
    have hrR : Sys.Run k s0 { m := eR.m ++ [.sent rs msg], n := eR.n ++ [.ret o none], c := eR.c } sR := by simpa using q1.snoc q5
    have hbR := pre_before h0 hrR q7
    have hjR : Sys.Join k _ _ sR := before_join hbR (List.mem_append_left _ hrcv) (List.mem_append_left _ hsub) (by simp [q6])
    have hopenR : MockEv.closeReceiver k.rcv ∉ n0 ++ (eR.n ++ [.ret o none]) ++ e2.n := by simpa using hopen
    have hcR : Collects k cs1 cs2 ref i cfg h sR.stores := by rw [q7.stores]; exact hc
    obtain ⟨s00, hist, hstart, hrun0⟩ := h0.src
    have hgood := queued_good hstart hrun0
    have hq0 := (C37_updates_in_order hstart.1 (Proofs.Src.Run.toMgr hrun0)).2.2
    obtain ⟨clock, hcol⟩ := (C100_delivered hjR q8 hstill hopenR).2 hcr (C100_no_panic hjR q8 hcR).1
    obtain ⟨_, op, r, rest, msg', _, _, _, c4, _, _⟩ := h0.sending o ho
    have hf := fifo (Proofs.Src.Run.toMgr hsrc)
    rw [hstill.1.2.2.2, List.append_nil, c4] at hf
    have hhe : handled eR.m = [] := by
      rw [List.eq_nil_iff_forall_not_mem]
      intro z hz
      simp only [handled, List.mem_filterMap] at hz
      obtain ⟨ev, h1, h2⟩ := hz
      cases ev with
      | sent rs m' => exact q3 rs m' h1
      | sendFailed rs => exact q4 rs h1
      | skipped rs => exact (hl rs).1 (List.mem_append_left _ h1)
      | sendPanicked rs => exact (hl rs).2.2 (List.mem_append_left _ h1)
      | _ => cases h2
    have hha : handled (eR.m ++ .sent rs msg :: e2.m) = rs :: handled e2.m := by
      rw [show handled (eR.m ++ .sent rs msg :: e2.m) = handled eR.m ++ handled (.sent rs msg :: e2.m) from List.filterMap_append, hhe]; rfl
    simp only [hha, List.cons_append, List.cons.injEq] at hf
    have hpw := sent_handled (Proofs.Src.Run.toMgr (sys_src q8)) fun rs => ⟨fun h => (hl rs).1 (by simp [h]), fun h => (hl rs).2.1 (by simp [h]), fun h => (hl rs).2.2 (by simp [h])⟩
    rw [← hf.2] at hpw
    obtain ⟨d, hd, _, h', e', q⟩ := changed_core hstart hrun0 hsrc hstill.1 hch cs1 cs2 ref hc.plain hc.only cfg hc.key hc.good h hc.hist hstale clock (rss0 := rest) (by
      intro rs hrs r' hr'
      exact hgood r' (List.mem_flatten.2 ⟨rs, by rw [hq0, c4]; simp [hrs], hr'⟩)) hpw
    rw [hcR.disp] at hd
    obtain rfl := Option.some.inj hd
    rw [← hcR.world, ← hcR.stores, hcol] at q
    exact ⟨h', e', q⟩

/-- **C128 (after a lost connection).** A collector has lost its connection any number of times and missed anything: of what changes after the receiver it has now was subscribed, it has the
latest values once all is quiet, if nothing is lost any more.  No flush is needed. -/
theorem C128_relinked {k : SysCfg} {n0 : List MockEv} {c0 : List ClEv} {s0 s1 s : Sys} {evs1 evs2 : SysEv} {r : Nat} (h0 : Sys.Before k n0 c0 s0)
    (hl1 : Sys.Relinked k n0 s0 r evs1 s1) (hsub : MockEv.subscribed r ∈ n0 ++ evs1.n) (hr : Sys.Run (k.on r) s1 evs2 s) (hstill : s.Still (k.on r))
    (hopen : MockEv.closeReceiver r ∉ n0 ++ evs1.n ++ evs2.n) (hcr : s.cl.crashed = false) (hl : Lossless evs2.m) {x : Any}
    (hch : ChangedSince s1.src.versions.length s.src.versions x)
    {cs1 cs2 : List RegCmd} {ref : SourceRef} {i : Nat} {cfg : Nat → CacheConfig (GoRec GoTime)} {h : Nat → List (Op (GoRec GoTime))}
    (hc : Collects k cs1 cs2 ref i cfg h s0.stores)
    (hstale : ∀ e, content vanOps (cfg i) (h i) k.id = some e → OfKind k.id k.tm e.record ∧ Encodable e.record) :
    ∃ h' e, s.stores i = after vanOps (cfg i) h' ∧ content vanOps (cfg i) h' k.id = some e ∧ OfKind k.id k.tm e.record ∧ attrOf e.record x = latest s.src.versions x := by
  obtain ⟨b, e1, e2, hb, rfl, hsrc, hB, hR, hua, hC, hS, _⟩ := (life_run h0 hc hstale hl1).life
  have hm : Mock.Run {} (n0 ++ e1.n ++ e2.n) s1.mock := mock_trans hB.mock (sys_mock hR)
  simp only [← List.append_assoc] at hsub hopen
  have hrcv : MockEv.newReceiver r k.addr ∈ n0 ++ e1.n ++ e2.n := by
    have hD := delInv_run hm
    have hlt := hD.dom r 0 (.inr (.inl hsub))
    have hx : s1.mock.rcvs[r]? = some s1.mock.rcvs[r] := by simp [hlt]
    have := (hD.new r _).2 ⟨_, hx, rfl⟩
    have he := hua _ this
    rwa [he] at this
  rcases join_split hB hR hua with hp | ⟨f1, f2, sJ, j1, j2, j3, j4, rfl⟩
  · exact C128_before (k := k.on r) (pre_before hB hR hp) hrcv hsub hr hstill hopen hcr hl hch (h := hb) (collects_on.2 (by rw [hp.stores]; exact hC)) hS
  · refine C128_changed (k := k.on r) j3 j4 hr hstill ?_ hcr hl hch (h := hb) (collects_on.2 (by rw [j2]; exact hC)) hS
    simpa [SysCfg.on, List.append_assoc] using hopen

/-! ## An instance -/

/-- The source renames its host after the collector has another receiver; the collector has missed everything before, and nobody asks for a flush. -/
theorem renamed_example : ∃ (evs : SysEv) (s : Sys), Sys.Run (lateCfg.on 3) back1 evs s ∧ s.Still (lateCfg.on 3) ∧ MockEv.closeReceiver 3 ∉ evs.n ∧ s.cl.crashed = false ∧ Lossless evs.m ∧
    MgrEv.flushReceived ∉ evs.m ∧ s.src.versions = [hostRec "h1" "x", hostRec "h1" "y"] := by
  have hm := mock_trans disc1_join.mock (relinked_mock back_relinked)
  have hb : Sys.Join (lateCfg.on 3) (discEvs ++ [.step 0, .subscribed 0] ++ [.closeReceiver 0, .newReceiver 3 "mc/sfe.c1", .step 3, .subscribed 3]) discClEvs back1 :=
    ⟨late_src, hm, by decide, by decide, rfl, by intro o i m; simp [discEvs], disc_cl, ⟨{ pc := .receiving }, rfl, Or.inr (Or.inl rfl)⟩, by decide, (by intro o h; cases h), rfl⟩
  have hc : Collects (lateCfg.on 3) hostReg [] exSrc 0 (fun _ => exCfg) (fun _ => []) back1.stores := collects_on.2 late0_collects
  obtain ⟨d3, hd3⟩ : ∃ d, diffBatch [{ prev := hostRec "h1" "x", curr := hostRec "h1" "y" }] = .ok [d] := ⟨_, rfl⟩
  obtain ⟨m3, e3⟩ : ∃ m, RecordMsg.encode vanRegistry { records := [d3] } = .ok m := by
    have : diffBatch [{ prev := hostRec "h1" "x", curr := hostRec "h1" "y" }] = .ok [_] := rfl
    obtain rfl := List.singleton_inj.1 (Res.ok.inj (hd3.symm.trans this))
    exact ⟨_, rfl⟩
  have r0 : Sys.Run (lateCfg.on 3) back1 {} back1 := .nil
  have r1 := r0.snoc (.source (.write (.storeOp 0 (.update (hostEntry "h1" "y" "r1") none t0)) (r := hostRec "h1" "y") ⟨hostRec_good _ _, rfl, rfl⟩ rfl
    (back_holds "y" _ ((hostEntry "h1" "y" "r1").stamp t0) rfl rfl)) (by simp) (by simp))
  have r2 := r1.snoc (.source (.publish rfl (.publish { prev := hostRec "h1" "x", curr := hostRec "h1" "y" } (show 0 < 256 by decide))) (by simp) (by simp))
  have r3 := r2.snoc (.source (.mgr (by simp) (by simp) (.take rfl rfl)) (by simp) (by simp))
  have r4 := r3.snoc (.source (.mgr (by simp) (by simp) (.diff rfl hd3)) (by simp) (by simp))
  have r5 := r4.snoc (.source (.mgr (by simp) (by simp) (.queueUpdate (msg := [d3]) rfl (show 0 < 256 by decide))) (by simp) (by simp))
  have r6t := r5.snoc (.source (.mgr (by simp) (by simp) (.takeMsg rfl (List.cons_ne_nil _ _))) (by simp) (by simp))
  have r6 := r6t.snoc (.send (o := 0) rfl rfl e3 (.call (i := 0) (x := { addr := "mc/sfe.c1" }) 0 none rfl) rfl)
  have r7 := r6.snoc (.router (.startGo (o := 0) rfl rfl rfl rfl rfl) (by simp) (by simp) (by simp))
  have r8 := r7.snoc (.router (.get (o := 0) rfl rfl) (by simp) (by simp) (by simp))
  have r9 := r8.snoc (.router (.lock (o := 0) (mc := 1) rfl rfl rfl rfl (List.cons_ne_nil _ _)) (by simp) (by simp) (by simp))
  have r10 := r9.snoc (.router (.offer (o := 0) rfl rfl rfl rfl) (by simp) (by simp) (by simp))
  have r11 := r10.snoc (.router (.put (o := 0) rfl rfl rfl (show 0 < 256 by decide)) (by simp) (by simp) (by simp))
  have s1 := r11.snoc (.router (.skip (o := 0) rfl rfl rfl rfl) (by simp) (by simp) (by simp))
  have s2 := s1.snoc (.router (.offer (o := 0) rfl rfl rfl rfl) (by simp) (by simp) (by simp))
  have s3 := s2.snoc (.router (.put (o := 0) rfl rfl rfl (show 0 < 256 by decide)) (by simp) (by simp) (by simp))
  have r12 := s3.snoc (.sent (o := 0) rfl (.finish rfl rfl) (.mgr (by simp) (by simp) (.send rfl e3 rfl)))
  have r13 := r12.snoc (.next (m := 0) rfl rfl (.recv (r := 3) rfl rfl rfl) rfl (.deliver (l := 0) _ rfl rfl))
  obtain ⟨rm, hrm⟩ := (C100_no_panic hb r13 hc).2 m3 (by simp [deliveredTo, lateCfg, sysCfg, SysCfg.on])
  have r14 := r13.snoc (.client rfl rfl (.decoded (l := 0) rfl rfl hrm) (by simp) (by simp) (by simp) (by simp))
  have r15 := r14.snoc (.client rfl rfl (.fetch (l := 0) rfl rfl rfl) (by simp) (by simp) (by simp) (by simp))
  cases hd : (lateCfg.world.dispatch vanOps lateCfg.disp (rm.records.zipIdx.map fun p => (p.1, (fun _ => t0) p.2)) (fun _ => after vanOps exCfg [])) with
  | mk st po =>
  cases po with
  | some p =>
    have := (C100_no_panic hb (r15.snoc (.dispatchPanic (fun _ => t0) rfl rfl (.call (l := 0) rfl rfl) hd)) hc).1
    cases this
  | none =>
  have r17 := r15.snoc (.dispatch (fun _ => t0) rfl rfl (.call (l := 0) rfl rfl) hd)
  have r16 := r17.snoc (.client rfl rfl (.call (l := 0) (h := 3) rfl rfl) (by simp) (by simp) (by simp [lateCfg, sysCfg, SysCfg.on]) (by simp))
  have r18 := r16.snoc (.client rfl rfl (.again (l := 0) rfl rfl) (by simp) (by simp) (by simp) (by simp))
  refine ⟨_, _, r18, ⟨⟨rfl, rfl, rfl, rfl⟩, rfl, ?_, _, rfl, rfl⟩, by simp, rfl, by intro rs; simp, by simp, rfl⟩
  intro x hx
  cases hx
  rfl

/-- Instance of `C128_relinked`: the collector, which knew nothing of the host, has its new name. -/
example : ∃ evs s, Sys.Run (lateCfg.on 3) back1 evs s ∧ MgrEv.flushReceived ∉ evs.m ∧ ∃ h' e, s.stores 0 = after vanOps exCfg h' ∧ content vanOps exCfg h' "h1" = some e ∧
    attrOf e.record (.u32 30) = some (.str "y") := by
  obtain ⟨evs, s, hr, hs, ho, hc, hl, hf, hv⟩ := renamed_example
  obtain ⟨h', e, g1, g2, _, g3⟩ := C128_relinked (x := .u32 30) (join_before disc1_join) back_relinked (by simp) hr hs (by simp [ho, discEvs]) hc hl
    ⟨[hostRec "h1" "x"], hostRec "h1" "y", [], .str "y", hv, Nat.le_refl _, rfl, by
      intro w hw
      obtain rfl := Option.some.inj hw
      have : attrOf (hostRec "h1" "x") (.u32 30) = some (.str "x") := rfl
      show attrOf (hostRec "h1" "x") (.u32 30) ≠ _
      rw [this]; simp⟩ late0_collects (by intro e he; cases he)
  refine ⟨evs, s, hr, hf, h', e, g1, g2, g3.trans ?_⟩
  rw [hv]; rfl

end Verif.Props
