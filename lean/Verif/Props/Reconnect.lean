import Verif.Spec.Reconnect
import Verif.Props.FirstFlush
import Verif.Props.Sound

/-! # C114: a collector that loses its connection and gets another -/
namespace Verif.Props
open Verif Verif.Model Verif.Spec Verif.Proofs

/-! ## What does not depend on the receiver -/

/-- The calls of Send to the address. -/
structure SendInv (k : SysCfg) (s : Sys) : Prop where
  current : ∀ o, s.sending = some o → Sys.Underway k s o
  others : ∀ (o : Nat) (op : MSend), s.mock.ops[o]? = some op → op.addr = k.addr → s.sending ≠ some o → ∃ r, op.pc = .done r

theorem send_step {k : SysCfg} {s s' : Sys} {ev : SysEv} (h : SendInv k s) (hs : Sys.Step k s ev s') : SendInv k s' := by
  have others : ∀ {mev : MockEv} {mock : Mock}, Mock.Step s.mock mev mock → (∀ o i m, mev ≠ .call o i k.addr m) → ∀ (o : Nat) (op : MSend), mock.ops[o]? = some op → op.addr = k.addr →
      s.sending ≠ some o → ∃ r, op.pc = .done r := by
    intro mev mock hstep hcall o y hy ha hne
    rcases (ops_step hstep).back o y hy with ⟨op, b1, b2, _, b4, _⟩ | ⟨i, b, _, _⟩
    · have := h.others o op b1 (by rw [← b2]; exact ha) hne
      rw [b4 this]; exact this
    · rw [ha] at b
      exact absurd b (hcall o i _)
  have current : ∀ {mev : MockEv} {mock : Mock} {o : Nat}, Mock.Step s.mock mev mock → s.sending = some o → (∀ r, mev ≠ .ret o r) → Sys.Underway k { s with mock := mock } o := by
    intro mev mock o hstep ho hret
    obtain ⟨hb, op, records, rest, msg, g1, g2, g3, g4, g5, g6⟩ := h.current o ho
    obtain ⟨op', k1, k2, k3⟩ := (ops_step hstep).keep o op g1
    refine ⟨hb, op', records, rest, msg, k1, by rw [k2]; exact g2, fun r hd => ?_, g4, g5, by rw [k3]; exact g6⟩
    rcases (ops_step hstep).back o op' k1 with ⟨op2, b1, _, _, _, b5⟩ | ⟨i, _, b2, _⟩
    · rw [g1] at b1
      obtain rfl := Option.some.inj b1
      rcases b5 ⟨r, hd⟩ with ⟨r', hd'⟩ | ⟨r', hd'⟩
      · exact g3 r' hd'
      · exact hret r' hd'
    · rw [b2] at hd; cases hd
  have retd : ∀ {o : Nat} {r : Option GoErr} {mock : Mock}, s.sending = some o → Mock.Step s.mock (.ret o r) mock → ∀ (o : Nat) (op : MSend), mock.ops[o]? = some op → op.addr = k.addr → ∃ r, op.pc = .done r := by
    intro o r mock h1 h2 o' y hy ha
    by_cases e : o' = o
    · subst e
      obtain ⟨op', e1, e2⟩ := (ops_step h2).ret _ _ rfl
      rw [hy] at e1
      obtain rfl := Option.some.inj e1
      exact ⟨_, e2⟩
    · exact others h2 (by simp) o' y hy ha (by rw [h1]; simpa using Ne.symm e)
  cases hs with
  | @source mev src h1 h2 h3 =>
    refine ⟨fun o ho => ?_, h.others⟩
    obtain ⟨hb, op, records, rest, msg, g1, g2, g3, g4, g5, g6⟩ := h.current o ho
    obtain ⟨rest', g⟩ := src_head_kept h1 g4 g5 h2 h3
    refine ⟨?_, op, records, rest', msg, g1, g2, g3, g, g5, g6⟩
    cases h1 with
    | mint => exact hb
    | write h | storeOther h => exact busy_kept h hb g4 g5 (by simp) (by simp)
    | publish _ h | publishOther _ _ h => exact busy_kept h hb g4 g5 (by simp) (by simp)
    | mgr _ _ h => exact busy_kept h hb g4 g5 (fun rs m e => h2 rs m (by rw [e])) (fun rs e => h3 rs (by rw [e]))
  | @send records rest msg mock o h1 h2 h3 h4 h5 =>
    obtain ⟨op', a1, a2, a3, a4⟩ := (ops_step h4).call _ _ _ _ rfl
    refine ⟨fun o' ho' => ?_, fun o' y hy ha hne => ?_⟩
    · cases ho'
      exact ⟨h5, op', records, rest, msg, a1, a2, by rw [a4]; simp, h2, h3, by rw [a3]; simp⟩
    · rcases (ops_step h4).back o' y hy with ⟨op, b1, b2, _, b4, _⟩ | ⟨i, b, _, _⟩
      · have := h.others o' op b1 (by rw [← b2]; exact ha) (by rw [h1]; simp)
        rw [b4 this]; exact this
      · rw [MockEv.call.injEq] at b
        exact absurd (by rw [b.1]) hne
  | sent h1 h2 h3 => exact ⟨(by intro o ho; cases ho), fun o op ho ha _ => retd h1 h2 o op ho ha⟩
  | sendFailed h1 h2 h3 => exact ⟨(by intro o ho; cases ho), fun o op ho ha _ => retd h1 h2 o op ho ha⟩
  | @router mev mock h1 h2 h3 h4 => exact ⟨fun o ho => current h1 ho fun r => h3 o r ho, others h1 h4⟩
  | @next m msg mock cl h1 h2 h3 h4 h5 =>
    exact ⟨fun o ho => ⟨(current h3 ho (by simp)).busy, (current h3 ho (by simp)).call⟩, others h3 (by simp)⟩
  | client | dispatch | dispatchPanic => exact ⟨fun o ho => ⟨(h.current o ho).busy, (h.current o ho).call⟩, h.others⟩

theorem send_run {k : SysCfg} {s s' : Sys} {evs : SysEv} (h : SendInv k s) (hr : Sys.Run k s evs s') : SendInv k s' := by
  induction hr with
  | nil => exact h
  | snoc _ hs ih => exact send_step ih hs

theorem send_start {k : SysCfg} {n0 : List MockEv} {c0 : List ClEv} {s0 : Sys} (h0 : Sys.Before k n0 c0 s0) : SendInv k s0 :=
  ⟨(pre_start h0).current, (pre_start h0).others⟩

theorem registered_step {k : SysCfg} {s s' : Sys} {ev : SysEv} (h : s.cl.recordHandlers.count k.hnd = 1) (hs : Sys.Step k s ev s') : s'.cl.recordHandlers.count k.hnd = 1 := by
  cases hs with
  | source | send | sent | sendFailed | router => exact h
  | next h1 h2 h3 h4 h5 => rw [handlers_step h5 (by simp)]; exact h
  | client h1 h2 h3 h4 h5 => rw [handlers_step h3 h5]; exact h
  | dispatch _ h1 h2 h3 | dispatchPanic _ h1 h2 h3 => rw [handlers_step h3 (by simp)]; exact h

theorem registered_run {k : SysCfg} {s s' : Sys} {evs : SysEv} (h : s.cl.recordHandlers.count k.hnd = 1) (hr : Sys.Run k s evs s') : s'.cl.recordHandlers.count k.hnd = 1 := by
  induction hr with
  | nil => exact h
  | snoc _ hs ih => exact registered_step ih hs

theorem unsent_new {r : Nat} {a : String} {n : List MockEv} {s : Mock} (hm : Mock.Run {} n s) (hn : ∀ a, MockEv.newReceiver r a ∉ n) : sentAfter r a n = [] := by
  refine sentAfter_unsub fun hsub => ?_
  have hD := delInv_run hm
  have hlt := hD.dom r 0 (.inr (.inl hsub))
  have hx : s.rcvs[r]? = some s.rcvs[r] := by simp [hlt]
  exact hn _ ((hD.new r _).2 ⟨_, hx, rfl⟩)

/-! ## The stores when the connection is lost -/

/-- What was there is an entry of the record. -/
def Stale (k : SysCfg) (cfg : CacheConfig (GoRec GoTime)) (h : List (Op (GoRec GoTime))) : Prop :=
  ∀ e, content vanOps cfg h k.id = some e → OfKind k.id k.tm e.record ∧ Encodable e.record

theorem collects_run {k : SysCfg} {n0 : List MockEv} {c0 : List ClEv} {s0 s : Sys} {evs : SysEv} (h0 : Sys.Join k n0 c0 s0) (hr : Sys.Run k s0 evs s) (hcr : s.cl.crashed = false)
    {cs1 cs2 : List RegCmd} {ref : SourceRef} {i : Nat} {cfg : Nat → CacheConfig (GoRec GoTime)} {h : Nat → List (Op (GoRec GoTime))}
    (hc : Collects k cs1 cs2 ref i cfg h s0.stores) (hstale : Stale k (cfg i) (h i)) : ∃ h', Collects k cs1 cs2 ref i cfg h' s.stores ∧ Stale k (cfg i) (h' i) := by
  obtain ⟨done, pend, clock, hdel, hcol, _⟩ := (coll_run h0 hr).told hcr (C100_no_panic h0 hr hc).1
  obtain ⟨rss, k1, k2⟩ := pointwise_of_all (bs := done) (P := fun rs => ∀ r ∈ rs, GoodRecord vanRegistry r) (R := fun rs m => RecordMsg.encode vanRegistry { records := rs } = .ok m)
    fun m hm => delivered_good h0 hr (by rw [hdel]; exact List.mem_append_left _ hm)
  obtain ⟨L, hL1, hL⟩ := collect_run cs1 cs2 ref hc.plain cfg hc.key hc.good hc.disp clock rss done 0 h hc.hist k1 k2
  rw [← hc.world, ← hc.stores, hcol] at hL
  have hst := congrArg Prod.fst hL
  refine ⟨_, ⟨hc.plain, hc.only, hc.world, hc.disp, hc.key, hc.good, ?_, hst⟩, ?_⟩
  · intro i op hop
    rcases List.mem_append.1 hop with hop | hop
    · exact hc.hist i op hop
    · simp only [routed, List.mem_map, List.mem_filter] at hop
      obtain ⟨p, ⟨hp', _⟩, rfl⟩ := hop
      exact (wire_good hL1 p.1 (List.mem_map_of_mem hp')).1
  · have hinit : ∃ S f0, StoreHas k.id k.tm ref S f0 (after vanOps (cfg i) (h i)) [] := by
      cases hcont : content vanOps (cfg i) (h i) k.id with
      | none => exact ⟨ref, _, Or.inl ⟨rfl, by rw [← content_eq vanOps_lawful]; exact hcont, rfl, rfl⟩⟩
      | some e =>
        obtain ⟨g1, g2⟩ := hstale e hcont
        exact ⟨e.md.source, fun k => attrOf e.record k, Or.inr ⟨e, by rw [← content_eq vanOps_lawful]; exact hcont, g1, rfl, g2, fun k => rfl⟩⟩
    obtain ⟨S, f0, hinit⟩ := hinit
    obtain ⟨d, hd, _, h', rs, h3, hst', _, _⟩ := collector_has cs1 cs2 ref hc.plain hc.only cfg hc.key hc.good h hc.hist hinit clock
      (fun r hr => by obtain ⟨rs, g1, g2⟩ := List.mem_flatten.1 hr; exact k1 rs g1 r g2) k2
    rw [hc.disp] at hd
    obtain rfl := Option.some.inj hd
    rw [← hc.world, ← hc.stores, hcol] at h3
    simp only at h3 hst
    rw [← h3, hst] at hst'
    intro e he
    rw [content_eq vanOps_lawful] at he
    rcases hst' with ⟨_, hn, _⟩ | ⟨e', g1, g2, _, g3, _⟩
    · rw [hn] at he; cases he
    · rw [g1] at he
      obtain rfl := Option.some.inj he
      exact ⟨g2, g3⟩

/-! ## From one receiver to the next -/

theorem collects_on {k : SysCfg} {r : Nat} {cs1 cs2 : List RegCmd} {ref : SourceRef} {i : Nat} {cfg : Nat → CacheConfig (GoRec GoTime)} {h : Nat → List (Op (GoRec GoTime))} {st : Stores (GoRec GoTime)} :
    Collects (k.on r) cs1 cs2 ref i cfg h st ↔ Collects k cs1 cs2 ref i cfg h st :=
  ⟨fun h => ⟨h.1, h.2, h.3, h.4, h.5, h.6, h.7, h.8⟩, fun h => ⟨h.1, h.2, h.3, h.4, h.5, h.6, h.7, h.8⟩⟩

/-- Every attribute of the record that the store shows is one of a version, or was there at first. -/
def Shows (k : SysCfg) (cfg : CacheConfig (GoRec GoTime)) (h : List (Op (GoRec GoTime))) (old : Any → Any → Prop) (vs : List (GoRec GoTime)) : Prop :=
  ∀ e, content vanOps cfg h k.id = some e → ∀ x y, attrOf e.record x = some y → (∃ v ∈ vs, attrOf v x = some y) ∨ old x y

/-- The current receiver: what came before it is as for a collector that joins. -/
structure LifeInv (k : SysCfg) (n0 : List MockEv) (c0 : List ClEv) (s0 : Sys) (cs1 cs2 : List RegCmd) (ref : SourceRef) (i : Nat) (cfg : Nat → CacheConfig (GoRec GoTime))
    (old : Any → Any → Prop) (r : Nat) (evs : SysEv) (s : Sys) : Prop where
  life : ∃ (b : Sys) (e1 e2 : SysEv) (h : Nat → List (Op (GoRec GoTime))), evs = { m := e1.m ++ e2.m, n := e1.n ++ e2.n, c := e1.c ++ e2.c } ∧
    Src.Run k.mgr k.id k.tm s0.src e1.m b.src ∧ Sys.Before (k.on r) (n0 ++ e1.n) (c0 ++ e1.c) b ∧ Sys.Run (k.on r) b e2 s ∧
    (∀ a, MockEv.newReceiver r a ∈ n0 ++ e1.n ++ e2.n → a = k.addr) ∧ Collects k cs1 cs2 ref i cfg h b.stores ∧ Stale k (cfg i) (h i) ∧ Shows k (cfg i) (h i) old b.src.versions

theorem versions_run {cfg : MgrConfig} {id : String} {tm : TypeMeta} {a b : Src} {evs : List MgrEv} (hr : Src.Run cfg id tm a evs b) : ∀ v ∈ a.versions, v ∈ b.versions := by
  induction hr with
  | nil => exact fun _ h => h
  | snoc _ hs ih => exact fun v hv => versions_kept hs v (ih v hv)

theorem shows_of_content {k : SysCfg} {cfg : CacheConfig (GoRec GoTime)} {h h' : List (Op (GoRec GoTime))} {old : Any → Any → Prop} {vs : List (GoRec GoTime)}
    (he : after vanOps cfg h = after vanOps cfg h') (hs : Shows k cfg h old vs) : Shows k cfg h' old vs := by
  intro e hc
  refine hs e ?_
  rw [content_eq vanOps_lawful] at hc ⊢
  rw [he]; exact hc

/-- Within one life. -/
theorem shows_run {k : SysCfg} {n0 : List MockEv} {c0 : List ClEv} {b s : Sys} {evs : SysEv} {cs1 cs2 : List RegCmd} {ref : SourceRef} {i : Nat}
    {cfg : Nat → CacheConfig (GoRec GoTime)} {h h' : Nat → List (Op (GoRec GoTime))} {old : Any → Any → Prop} (hB : Sys.Before k n0 c0 b) (hR : Sys.Run k b evs s)
    (hua : ∀ a, MockEv.newReceiver k.rcv a ∈ n0 ++ evs.n → a = k.addr) (hcr : s.cl.crashed = false) (hC : Collects k cs1 cs2 ref i cfg h b.stores) (hS : Stale k (cfg i) (h i))
    (hW : Shows k (cfg i) (h i) old b.src.versions) (hs : s.stores i = after vanOps (cfg i) (h' i)) : Shows k (cfg i) (h' i) old s.src.versions := by
  have hst : b.stores i = after vanOps (cfg i) (h i) := congrFun hC.stores i
  have up : Shows k (cfg i) (h i) old s.src.versions := fun e he x y hx => by
    rcases hW e he x y hx with ⟨v, g1, g2⟩ | g
    · exact .inl ⟨v, versions_run (sys_src hR) v g1, g2⟩
    · exact .inr g
  rcases join_split hB hR hua with hp | ⟨f1, f2, sJ, j1, j2, j3, j4, rfl⟩
  · exact shows_of_content (by rw [← hst, ← hs, hp.stores]) up
  · obtain ⟨h'', g1, g2⟩ := C105_honest j3 j4 hcr (i := i) (cfg := cfg) (h := h) (by rw [j2]; exact hC) hS
    refine shows_of_content (h := h'') (by rw [← g1, hs]) fun e he x y hx => ?_
    rcases (g2 e he).2 x y hx with g | ⟨e0, q1, q2⟩
    · exact .inl g
    · exact up e0 q1 x y q2

theorem life_run {k : SysCfg} {n0 : List MockEv} {c0 : List ClEv} {s0 s : Sys} {evs : SysEv} {r : Nat} {cs1 cs2 : List RegCmd} {ref : SourceRef} {i : Nat}
    {cfg : Nat → CacheConfig (GoRec GoTime)} {h : Nat → List (Op (GoRec GoTime))} (h0 : Sys.Before k n0 c0 s0) (hc : Collects k cs1 cs2 ref i cfg h s0.stores)
    (hstale : Stale k (cfg i) (h i)) (hr : Sys.Relinked k n0 s0 r evs s) : LifeInv k n0 c0 s0 cs1 cs2 ref i cfg (fun x y => ∃ e0, content vanOps (cfg i) (h i) k.id = some e0 ∧ attrOf e0.record x = some y) r evs s := by
  induction hr with
  | @first s evs hr hu => exact ⟨s0, {}, evs, h, by simp, .nil, by simpa [SysCfg.on] using h0, hr, by simpa using hu, hc, hstale, fun e he x y hx => .inr ⟨e, he, hx⟩⟩
  | @again s s' evs evs' r r' _ hcr hlst hnew hr hu ih =>
    obtain ⟨b, e1, e2, hb, rfl, hmgr, hB, hR, hua, hC, hS, hW⟩ := ih.life
    have hm : Mock.Run {} (n0 ++ e1.n ++ e2.n) s.mock := mock_trans hB.mock (sys_mock hR)
    have hinv := send_run (send_start hB) hR
    have hsrc : Src.Run k.mgr k.id k.tm b.src e2.m s.src := sys_src (k := k.on r) hR
    obtain ⟨s1, ev1, q1, q2⟩ := hB.src
    have hC' : (∃ h', Collects k cs1 cs2 ref i cfg h' s.stores ∧ Stale k (cfg i) (h' i)) ∧ s.ended = false := by
      rcases join_split hB hR hua with hp | ⟨f1, f2, sJ, j1, j2, j3, j4, rfl⟩
      · exact ⟨⟨hb, by rw [hp.stores]; exact hC, hS⟩, hp.ended⟩
      · have hCJ : Collects (k.on r) cs1 cs2 ref i cfg hb sJ.stores := by rw [j2]; exact collects_on.2 hC
        obtain ⟨h', g1, g2⟩ := collects_run j3 j4 hcr hCJ hS
        exact ⟨⟨h', collects_on.1 g1, g2⟩, (C100_no_panic j3 j4 hCJ).1⟩
    obtain ⟨⟨h', g1, g2⟩, hend⟩ := hC'
    refine ⟨s, _, evs', h', rfl, ?_, ?_, hr, ?_, g1, g2, shows_run (k := k.on r) hB hR hua hcr (collects_on.2 hC) hS hW (congrFun g1.stores i)⟩
    · exact src_trans hmgr hsrc
    · refine ⟨⟨s1, _, q1, src_trans q2 hsrc⟩, by simpa [List.append_assoc] using hm, ?_, ?_, by simpa [List.append_assoc] using client_trans hB.cl (sys_client hR), ?_, registered_run (k := k.on r) hB.registered hR, ?_, hend⟩
      · exact unsent_new (by simpa [List.append_assoc] using hm) hnew
      · intro o i m hcall hne
        simp only [← List.append_assoc] at hcall ⊢
        obtain ⟨op, h1, h2⟩ := call_op hm hcall
        obtain ⟨r, hr⟩ := hinv.others o op h1 h2 hne
        exact ⟨r, done_ret hm o op r h1 hr⟩
      · obtain ⟨x, hx, hp⟩ := hlst
        exact ⟨x, hx, .inr (.inl hp)⟩
      · intro o ho
        exact ⟨(hinv.current o ho).busy, (hinv.current o ho).call⟩
    · intro a ha
      rcases List.mem_append.1 ha with ha | ha
      · exact absurd ha (hnew a)
      · exact hu a ha

/-- The collector's stores at any time. -/
theorem relinked_stores {k : SysCfg} {n0 : List MockEv} {c0 : List ClEv} {s0 s : Sys} {evs : SysEv} {r : Nat} {cs1 cs2 : List RegCmd} {ref : SourceRef} {i : Nat}
    {cfg : Nat → CacheConfig (GoRec GoTime)} {h : Nat → List (Op (GoRec GoTime))} (h0 : Sys.Before k n0 c0 s0) (hr : Sys.Relinked k n0 s0 r evs s) (hcr : s.cl.crashed = false)
    (hc : Collects k cs1 cs2 ref i cfg h s0.stores) (hstale : Stale k (cfg i) (h i)) :
    s.ended = false ∧ ∃ h', Collects k cs1 cs2 ref i cfg h' s.stores ∧ Stale k (cfg i) (h' i) ∧
      Shows k (cfg i) (h' i) (fun x y => ∃ e0, content vanOps (cfg i) (h i) k.id = some e0 ∧ attrOf e0.record x = some y) s.src.versions := by
  obtain ⟨b, e1, e2, hb, rfl, hsrc, hB, hR, hua, hC, hS, hW⟩ := (life_run h0 hc hstale hr).life
  rcases join_split hB hR hua with hp | ⟨f1, f2, sJ, j1, j2, j3, j4, rfl⟩
  · have hC' : Collects k cs1 cs2 ref i cfg hb s.stores := by rw [hp.stores]; exact hC
    exact ⟨hp.ended, hb, hC', hS, shows_run (k := k.on r) hB hR hua hcr (collects_on.2 hC) hS hW (congrFun hC'.stores i)⟩
  · have hCJ : Collects (k.on r) cs1 cs2 ref i cfg hb sJ.stores := by rw [j2]; exact collects_on.2 hC
    obtain ⟨h', g1, g2⟩ := collects_run j3 j4 hcr hCJ hS
    exact ⟨(C100_no_panic j3 j4 hCJ).1, h', collects_on.1 g1, g2, shows_run (k := k.on r) hB hR hua hcr (collects_on.2 hC) hS hW (congrFun g1.stores i)⟩

/-- **C114 (nothing made up).** However often the connection is lost and whatever is missed: the dispatcher does not panic, and every attribute of the record that the collector's store shows is
one of a version of the source, or one the collector had at first. -/
theorem C114_honest {k : SysCfg} {n0 : List MockEv} {c0 : List ClEv} {s0 s : Sys} {evs : SysEv} {r : Nat} (h0 : Sys.Before k n0 c0 s0) (hr : Sys.Relinked k n0 s0 r evs s)
    (hcr : s.cl.crashed = false) {cs1 cs2 : List RegCmd} {ref : SourceRef} {i : Nat} {cfg : Nat → CacheConfig (GoRec GoTime)} {h : Nat → List (Op (GoRec GoTime))}
    (hc : Collects k cs1 cs2 ref i cfg h s0.stores)
    (hstale : ∀ e, content vanOps (cfg i) (h i) k.id = some e → OfKind k.id k.tm e.record ∧ Encodable e.record) :
    s.ended = false ∧ ∃ h', s.stores i = after vanOps (cfg i) h' ∧ ∀ e, content vanOps (cfg i) h' k.id = some e → OfKind k.id k.tm e.record ∧ ∀ x y, attrOf e.record x = some y →
      (∃ v ∈ s.src.versions, attrOf v x = some y) ∨ ∃ e0, content vanOps (cfg i) (h i) k.id = some e0 ∧ attrOf e0.record x = some y := by
  obtain ⟨h1, h', h2, h3, h4⟩ := relinked_stores h0 hr hcr hc hstale
  exact ⟨h1, h' i, congrFun h2.stores i, fun e he => ⟨(h3 e he).1, h4 e he⟩⟩

/-- **C114 (partial).** A collector that has lost its connection any number of times, whatever it missed: if a flush message arrives at the manager after the receiver it has now was
subscribed, and from there on nothing is lost, then once all is quiet the collector's store has an entry of the record with every attribute of its last version.  As in `C104_resync` the record
stays in one of the manager's stores and no key before it goes away. -/
theorem C114_resync_partial {k : SysCfg} {n0 : List MockEv} {c0 : List ClEv} {s0 s1 s : Sys} {evs1 evs2 : SysEv} {r : Nat} (h0 : Sys.Before k n0 c0 s0)
    (hl1 : Sys.Relinked k n0 s0 r evs1 s1) (hsub : MockEv.subscribed r ∈ n0 ++ evs1.n) (hr : Sys.Run (k.on r) s1 evs2 s) (hstill : s.Still (k.on r))
    (hfq : s.src.mgr.flushQueue = 0) (hopen : MockEv.closeReceiver r ∉ n0 ++ evs1.n ++ evs2.n) (hcr : s.cl.crashed = false)
    {pre post : List MgrEv} (hev : evs2.m = pre ++ .flushReceived :: post) (hl : Lossless post)
    {j : Nat} (hj : j < k.mgr.numStores) {c : CacheConfig (GoRec GoTime)} {hj0 : List (Op (GoRec GoTime))} (hst : s0.src.mgr.stores j = after vanOps c hj0) {key : String}
    (hstay : Stays c (hj0 ++ opsOn j (evs1.m ++ pre)) j key (fun e => Mine k.id k.tm e.record) post) {v : GoRec GoTime} (hv : s.src.versions.getLast? = some v)
    {cs1 cs2 : List RegCmd} {ref : SourceRef} {i : Nat} {cfg : Nat → CacheConfig (GoRec GoTime)} {h : Nat → List (Op (GoRec GoTime))}
    (hc : Collects k cs1 cs2 ref i cfg h s0.stores)
    (hstale : ∀ e, content vanOps (cfg i) (h i) k.id = some e → OfKind k.id k.tm e.record ∧ Encodable e.record) :
    ∃ h' e, s.stores i = after vanOps (cfg i) h' ∧ content vanOps (cfg i) h' k.id = some e ∧ OfKind k.id k.tm e.record ∧
      ∀ x y, attrOf v x = some y → attrOf e.record x = some y := by
  obtain ⟨b, e1, e2, hb, rfl, hsrc, hB, hR, hua, hC, hS, _⟩ := (life_run h0 hc hstale hl1).life
  have hm : Mock.Run {} (n0 ++ e1.n ++ e2.n) s1.mock := mock_trans hB.mock (sys_mock hR)
  simp only [← List.append_assoc] at hsub hopen hstay
  -- the receiver is one for the address
  have hrcv : MockEv.newReceiver r k.addr ∈ n0 ++ e1.n ++ e2.n := by
    have hD := delInv_run hm
    have hlt := hD.dom r 0 (.inr (.inl hsub))
    have hx : s1.mock.rcvs[r]? = some s1.mock.rcvs[r] := by simp [hlt]
    have := (hD.new r _).2 ⟨_, hx, rfl⟩
    have he := hua _ this
    rwa [he] at this
  have hopsOn : ∀ a b : List MgrEv, opsOn j (a ++ b) = opsOn j a ++ opsOn j b := fun a b => by simp [opsOn]
  have hstJ : ∀ {t : Src} {ev : List MgrEv}, Src.Run k.mgr k.id k.tm s0.src ev t → t.mgr.stores j = after vanOps c (hj0 ++ opsOn j ev) := fun h => stores_run (Proofs.Src.Run.toMgr h) hst
  rcases join_split hB hR hua with hp | ⟨f1, f2, sJ, j1, j2, j3, j4, rfl⟩
  · have hB1 := pre_before hB hR hp
    refine C104_before (k := k.on r) hB1 hrcv hsub hr hstill hfq hopen hcr hev hl hj (hstJ (src_trans hsrc (sys_src (k := k.on r) hR))) (key := key) ?_ hv (h := hb) (collects_on.2 (by rw [hp.stores]; exact hC)) hS
    simpa [SysCfg.on, hopsOn, List.append_assoc] using hstay
  · have hrJ : Sys.Run (k.on r) sJ _ s := sys_trans j4 hr
    have hsrcJ : Src.Run k.mgr k.id k.tm b.src f1.m sJ.src := sys_src (k := k.on r) j1
    refine C104_resync (k := k.on r) (pre := f2.m ++ pre) (post := post) j3 hrJ hstill hfq ?_ hcr (by simp [hev]) hl hj (hstJ (src_trans hsrc hsrcJ)) (key := key) ?_ hv (h := hb) (collects_on.2 (by rw [j2]; exact hC)) hS
    · simpa [SysCfg.on, List.append_assoc] using hopen
    · simpa [SysCfg.on, hopsOn, List.append_assoc] using hstay

theorem relinked_mock {k : SysCfg} {n0 : List MockEv} {s0 s : Sys} {r : Nat} {evs : SysEv} (h : Sys.Relinked k n0 s0 r evs s) : Mock.Run s0.mock evs.n s.mock := by
  induction h with
  | first hr => exact sys_mock hr
  | again _ _ _ _ hr _ ih => exact mock_trans ih (sys_mock hr)

/-! ## Instances -/

/-- The receiver 2 is that of another collector. -/
def lost0 : Sys := { sys0 with mock := discMock1, cl := discClient }

theorem lost0_start : Sys.Start sysCfg (discEvs ++ [.step 0, .subscribed 0]) discClEvs lost0 :=
  ⟨exStart, disc1_join.mock, by decide, by decide, by intro o i m; simp [discEvs, sysCfg], disc_cl, ⟨{ pc := .receiving }, rfl, Or.inr (Or.inl rfl)⟩, rfl, by decide, rfl, rfl, rfl⟩

/-- The first version of the host has arrived. -/
def lost1 (st : Stores (GoRec GoTime)) (msg : Msg) : Sys :=
  { src := { mgr := { stores := fun _ => after vanOps exCfg [] }, versions := [hostRec "h1" "x"], pub := 1 }, mock := firstMock, cl := discClient, stores := st, msgs := [msg] }

/-- Then the connection is lost. -/
def lost2 (st : Stores (GoRec GoTime)) (msg : Msg) : Sys := { lost1 st msg with mock := firstMock.setRcv 0 fun y => { y with closed := true } }

theorem lost_first : ∃ evs st msg, Sys.Run sysCfg lost0 evs (lost1 st msg) ∧
    Lossless evs.m ∧ (∀ r, MockEv.closeReceiver r ∉ evs.n) ∧ ∀ a r, MockEv.newReceiver r a ∉ evs.n := by
  have z : ∀ r st, StoresHold 0 "h1" ⟨"flow/v1", "HostRecord"⟩ r st := fun _ _ i hi => absurd hi (Nat.not_lt_zero i)
  have r0 : Sys.Run sysCfg lost0 {} lost0 := .nil
  have r1 := r0.snoc (.source (.mint (r := hostRec "h1" "x") ⟨hostRec_good _ _, rfl, rfl⟩ rfl (z _ _)) (by simp) (by simp))
  have r2 := r1.snoc (.source (.publish rfl (.publish { curr := hostRec "h1" "x" } (by decide))) (by simp) (by simp))
  have r3 := r2.snoc (.source (.mgr (by simp) (by simp) (.take rfl rfl)) (by simp) (by simp))
  have r4 := r3.snoc (.source (.mgr (by simp) (by simp) (.diff rfl rfl)) (by simp) (by simp))
  have r5 := r4.snoc (.source (.mgr (by simp) (by simp) (.queueUpdate rfl (by decide))) (by simp) (by simp))
  have r6t := r5.snoc (.source (.mgr (by simp) (by simp) (.takeMsg rfl (List.cons_ne_nil _ _))) (by simp) (by simp))
  have r6 := r6t.snoc (.send (o := 0) rfl rfl rfl (.call (i := 0) (x := { addr := "mc/sfe.c1" }) 0 none rfl) rfl)
  have r7 := r6.snoc (.router (.startGo (o := 0) rfl rfl rfl rfl rfl) (by simp) (by simp) (by simp))
  have r8 := r7.snoc (.router (.get (o := 0) rfl rfl) (by simp) (by simp) (by simp))
  have r9 := r8.snoc (.router (.lock (o := 0) (mc := 1) rfl rfl rfl rfl (by decide)) (by simp) (by simp) (by simp))
  have r10 := r9.snoc (.router (.offer (o := 0) rfl rfl rfl rfl) (by simp) (by simp) (by simp))
  have r11 := r10.snoc (.router (.put (o := 0) rfl rfl rfl (by decide)) (by simp) (by simp) (by simp))
  have r10' := r11.snoc (.router (.offer (o := 0) rfl rfl rfl rfl) (by simp) (by simp) (by simp))
  have r11' := r10'.snoc (.router (.put (o := 0) rfl rfl rfl (by decide)) (by simp) (by simp) (by simp))
  have r12 := r11'.snoc (.sent (o := 0) rfl (.finish rfl rfl) (.mgr (by simp) (by simp) (.send rfl rfl rfl)))
  have r13 := r12.snoc (.next (m := 0) rfl rfl (.recv (r := 0) rfl rfl rfl) rfl (.deliver (l := 0) _ rfl rfl))
  obtain ⟨rm, hrm⟩ := (C100_no_panic (start_join lost0_start) r13 sys0_collects).2 _ (by simp [deliveredTo, sysCfg]; rfl)
  have r14 := r13.snoc (.client rfl rfl (.decoded (l := 0) rfl rfl hrm) (by simp) (by simp) (by simp) (by simp))
  have r15 := r14.snoc (.client rfl rfl (.fetch (l := 0) rfl rfl rfl) (by simp) (by simp) (by simp) (by simp))
  cases hd : (sysCfg.world.dispatch vanOps sysCfg.disp (rm.records.zipIdx.map fun p => (p.1, (fun _ => t0) p.2)) (fun _ => after vanOps exCfg [])) with
  | mk st po =>
  cases po with
  | some p =>
    have := (C100_no_panic (start_join lost0_start) (r15.snoc (.dispatchPanic (fun _ => t0) rfl rfl (.call (l := 0) rfl rfl) hd)) sys0_collects).1
    cases this
  | none =>
  have r17 := r15.snoc (.dispatch (fun _ => t0) rfl rfl (.call (l := 0) rfl rfl) hd)
  have r16 := r17.snoc (.client rfl rfl (.call (l := 0) (h := 3) rfl rfl) (by simp) (by simp) (by simp [sysCfg]) (by simp))
  have r18 := r16.snoc (.client rfl rfl (.again (l := 0) rfl rfl) (by simp) (by simp) (by simp) (by simp))
  exact ⟨_, st, _, r18, by intro rs; simp, by simp, by simp⟩

/-- **C114 (negation).** A collector gets the first version of a record.  Its connection is lost; the next version is sent — to another collector, and to nobody else; then it has a connection
again.  No message was lost on the side of the manager and all is quiet, but the collector shows the first version, and nobody asks for a flush. -/
theorem C114_counterexample : ∃ (r : Nat) (evs : SysEv) (s : Sys) (v : GoRec GoTime), Sys.Relinked sysCfg (discEvs ++ [.step 0, .subscribed 0]) lost0 r evs s ∧
    MockEv.subscribed r ∈ evs.n ∧ MockEv.closeReceiver r ∉ discEvs ++ [.step 0, .subscribed 0] ++ evs.n ∧ Lossless evs.m ∧ s.Still (sysCfg.on r) ∧ s.cl.crashed = false ∧
    s.src.versions.getLast? = some v ∧ attrOf v (.u32 30) = some (.str "y") ∧
    ∃ h' e, s.stores 0 = after vanOps exCfg h' ∧ content vanOps exCfg h' "h1" = some e ∧ attrOf e.record (.u32 30) = some (.str "x") := by
  obtain ⟨evs0, st, msg, hr0, hl0, hc0, hn0⟩ := lost_first
  have hstill : Sys.Still sysCfg (lost1 st msg) :=
    ⟨⟨rfl, rfl, rfl, rfl⟩, rfl, by intro x hx; cases hx; rfl, _, rfl, rfl⟩
  obtain ⟨h', e, a, g1, g2, _, _, g4, g5, _⟩ := C100_converges lost0_start hr0 hstill (by rw [List.mem_append, not_or]; exact ⟨by decide, hc0 0⟩) rfl hl0 (List.cons_ne_nil _ _) sys0_collects rfl
  have z : ∀ r st, StoresHold 0 "h1" ⟨"flow/v1", "HostRecord"⟩ r st := fun _ _ i hi => absurd hi (Nat.not_lt_zero i)
  have r0 : Sys.Run sysCfg lost0 _ (lost2 st msg) := hr0.snoc (.router (.closeReceiver (r := 0) rfl rfl) (by simp) (by simp) (by simp))
  have f1 : Sys.Relinked sysCfg (discEvs ++ [.step 0, .subscribed 0]) lost0 0 _ _ := .first r0 (by
    intro a ha
    simp [discEvs, hn0, sysCfg] at ha
    exact ha)
  have r1 := (Sys.Run.nil (k := sysCfg.on 3) (s := lost2 st msg)).snoc (.source (.mint (r := hostRec "h1" "y") ⟨hostRec_good _ _, rfl, rfl⟩ rfl (z _ _)) (by simp) (by simp))
  have r2 := r1.snoc (.source (.publish rfl (.publish { prev := hostRec "h1" "x", curr := hostRec "h1" "y" } (show 0 < 256 by decide))) (by simp) (by simp))
  have r3 := r2.snoc (.source (.mgr (by simp) (by simp) (.take rfl rfl)) (by simp) (by simp))
  have r4 := r3.snoc (.source (.mgr (by simp) (by simp) (.diff rfl rfl)) (by simp) (by simp))
  have r5 := r4.snoc (.source (.mgr (by simp) (by simp) (.queueUpdate rfl (show 0 < 256 by decide))) (by simp) (by simp))
  have r6t := r5.snoc (.source (.mgr (by simp) (by simp) (.takeMsg rfl (List.cons_ne_nil _ _))) (by simp) (by simp))
  have r6 := r6t.snoc (.send (o := 1) rfl rfl rfl (.call (i := 0) (x := { addr := "mc/sfe.c1" }) 1 none rfl) rfl)
  have r7 := r6.snoc (.router (.startGo (o := 1) rfl rfl rfl rfl rfl) (by simp) (by simp) (by simp))
  have r8 := r7.snoc (.router (.get (o := 1) rfl rfl) (by simp) (by simp) (by simp))
  have r9 := r8.snoc (.router (.lock (o := 1) (mc := 1) rfl rfl rfl rfl (List.cons_ne_nil _ _)) (by simp) (by simp) (by simp))
  have r10 := r9.snoc (.router (.offer (o := 1) rfl rfl rfl rfl) (by simp) (by simp) (by simp))
  have r11 := r10.snoc (.router (.put (o := 1) rfl rfl rfl (show 1 < 256 by decide)) (by simp) (by simp) (by simp))
  have r12 := r11.snoc (.router (.skip (o := 1) rfl rfl rfl rfl) (by simp) (by simp) (by simp))
  have r13 := r12.snoc (.sent (o := 1) rfl (.finish rfl rfl) (.mgr (by simp) (by simp) (.send rfl rfl rfl)))
  have r14 := r13.snoc (.router (.newReceiver "mc/sfe.c1" 256) (by simp) (by simp) (by simp))
  have r15 := r14.snoc (.router (.subGet (r := 3) rfl rfl) (by simp) (by simp) (by simp))
  have r16 := r15.snoc (.router (.subscribe (r := 3) (mc := 1) rfl rfl rfl rfl) (by simp) (by simp) (by simp))
  have f2 := f1.again (r' := 3) rfl ⟨_, rfl, rfl⟩ (by simp [discEvs, hn0]) r16 (by
    intro a ha
    simp [sysCfg, SysCfg.on] at ha
    exact ha.2)
  refine ⟨3, _, _, hostRec "h1" "y", f2, by simp, ?_, ?_, ⟨⟨rfl, rfl, rfl, rfl⟩, rfl, ?_, _, rfl, rfl⟩, rfl, rfl, rfl, h', e, g1, g2, ?_⟩
  · simp [discEvs, hc0]
  · intro rs
    have := hl0 rs
    simpa using this
  · intro x hx; cases hx; rfl
  · rw [attrOf_ok g4, g5]; rfl

/-- A collector whose receiver was closed before anything was sent to it, and who has another one. -/
def back1 : Sys := { disc1.f.sys with mock := { discMock1 with
  mcs := [{ receivers := [1], ver := 1 }, { receivers := [2, 0, 3], ver := 3 }]
  rcvs := [{ addr := "mc/sfe.c1", cap := 256, sub := .done, closed := true }, { addr := "sfe.c1", cap := 256, sub := .done }, { addr := "mc/sfe.c1", cap := 256, sub := .done },
    { addr := "mc/sfe.c1", cap := 256, sub := .done }] } }

theorem back_relinked : Sys.Relinked lateCfg (discEvs ++ [.step 0, .subscribed 0]) disc1.f.sys 3 { n := [.closeReceiver 0, .newReceiver 3 "mc/sfe.c1", .step 3, .subscribed 3] } back1 := by
  have r0 := (Sys.Run.nil (k := lateCfg) (s := disc1.f.sys)).snoc (.router (.closeReceiver (r := 0) rfl rfl) (by simp) (by simp) (by simp))
  have f1 := Sys.Relinked.first (n0 := discEvs ++ [.step 0, .subscribed 0]) r0 (by
    intro a ha
    simp [discEvs, sysCfg, lateCfg] at ha
    exact ha)
  have r1 := (Sys.Run.nil (k := lateCfg.on 3) (s := { disc1.f.sys with mock := discMock1.setRcv 0 fun y => { y with closed := true } })).snoc (.router (.newReceiver "mc/sfe.c1" 256) (by simp) (by simp) (by simp))
  have r2 := r1.snoc (.router (.subGet (r := 3) rfl rfl) (by simp) (by simp) (by simp))
  have r3 := r2.snoc (.router (.subscribe (r := 3) (mc := 1) rfl rfl rfl rfl) (by simp) (by simp) (by simp))
  exact f1.again (r' := 3) rfl ⟨_, rfl, rfl⟩ (by simp [discEvs]) r3 (by
    intro a ha
    simp at ha
    exact ha.2)

/-- Then the source is asked for a flush. -/
theorem back_example : ∃ (evs : SysEv) (s : Sys) (pre post : List MgrEv), Sys.Run (lateCfg.on 3) back1 evs s ∧ s.Still (lateCfg.on 3) ∧ s.src.mgr.flushQueue = 0 ∧
    MockEv.closeReceiver 3 ∉ evs.n ∧ s.cl.crashed = false ∧ evs.m = pre ++ .flushReceived :: post ∧ Lossless post ∧ opsOn 0 pre = [] ∧ opsOn 0 post = [] ∧
    s.src.versions.getLast? = some (hostRec "h1" "x") := by
  have hm := mock_trans disc1_join.mock (relinked_mock back_relinked)
  have hb : Sys.Join (lateCfg.on 3) (discEvs ++ [.step 0, .subscribed 0] ++ [.closeReceiver 0, .newReceiver 3 "mc/sfe.c1", .step 3, .subscribed 3]) discClEvs back1 :=
    ⟨late_src, hm, by decide, by decide, rfl, by intro o i m; simp [discEvs], disc_cl, ⟨{ pc := .receiving }, rfl, Or.inr (Or.inl rfl)⟩, by decide, (by intro o h; cases h), rfl⟩
  have hc : Collects (lateCfg.on 3) hostReg [] exSrc 0 (fun _ => exCfg) (fun _ => []) back1.stores := collects_on.2 late0_collects
  have r0 : Sys.Run (lateCfg.on 3) back1 {} back1 := .nil
  have r1 := r0.snoc (.source (.mgr (by simp) (by simp) .flushReceived) (by simp) (by simp))
  have r2 := r1.snoc (.source (.mgr (by simp) (by simp) (.takeFlush rfl (by decide))) (by simp) (by simp))
  have r3 := r2.snoc (.source (.mgr (by simp) (by simp) (.flushBegin rfl)) (by simp) (by simp))
  have r4 := r3.snoc (.source (.mgr (by simp) (by simp) (.page 0 rfl rfl)) (by simp) (by simp))
  have r5 := r4.snoc (.source (.mgr (by simp) (by simp) (.queueFlush (msg := [hostRec "h1" "x"]) rfl (by decide))) (by simp) (by simp))
  have r5' := r5.snoc (.source (.mgr (by simp) (by simp) (.flushEnd rfl)) (by simp) (by simp))
  have r6t := r5'.snoc (.source (.mgr (by simp) (by simp) (.takeMsg rfl (List.cons_ne_nil _ _))) (by simp) (by simp))
  have r6 := r6t.snoc (.send (o := 0) rfl rfl rfl (.call (i := 0) (x := { addr := "mc/sfe.c1" }) 0 none rfl) rfl)
  have r7 := r6.snoc (.router (.startGo (o := 0) rfl rfl rfl rfl rfl) (by simp) (by simp) (by simp))
  have r8 := r7.snoc (.router (.get (o := 0) rfl rfl) (by simp) (by simp) (by simp))
  have r9 := r8.snoc (.router (.lock (o := 0) (mc := 1) rfl rfl rfl rfl (by decide)) (by simp) (by simp) (by simp))
  have r10 := r9.snoc (.router (.offer (o := 0) rfl rfl rfl rfl) (by simp) (by simp) (by simp))
  have r11 := r10.snoc (.router (.put (o := 0) rfl rfl rfl (by decide)) (by simp) (by simp) (by simp))
  have s1 := r11.snoc (.router (.skip (o := 0) rfl rfl rfl rfl) (by simp) (by simp) (by simp))
  have s2 := s1.snoc (.router (.offer (o := 0) rfl rfl rfl rfl) (by simp) (by simp) (by simp))
  have s3 := s2.snoc (.router (.put (o := 0) rfl rfl rfl (by decide)) (by simp) (by simp) (by simp))
  have r12 := s3.snoc (.sent (o := 0) rfl (.finish rfl rfl) (.mgr (by simp) (by simp) (.send rfl rfl rfl)))
  have r13 := r12.snoc (.next (m := 0) rfl rfl (.recv (r := 3) rfl rfl rfl) rfl (.deliver (l := 0) _ rfl rfl))
  obtain ⟨rm, hrm⟩ := (C100_no_panic hb r13 hc).2 _ (by simp [deliveredTo, lateCfg, sysCfg, SysCfg.on]; rfl)
  have r14 := r13.snoc (.client rfl rfl (.decoded (l := 0) rfl rfl hrm) (by simp) (by simp) (by simp) (by simp))
  have r15 := r14.snoc (.client rfl rfl (.fetch (l := 0) rfl rfl rfl) (by simp) (by simp) (by simp) (by simp))
  cases hd : (lateCfg.world.dispatch vanOps lateCfg.disp (rm.records.zipIdx.map fun p => (p.1, (fun _ => t0) p.2)) (fun _ => after vanOps exCfg [])) with
  | mk st po =>
  cases po with
  | some p =>
    have := (C100_no_panic hb (r15.snoc (.dispatchPanic (fun _ => t0) rfl rfl (.call (l := 0) rfl rfl) hd)) hc).1
    cases this
  | none =>
  have r17 := r15.snoc (.dispatch (fun _ => t0) rfl rfl (.call (l := 0) rfl rfl) hd)
  have r16 := r17.snoc (.client rfl rfl (.call (l := 0) (h := 3) rfl rfl) (by simp) (by simp) (by simp [lateCfg, sysCfg, SysCfg.on]) (by simp))
  have r18 := r16.snoc (.client rfl rfl (.again (l := 0) rfl rfl) (by simp) (by simp) (by simp) (by simp))
  refine ⟨_, _, [], _, r18, ⟨⟨rfl, rfl, rfl, rfl⟩, rfl, ?_, _, rfl, rfl⟩, rfl, by simp, rfl, rfl, by intro rs; simp, rfl, rfl, rfl⟩
  intro x hx
  cases hx
  rfl

/-- Instance of `C114_resync_partial`. -/
example : ∃ evs s, Sys.Run (lateCfg.on 3) back1 evs s ∧ ∃ h' e, s.stores 0 = after vanOps exCfg h' ∧ content vanOps exCfg h' "h1" = some e ∧
    attrOf e.record (.u32 30) = some (.str "x") := by
  obtain ⟨evs, s, pre, post, hr, hs, hq, ho, hc, hev, hl, hp, hp', hv⟩ := back_example
  obtain ⟨h', e, g1, g2, _, g3⟩ := C114_resync_partial (j := 0) (c := exCfg) (hj0 := lateOps) (join_before disc1_join) back_relinked (by simp) hr hs hq (by simp [ho, discEvs]) hc hev hl (by decide) rfl
    (by rw [List.nil_append, hp, List.append_nil]; exact late_stays hp') hv late0_collects (by intro e he; cases he)
  exact ⟨evs, s, hr, h', e, g1, g2, g3 _ _ rfl⟩

/-- Instance of `C114_honest`: the collector of `C114_counterexample`. -/
example : ∃ r evs s, Sys.Relinked sysCfg (discEvs ++ [.step 0, .subscribed 0]) lost0 r evs s ∧ s.ended = false ∧
    ∃ h' e, s.stores 0 = after vanOps exCfg h' ∧ content vanOps exCfg h' "h1" = some e ∧ ∀ x y, attrOf e.record x = some y → ∃ v ∈ s.src.versions, attrOf v x = some y := by
  obtain ⟨r, evs, s, v, h1, _, _, _, _, h2, _, _, h3, e, h4, h5, _⟩ := C114_counterexample
  obtain ⟨g0, h', g1, g2⟩ := C114_honest (join_before (start_join lost0_start)) h1 h2 sys0_collects (by intro e he; cases he)
  have hc : content vanOps exCfg h' "h1" = some e := by
    rw [content_eq vanOps_lawful] at h5 ⊢
    rw [← g1, h4]; exact h5
  refine ⟨r, evs, s, h1, g0, h', e, g1, hc, fun x y hx => ?_⟩
  rcases (g2 e hc).2 x y hx with g | ⟨e0, q, _⟩
  · exact g
  · cases q

end Verif.Props
