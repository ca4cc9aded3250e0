import Verif.Spec.Request
import Verif.Props.Sound

/-!
# C107: a flush request that is sent to a source is served
-/
namespace Verif.Props
open Verif Verif.Model Verif.Spec Verif.Proofs

theorem fsys_step {k : SysCfg} {f : Nat} (hf : f ≠ k.rcv) {s s' : FSys} {ev : SysEv} (h : FSys.Step k f s ev s') : s'.sys = s.sys ∧ ev = {} ∨ Sys.Step k s.sys ev s'.sys := by
  cases h with
  | next _ hm => exact .inr (.router hm (by intro m h; cases h; exact hf rfl) (by intros; simp) (by intros; simp))
  | queue _ hs => exact .inr (.source hs (by simp) (by simp))
  | stop => exact .inl ⟨rfl, rfl⟩
  | other hs => exact .inr hs

/-- The system with `listenFlushes` is the system, with less behaviour. -/
theorem fsys_run {k : SysCfg} {f : Nat} (hf : f ≠ k.rcv) {s s' : FSys} {evs : SysEv} (h : FSys.Run k f s evs s') : Sys.Run k s.sys evs s'.sys := by
  induction h with
  | nil => exact .nil
  | snoc _ hs ih =>
    rcases fsys_step hf hs with ⟨h1, h2⟩ | h
    · subst h2
      rw [h1]
      simpa using ih
    · exact ih.snoc h

theorem fsys_trans {k : SysCfg} {f : Nat} {a b c : FSys} {e1 e2 : SysEv} (h1 : FSys.Run k f a e1 b) (h2 : FSys.Run k f b e2 c) :
    FSys.Run k f a { m := e1.m ++ e2.m, n := e1.n ++ e2.n, c := e1.c ++ e2.c } c := by
  induction h2 with
  | nil => simpa using h1
  | snoc _ hs ih =>
    have := ih.snoc hs
    simpa [List.append_assoc] using this

theorem cancelled_src {cfg : MgrConfig} {id : String} {tm : TypeMeta} {s s' : Src} {ev : Option MgrEv} (h : Src.Step cfg id tm s ev s') (hc : s'.mgr.cancelled = false) :
    s.mgr.cancelled = false := by
  have key : ∀ {m m' : Mgr} {ev : MgrEv}, Mgr.Step cfg m ev m' → m'.cancelled = false → m.cancelled = false := by
    intro m m' ev h hc
    cases h <;> first | exact hc | cases hc
  cases h with
  | write h | storeOther h | publish _ h | publishOther _ _ h | mgr _ _ h => exact key h hc
  | mint => exact hc

theorem cancelled_sys {k : SysCfg} {s s' : Sys} {ev : SysEv} (h : Sys.Step k s ev s') (hc : s'.src.mgr.cancelled = false) : s.src.mgr.cancelled = false := by
  cases h with
  | source h | sent _ _ h | sendFailed _ _ h => exact cancelled_src h hc
  | _ => exact hc

theorem fsys_cancelled {k : SysCfg} {f : Nat} {s s' : FSys} {ev : SysEv} (hf : f ≠ k.rcv) (h : FSys.Step k f s ev s') (hc : s'.sys.src.mgr.cancelled = false) :
    s.sys.src.mgr.cancelled = false := by
  rcases fsys_step hf h with ⟨h1, _⟩ | h
  · rw [← h1]; exact hc
  · exact cancelled_sys h hc

/-- As long as the context has not ended, `listenFlushes` runs and its receiver is open. -/
theorem fsys_open {k : SysCfg} {f : Nat} {s s' : FSys} {evs : SysEv} (hf : f ≠ k.rcv) (h : FSys.Run k f s evs s') (h0 : s.pc ≠ .finished) (hc : s'.sys.src.mgr.cancelled = false) :
    s'.pc ≠ .finished ∧ .closeReceiver f ∉ evs.n := by
  induction h with
  | nil => exact ⟨h0, by simp⟩
  | snoc _ hs ih =>
    obtain ⟨a, b⟩ := ih (fsys_cancelled hf hs hc)
    cases hs with
    | next => exact ⟨by simp, by simpa using b⟩
    | queue => exact ⟨by simp, by simpa using b⟩
    | stop _ h => rw [show _ = false from hc] at h; cases h
    | other _ _ _ _ h => exact ⟨a, by rw [List.mem_append, not_or]; exact ⟨b, fun h' => a (h h')⟩⟩

/-- Every flush message that `Next` has handed over is queued, but for the one in hand. -/
theorem fsys_queued {k : SysCfg} {f : Nat} {s s' : FSys} {evs : SysEv} (h : FSys.Run k f s evs s') (h0 : ∃ m, MockEv.recv f m ∈ evs.n) : s'.pc = .holding ∨ MgrEv.flushReceived ∈ evs.m := by
  induction h with
  | nil => obtain ⟨m, h⟩ := h0; cases h
  | snoc _ hs ih =>
    obtain ⟨m, h0⟩ := h0
    cases hs with
    | next => exact .inl rfl
    | queue => exact .inr (by simp)
    | stop hp =>
      rcases ih ⟨m, by simpa using h0⟩ with h | h
      · rw [h] at hp; cases hp
      · exact .inr (by simpa using h)
    | other _ _ _ hn =>
      rcases List.mem_append.1 h0 with h | h
      · rcases ih ⟨m, h⟩ with h | h
        · exact .inl h
        · exact .inr (List.mem_append_left _ h)
      · exact absurd h (hn m)

theorem mem_sentTo {a : String} {o m : Nat} {evs : List MockEv} (h : MockEv.accepted o a m ∈ evs) : m ∈ sentTo a evs := by
  induction evs with
  | nil => cases h
  | cons e t ih =>
    rcases List.mem_cons.1 h with rfl | h
    · simp [sentTo]
    · have := ih h
      cases e <;> simp only [sentTo] <;> first | exact this | (split <;> first | exact List.mem_cons_of_mem _ this | exact this)

theorem received_mem {r m : Nat} {evs : List MockEv} (h : m ∈ received r evs) : MockEv.recv r m ∈ evs := by
  induction evs with
  | nil => cases h
  | cons e t ih =>
    cases e <;> simp only [received] at h <;> try exact List.mem_cons_of_mem _ (ih h)
    split at h
    · rename_i e; subst e
      rcases List.mem_cons.1 h with rfl | h
      · exact List.mem_cons_self ..
      · exact List.mem_cons_of_mem _ (ih h)
    · exact List.mem_cons_of_mem _ (ih h)

/-- **C107 (heard).** A message that the router has taken for the direct address of the source, after the manager's receiver was subscribed, makes the manager receive a flush request, once
the Sends to that address have returned, the receiver's channel is empty and `listenFlushes` waits for the next message; as long as the context of the manager has not ended. -/
theorem C107_heard {k : SysCfg} {f : Nat} {faddr : String} {n0 : List MockEv} {s0 s1 s2 : FSys} {evs1 evs2 : SysEv} (h0 : Mock.Run {} n0 s0.sys.mock) (hf : f ≠ k.rcv)
    (hnew : MockEv.newReceiver f faddr ∈ n0) (hnc : MockEv.closeReceiver f ∉ n0) (hp : s0.pc ≠ .finished) (hr1 : FSys.Run k f s0 evs1 s1) (hr2 : FSys.Run k f s1 evs2 s2)
    (hsub : MockEv.subscribed f ∈ n0 ++ evs1.n) {o m : Nat} (hreq : MockEv.accepted o faddr m ∈ evs2.n)
    (hret : ∀ o m, MockEv.accepted o faddr m ∈ n0 ++ evs1.n ++ evs2.n → ∃ r, MockEv.ret o r ∈ n0 ++ evs1.n ++ evs2.n)
    (hchan : ∀ x, s2.sys.mock.rcvs[f]? = some x → x.chan = []) (hpc : s2.pc = .receiving) (hcan : s2.sys.src.mgr.cancelled = false) : MgrEv.flushReceived ∈ evs2.m := by
  have m1 := mock_trans h0 (sys_mock (fsys_run hf hr1))
  have m2 := mock_trans m1 (sys_mock (fsys_run hf hr2))
  have hopen := (fsys_open hf (fsys_trans hr1 hr2) hp hcan).2
  have hnew1 : MockEv.newReceiver f faddr ∈ n0 ++ evs1.n := List.mem_append_left _ hnew
  have hall : received f (n0 ++ evs1.n ++ evs2.n) = sentAfter f faddr (n0 ++ evs1.n ++ evs2.n) := by
    rcases C62_complete m2 (List.mem_append_left _ hnew1) (List.mem_append_left _ hsub) (by simp only [List.mem_append, not_or] at hopen ⊢; exact ⟨⟨hnc, hopen.1⟩, hopen.2⟩) with h | ⟨m', s', _, h⟩ | ⟨o', m', _, h, h'⟩
    · exact h
    · cases h with | recv hx _ h => rw [hchan _ hx] at h; cases h
    · obtain ⟨r, h⟩ := hret o' m' h
      exact absurd h (h' r)
  have hpre := C62_order m1 hnew1
  rw [received_append, sentAfter_append hsub] at hall
  obtain ⟨t, ht⟩ := hpre
  rw [← ht, List.append_assoc] at hall
  have hrec := List.append_cancel_left hall
  have hne : m ∈ received f evs2.n := by rw [hrec]; exact List.mem_append_right _ (mem_sentTo hreq)
  rcases fsys_queued hr2 ⟨m, received_mem hne⟩ with h | h
  · rw [h] at hpc; cases hpc
  · exact h

/-- **C107.** A collector has joined, and later a flush request is sent to the source.  Once the request, the publications and all messages are handled, the collector's store has an entry of
the record with every attribute of its last version, provided that since before the request the record stayed in a store of the manager, no smaller key was deleted from that store, and no
message was lost on the manager's side. -/
theorem C107_resync {k : SysCfg} {f : Nat} {faddr : String} {n0 : List MockEv} {c0 : List ClEv} {s0 s1 s2 : FSys} {evs1 evs2 : SysEv} (h0 : Sys.Join k n0 c0 s0.sys) (hf : f ≠ k.rcv)
    (hnew : MockEv.newReceiver f faddr ∈ n0) (hnc : MockEv.closeReceiver f ∉ n0) (hp : s0.pc ≠ .finished) (hr1 : FSys.Run k f s0 evs1 s1) (hr2 : FSys.Run k f s1 evs2 s2)
    (hsub : MockEv.subscribed f ∈ n0 ++ evs1.n) {o m : Nat} (hreq : MockEv.accepted o faddr m ∈ evs2.n)
    (hret : ∀ o m, MockEv.accepted o faddr m ∈ n0 ++ evs1.n ++ evs2.n → ∃ r, MockEv.ret o r ∈ n0 ++ evs1.n ++ evs2.n)
    (hchan : ∀ x, s2.sys.mock.rcvs[f]? = some x → x.chan = []) (hpc : s2.pc = .receiving) (hcan : s2.sys.src.mgr.cancelled = false)
    (hstill : s2.sys.Still k) (hfq : s2.sys.src.mgr.flushQueue = 0) (hopen : MockEv.closeReceiver k.rcv ∉ n0 ++ evs1.n ++ evs2.n) (hcr : s2.sys.cl.crashed = false) (hl : Lossless evs2.m)
    {j : Nat} (hj : j < k.mgr.numStores) {c : CacheConfig (GoRec GoTime)} {hj0 : List (Op (GoRec GoTime))} (hst : s0.sys.src.mgr.stores j = after vanOps c hj0) {key : String}
    (hstay : Stays c (hj0 ++ opsOn j evs1.m) j key (fun e => Mine k.id k.tm e.record) evs2.m) {v : GoRec GoTime} (hv : s2.sys.src.versions.getLast? = some v)
    {cs1 cs2 : List RegCmd} {ref : SourceRef} {i : Nat} {cfg : Nat → CacheConfig (GoRec GoTime)} {h : Nat → List (Op (GoRec GoTime))}
    (hc : Collects k cs1 cs2 ref i cfg h s0.sys.stores)
    (hstale : ∀ e, content vanOps (cfg i) (h i) k.id = some e → OfKind k.id k.tm e.record ∧ Encodable e.record) :
    ∃ h' e, s2.sys.stores i = after vanOps (cfg i) h' ∧ content vanOps (cfg i) h' k.id = some e ∧ OfKind k.id k.tm e.record ∧
      ∀ x y, attrOf v x = some y → attrOf e.record x = some y := by
  obtain ⟨a, b, hab⟩ := List.append_of_mem (C107_heard h0.mock hf hnew hnc hp hr1 hr2 hsub hreq hret hchan hpc hcan)
  rw [hab] at hstay hl
  have hst2 := stays_drop (a := a ++ [.flushReceived]) (b := b) (by simpa using hstay)
  refine C104_resync h0 (fsys_run hf (fsys_trans hr1 hr2)) hstill hfq (by simpa [List.append_assoc] using hopen) hcr (key := key) (pre := evs1.m ++ a) (post := b) (by simp [hab]) ?_ hj hst ?_ hv hc hstale
  · intro rs
    have := hl rs
    simp only [List.mem_append, List.mem_cons, not_or] at this
    exact ⟨this.1.2.2, this.2.1.2.2, this.2.2.2.2⟩
  · have e : hj0 ++ opsOn j (evs1.m ++ a) = hj0 ++ opsOn j evs1.m ++ opsOn j (a ++ [.flushReceived]) := by simp [opsOn]
    rw [e]
    exact hst2

/-- **C107 (not stuck).** While a flush message waits at the open receiver of a manager whose context has not ended, or one is in hand, `listenFlushes` can move. -/
theorem C107_not_stuck {k : SysCfg} {f : Nat} {s : FSys} :
    (∀ (x : MRcv) m rest, s.sys.mock.rcvs[f]? = some x → x.sub = .done → x.chan = m :: rest → s.pc = .receiving → ∃ s', FSys.Step k f s { n := [.recv f m] } s' ∧ s'.pc = .holding) ∧
    (s.pc = .holding → ∃ s', FSys.Step k f s { m := [.flushReceived] } s' ∧ s'.pc = .receiving) :=
  ⟨fun _ _ _ h1 h2 h3 h4 => ⟨_, .next h4 (.recv h1 h2 h3), rfl⟩, fun h => ⟨_, .queue h (.mgr (by simp) (by simp) .flushReceived), rfl⟩⟩

/-- The router: the receiver of the collector, the manager's sender, the manager's receiver for flush messages and the sender of somebody who asks for a flush. -/
def askMock : Mock where
  topics := [("mc/sfe.c1", 0), ("sfe.c1", 1)]
  mcs := [{ receivers := [0], ver := 1 }, { receivers := [1], ver := 1 }]
  rcvs := [{ addr := "mc/sfe.c1", cap := 256, sub := .done }, { addr := "sfe.c1", cap := 256, sub := .done }]
  snds := [{ addr := "mc/sfe.c1" }, { addr := "sfe.c1" }]

def askEvs : List MockEv := [.newReceiver 0 "mc/sfe.c1", .step 0, .subscribed 0, .newSender 0 "mc/sfe.c1", .newReceiver 1 "sfe.c1", .step 1, .subscribed 1, .newSender 1 "sfe.c1"]

theorem ask_mock0 : Mock.Run {} askEvs askMock := by
  have r1 := sys_mock0.snoc (.newReceiver "sfe.c1" 256)
  have r2 := r1.snoc (.subGet (r := 1) rfl rfl)
  have r3 := r2.snoc (.subscribe (r := 1) (mc := 1) rfl rfl rfl rfl)
  exact r3.snoc (.newSender "sfe.c1")

def ask0 : FSys := { sys := { late0 with mock := askMock } }

theorem ask0_join : Sys.Join lateCfg askEvs [.onRecord 3, .onRecord 7, .listen, .tau] ask0.sys :=
  ⟨late_src, ask_mock0, by decide, by decide, rfl, by intro o i m; simp [askEvs], sys_cl0, ⟨{ pc := .receiving }, rfl, Or.inr (Or.inl rfl)⟩, by decide, (by intro o h; cases h), rfl⟩

theorem ask_example : ∃ evs s, FSys.Run lateCfg 1 ask0 evs s ∧ s.sys.Still lateCfg ∧ s.sys.src.mgr.flushQueue = 0 ∧ MockEv.closeReceiver 0 ∉ evs.n ∧ s.sys.cl.crashed = false ∧
    s.pc = .receiving ∧ s.sys.src.mgr.cancelled = false ∧ (∀ x, s.sys.mock.rcvs[1]? = some x → x.chan = []) ∧ MockEv.accepted 0 "sfe.c1" 77 ∈ evs.n ∧
    (∀ o m, MockEv.accepted o "sfe.c1" m ∈ evs.n → ∃ r, MockEv.ret o r ∈ evs.n) ∧ Lossless evs.m ∧ opsOn 0 evs.m = [] ∧ s.sys.src.versions = [hostRec "h1" "x"] := by
  have r0 : FSys.Run lateCfg 1 ask0 {} ask0 := .nil
  have q1 := r0.snoc (.other (.router (.call (i := 1) (x := { addr := "sfe.c1" }) 77 none rfl) (by simp) (by simp [ask0, late0]) (by simp [lateCfg, sysCfg])) (by simp) (by simp) (by simp) (by simp))
  have q2 := q1.snoc (.other (.router (.startGo (o := 0) rfl rfl rfl rfl rfl) (by simp) (by simp) (by simp)) (by simp) (by simp) (by simp) (by simp))
  have q3 := q2.snoc (.other (.router (.get (o := 0) rfl rfl) (by simp) (by simp) (by simp)) (by simp) (by simp) (by simp) (by simp))
  have q4 := q3.snoc (.other (.router (.lock (o := 0) (mc := 1) rfl rfl rfl rfl (by decide)) (by simp) (by simp) (by simp)) (by simp) (by simp) (by simp) (by simp))
  have q5 := q4.snoc (.other (.router (.offer (o := 0) rfl rfl rfl rfl) (by simp) (by simp) (by simp)) (by simp) (by simp) (by simp) (by simp))
  have q6 := q5.snoc (.other (.router (.put (o := 0) rfl rfl rfl (by decide)) (by simp) (by simp) (by simp)) (by simp) (by simp) (by simp) (by simp))
  have q7 := q6.snoc (.other (.router (.finish (o := 0) rfl rfl) (by simp) (by simp [ask0, late0]) (by simp)) (by simp) (by simp) (by simp) (by simp))
  have q8 := q7.snoc (.next (m := 77) rfl (.recv (r := 1) rfl rfl rfl))
  have r1 := q8.snoc (.queue rfl (.mgr (by simp) (by simp) .flushReceived))
  have r2 := r1.snoc (.other (.source (.mgr (by simp) (by simp) (.takeFlush rfl (by decide))) (by simp) (by simp)) (by simp) (by simp) (by simp) (by simp))
  have r3 := r2.snoc (.other (.source (.mgr (by simp) (by simp) (.flushBegin rfl)) (by simp) (by simp)) (by simp) (by simp) (by simp) (by simp))
  have r4 := r3.snoc (.other (.source (.mgr (by simp) (by simp) (.page 0 rfl rfl)) (by simp) (by simp)) (by simp) (by simp) (by simp) (by simp))
  have r5 := r4.snoc (.other (.source (.mgr (by simp) (by simp) (.queueFlush (msg := [hostRec "h1" "x"]) rfl (by decide))) (by simp) (by simp)) (by simp) (by simp) (by simp) (by simp))
  have r5' := r5.snoc (.other (.source (.mgr (by simp) (by simp) (.flushEnd rfl)) (by simp) (by simp)) (by simp) (by simp) (by simp) (by simp))
  have r6t := r5'.snoc (.other (.source (.mgr (by simp) (by simp) (.takeMsg rfl (List.cons_ne_nil _ _))) (by simp) (by simp)) (by simp) (by simp) (by simp) (by simp))
  have r6 := r6t.snoc (.other (.send (o := 1) rfl rfl rfl (.call (i := 0) (x := { addr := "mc/sfe.c1" }) 0 none rfl) rfl) (by simp) (by simp) (by simp) (by simp))
  have r7 := r6.snoc (.other (.router (.startGo (o := 1) rfl rfl rfl rfl rfl) (by simp) (by simp) (by simp)) (by simp) (by simp) (by simp) (by simp))
  have r8 := r7.snoc (.other (.router (.get (o := 1) rfl rfl) (by simp) (by simp) (by simp)) (by simp) (by simp) (by simp) (by simp))
  have r9 := r8.snoc (.other (.router (.lock (o := 1) (mc := 0) rfl rfl rfl rfl (by decide)) (by simp) (by simp) (by simp)) (by simp) (by simp) (by simp) (by simp))
  have r10 := r9.snoc (.other (.router (.offer (o := 1) rfl rfl rfl rfl) (by simp) (by simp) (by simp)) (by simp) (by simp) (by simp) (by simp))
  have r11 := r10.snoc (.other (.router (.put (o := 1) rfl rfl rfl (by decide)) (by simp) (by simp) (by simp)) (by simp) (by simp) (by simp) (by simp))
  have r12 := r11.snoc (.other (.sent (o := 1) rfl (.finish rfl rfl) (.mgr (by simp) (by simp) (.send rfl rfl rfl))) (by simp) (by simp) (by simp) (by simp))
  have r13 := r12.snoc (.other (.next (m := 0) rfl rfl (.recv (r := 0) rfl rfl rfl) rfl (.deliver (l := 0) _ rfl rfl)) (by simp) (by simp) (by simp [lateCfg, sysCfg]) (by simp))
  obtain ⟨rm, hrm⟩ := (C100_no_panic ask0_join (fsys_run (by decide) r13) late0_collects).2 _ (by simp [deliveredTo, lateCfg, sysCfg]; rfl)
  have r14 := r13.snoc (.other (.client rfl rfl (.decoded (l := 0) rfl rfl hrm) (by simp) (by simp) (by simp) (by simp)) (by simp) (by simp) (by simp) (by simp))
  have r15 := r14.snoc (.other (.client rfl rfl (.fetch (l := 0) rfl rfl rfl) (by simp) (by simp) (by simp) (by simp)) (by simp) (by simp) (by simp) (by simp))
  have r16 := r15.snoc (.other (.client rfl rfl (.call (l := 0) (h := 3) rfl rfl) (by simp) (by simp) (by simp [lateCfg, sysCfg]) (by simp)) (by simp) (by simp) (by simp) (by simp))
  cases hd : (lateCfg.world.dispatch vanOps lateCfg.disp (rm.records.zipIdx.map fun p => (p.1, (fun _ => t0) p.2)) (fun _ => after vanOps exCfg [])) with
  | mk st po =>
  cases po with
  | some p =>
    have := (C100_no_panic ask0_join ((fsys_run (by decide) r16).snoc (.dispatchPanic (fun _ => t0) rfl rfl (.call (l := 0) rfl rfl) hd)) late0_collects).1
    cases this
  | none =>
  have r17 := r16.snoc (.other (.dispatch (fun _ => t0) rfl rfl (.call (l := 0) rfl rfl) hd) (by simp) (by simp) (by simp) (by simp))
  have r18 := r17.snoc (.other (.client rfl rfl (.again (l := 0) rfl rfl) (by simp) (by simp) (by simp) (by simp)) (by simp) (by simp) (by simp) (by simp))
  refine ⟨_, _, r18, ⟨⟨rfl, rfl, rfl, rfl⟩, rfl, ?_, _, rfl, rfl⟩, rfl, by simp, rfl, rfl, rfl, ?_, by simp, ?_, by intro rs; simp, rfl, rfl⟩
  · intro x hx; cases hx; rfl
  · intro x hx; cases hx; rfl
  · intro o m h
    simp [lateCfg, sysCfg] at h
    obtain ⟨rfl, rfl⟩ := h
    exact ⟨none, by simp⟩

/-- The flush that somebody asked for brings the host into the store of the collector. -/
example : ∃ evs s, FSys.Run lateCfg 1 ask0 evs s ∧ ∃ h' e, s.sys.stores 0 = after vanOps exCfg h' ∧ content vanOps exCfg h' "h1" = some e ∧
    attrOf e.record (.u32 30) = some (.str "x") := by
  obtain ⟨evs, s, hr, hs, hq, ho, hc, hp, hcan, hch, hreq, hret, hl, hop, hv⟩ := ask_example
  have hno : ∀ o m, MockEv.accepted o "sfe.c1" m ∉ askEvs := by simp [askEvs]
  obtain ⟨h', e, g1, g2, _, g3⟩ := C107_resync (j := 0) (c := exCfg) (hj0 := lateOps) (faddr := "sfe.c1") ask0_join (by decide) (by decide) (by decide) (by decide) FSys.Run.nil hr (by decide) hreq
    (fun o m h => by
      simp only [List.append_nil, List.mem_append] at h ⊢
      obtain ⟨r, h⟩ := hret o m (h.resolve_left (hno o m))
      exact ⟨r, .inr h⟩)
    hch hp hcan hs hq (by simp only [List.append_nil, List.mem_append, not_or]; exact ⟨by decide, ho⟩) hc hl (by decide) rfl (late_stays hop) (by rw [hv]; rfl) late0_collects (by intro e he; cases he)
  exact ⟨evs, s, hr, h', e, g1, g2, g3 _ _ rfl⟩

end Verif.Props
