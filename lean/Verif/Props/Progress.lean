import Verif.Spec.Progress
import Verif.Props.EndToEnd
import Verif.Props.Flush
import Verif.Props.Stop

/-! # C102: the whole system comes to rest by itself, and by then everything has arrived -/
namespace Verif.Props
open Verif Verif.Model Verif.Spec Verif.Proofs

/-! ## Invariants -/

/-- While `sendRecords` is in a Send it is busy, and the Send has not returned. -/
def CurInv (s : Sys) : Prop := ∀ o, s.sending = some o → s.src.mgr.snd = .busy ∧ ∃ op, s.mock.ops[o]? = some op ∧ ∀ r, op.pc ≠ .done r

theorem busy_kept {cfg : MgrConfig} {m m' : Mgr} {ev : MgrEv} {r : List (GoRec GoTime)} {rest : List (List (GoRec GoTime))} {msg : Msg} (hs : Mgr.Step cfg m ev m')
    (hb : m.snd = .busy) (hq : m.sendQueue = r :: rest) (he : RecordMsg.encode vanRegistry { records := r } = .ok msg) (h1 : ∀ rs m, ev ≠ .sent rs m)
    (h2 : ∀ rs, ev ≠ .sendFailed rs) : m'.snd = .busy := by
  cases hs with
  | send => exact absurd rfl (h1 _ _)
  | sendFail => exact absurd rfl (h2 _)
  | skip h3 h4 => rw [hq] at h3; cases h3; rw [he] at h4; cases h4
  | sendPanic h3 h4 => rw [hq] at h3; cases h3; rw [he] at h4; cases h4
  | takeMsg => rfl
  | sndStop h => rw [hb] at h; cases h
  | _ => exact hb

theorem cur_run {k : SysCfg} {n0 : List MockEv} {c0 : List ClEv} {s0 s : Sys} {evs : SysEv} (h0 : Sys.Join k n0 c0 s0) (hr : Sys.Run k s0 evs s) : CurInv s := by
  induction hr with
  | nil =>
    intro o ho
    obtain ⟨op, _, _, _, g1, _, g3, _⟩ := (h0.sending o ho).1.call
    exact ⟨(h0.sending o ho).1.busy, op, g1, g3⟩
  | @snoc s s' evs ev hr hs ih =>
    have hw := way_run h0 hr
    have ops : ∀ {mev : MockEv} {mock : Mock} {o : Nat}, Mock.Step s.mock mev mock → s.sending = some o → (∀ r, mev ≠ .ret o r) →
        ∃ op, mock.ops[o]? = some op ∧ ∀ r, op.pc ≠ .done r := by
      intro mev mock o hm ho hret
      obtain ⟨_, op, g1, g2⟩ := ih o ho
      obtain ⟨op', k1, _⟩ := (ops_step hm).keep o op g1
      refine ⟨op', k1, fun r hd => ?_⟩
      rcases (ops_step hm).back o op' k1 with ⟨op2, b1, _, _, _, b5⟩ | ⟨i, _, b2, _⟩
      · rw [g1] at b1
        obtain rfl := Option.some.inj b1
        rcases b5 ⟨r, hd⟩ with ⟨r', hd'⟩ | ⟨r', hd'⟩
        · exact g2 r' hd'
        · exact hret r' hd'
      · rw [b2] at hd; cases hd
    cases hs with
    | @source mev src h1 h2 h3 =>
      intro o ho
      obtain ⟨g1, g2⟩ := ih o ho
      refine ⟨?_, g2⟩
      obtain ⟨_, r, rest, msg, _, _, c3, c4, _⟩ := hw.current o ho
      cases h1 with
      | mint => exact g1
      | write h | storeOther h => exact busy_kept h g1 c3 c4 (by simp) (by simp)
      | publish _ h | publishOther _ _ h => exact busy_kept h g1 c3 c4 (by simp) (by simp)
      | mgr _ _ h => exact busy_kept h g1 c3 c4 (fun rs m e => h2 rs m (by rw [e])) (fun rs e => h3 rs (by rw [e]))
    | @send records rest msg mock o' h1 h2 h3 h4 h5 =>
      intro o ho
      cases ho
      obtain ⟨op', a1, _, _, a4⟩ := (ops_step h4).call _ _ _ _ rfl
      exact ⟨h5, op', a1, by rw [a4]; simp⟩
    | sent | sendFailed => intro o ho; cases ho
    | router h1 h2 h3 h4 => exact fun o ho => ⟨(ih o ho).1, ops h1 ho fun r => h3 o r ho⟩
    | next _ _ h3 => exact fun o ho => ⟨(ih o ho).1, ops h3 ho fun r => by simp⟩
    | client | dispatch | dispatchPanic => exact ih

/-- A channel has room for a message at least. -/
theorem cap_pos {evs : List MockEv} {s : Mock} (h : Mock.Run {} evs s) : ∀ (r : Nat) (x : MRcv), s.rcvs[r]? = some x → 0 < x.cap := by
  induction h with
  | nil => intro r x hx; simp at hx
  | @snoc s s' evs ev hr hs ih =>
    have set : ∀ {l : List MRcv} {i : Nat} {f : MRcv → MRcv}, l = s.rcvs → (∀ x, (f x).cap = x.cap) → ∀ (r : Nat) (x : MRcv), (l.modify i f)[r]? = some x → 0 < x.cap := by
      intro l i f hl hf r x hx
      obtain ⟨y, hy, rfl⟩ := modify_some.1 hx
      rw [hl] at hy
      have := ih r y hy
      split
      · rw [hf]; exact this
      · exact this
    cases hs with
    | newReceiver a credit =>
      intro r x hx
      rcases snoc_some.1 hx with hx | ⟨_, rfl⟩
      · exact ih r x hx
      · show 0 < mockCredit credit
        unfold mockCredit
        split <;> omega
    | subGet => exact set get_rcvs fun _ => rfl
    | subscribe | put | recv | closeReceiver => exact set rfl fun _ => rfl
    | get =>
      intro r x hx
      simp only [Mock.setOp, get_rcvs] at hx
      exact ih r x hx
    | _ => exact ih

theorem pcQueue_step {cfg : MgrConfig} {s s' : Mgr} {ev : MgrEv} (hq : PcQueue cfg.numStores s.pc) (hs : Mgr.Step cfg s ev s') : PcQueue cfg.numStores s'.pc := by
  cases hs with
  | publish | storeOp | flushReceived | receiveError | cancel | takeMsg | sndStop | pageError | send | skip | sendFail => exact hq
  | stop | stopUpdate | stopFlush | diffPanic | pagePanic | sendPanic | queueUpdate | flushEnd => trivial
  | take | bufferTimeout | diff | takeFlush | drainTimeout => simp only; split <;> trivial
  | buffer | drain => simp only; split <;> [split; skip] <;> trivial
  | flushBegin => exact fun i hi => List.mem_range.1 hi
  | @page i queue cont res nonce hpc hl =>
    rw [hpc] at hq
    have h2 : ∀ j ∈ (if res.cont = "" then queue else i :: queue), j < cfg.numStores := by
      intro j hj
      apply hq
      split at hj
      · exact List.mem_cons_of_mem _ hj
      · exact hj
    simp only
    split <;> exact h2
  | queueFlush hpc => rw [hpc] at hq; exact hq

theorem pcQueue_run {cfg : MgrConfig} {s0 s : Mgr} {evs : List MgrEv} (h0 : s0.pc = .idle) (h : Mgr.Run cfg s0 evs s) : PcQueue cfg.numStores s.pc := by
  induction h with
  | nil => rw [h0]; trivial
  | snoc _ hs ih => exact pcQueue_step ih hs

/-- The numbers in the channel of the receiver stand for messages. -/
theorem chan_msgs {k : SysCfg} {n0 : List MockEv} {c0 : List ClEv} {s0 s : Sys} {evs : SysEv} (h0 : Sys.Join k n0 c0 s0) (hr : Sys.Run k s0 evs s) {x : MRcv} {m : Nat}
    (hx : s.mock.rcvs[k.rcv]? = some x) (hm : m ∈ x.chan) : ∃ msg, s.msgs[m]? = some msg := by
  have hw := way_run h0 hr
  have hmock := mock_trans h0.mock (sys_mock hr)
  have hD := delInv_run hmock
  have hsub := (hD.sub _ _ hx).2 (List.mem_append_left _ h0.subscribed)
  obtain ⟨y, hy, hya⟩ := (hD.new k.rcv k.addr).1 (List.mem_append_left _ h0.receiver)
  rw [hx] at hy
  obtain rfl := Option.some.inj hy
  obtain ⟨tail, g1, _⟩ := hD.del _ x hx hsub
  have h1 : m ∈ sentTo k.addr evs.n := by
    rw [hya, sentAfter_append h0.subscribed, h0.unsent, List.nil_append] at g1
    rw [g1]
    simp [hm]
  have h2 : s.msgs[m]? ∈ (sentTo k.addr evs.n).map (s.msgs[·]?) := List.mem_map_of_mem h1
  rw [hw.table] at h2
  rcases List.mem_append.1 h2 with h2 | h2
  · obtain ⟨msg, _, e⟩ := List.mem_map.1 h2
    exact ⟨msg, e.symm⟩
  · unfold inFlight at h2
    split at h2
    · simp at h2
    · rename_i o ho
      obtain ⟨op, _, _, msg, c1, _, _, _, c5⟩ := hw.current o ho
      rw [c1] at h2
      simp only [Option.bind_some, c5] at h2
      split at h2
      · simp at h2
      · exact ⟨msg, by simpa using h2⟩

theorem listeners_grow {reg : Registry} {s s' : Client} {evs : List ClEv} (h : Client.Run reg s evs s') : s.listeners.length ≤ s'.listeners.length := by
  induction h with
  | nil => exact Nat.le_refl _
  | snoc _ _ hs ih => refine Nat.le_trans ih ?_; cases hs <;> simp [Client.at]

theorem done_ret {evs : List MockEv} {s : Mock} (h : Mock.Run {} evs s) : ∀ (o : Nat) (op : MSend) (r : Option GoErr), s.ops[o]? = some op → op.pc = .done r → MockEv.ret o r ∈ evs := by
  induction h with
  | nil => intro o op r ho; simp at ho
  | snoc hr hs ih =>
    intro o op r ho hd
    rcases (ops_step hs).back o op ho with ⟨op2, b1, _, _, b4, b5⟩ | ⟨i, _, b2, _⟩
    · rcases b5 ⟨r, hd⟩ with h | ⟨r', rfl⟩
      · exact List.mem_append_left _ (ih o op2 r b1 (by rw [← b4 h]; exact hd))
      · obtain ⟨op3, c1, c2⟩ := (ops_step hs).ret o r' rfl
        rw [ho] at c1
        obtain rfl := Option.some.inj c1
        rw [hd] at c2
        cases c2
        simp
    · rw [b2] at hd; cases hd

/-! ## At rest -/

theorem src_internal {cfg : MgrConfig} {id : String} {tm : TypeMeta} {a b : Src} {ev : MgrEv} (hs : Src.Step cfg id tm a (some ev) b) (hi : Internal ev) :
    ∃ m, Mgr.Step cfg a.mgr ev m ∧ b = { a with mgr := m } := by
  cases hs with
  | write | storeOther | publish | publishOther => exact hi.elim
  | mgr _ _ h => exact ⟨_, h, rfl⟩

theorem at_moved {s : Client} {l : Nat} {x : Listener} (hx : s.listeners[l]? = some x) (pc : LPC) : (s.at l pc).listeners[l]? = some { x with pc := pc } :=
  modify_some.2 ⟨x, hx, by simp⟩

/-- The listener moves, unless it waits for a message. -/
theorem listener_moves {k : SysCfg} {n0 : List MockEv} {c0 : List ClEv} {s0 s : Sys} {evs : SysEv} (h0 : Sys.Join k n0 c0 s0) (hr : Sys.Run k s0 evs s)
    (hf : s.Free k) (hrest : s.Rest k) : (∃ x, s.cl.listeners[k.lst]? = some x ∧ x.pc = .receiving) ∧ ∀ x, s.mock.rcvs[k.rcv]? = some x → x.chan = [] := by
  obtain ⟨hlock, hcr, hen⟩ := hf.client
  have hmock := mock_trans h0.mock (sys_mock hr)
  obtain ⟨y, hy⟩ : ∃ y, s.cl.listeners[k.lst]? = some y := by
    obtain ⟨x, hx, _⟩ := h0.listener
    have : s0.cl.listeners.length ≤ s.cl.listeners.length := listeners_grow (sys_client hr)
    exact ⟨_, List.getElem?_eq_getElem (Nat.lt_of_lt_of_le (List.getElem?_eq_some_iff.1 hx).1 this)⟩
  have own : ∀ {ev : SysEv} {s' : Sys} {pc : LPC}, Sys.Step k s ev s' → (∀ e, ClEv.failed k.lst e ∉ ev.c) → s'.cl = s.cl.at k.lst pc → pc ≠ y.pc → False := by
    intro ev s' pc hs hc he hne
    exact hrest ev s' ⟨hs, .inr (.inr (.inr ⟨hc, y, _, hy, by rw [he]; exact at_moved hy pc, hne⟩))⟩
  have hpc : y.pc = .receiving := by
    cases hp : y.pc with
    | receiving => rfl
    | finished => exact absurd hp (hf.listener y hy)
    | adding => exact (own (.client hcr hen (.listenStart hy hp hlock) (by simp) (by simp) (by simp) (by simp)) (by simp) rfl (by simp [hp])).elim
    | accepting m =>
      obtain ⟨done, pend, clock, g1, _, g3, _⟩ := (coll_run h0 hr).told hcr hen
      rw [pcOf_some hy, hp] at g3
      simp only [Pend] at g3
      obtain ⟨rs, q1, q2⟩ := delivered_good h0 hr (m := m) (by rw [g1, g3]; simp)
      obtain ⟨rm, q3, _⟩ := wire_msg q1 q2
      exact (own (.client hcr hen (.decoded hy hp q3) (by simp) (by simp) (by simp) (by simp)) (by simp) rfl (by simp [hp])).elim
    | fetching d => exact (own (.client hcr hen (.fetch hy hp hlock) (by simp) (by simp) (by simp) (by simp)) (by simp) rfl (by simp [hp])).elim
    | calling d hs =>
      cases hs with
      | nil => exact (own (.client hcr hen (.again hy hp) (by simp) (by simp) (by simp) (by simp)) (by simp) rfl (by simp [hp])).elim
      | cons h hs =>
        have hne : LPC.calling d hs ≠ y.pc := by
          rw [hp]
          intro e
          have := (LPC.calling.inj e).2
          exact absurd (congrArg List.length this) (by simp)
        by_cases hd : h = k.hnd ∧ ∃ rm, d = .record rm
        · obtain ⟨rfl, rm, rfl⟩ := hd
          cases hdp : k.world.dispatch vanOps k.disp (rm.records.zipIdx.map fun p => (p.1, (fun _ => (⟨0, 0⟩ : GoTime)) p.2)) s.stores with
          | mk st po =>
            cases po with
            | none => exact (own (.dispatch (fun _ => ⟨0, 0⟩) hcr hen (.call hy hp) hdp) (by simp) rfl hne).elim
            | some p => exact (own (.dispatchPanic (fun _ => ⟨0, 0⟩) hcr hen (.call hy hp) hdp) (by simp) rfl hne).elim
        · refine (own (.client hcr hen (.call hy hp) (by simp) (by simp) ?_ (by simp)) (by simp) rfl hne).elim
          intro l rm e
          cases e
          exact hd ⟨rfl, rm, rfl⟩
  refine ⟨⟨y, hy, hpc⟩, fun x hx => ?_⟩
  cases hch : x.chan with
  | nil => rfl
  | cons m rest =>
    exfalso
    have hsub := ((delInv_run hmock).sub _ _ hx).2 (List.mem_append_left _ h0.subscribed)
    obtain ⟨msg, hmsg⟩ := chan_msgs h0 hr hx (m := m) (by rw [hch]; simp)
    exact own (.next hcr hen (.recv hx hsub hch) hmsg (.deliver msg hy hpc)) (by simp) rfl (by simp [hpc])

/-- **C102 (at rest).** When none of the goroutines on the way can move and the surroundings let them work, everything on the way has been worked off: the manager waits for work, its
queues and the channel of the receiver are empty, and the listener waits for a message. -/
theorem C102_rest {k : SysCfg} {n0 : List MockEv} {c0 : List ClEv} {s0 s : Sys} {evs : SysEv} (h0 : Sys.Join k n0 c0 s0) (hr : Sys.Run k s0 evs s)
    {m : Nat → AMap (GoRec GoTime)} {ks : Nat → List String} (hok : ∀ i < k.mgr.numStores, StoreOK (s.src.mgr.stores i) (m i) (ks i)) (ht : PcTok s.src.mgr.pc)
    (hf : s.Free k) (hrest : s.Rest k) :
    s.src.mgr.pc = .idle ∧ s.src.mgr.flushQueue = 0 ∧ s.src.mgr.changeQueue = [] ∧ s.src.mgr.sendQueue = [] ∧ s.sending = none ∧
    (∀ x, s.mock.rcvs[k.rcv]? = some x → x.chan = []) ∧ ∃ x, s.cl.listeners[k.lst]? = some x ∧ x.pc = .receiving := by
  obtain ⟨hl, hch⟩ := listener_moves h0 hr hf hrest
  have hw := way_run h0 hr
  have hcur := cur_run h0 hr
  have hmock := mock_trans h0.mock (sys_mock hr)
  have hD := delInv_run hmock
  have hsend : s.sending = none := by
    cases ho : s.sending with
    | none => rfl
    | some o =>
      exfalso
      obtain ⟨hb, op, g1, g2⟩ := hcur o ho
      obtain ⟨op', records, rest, msg, c1, c2, c3, c4, c5⟩ := hw.current o ho
      rw [g1] at c1
      obtain rfl := Option.some.inj c1
      rcases C70_waits_partial hmock g1 g2 with ⟨ev, mock, op2, w1, w2, w3, w4⟩ | ⟨o', op', w1, w2, w3, w4, w5⟩ | ⟨_, w⟩ | ⟨r, x, w1, w2, w3⟩
      · by_cases hret : ∃ r, ev = .ret o r
        · obtain ⟨r, rfl⟩ := hret
          cases r with
          | none => exact hrest _ _ ⟨.sent ho w1 (.mgr (by simp) (by simp) (.send c3 c4 hb)), .inl ⟨_, List.mem_singleton.2 rfl, trivial⟩⟩
          | some e => exact hrest _ _ ⟨.sendFailed ho w1 (.mgr (by simp) (by simp) (.sendFail c3 c4 hb)), .inl ⟨_, List.mem_singleton.2 rfl, trivial⟩⟩
        · have hev : ev = .step o ∨ ev = .accepted o op.addr op.msg := by
            rcases w2 with h | h | h
            · exact .inl h
            · exact .inr h
            · exact absurd h hret
          refine hrest _ _ ⟨.router w1 ?_ ?_ ?_, .inr (.inr (.inl ⟨o, op, op2, ho, g1, w3, w4⟩))⟩
          · rcases hev with rfl | rfl <;> simp
          · intro o' r ho' e
            rw [ho] at ho'
            obtain rfl := Option.some.inj ho'
            exact hret ⟨r, e⟩
          · rcases hev with rfl | rfl <;> simp
      · obtain ⟨r, hr⟩ := hw.others o' op' w2 (by rw [w3, c2]) (by rw [ho]; simpa using Ne.symm w1)
        exact w5 r (done_ret hmock o' op' r w2 hr)
      · exact w k.rcv (by rw [c2]; exact List.mem_append_left _ h0.receiver) (List.mem_append_left _ h0.subscribed)
      · by_cases e : r = k.rcv
        · subst e
          have := cap_pos hmock _ _ w1
          rw [hch x w1] at w3
          simp at w3
          omega
        · have := hf.room r x w1 (by rw [w2, c2]) e
          omega
  have hno : ∀ ev s', Internal ev → ¬ Mgr.Step k.mgr s.src.mgr ev s' := by
    intro ev m' hi hs
    have give : ∀ {records : List (GoRec GoTime)} {rest : List (List (GoRec GoTime))} {msg : Msg}, s.src.mgr.sendQueue = records :: rest →
        RecordMsg.encode vanRegistry { records := records } = .ok msg → s.src.mgr.snd = .busy → False := by
      intro records rest msg h1 h2 h3
      obtain ⟨x, hx, ha⟩ := hf.sender
      refine hrest _ _ ⟨.send hsend h1 h2 (by rw [← ha]; exact .call s.msgs.length none hx) h3, .inr (.inl ?_)⟩
      simp [hsend]
    by_cases h1 : (∃ rs m, ev = .sent rs m) ∨ ∃ rs, ev = .sendFailed rs
    · rcases h1 with ⟨rs, m, rfl⟩ | ⟨rs, rfl⟩
      · cases hs with | send a b c => exact give a b c
      · cases hs with | sendFail a b c => exact give a b c
    · refine hrest { m := [ev] } { s with src := { s.src with mgr := m' } } ⟨.source (ev := some ev) (.mgr ?_ ?_ hs) ?_ ?_, .inl ⟨ev, List.mem_singleton.2 rfl, hi⟩⟩
      · rintro u rfl; exact hi
      · rintro i op rfl; exact hi
      · intro rs m e; exact h1 (.inl ⟨rs, m, Option.some.inj e⟩)
      · intro rs e; exact h1 (.inr ⟨rs, Option.some.inj e⟩)
  obtain ⟨s1, evs1, hs1, hr1⟩ := h0.src
  have hq := pcQueue_run (cfg := k.mgr) hs1.1.2.2.2.1 (Proofs.Src.Run.toMgr (src_trans hr1 (sys_src hr)))
  obtain ⟨q1, q2, q3, q4⟩ := C39_quiescent hok ht hq hf.serve hno
  exact ⟨q1, q2, q3, q4, hsend, hch, hl⟩

/-- **C102 (at rest, conversely).** When everything has been worked off and the manager's context has not ended, none of these goroutines can move. -/
theorem C102_rest_conv {k : SysCfg} {n0 : List MockEv} {c0 : List ClEv} {s0 s : Sys} {evs : SysEv} (h0 : Sys.Join k n0 c0 s0) (hr : Sys.Run k s0 evs s)
    (hcan : s.src.mgr.cancelled = false) (h1 : s.src.mgr.pc = .idle) (h2 : s.src.mgr.flushQueue = 0) (h3 : s.src.mgr.changeQueue = []) (h4 : s.src.mgr.sendQueue = [])
    (h5 : s.sending = none) (h6 : ∀ x, s.mock.rcvs[k.rcv]? = some x → x.chan = []) (h7 : ∃ x, s.cl.listeners[k.lst]? = some x ∧ x.pc = .receiving) : s.Rest k := by
  obtain ⟨s1, evs1, hs1, hr1⟩ := h0.src
  have hbusy : s.src.mgr.snd ≠ .busy := fun hb => busy_run (cfg := k.mgr) hs1.1.2.2.2.2.2 (Proofs.Src.Run.toMgr (src_trans hr1 (sys_src hr))) hb h4
  obtain ⟨y, hy, hyp⟩ := h7
  rintro ev s' ⟨hs, hown⟩
  have mgr : ∀ {e : MgrEv} {src : Src}, Src.Step k.mgr k.id k.tm s.src (some e) src → Internal e → False := by
    intro e src h hi
    obtain ⟨m', hm, rfl⟩ := src_internal h hi
    cases hm with
    | publish | storeOp | flushReceived | receiveError | cancel => exact hi
    | take _ hq => rw [h3] at hq; cases hq
    | takeFlush _ hq => omega
    | stop _ hc | sndStop _ hc => rw [hcan] at hc; cases hc
    | takeMsg _ hq => exact hq h4
    | send hq | skip hq | sendFail hq | sendPanic hq => rw [h4] at hq; cases hq
    | buffer hp | bufferTimeout hp | diff hp | diffPanic hp | queueUpdate hp | stopUpdate hp | drain hp | drainTimeout hp | flushBegin hp | flushEnd hp | queueFlush hp | stopFlush hp =>
      rw [h1] at hp; cases hp
    | page _ hp | pageError _ hp | pagePanic _ hp => rw [h1] at hp; cases hp
  have nosend : ¬ ∃ o op op', s.sending = some o ∧ s.mock.ops[o]? = some op ∧ s'.mock.ops[o]? = some op' ∧ op'.pc ≠ op.pc := by
    rintro ⟨o, _, _, h, _⟩; rw [h5] at h; cases h
  cases hs with
  | @source e src g1 g2 g3 =>
    rcases hown with ⟨e', he, hi⟩ | h | h | ⟨_, x, x', q1, q2, q3⟩
    · obtain rfl : e = some e' := by
        cases e with
        | none => cases he
        | some x => rw [List.mem_singleton.1 he]
      exact mgr g1 hi
    · exact absurd rfl h
    · exact nosend h
    · simp only at q2; rw [q1] at q2; cases q2; exact absurd rfl q3
  | send _ _ _ _ hb => exact hbusy hb
  | sent ho | sendFailed ho => rw [h5] at ho; cases ho
  | router =>
    rcases hown with ⟨e', he, hi⟩ | h | h | ⟨_, x, x', q1, q2, q3⟩
    · cases he
    · exact absurd rfl h
    · exact nosend h
    · simp only at q2; rw [q1] at q2; cases q2; exact absurd rfl q3
  | next _ _ hm =>
    generalize k.rcv = r at hm h6
    cases hm with
    | recv hx _ hc => rw [h6 _ hx] at hc; cases hc
  | @client cev cl g1 g2 g3 g4 =>
    rcases hown with ⟨e', he, hi⟩ | h | h | ⟨hf, x, x', q1, q2, q3⟩
    · cases he
    · exact absurd rfl h
    · exact nosend h
    · have hm := lmove g3 k.lst
      have e2 : pcOf cl k.lst = x'.pc := pcOf_some q2
      rw [pcOf_some hy, hyp, e2] at hm
      rw [hy] at q1; cases q1
      rw [hyp] at q3
      generalize x'.pc = pc' at hm q3
      cases hm with
      | stay => exact q3 rfl
      | deliver => exact g4 _ rfl
      | ended => exact hf _ (List.mem_singleton.2 rfl)
  | dispatch _ _ _ hcall | dispatchPanic _ _ _ hcall =>
    have hm := lmove hcall k.lst
    rw [pcOf_some hy, hyp] at hm
    generalize pcOf _ k.lst = pc' at hm
    cases hm with
    | stay _ hn => exact hn _ _ rfl

/-! ## How much is left to do -/

def chanLen (s : Mock) (r : Nat) : Nat := match s.rcvs[r]? with | some x => x.chan.length | none => 0

/-- What a Send has yet to do: `L` are the receivers of its multicast; a message in the channel of `rcv` costs `B`. -/
def opStage (B : Nat) (L : List Nat) (rcv : Nat) : MSendPC → Nat
  | .done _ => 0
  | .sending _ left => 2 * left.length + 1 + B * left.count rcv
  | .offering _ r left => 2 * left.length + 2 + B * (r :: left).count rcv
  | .locking _ => 2 * L.length + 2 + B * L.count rcv
  | .parked _ _ => 2 * L.length + 3 + B * L.count rcv
  | .getting => 2 * L.length + 4 + B * L.count rcv
  | .start => 2 * L.length + 5 + B * L.count rcv

/-- What a listener has yet to do, if no list of handlers is longer than `H`. -/
def lStage (H : Nat) : LPC → Nat
  | .adding => 1
  | .receiving | .finished => 0
  | .accepting _ => H + 3
  | .fetching _ => H + 2
  | .calling _ hs => hs.length + 1

theorem receivers_kept {s s' : Mock} {ev : MockEv} (hs : Mock.Step s ev s') (hsub : ∀ r, ev ≠ .subscribed r) {a : String} {t : Nat} {m : MCast}
    (ht : s.topics.get? a = some t) (hm : s.mcs[t]? = some m) : s'.topics.get? a = some t ∧ ∃ m', s'.mcs[t]? = some m' ∧ m'.receivers = m.receivers := by
  have hget : ∀ b, (s.get b).2.topics.get? a = some t ∧ (s.get b).2.mcs[t]? = some m := by
    intro b
    unfold Mock.get
    split
    · exact ⟨ht, hm⟩
    · rename_i hb
      refine ⟨?_, snoc_some.2 (.inl hm)⟩
      simp only [GMap.get?_set]
      rw [if_neg]
      · exact ht
      · rintro rfl; rw [ht] at hb; cases hb
  have hset : ∀ (mc : Nat) (h : Option Nat), ∃ m', (s.mcs.modify mc fun y => { y with holder := h })[t]? = some m' ∧ m'.receivers = m.receivers := by
    intro mc h
    refine ⟨_, modify_some.2 ⟨m, hm, rfl⟩, ?_⟩
    split <;> rfl
  cases hs with
  | subscribe => exact absurd rfl (hsub _)
  | subGet | get => exact ⟨(hget _).1, m, (hget _).2, rfl⟩
  | lock | finish => exact ⟨ht, hset _ _⟩
  | _ => exact ⟨ht, m, hm, rfl⟩

theorem setOp_moved {s s1 : Mock} {o o' : Nat} {op op' : MSend} {pc : MSendPC} (h1 : s1.ops = s.ops) (g1 : s.ops[o]? = some op) (g2 : (s1.setOp o' pc).ops[o]? = some op')
    (hne : op'.pc ≠ op.pc) : o' = o ∧ op'.pc = pc := by
  simp only [Mock.setOp, modify_some, h1] at g2
  obtain ⟨y, hy, rfl⟩ := g2
  rw [g1] at hy
  obtain rfl := Option.some.inj hy
  by_cases e : o' = o
  · simp [e]
  · simp [e] at hne

/-- A Send that moves has less to do. -/
theorem mock_down {B rcv : Nat} {s s' : Mock} {ev : MockEv} (hT : TopInv s) {a : String} {t o : Nat} {m : MCast} {op op' : MSend} (ht : s.topics.get? a = some t)
    (hm : s.mcs[t]? = some m) (hin : rcv ∈ m.receivers) (hs : Mock.Step s ev s') (hnr : ∀ r, ev ≠ .ret o r) (g1 : s.ops[o]? = some op) (ha : op.addr = a)
    (g2 : s'.ops[o]? = some op') (hne : op'.pc ≠ op.pc) :
    opStage B m.receivers rcv op'.pc + B * chanLen s' rcv < opStage B m.receivers rcv op.pc + B * chanLen s rcv := by
  have same : s'.ops = s.ops → False := by
    intro h
    rw [h, g1] at g2
    obtain rfl := Option.some.inj g2
    exact hne rfl
  have topic : ∀ {mc : Nat}, topicOf op.pc = some mc → mc = t := by
    intro mc h
    have := hT.op o op mc g1 h
    rw [ha, ht] at this
    exact (Option.some.inj this).symm
  cases hs with
  | newReceiver | newSender | subscribe | recv | nextClosed | closeReceiver | closeSender => exact (same rfl).elim
  | subGet => exact (same (by simp [Mock.setRcv, get_ops])).elim
  | call =>
    rcases snoc_some.1 g2 with h | ⟨h, _⟩
    · rw [g1] at h
      obtain rfl := Option.some.inj h
      exact absurd rfl hne
    · rw [h] at g1; simp at g1
  | cancelOp =>
    obtain ⟨y, hy, rfl⟩ := modify_some.1 g2
    rw [g1] at hy
    obtain rfl := Option.some.inj hy
    exfalso
    apply hne
    split <;> rfl
  | startClosed ho hp | startCtx ho hp | parkCtx ho hp =>
    obtain ⟨rfl, e⟩ := setOp_moved rfl g1 g2 hne
    exact absurd rfl (hnr _)
  | finish ho hp =>
    obtain ⟨rfl, e⟩ := setOp_moved (s1 := s.setMC _ _) rfl g1 g2 hne
    exact absurd rfl (hnr _)
  | startGo ho hp =>
    obtain ⟨rfl, e⟩ := setOp_moved rfl g1 g2 hne
    rw [g1] at ho; obtain rfl := Option.some.inj ho
    rw [e, hp]
    exact Nat.add_lt_add_right (by simp only [opStage]; omega) _
  | get ho hp =>
    obtain ⟨rfl, e⟩ := setOp_moved get_ops g1 g2 hne
    rw [g1] at ho; obtain rfl := Option.some.inj ho
    rw [e, hp]
    simp only [opStage, chanLen, Mock.setOp, get_rcvs]
    omega
  | @lock o' mc op1 m1 ho hp hm1 hh hr =>
    obtain ⟨rfl, e⟩ := setOp_moved (s1 := s.setMC _ _) rfl g1 g2 hne
    rw [g1] at ho; obtain rfl := Option.some.inj ho
    obtain rfl := topic (by rw [hp]; rfl)
    rw [hm] at hm1; obtain rfl := Option.some.inj hm1
    rw [e, hp]
    exact Nat.add_lt_add_right (by simp only [opStage]; omega) _
  | @lockEmpty o' mc op1 m1 ho hp hm1 hh hr =>
    obtain ⟨rfl, e⟩ := setOp_moved rfl g1 g2 hne
    rw [g1] at ho; obtain rfl := Option.some.inj ho
    obtain rfl := topic (by rw [hp]; rfl)
    rw [hm] at hm1; obtain rfl := Option.some.inj hm1
    rw [hr] at hin
    cases hin
  | wake ho hp =>
    obtain ⟨rfl, e⟩ := setOp_moved rfl g1 g2 hne
    rw [g1] at ho; obtain rfl := Option.some.inj ho
    rw [e, hp]
    exact Nat.add_lt_add_right (by simp only [opStage]; omega) _
  | skip ho hp =>
    obtain ⟨rfl, e⟩ := setOp_moved rfl g1 g2 hne
    rw [g1] at ho; obtain rfl := Option.some.inj ho
    rw [e, hp]
    refine Nat.add_lt_add_right ?_ _
    simp only [opStage, List.length_cons, List.count_cons, Nat.mul_add]
    omega
  | offer ho hp =>
    obtain ⟨rfl, e⟩ := setOp_moved rfl g1 g2 hne
    rw [g1] at ho; obtain rfl := Option.some.inj ho
    rw [e, hp]
    exact Nat.add_lt_add_right (by simp only [opStage, List.length_cons]; omega) _
  | @put o' mc r left op1 x ho hp hx hc =>
    obtain ⟨rfl, e⟩ := setOp_moved (s1 := s.setRcv _ _) rfl g1 g2 hne
    rw [g1] at ho; obtain rfl := Option.some.inj ho
    rw [e, hp]
    by_cases er : r = rcv
    · subst er
      have h1 : chanLen s r = x.chan.length := by simp [chanLen, hx]
      have h2 : ∀ pc, chanLen ((s.setRcv r fun y => { y with chan := y.chan ++ [op.msg] }).setOp o' pc) r = x.chan.length + 1 := by
        intro pc
        simp [chanLen, Mock.setOp, Mock.setRcv, hx]
      rw [h1, h2]
      simp only [opStage, List.count_cons, beq_self_eq_true, if_true, Nat.mul_add]
      omega
    · have h2 : ∀ pc, chanLen ((s.setRcv r fun y => { y with chan := y.chan ++ [op.msg] }).setOp o' pc) rcv = chanLen s rcv := by
        intro pc
        simp only [chanLen, Mock.setOp, Mock.setRcv, List.getElem?_modify]
        cases s.rcvs[rcv]? <;> simp [er]
      rw [h2]
      simp only [opStage, List.count_cons, Nat.mul_add]
      omega

/-- A listener that moves has less to do, unless it gets a message. -/
theorem listener_down {reg : Registry} {s : Client} {l H : Nat} {ev : ClEv} {pc pc' : LPC} (hm : LMove reg s l ev pc pc') (hne : pc' ≠ pc) (hf : ∀ e, ev ≠ .failed l e)
    (hd : ∀ m, ev ≠ .delivered l m) (hH : s.recordHandlers.length ≤ H ∧ s.heartbeatHandlers.length ≤ H) : lStage H pc' < lStage H pc := by
  cases hm with
  | stay => exact absurd rfl hne
  | start => simp [lStage]
  | deliver => exact absurd rfl (hd _)
  | ended | failed => exact absurd rfl (hf _)
  | decoded | undecodable => simp [lStage]
  | @fetch _ d =>
    have : (s.handlersFor d).length ≤ H := by
      cases d with
      | record => exact hH.1
      | heartbeat => exact hH.2
      | _ => exact Nat.zero_le _
    simp only [lStage]
    omega
  | call => simp [lStage]
  | again => simp [lStage]

/-- A client whose listener moves keeps its handlers, its lock and stays up. -/
theorem moved_keeps {reg : Registry} {s s' : Client} {ev : ClEv} (hs : Client.Step reg s ev s') {l : Nat} (hne : pcOf s' l ≠ pcOf s l) :
    s'.recordHandlers = s.recordHandlers ∧ s'.heartbeatHandlers = s.heartbeatHandlers ∧ s'.lock = s.lock ∧ s'.crashed = s.crashed := by
  cases hs with
  | closeLock =>
    exact absurd (pcOf_cleanup _ rfl _ rfl l) hne
  | onRecord | onHeartbeat | closeReturn | decodePanic | closePanic => exact absurd rfl hne
  | _ => exact ⟨rfl, rfl, rfl, rfl⟩

theorem call_moves {reg : Registry} {s s' : Client} {l h : Nat} {d : Decoded} (hs : Client.Step reg s (.call l h d) s') : pcOf s' l ≠ pcOf s l := by
  cases hs with
  | call hx hp =>
    rw [pcOf_at hx, if_pos rfl, pcOf_some hx, hp]
    intro e
    exact absurd (congrArg List.length (LPC.calling.inj e).2) (by simp)

def sendStage (B : Nat) (L : List Nat) (rcv : Nat) (s : Sys) : Nat :=
  match s.sending with
  | none => 2 * L.length + 6 + B * L.count rcv
  | some o => match s.mock.ops[o]? with | some op => opStage B L rcv op.pc | none => 0

/-- An upper bound of the number of moves the system makes if left alone. -/
def sysLeft (k : SysCfg) (len : Nat → Nat) (L : List Nat) (H : Nat) (s : Sys) : Nat :=
  (2 * L.length + 7 + (H + 4) * L.count k.rcv) * workLeft k.mgr.numStores len s.src.mgr + sendStage (H + 4) L k.rcv s + (H + 4) * chanLen s.mock k.rcv + lStage H (pcOf s.cl k.lst)

/-- What the moves of the system do not change. -/
structure OwnFix (k : SysCfg) (t : Nat) (L : List Nat) (H : Nat) (st : Stores (GoRec GoTime)) (s : Sys) : Prop where
  topic : s.mock.topics.get? k.addr = some t
  receivers : ∃ m, s.mock.mcs[t]? = some m ∧ m.receivers = L
  mem : k.rcv ∈ L
  handlers : s.cl.recordHandlers.length ≤ H ∧ s.cl.heartbeatHandlers.length ≤ H
  stores : s.src.mgr.stores = st
  tok : PcTok s.src.mgr.pc

theorem OwnFix.mock {k : SysCfg} {t : Nat} {L : List Nat} {H : Nat} {st : Stores (GoRec GoTime)} {s : Sys} (h : OwnFix k t L H st s) {ev : MockEv} {mock : Mock}
    (hs : Mock.Step s.mock ev mock) (hsub : ∀ r, ev ≠ .subscribed r) : mock.topics.get? k.addr = some t ∧ ∃ m, mock.mcs[t]? = some m ∧ m.receivers = L := by
  obtain ⟨m, h1, h2⟩ := h.receivers
  obtain ⟨g1, m', g2, g3⟩ := receivers_kept hs hsub h.topic h1
  exact ⟨g1, m', g2, g3.trans h2⟩

theorem mul_step {A w' w : Nat} (h : w' < w) : A * w' + A ≤ A * w := by
  rw [← Nat.mul_succ]; exact Nat.mul_le_mul_left A h

theorem own_down {k : SysCfg} {n0 : List MockEv} {c0 : List ClEv} {s0 s s' : Sys} {evs ev : SysEv} (h0 : Sys.Join k n0 c0 s0) (hr : Sys.Run k s0 evs s)
    {m : Nat → AMap (GoRec GoTime)} {ks : Nat → List String} {t : Nat} {L : List Nat} {H : Nat} {st : Stores (GoRec GoTime)}
    (hok : ∀ i < k.mgr.numStores, StoreOK (st i) (m i) (ks i)) (hx : OwnFix k t L H st s) (ho : Sys.Own k s ev s') :
    sysLeft k (fun i => (ks i).length) L H s' < sysLeft k (fun i => (ks i).length) L H s ∧ OwnFix k t L H st s' := by
  obtain ⟨hs, hown⟩ := ho
  obtain ⟨s1, evs1, hs1, hr1⟩ := h0.src
  have hq := pcQueue_run (cfg := k.mgr) hs1.1.2.2.2.1 (Proofs.Src.Run.toMgr (src_trans hr1 (sys_src hr)))
  have hok' : ∀ i < k.mgr.numStores, StoreOK (s.src.mgr.stores i) (m i) (ks i) := by rw [hx.stores]; exact hok
  have hT := topInv_run (mock_trans h0.mock (sys_mock hr))
  have nolist : s'.cl = s.cl → ¬ ((∀ e, ClEv.failed k.lst e ∉ ev.c) ∧ ∃ x x', s.cl.listeners[k.lst]? = some x ∧ s'.cl.listeners[k.lst]? = some x' ∧ x'.pc ≠ x.pc) := by
    rintro h ⟨_, x, x', g1, g2, g3⟩
    rw [h, g1] at g2
    obtain rfl := Option.some.inj g2
    exact g3 rfl
  have noop : s'.mock.ops = s.mock.ops → ¬ ∃ o op op', s.sending = some o ∧ s.mock.ops[o]? = some op ∧ s'.mock.ops[o]? = some op' ∧ op'.pc ≠ op.pc := by
    rintro h ⟨o, op, op', _, g1, g2, g3⟩
    rw [h, g1] at g2
    obtain rfl := Option.some.inj g2
    exact g3 rfl
  -- a move of the manager
  have mgr : ∀ {e : MgrEv} {src : Src}, Src.Step k.mgr k.id k.tm s.src (some e) src → Internal e →
      workLeft k.mgr.numStores (fun i => (ks i).length) src.mgr < workLeft k.mgr.numStores (fun i => (ks i).length) s.src.mgr ∧ src.mgr.stores = st ∧ PcTok src.mgr.pc := by
    intro e src h hi
    obtain ⟨m', h1, rfl⟩ := src_internal h hi
    obtain ⟨a, b⟩ := workLeft_step hok' hx.tok hq h1 hi
    exact ⟨a, b.trans hx.stores, (pcTok_step hok' hx.tok hq h1).1⟩
  cases hs with
  | @source e src h1 h2 h3 =>
    rcases hown with ⟨e', he, hi⟩ | h | h | h
    · obtain rfl : e = some e' := by
        cases e with
        | none => cases he
        | some x => rw [List.mem_singleton.1 he]
      obtain ⟨a, b, c⟩ := mgr h1 hi
      refine ⟨?_, hx.topic, hx.receivers, hx.mem, hx.handlers, b, c⟩
      have := mul_step (A := 2 * L.length + 7 + (H + 4) * L.count k.rcv) a
      have hss : sendStage (H + 4) L k.rcv { s with src := src } = sendStage (H + 4) L k.rcv s := rfl
      simp only [sysLeft, hss]
      omega
    · exact absurd rfl h
    · exact absurd h (noop rfl)
    · exact absurd h (nolist rfl)
  | @send records rest msg mock o h1 h2 h3 h4 h5 =>
    obtain ⟨g1, g2⟩ := hx.mock h4 (by simp)
    refine ⟨?_, g1, g2, hx.mem, hx.handlers, hx.stores, hx.tok⟩
    obtain ⟨op', a1, _, _, a4⟩ := (ops_step h4).call _ _ _ _ rfl
    have hch : chanLen mock k.rcv = chanLen s.mock k.rcv := by
      generalize k.snd = i at h4
      generalize k.addr = a at h4
      cases h4; rfl
    simp only [sysLeft, sendStage, h1, a1, a4, opStage, hch]
    omega
  | @sent records msg mock src o h1 h2 h3 =>
    obtain ⟨g1, g2⟩ := hx.mock h2 (by simp)
    obtain ⟨a, b, c⟩ := mgr h3 trivial
    refine ⟨?_, g1, g2, hx.mem, hx.handlers, b, c⟩
    have hch : chanLen mock k.rcv = chanLen s.mock k.rcv := by cases h2; rfl
    have := mul_step (A := 2 * L.length + 7 + (H + 4) * L.count k.rcv) a
    have hss : sendStage (H + 4) L k.rcv { s with mock := mock, src := src, sending := none } = 2 * L.length + 6 + (H + 4) * L.count k.rcv := rfl
    simp only [sysLeft, hss, hch]
    omega
  | @sendFailed records mock src o e h1 h2 h3 =>
    obtain ⟨g1, g2⟩ := hx.mock h2 (by simp)
    obtain ⟨a, b, c⟩ := mgr h3 trivial
    refine ⟨?_, g1, g2, hx.mem, hx.handlers, b, c⟩
    have hch : chanLen mock k.rcv = chanLen s.mock k.rcv := by cases h2 <;> rfl
    have := mul_step (A := 2 * L.length + 7 + (H + 4) * L.count k.rcv) a
    have hss : sendStage (H + 4) L k.rcv { s with mock := mock, src := src, sending := none } = 2 * L.length + 6 + (H + 4) * L.count k.rcv := rfl
    simp only [sysLeft, hss, hch]
    omega
  | @router mev mock h1 h2 h3 h4 =>
    rcases hown with ⟨e', he, hi⟩ | h | ⟨o, op, op', q1, q2, q3, q4⟩ | h
    · cases he
    · exact absurd rfl h
    · have hsub : ∀ r, mev ≠ .subscribed r := by
        rintro r rfl
        refine noop ?_ ⟨o, op, op', q1, q2, q3, q4⟩
        cases h1; rfl
      obtain ⟨g1, g2⟩ := hx.mock h1 hsub
      refine ⟨?_, g1, g2, hx.mem, hx.handlers, hx.stores, hx.tok⟩
      obtain ⟨m1, m2, rfl⟩ := hx.receivers
      obtain ⟨op2, _, _, _, c1, c2, _⟩ := (way_run h0 hr).current o q1
      rw [q2] at c1
      obtain rfl := Option.some.inj c1
      have := mock_down (B := H + 4) hT hx.topic m2 hx.mem h1 (h3 o · q1) q2 c2 q3 q4
      simp only at q3
      simp only [sysLeft, sendStage, q1, q2, q3]
      omega
    · exact absurd h (nolist rfl)
  | @next mm msg mock cl h1 h2 h3 h4 h5 =>
    obtain ⟨g1, g2⟩ := hx.mock h3 (by simp)
    have hl : pcOf s.cl k.lst = .receiving ∧ pcOf cl k.lst = .accepting msg := by
      generalize k.lst = l at h5
      cases h5 with
      | deliver _ hy hp => exact ⟨by rw [pcOf_some hy, hp], by simp [pcOf_at hy]⟩
    obtain ⟨e1, e2⟩ := hl
    obtain ⟨c1, c2, _⟩ := moved_keeps h5 (l := k.lst) (by rw [e1, e2]; simp)
    refine ⟨?_, g1, g2, hx.mem, by rw [c1, c2]; exact hx.handlers, hx.stores, hx.tok⟩
    have hops : mock.ops = s.mock.ops := by cases h3; rfl
    have hch : chanLen mock k.rcv + 1 = chanLen s.mock k.rcv := by
      generalize k.rcv = r at h3
      cases h3 with
      | recv hx _ hc => simp [chanLen, Mock.setRcv, hx, hc]
    have hss : sendStage (H + 4) L k.rcv { s with mock := mock, cl := cl } = sendStage (H + 4) L k.rcv s := by simp only [sendStage, hops]
    simp only [sysLeft, hss, e1, e2, lStage, ← hch, Nat.mul_add]
    omega
  | @client cev cl h1 h2 h3 h4 h5 h6 h7 =>
    rcases hown with ⟨e', he, hi⟩ | h | h | ⟨hf, x, x', q1, q2, q3⟩
    · cases he
    · exact absurd rfl h
    · exact absurd h (noop rfl)
    · have hne : pcOf cl k.lst ≠ pcOf s.cl k.lst := by rw [pcOf_some q1, pcOf_some (s := cl) q2]; exact q3
      obtain ⟨c1, c2, _⟩ := moved_keeps h3 hne
      refine ⟨?_, hx.topic, hx.receivers, hx.mem, by rw [c1, c2]; exact hx.handlers, hx.stores, hx.tok⟩
      have := listener_down (H := H) (lmove h3 k.lst) hne (fun e he => hf e (by rw [he]; simp)) h4 hx.handlers
      have hss : sendStage (H + 4) L k.rcv { s with cl := cl } = sendStage (H + 4) L k.rcv s := rfl
      simp only [sysLeft, hss]
      omega
  | @dispatch rm cl stores times h1 h2 h3 h4 =>
    have hne : pcOf cl k.lst ≠ pcOf s.cl k.lst := call_moves h3
    obtain ⟨c1, c2, _⟩ := moved_keeps h3 hne
    refine ⟨?_, hx.topic, hx.receivers, hx.mem, by rw [c1, c2]; exact hx.handlers, hx.stores, hx.tok⟩
    have := listener_down (H := H) (lmove h3 k.lst) hne (by simp) (by simp) hx.handlers
    have hss : sendStage (H + 4) L k.rcv { s with cl := cl, stores := stores } = sendStage (H + 4) L k.rcv s := rfl
    simp only [sysLeft, hss]
    omega
  | @dispatchPanic rm cl stores p times h1 h2 h3 h4 =>
    have hne : pcOf cl k.lst ≠ pcOf s.cl k.lst := call_moves h3
    obtain ⟨c1, c2, _⟩ := moved_keeps h3 hne
    refine ⟨?_, hx.topic, hx.receivers, hx.mem, by rw [c1, c2]; exact hx.handlers, hx.stores, hx.tok⟩
    have := listener_down (H := H) (lmove h3 k.lst) hne (by simp) (by simp) hx.handlers
    have hss : sendStage (H + 4) L k.rcv { s with cl := cl, stores := stores, ended := true } = sendStage (H + 4) L k.rcv s := rfl
    simp only [sysLeft, hss]
    omega

/-! ## The theorems -/

theorem sys_trans {k : SysCfg} {a b c : Sys} {e1 e2 : SysEv} (h1 : Sys.Run k a e1 b) (h2 : Sys.Run k b e2 c) :
    Sys.Run k a { m := e1.m ++ e2.m, n := e1.n ++ e2.n, c := e1.c ++ e2.c } c := by
  induction h2 with
  | nil => simpa using h1
  | snoc _ hs ih => simpa only [List.append_assoc] using ih.snoc hs

theorem ownRun_run {k : SysCfg} {s s' : Sys} {n : Nat} {evs : SysEv} (h : Sys.OwnRun k s n evs s') : Sys.Run k s evs s' := by
  induction h with
  | nil => exact .nil
  | snoc _ ho ih => exact ih.snoc ho.1

/-- The receiver is among those of its address. -/
theorem ownFix_start {k : SysCfg} {n0 : List MockEv} {c0 : List ClEv} {s0 s : Sys} {evs : SysEv} (h0 : Sys.Join k n0 c0 s0) (hr : Sys.Run k s0 evs s) (ht : PcTok s.src.mgr.pc) :
    ∃ t L, OwnFix k t L (max s.cl.recordHandlers.length s.cl.heartbeatHandlers.length) s.src.mgr.stores s := by
  have hmock := mock_trans h0.mock (sys_mock hr)
  have hD := delInv_run hmock
  obtain ⟨x, hx, hxa⟩ := (hD.new k.rcv k.addr).1 (List.mem_append_left _ h0.receiver)
  have hsub := (hD.sub _ _ hx).2 (List.mem_append_left _ h0.subscribed)
  obtain ⟨t, m, g1, g2, g3⟩ := (topInv_run hmock).has _ x hx hsub
  rw [hxa] at g1
  exact ⟨t, m.receivers, g1, ⟨m, g2, rfl⟩, g3, ⟨Nat.le_max_left _ _, Nat.le_max_right _ _⟩, rfl, ht⟩

theorem own_run {k : SysCfg} {n0 : List MockEv} {c0 : List ClEv} {s0 s s' : Sys} {evs evs' : SysEv} {n : Nat} (h0 : Sys.Join k n0 c0 s0) (hr : Sys.Run k s0 evs s)
    {m : Nat → AMap (GoRec GoTime)} {ks : Nat → List String} {t : Nat} {L : List Nat} {H : Nat} {st : Stores (GoRec GoTime)}
    (hok : ∀ i < k.mgr.numStores, StoreOK (st i) (m i) (ks i)) (hx : OwnFix k t L H st s) (ho : Sys.OwnRun k s n evs' s') :
    n + sysLeft k (fun i => (ks i).length) L H s' ≤ sysLeft k (fun i => (ks i).length) L H s ∧ OwnFix k t L H st s' := by
  induction ho with
  | nil => exact ⟨by omega, hx⟩
  | snoc h1 h2 ih =>
    obtain ⟨i1, i2⟩ := ih
    obtain ⟨j1, j2⟩ := own_down h0 (sys_trans hr (ownRun_run h1)) hok i2 h2
    exact ⟨by omega, j2⟩

/-- If the number of moves is bounded, the system can be run until it is at rest. -/
theorem rest_reached {k : SysCfg} {s : Sys} {N : Nat} (h : ∀ n evs' s', Sys.OwnRun k s n evs' s' → n ≤ N) : ∃ n evs' s', Sys.OwnRun k s n evs' s' ∧ s'.Rest k := by
  by_contra hc
  have step : ∀ j, ∃ evs' s', Sys.OwnRun k s j evs' s' := by
    intro j
    induction j with
    | zero => exact ⟨_, _, .nil⟩
    | succ j ih =>
      obtain ⟨evs', s', hj⟩ := ih
      have : ¬ s'.Rest k := fun hrest => hc ⟨j, evs', s', hj, hrest⟩
      simp only [Sys.Rest, not_forall, not_not] at this
      obtain ⟨ev, s'', ho⟩ := this
      exact ⟨_, _, hj.snoc ho⟩
  obtain ⟨evs', s', hj⟩ := step (N + 1)
  have := h _ _ _ hj
  omega

/-- **C102 (bounded).** Whatever has happened and whatever the schedule: left alone, the goroutines on the way of a record make a bounded number of moves; so they come to rest. -/
theorem C102_bounded {k : SysCfg} {n0 : List MockEv} {c0 : List ClEv} {s0 s : Sys} {evs : SysEv} (h0 : Sys.Join k n0 c0 s0) (hr : Sys.Run k s0 evs s)
    {m : Nat → AMap (GoRec GoTime)} {ks : Nat → List String} (hok : ∀ i < k.mgr.numStores, StoreOK (s.src.mgr.stores i) (m i) (ks i)) (ht : PcTok s.src.mgr.pc) :
    (∃ N, ∀ n evs' s', Sys.OwnRun k s n evs' s' → n ≤ N) ∧ ∃ n evs' s', Sys.OwnRun k s n evs' s' ∧ s'.Rest k := by
  obtain ⟨t, L, hx⟩ := ownFix_start h0 hr ht
  have hb : ∀ n evs' s', Sys.OwnRun k s n evs' s' → n ≤ sysLeft k (fun i => (ks i).length) L (max s.cl.recordHandlers.length s.cl.heartbeatHandlers.length) s := fun n evs' s' ho =>
    Nat.le_trans (Nat.le_add_right n _) (own_run h0 hr hok hx ho).1
  exact ⟨⟨_, hb⟩, rest_reached hb⟩

/-- What the moves of the system leave as it is. -/
structure OwnKeeps (k : SysCfg) (s : Sys) (ev : SysEv) (s' : Sys) : Prop where
  lock : s'.cl.lock = s.cl.lock
  crashed : s'.cl.crashed = s.cl.crashed
  listener : (∀ x, s.cl.listeners[k.lst]? = some x → x.pc ≠ .finished) → ∀ x, s'.cl.listeners[k.lst]? = some x → x.pc ≠ .finished
  snds : s'.mock.snds = s.mock.snds
  versions : s'.src.versions = s.src.versions ∧ s'.src.pub = s.src.pub
  running : s.src.mgr.cancelled = false → s'.src.mgr.cancelled = false ∧ (s.src.mgr.pc ≠ .stopped → s'.src.mgr.pc ≠ .stopped) ∧ (s.src.mgr.snd ≠ .done → s'.src.mgr.snd ≠ .done)
  opened : ∀ r, MockEv.closeReceiver r ∉ ev.n

theorem mgr_keeps {cfg : MgrConfig} {id : String} {tm : TypeMeta} {a b : Src} {ev : MgrEv} (hs : Src.Step cfg id tm a (some ev) b) (hi : Internal ev) :
    (b.versions = a.versions ∧ b.pub = a.pub) ∧
    (a.mgr.cancelled = false → b.mgr.cancelled = false ∧ (a.mgr.pc ≠ .stopped → b.mgr.pc ≠ .stopped) ∧ (a.mgr.snd ≠ .done → b.mgr.snd ≠ .done)) := by
  obtain ⟨m, h, rfl⟩ := src_internal hs hi
  refine ⟨⟨rfl, rfl⟩, fun hc => ⟨?_, fun hp hp' => ?_, fun hp hp' => ?_⟩⟩
  · cases hcm : m.cancelled with
    | false => rfl
    | true =>
      rcases (cancelled_step h).1 hcm with h1 | rfl
      · rw [hc] at h1; cases h1
      · exact hi.elim
  · rcases stopped_by h hp' with h1 | h1
    · exact hp h1
    · rw [hc] at h1; cases h1
  · rcases sndDone_by h hp' with h1 | h1
    · exact hp h1
    · rw [hc] at h1; cases h1

theorem moved_lives {reg : Registry} {s s' : Client} {ev : ClEv} {l : Nat} (hs : Client.Step reg s ev s') (hne : pcOf s' l ≠ pcOf s l) (hf : ∀ e, ev ≠ .failed l e) :
    ∀ x, s'.listeners[l]? = some x → x.pc ≠ .finished := by
  intro x hx e
  have h1 : pcOf s' l = .finished := by rw [pcOf_some hx, e]
  have hm := lmove hs l
  rw [h1] at hm hne
  generalize pcOf s l = pc at hm hne
  generalize hp : LPC.finished = pc' at hm hne
  cases hm with
  | stay => exact hne rfl
  | ended | failed => exact hf _ rfl
  | _ => cases hp

theorem own_keeps {k : SysCfg} {s s' : Sys} {ev : SysEv} (ho : Sys.Own k s ev s') : OwnKeeps k s ev s' := by
  obtain ⟨hs, hown⟩ := ho
  cases hs with
  | @source e src h1 h2 h3 =>
    rcases hown with ⟨e', he, hi⟩ | h | ⟨o, op, op', _, g1, g2, g3⟩ | ⟨_, x, x', g1, g2, g3⟩
    · obtain rfl : e = some e' := by
        cases e with
        | none => cases he
        | some x => rw [List.mem_singleton.1 he]
      obtain ⟨a, b⟩ := mgr_keeps h1 hi
      exact ⟨rfl, rfl, id, rfl, a, b, by simp⟩
    · exact absurd rfl h
    · simp only at g2; rw [g1] at g2; cases g2; exact absurd rfl g3
    · simp only at g2; rw [g1] at g2; cases g2; exact absurd rfl g3
  | @send records rest msg mock o h1 h2 h3 h4 h5 =>
    refine ⟨rfl, rfl, id, ?_, ⟨rfl, rfl⟩, fun hc => ⟨hc, id, id⟩, by simp⟩
    generalize k.snd = i at h4
    generalize k.addr = a at h4
    cases h4; rfl
  | @sent records msg mock src o h1 h2 h3 =>
    obtain ⟨a, b⟩ := mgr_keeps h3 trivial
    exact ⟨rfl, rfl, id, by cases h2; rfl, a, b, by simp⟩
  | @sendFailed records mock src o e h1 h2 h3 =>
    obtain ⟨a, b⟩ := mgr_keeps h3 trivial
    exact ⟨rfl, rfl, id, by cases h2 <;> rfl, a, b, by simp⟩
  | @router mev mock h1 h2 h3 h4 =>
    rcases hown with ⟨e', he, hi⟩ | h | ⟨o, op, op', g0, g1, g2, g3⟩ | ⟨_, x, x', g1, g2, g3⟩
    · cases he
    · exact absurd rfl h
    · simp only at g2
      refine ⟨rfl, rfl, id, ?_, ⟨rfl, rfl⟩, fun hc => ⟨hc, id, id⟩, ?_⟩
      · cases h1 with
        | newSender => simp only at g2; rw [g1] at g2; cases g2; exact absurd rfl g3
        | closeSender => simp only at g2; rw [g1] at g2; cases g2; exact absurd rfl g3
        | subGet => simp only [Mock.setRcv, get_snds]
        | get => simp only [Mock.setOp, get_snds]
        | _ => rfl
      · intro r hmem
        obtain rfl := (List.mem_singleton.1 hmem).symm
        have hops : mock.ops = s.mock.ops := by cases h1; rfl
        rw [hops, g1] at g2; cases g2; exact absurd rfl g3
    · simp only at g2; rw [g1] at g2; cases g2; exact absurd rfl g3
  | @next mm msg mock cl h1 h2 h3 h4 h5 =>
    have hne : pcOf cl k.lst ≠ pcOf s.cl k.lst := by
      generalize k.lst = l at h5
      cases h5 with
      | deliver _ hy hp => rw [pcOf_some hy, hp]; simp [pcOf_at hy]
    obtain ⟨_, _, c3, c4⟩ := moved_keeps h5 hne
    exact ⟨c3, c4, fun _ => moved_lives h5 hne (by simp), by cases h3; rfl, ⟨rfl, rfl⟩, fun hc => ⟨hc, id, id⟩, by simp⟩
  | @client cev cl h1 h2 h3 h4 h5 h6 h7 =>
    rcases hown with ⟨e', he, hi⟩ | h | ⟨o, op, op', g0, g1, g2, g3⟩ | ⟨hf, x, x', q1, q2, q3⟩
    · cases he
    · exact absurd rfl h
    · simp only at g2; rw [g1] at g2; cases g2; exact absurd rfl g3
    · have hne : pcOf cl k.lst ≠ pcOf s.cl k.lst := by rw [pcOf_some q1, pcOf_some (s := cl) q2]; exact q3
      obtain ⟨_, _, c3, c4⟩ := moved_keeps h3 hne
      exact ⟨c3, c4, fun _ => moved_lives h3 hne (fun e he => hf e (by rw [he]; simp)), rfl, ⟨rfl, rfl⟩, fun hc => ⟨hc, id, id⟩, by simp⟩
  | @dispatch rm cl stores times h1 h2 h3 h4 | @dispatchPanic rm cl stores p times h1 h2 h3 h4 =>
    have hne : pcOf cl k.lst ≠ pcOf s.cl k.lst := call_moves h3
    obtain ⟨_, _, c3, c4⟩ := moved_keeps h3 hne
    exact ⟨c3, c4, fun _ => moved_lives h3 hne (by simp), rfl, ⟨rfl, rfl⟩, fun hc => ⟨hc, id, id⟩, by simp⟩

theorem ownRun_keeps {k : SysCfg} {s s' : Sys} {evs : SysEv} {n : Nat} (h : Sys.OwnRun k s n evs s') : OwnKeeps k s evs s' := by
  induction h with
  | nil => exact ⟨rfl, rfl, id, rfl, ⟨rfl, rfl⟩, fun hc => ⟨hc, id, id⟩, by simp⟩
  | snoc _ ho ih =>
    have j := own_keeps ho
    refine ⟨j.lock.trans ih.lock, j.crashed.trans ih.crashed, fun h => j.listener (ih.listener h), j.snds.trans ih.snds,
      ⟨j.versions.1.trans ih.versions.1, j.versions.2.trans ih.versions.2⟩, fun hc => ?_, fun r hr => ?_⟩
    · obtain ⟨a, b, c⟩ := ih.running hc
      obtain ⟨a', b', c'⟩ := j.running a
      exact ⟨a', fun h => b' (b h), fun h => c' (c h)⟩
    · rcases List.mem_append.1 hr with hr | hr
      · exact ih.opened r hr
      · exact j.opened r hr

/-- At rest, everything published has been sent, received and handled. -/
theorem rest_still {k : SysCfg} {n0 : List MockEv} {c0 : List ClEv} {s0 s s' : Sys} {evs evs' : SysEv} {n : Nat} (h0 : Sys.Join k n0 c0 s0) (hr : Sys.Run k s0 evs s)
    {m : Nat → AMap (GoRec GoTime)} {ks : Nat → List String} (hok : ∀ i < k.mgr.numStores, StoreOK (s.src.mgr.stores i) (m i) (ks i)) (ht : PcTok s.src.mgr.pc)
    (hp : s.src.pub = s.src.versions.length) (hf : s.Free k) (hcan : s.src.mgr.cancelled = false) (hopen : MockEv.closeReceiver k.rcv ∉ n0 ++ evs.n)
    {cs1 cs2 : List RegCmd} {ref : SourceRef} {i : Nat} {cfg : Nat → CacheConfig (GoRec GoTime)} {h : Nat → List (Op (GoRec GoTime))}
    (hc : Collects k cs1 cs2 ref i cfg h s0.stores) (ho : Sys.OwnRun k s n evs' s') (hrest : s'.Rest k)
    (hroom : ∀ (r : Nat) (x : MRcv), s'.mock.rcvs[r]? = some x → x.addr = k.addr → r ≠ k.rcv → x.chan.length < x.cap) (hup : s'.src.mgr.pc ≠ .crashed) :
    s'.Still k ∧ s'.src.mgr.flushQueue = 0 ∧ MockEv.closeReceiver k.rcv ∉ n0 ++ (evs.n ++ evs'.n) ∧ s'.cl.crashed = false ∧ s'.src.versions = s.src.versions := by
  have hk := ownRun_keeps ho
  have hrun := sys_trans hr (ownRun_run ho)
  obtain ⟨t, L, hx⟩ := ownFix_start h0 hr ht
  obtain ⟨_, hx'⟩ := own_run h0 hr hok hx ho
  obtain ⟨r1, r2, r3⟩ := hk.running hcan
  have hf' : s'.Free k := by
    refine ⟨⟨r2 hf.serve.1, hup, r3 hf.serve.2.2⟩, by rw [hk.snds]; exact hf.sender, hroom, ⟨hk.lock.trans hf.client.1, hk.crashed.trans hf.client.2.1, ?_⟩, hk.listener hf.listener⟩
    exact (C100_no_panic h0 hrun hc).1
  obtain ⟨q1, q2, q3, q4, q5, q6, q7⟩ := C102_rest h0 hrun (by rw [hx'.stores]; exact hok) hx'.tok hf' hrest
  refine ⟨⟨⟨by rw [hk.versions.1, hk.versions.2]; exact hp, q1, q3, q4⟩, q5, q6, q7⟩, q2, ?_, hf'.client.2.1, hk.versions.1⟩
  intro hm
  rw [← List.append_assoc] at hm
  rcases List.mem_append.1 hm with hm | hm
  · exact hopen hm
  · exact hk.opened _ hm

/-- **C102 (everything arrives).** After any run in which all versions of the record were published, with the manager running, the receiver open and nobody closing the client: when the
goroutines on the way are left alone until they can move no more (which they reach after a bounded number of moves, whatever the schedule), and no other receiver on the address is
full, the manager has not panicked and lost nothing, then the collector's store has an entry of the record with the value of every attribute in the last version that has it. -/
theorem C102_arrives {k : SysCfg} {n0 : List MockEv} {c0 : List ClEv} {s0 s s' : Sys} {evs evs' : SysEv} {n : Nat} (h0 : Sys.Start k n0 c0 s0) (hr : Sys.Run k s0 evs s)
    {m : Nat → AMap (GoRec GoTime)} {ks : Nat → List String} (hok : ∀ i < k.mgr.numStores, StoreOK (s.src.mgr.stores i) (m i) (ks i)) (ht : PcTok s.src.mgr.pc)
    (hp : s.src.pub = s.src.versions.length) (hv : s.src.versions ≠ []) (hf : s.Free k) (hcan : s.src.mgr.cancelled = false)
    (hopen : MockEv.closeReceiver k.rcv ∉ n0 ++ evs.n)
    {cs1 cs2 : List RegCmd} {ref : SourceRef} {i : Nat} {cfg : Nat → CacheConfig (GoRec GoTime)} {h : Nat → List (Op (GoRec GoTime))}
    (hc : Collects k cs1 cs2 ref i cfg h s0.stores) (hnone : content vanOps (cfg i) (h i) k.id = none)
    (ho : Sys.OwnRun k s n evs' s') (hrest : s'.Rest k)
    (hroom : ∀ (r : Nat) (x : MRcv), s'.mock.rcvs[r]? = some x → x.addr = k.addr → r ≠ k.rcv → x.chan.length < x.cap)
    (hup : s'.src.mgr.pc ≠ .crashed) (hl : Lossless (evs.m ++ evs'.m)) :
    ∃ h' e a, s'.stores i = after vanOps (cfg i) h' ∧ content vanOps (cfg i) h' k.id = some e ∧ OfKind k.id k.tm e.record ∧ e.md.source = ref ∧
      vanOps.encode e.record = .ok a ∧ (∀ x, a.get? x = latest s.src.versions x) ∧
      (NeverCleared s.src.versions → ∀ v, s.src.versions.getLast? = some v → ∀ x, a.get? x = attrOf v x) := by
  obtain ⟨hstill, _, hopen', hcr, hvs⟩ := rest_still (start_join h0) hr hok ht hp hf hcan hopen hc ho hrest hroom hup
  rw [← hvs] at hv ⊢
  exact C100_converges h0 (sys_trans hr (ownRun_run ho)) hstill hopen' hcr hl hv hc hnone

/-! ## An instance -/

/-- A host is made and published. -/
def sys2 : Sys := { sys0 with src := { sys0.src with mgr := { sys0.src.mgr with changeQueue := [{ curr := hostRec "h1" "x" }] }, versions := [hostRec "h1" "x"], pub := 1 } }

theorem sys2_run : ∃ evs, Sys.Run sysCfg sys0 evs sys2 ∧ evs.n = [] ∧ evs.c = [] ∧ Lossless evs.m := by
  have z : ∀ r st, StoresHold 0 "h1" ⟨"flow/v1", "HostRecord"⟩ r st := fun _ _ i hi => absurd hi (Nat.not_lt_zero i)
  have r1 := (Sys.Run.nil (k := sysCfg) (s := sys0)).snoc (.source (.mint (r := hostRec "h1" "x") ⟨hostRec_good _ _, rfl, rfl⟩ rfl (z _ _)) (by simp) (by simp))
  have r2 := r1.snoc (.source (.publish rfl (.publish { curr := hostRec "h1" "x" } (by decide))) (by simp) (by simp))
  exact ⟨_, r2, rfl, rfl, by intro rs; simp⟩

theorem sys2_free : sys2.Free sysCfg := by
  refine ⟨⟨by simp [sys2, sys0], by simp [sys2, sys0], by simp [sys2, sys0]⟩, ⟨_, rfl, rfl⟩, ?_, ⟨rfl, rfl, rfl⟩, ?_⟩
  · intro r x hx _ hne
    have hl : r < 1 := (List.getElem?_eq_some_iff.1 hx).1
    exact absurd (show r = 0 by omega) hne
  · intro x hx
    cases hx
    simp

/-- From there the system goes its way by itself. -/
theorem sys2_goes : ∃ n evs s, Sys.OwnRun sysCfg sys2 n evs s ∧ s.Rest sysCfg ∧ s.src.mgr.pc ≠ .crashed ∧ Lossless evs.m ∧
    ∀ (r : Nat) (x : MRcv), s.mock.rcvs[r]? = some x → x.addr = sysCfg.addr → r ≠ sysCfg.rcv → x.chan.length < x.cap := by
  obtain ⟨evs0, hr0, _, hc0, _⟩ := sys2_run
  have r2 : Sys.OwnRun sysCfg sys2 0 {} sys2 := .nil
  have r3 := r2.snoc ⟨.source (.mgr (by simp) (by simp) (.take rfl rfl)) (by simp) (by simp), .inl ⟨_, List.mem_singleton.2 rfl, trivial⟩⟩
  have r4 := r3.snoc ⟨.source (.mgr (by simp) (by simp) (.diff rfl rfl)) (by simp) (by simp), .inl ⟨_, List.mem_singleton.2 rfl, trivial⟩⟩
  have r5 := r4.snoc ⟨.source (.mgr (by simp) (by simp) (.queueUpdate rfl (by decide))) (by simp) (by simp), .inl ⟨_, List.mem_singleton.2 rfl, trivial⟩⟩
  have r6t := r5.snoc ⟨.source (.mgr (by simp) (by simp) (.takeMsg rfl (List.cons_ne_nil _ _))) (by simp) (by simp), .inl ⟨_, List.mem_singleton.2 rfl, trivial⟩⟩
  have r6 := r6t.snoc ⟨.send (o := 0) rfl rfl rfl (.call (i := 0) (x := { addr := "mc/sfe.c1" }) 0 none rfl) rfl, .inr (.inl (by simp [sys2, sys0]))⟩
  have r7 := r6.snoc ⟨.router (.startGo (o := 0) rfl rfl rfl rfl rfl) (by simp) (by simp) (by simp), .inr (.inr (.inl ⟨0, _, _, rfl, rfl, rfl, by simp⟩))⟩
  have r8 := r7.snoc ⟨.router (.get (o := 0) rfl rfl) (by simp) (by simp) (by simp), .inr (.inr (.inl ⟨0, _, _, rfl, rfl, rfl, by simp⟩))⟩
  have r9 := r8.snoc ⟨.router (.lock (o := 0) (mc := 0) rfl rfl rfl rfl (by decide)) (by simp) (by simp) (by simp), .inr (.inr (.inl ⟨0, _, _, rfl, rfl, rfl, by simp⟩))⟩
  have r10 := r9.snoc ⟨.router (.offer (o := 0) rfl rfl rfl rfl) (by simp) (by simp) (by simp), .inr (.inr (.inl ⟨0, _, _, rfl, rfl, rfl, by simp⟩))⟩
  have r11 := r10.snoc ⟨.router (.put (o := 0) rfl rfl rfl (by decide)) (by simp) (by simp) (by simp), .inr (.inr (.inl ⟨0, _, _, rfl, rfl, rfl, by simp⟩))⟩
  have r12 := r11.snoc ⟨.sent (o := 0) rfl (.finish rfl rfl) (.mgr (by simp) (by simp) (.send rfl rfl rfl)), .inl ⟨_, List.mem_singleton.2 rfl, trivial⟩⟩
  have r13 := r12.snoc ⟨.next (m := 0) rfl rfl (.recv (r := 0) rfl rfl rfl) rfl (.deliver (l := 0) _ rfl rfl), .inr (.inr (.inr ⟨by simp, _, _, rfl, rfl, by simp⟩))⟩
  obtain ⟨rm, hrm⟩ := (C100_no_panic (start_join sys0_start) (sys_trans hr0 (ownRun_run r13)) sys0_collects).2 _ (by simp [deliveredTo, sysCfg, hc0]; rfl)
  have r14 := r13.snoc ⟨.client rfl rfl (.decoded (l := 0) rfl rfl hrm) (by simp) (by simp) (by simp) (by simp), .inr (.inr (.inr ⟨by simp, _, _, rfl, rfl, by simp⟩))⟩
  have r15 := r14.snoc ⟨.client rfl rfl (.fetch (l := 0) rfl rfl rfl) (by simp) (by simp) (by simp) (by simp), .inr (.inr (.inr ⟨by simp, _, _, rfl, rfl, by simp⟩))⟩
  have r16 := r15.snoc ⟨.client rfl rfl (.call (l := 0) (h := 3) rfl rfl) (by simp) (by simp) (by simp [sysCfg]) (by simp), .inr (.inr (.inr ⟨by simp, _, _, rfl, rfl, fun e => absurd (congrArg List.length (LPC.calling.inj e).2) (show ¬ (1 : Nat) = 2 by decide)⟩))⟩
  cases hd : (sysCfg.world.dispatch vanOps sysCfg.disp (rm.records.zipIdx.map fun p => (p.1, (fun _ => t0) p.2)) (fun _ => after vanOps exCfg [])) with
  | mk st po =>
  cases po with
  | some p =>
    have r17 := r16.snoc ⟨.dispatchPanic (fun _ => t0) rfl rfl (.call (l := 0) rfl rfl) hd, .inr (.inr (.inr ⟨by simp, _, _, rfl, rfl, by simp⟩))⟩
    have := (C100_no_panic (start_join sys0_start) (sys_trans hr0 (ownRun_run r17)) sys0_collects).1
    cases this
  | none =>
  have r17 := r16.snoc ⟨.dispatch (fun _ => t0) rfl rfl (.call (l := 0) rfl rfl) hd, .inr (.inr (.inr ⟨by simp, _, _, rfl, rfl, by simp⟩))⟩
  have r18 := r17.snoc ⟨.client rfl rfl (.again (l := 0) rfl rfl) (by simp) (by simp) (by simp) (by simp), .inr (.inr (.inr ⟨by simp, _, _, rfl, rfl, by simp⟩))⟩
  refine ⟨_, _, _, r18, ?_, by simp, by intro rs; simp, ?_⟩
  · refine C102_rest_conv (start_join sys0_start) (sys_trans hr0 (ownRun_run r18)) rfl rfl rfl rfl rfl rfl ?_ ⟨_, rfl, rfl⟩
    intro x hx
    cases hx
    rfl
  · intro r x hx _ hne
    have hl : r < 1 := (List.getElem?_eq_some_iff.1 hx).1
    exact absurd (show r = 0 by omega) hne

/-- Instance of C102. -/
example : ∃ n evs s, Sys.OwnRun sysCfg sys2 n evs s ∧ ∃ h' e a, s.stores 0 = after vanOps exCfg h' ∧ content vanOps exCfg h' "h1" = some e ∧
    e.md.source = exSrc ∧ vanOps.encode e.record = .ok a ∧ a.get? (.u32 30) = some (.str "x") := by
  obtain ⟨evs0, hr0, hn0, _, hl0⟩ := sys2_run
  obtain ⟨n, evs, s, h1, h2, h3, h4, h5⟩ := sys2_goes
  obtain ⟨h', e, a, g1, g2, _, g3, g4, g5, _⟩ := C102_arrives (m := fun _ _ => none) (ks := fun _ => []) sys0_start hr0 (fun i hi => absurd hi (Nat.not_lt_zero i)) trivial rfl (by simp [sys2]) sys2_free rfl
    (by rw [hn0]; simp) sys0_collects rfl h1 h2 h5 h3 (fun rs => by simp [hl0 rs, h4 rs])
  refine ⟨n, evs, s, h1, h', e, a, g1, g2, g3, g4, ?_⟩
  rw [g5]; rfl

end Verif.Props
