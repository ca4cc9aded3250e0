import Verif.Spec.FirstFlush
import Verif.Props.Request
import Verif.Props.Discovered

/-!
# C108: a collector that discovers a source and asks for a flush
-/
namespace Verif.Props
open Verif Verif.Model Verif.Spec Verif.Proofs

theorem sentAfter_unsub {r : Nat} {a : String} {n : List MockEv} (h : MockEv.subscribed r ∉ n) : sentAfter r a n = [] := by
  induction n with
  | nil => rfl
  | cons e t ih =>
    rw [List.mem_cons, not_or] at h
    cases e with
    | subscribed r' =>
      have : r' ≠ r := fun e => h.1 (by rw [e])
      simp only [sentAfter, if_neg this]
      exact ih h.2
    | _ => exact ih h.2

theorem sentAfter_snoc {r : Nat} {a : String} {n : List MockEv} {ev : MockEv} (h0 : sentAfter r a n = []) (h : (∀ o m, ev ≠ .accepted o a m) ∨ MockEv.subscribed r ∉ n) :
    sentAfter r a (n ++ [ev]) = [] := by
  by_cases hs : MockEv.subscribed r ∈ n
  · rw [sentAfter_append hs, h0]
    have := sentTo_snoc (n := []) (h.resolve_right (fun g => g hs))
    simpa [sentTo] using this
  · by_cases e : ev = .subscribed r
    · subst e; exact sentAfter_first hs
    · exact sentAfter_unsub (by simp [hs, Ne.symm e])

theorem call_op {n : List MockEv} {s : Mock} (h : Mock.Run {} n s) {o i m : Nat} {a : String} (hc : MockEv.call o i a m ∈ n) : ∃ op, s.ops[o]? = some op ∧ op.addr = a := by
  induction h with
  | nil => cases hc
  | snoc _ hs ih =>
    rcases List.mem_append.1 hc with hc | hc
    · obtain ⟨op, h1, h2⟩ := ih hc
      obtain ⟨op', h3, h4, _⟩ := (ops_step hs).keep o op h1
      exact ⟨op', h3, h4.trans h2⟩
    · obtain ⟨op, h1, h2, _⟩ := (ops_step hs).call o i a m (List.mem_singleton.1 hc).symm
      exact ⟨op, h1, h2⟩

/-- As long as nothing was sent to the subscribed receiver. -/
structure PreInv (k : SysCfg) (n0 : List MockEv) (stores0 : Stores (GoRec GoTime)) (evs : SysEv) (s : Sys) : Prop where
  unsent : sentAfter k.rcv k.addr (n0 ++ evs.n) = []
  listener : ∃ x, s.cl.listeners[k.lst]? = some x ∧ (x.pc = .adding ∨ x.pc = .receiving ∨ x.pc = .finished)
  undelivered : deliveredTo k.lst evs.c = []
  uncalled : ∀ h d, ClEv.call k.lst h d ∉ evs.c
  registered : s.cl.recordHandlers.count k.hnd = 1
  stores : s.stores = stores0
  ended : s.ended = false
  current : ∀ o, s.sending = some o → Sys.Underway k s o
  others : ∀ (o : Nat) (op : MSend), s.mock.ops[o]? = some op → op.addr = k.addr → s.sending ≠ some o → ∃ r, op.pc = .done r

theorem pre_listener {reg : Registry} {s s' : Client} {ev : ClEv} {l : Nat} (hc : s.crashed = false) (hs : Client.Step reg s ev s') (h : ∃ x, s.listeners[l]? = some x ∧ (x.pc = .adding ∨ x.pc = .receiving ∨ x.pc = .finished))
    (hd : ∀ m, ev ≠ .delivered l m) : (∃ x, s'.listeners[l]? = some x ∧ (x.pc = .adding ∨ x.pc = .receiving ∨ x.pc = .finished)) ∧ ∀ h d, ev ≠ .call l h d := by
  obtain ⟨x, hx, hp⟩ := h
  have hlen := listeners_grow (Client.Run.snoc Client.Run.nil hc hs)
  have hl := (List.getElem?_eq_some_iff.1 hx).1
  have hx' : s'.listeners[l]? = some s'.listeners[l] := by simp
  have hm := lmove hs l
  rw [pcOf_some hx, pcOf_some hx'] at hm
  generalize hpc : s'.listeners[l].pc = pc' at hm
  generalize x.pc = pc at hm hp
  have fin : (pc' = .adding ∨ pc' = .receiving ∨ pc' = .finished) → ∃ x, s'.listeners[l]? = some x ∧ (x.pc = .adding ∨ x.pc = .receiving ∨ x.pc = .finished) :=
    fun h => ⟨_, hx', by rw [hpc]; exact h⟩
  cases hm with
  | stay _ h2 => exact ⟨fin hp, h2⟩
  | start h2 => exact ⟨fin (.inr (.inl rfl)), h2⟩
  | deliver => exact absurd rfl (hd _)
  | ended => exact ⟨fin (.inr (.inr rfl)), by simp⟩
  | failed | decoded | undecodable | fetch | call | again => rcases hp with h | h | h <;> cases h

theorem undelivered_snoc {l : Nat} {c : List ClEv} {ev : ClEv} (h : deliveredTo l c = []) (hd : ∀ m, ev ≠ .delivered l m) : deliveredTo l (c ++ [ev]) = [] := by
  rw [deliveredTo_append, h]
  cases ev with
  | delivered l' m =>
    simp only [deliveredTo, List.filterMap_cons, List.filterMap_nil]
    rw [if_neg (fun e => hd m (by rw [e]))]
    rfl
  | _ => rfl

theorem pre_join {k : SysCfg} {n : List MockEv} {c : List ClEv} {n0 : List MockEv} {st : Stores (GoRec GoTime)} {evs : SysEv} {s : Sys} (h : PreInv k n0 st evs s) (hn : n = n0 ++ evs.n)
    (hsrc : ∃ s1 evs1, Src.Start k.mgr k.id k.tm s1 ∧ Src.Run k.mgr k.id k.tm s1 evs1 s.src) (hm : Mock.Run {} n s.mock) (hc : Client.Run vanRegistry {} c s.cl)
    (hrcv : MockEv.newReceiver k.rcv k.addr ∈ n) (hsub : MockEv.subscribed k.rcv ∈ n)
    (hun : ∀ o, s.sending = some o → ∀ a m, MockEv.accepted o a m ∉ n) : Sys.Join k n c s := by
  subst hn
  refine ⟨hsrc, hm, hrcv, hsub, h.unsent, ?_, hc, h.listener, h.registered, fun o ho => ⟨h.current o ho, hun o ho⟩, h.ended⟩
  intro o i m hcall hne
  obtain ⟨op, h1, h2⟩ := call_op hm hcall
  obtain ⟨r, hr⟩ := h.others o op h1 h2 hne
  exact ⟨r, done_ret hm o op r h1 hr⟩

theorem pre_step {k : SysCfg} {n0 : List MockEv} {st : Stores (GoRec GoTime)} {evs ev : SysEv} {s s' : Sys} (hm : Mock.Run {} (n0 ++ evs.n) s.mock)
    (hu : ∀ a, MockEv.newReceiver k.rcv a ∈ n0 ++ evs.n → a = k.addr) (h : PreInv k n0 st evs s) (hs : Sys.Step k s ev s') :
    PreInv k n0 st { m := evs.m ++ ev.m, n := evs.n ++ ev.n, c := evs.c ++ ev.c } s' ∨
      (MockEv.newReceiver k.rcv k.addr ∈ n0 ++ evs.n ∧ MockEv.subscribed k.rcv ∈ n0 ++ evs.n ∧ ∀ o, s.sending = some o → ∀ a m, MockEv.accepted o a m ∉ n0 ++ evs.n) := by
  have hdel := delInv_run hm
  have others : ∀ {mev : MockEv} {mock : Mock}, Mock.Step s.mock mev mock → (∀ o i m, mev ≠ .call o i k.addr m) → ∀ (o : Nat) (op : MSend), mock.ops[o]? = some op → op.addr = k.addr →
      s.sending ≠ some o → ∃ r, op.pc = .done r := by
    intro mev mock hstep hcall o y hy ha hne
    rcases (ops_step hstep).back o y hy with ⟨op, b1, b2, _, b4, _⟩ | ⟨i, b, _, _⟩
    · have := h.others o op b1 (by rw [← b2]; exact ha) hne
      rw [b4 this]; exact this
    · rw [ha] at b
      exact absurd b (hcall o i _)
  have current : ∀ {mev : MockEv} {mock : Mock} {o : Nat}, Mock.Step s.mock mev mock → s.sending = some o → (∀ r, mev ≠ .ret o r) → Sys.Underway k { s with mock := mock } o := by
    intro mev mock o hstep ho hret
    obtain ⟨hb, op, records, rest, msg, g1, g2, g3, g4, g5, g6⟩ := h.current o ho
    obtain ⟨op', k1, k2, k3⟩ := (ops_step hstep).keep o op g1
    refine ⟨hb, op', records, rest, msg, k1, by rw [k2]; exact g2, fun r hd => ?_, g4, g5, by rw [k3]; exact g6⟩
    rcases (ops_step hstep).back o op' k1 with ⟨op2, b1, _, _, _, b5⟩ | ⟨i, _, b2, _⟩
    · rw [g1] at b1
      obtain rfl := Option.some.inj b1
      rcases b5 ⟨r, hd⟩ with ⟨r', hd'⟩ | ⟨r', hd'⟩
      · exact g3 r' hd'
      · exact hret r' hd'
    · rw [b2] at hd; cases hd
  have retd : ∀ {o : Nat} {r : Option GoErr} {mock : Mock}, s.sending = some o → Mock.Step s.mock (.ret o r) mock → ∀ (o : Nat) (op : MSend), mock.ops[o]? = some op → op.addr = k.addr → ∃ r, op.pc = .done r := by
    intro o r mock h1 h2 o' y hy ha
    by_cases e : o' = o
    · subst e
      obtain ⟨op', e1, e2⟩ := (ops_step h2).ret _ _ rfl
      rw [hy] at e1
      obtain rfl := Option.some.inj e1
      exact ⟨_, e2⟩
    · exact others h2 (by simp) o' y hy ha (by rw [h1]; simpa using Ne.symm e)
  have quiet : ∀ {mev : MockEv}, (∀ o m, mev ≠ .accepted o k.addr m) ∨ MockEv.subscribed k.rcv ∉ n0 ++ evs.n → sentAfter k.rcv k.addr (n0 ++ (evs.n ++ [mev])) = [] := by
    intro mev hmev
    rw [← List.append_assoc]
    exact sentAfter_snoc h.unsent hmev
  cases hs with
  | @source mev src h1 h2 h3 =>
    left
    refine ⟨by simpa using h.unsent, h.listener, by simpa using h.undelivered, by simpa using h.uncalled, h.registered, h.stores, h.ended, fun o ho => ?_, h.others⟩
    obtain ⟨hb, op, records, rest, msg, g1, g2, g3, g4, g5, g6⟩ := h.current o ho
    obtain ⟨rest', g⟩ := src_head_kept h1 g4 g5 h2 h3
    refine ⟨?_, op, records, rest', msg, g1, g2, g3, g, g5, g6⟩
    cases h1 with
    | mint => exact hb
    | write h | storeOther h => exact busy_kept h hb g4 g5 (by simp) (by simp)
    | publish _ h | publishOther _ _ h => exact busy_kept h hb g4 g5 (by simp) (by simp)
    | mgr _ _ h => exact busy_kept h hb g4 g5 (fun rs m e => h2 rs m (by rw [e])) (fun rs e => h3 rs (by rw [e]))
  | @send records rest msg mock o h1 h2 h3 h4 h5 =>
    left
    obtain ⟨op', a1, a2, a3, a4⟩ := (ops_step h4).call _ _ _ _ rfl
    refine ⟨quiet (.inl (by simp)), h.listener, by simpa using h.undelivered, by simpa using h.uncalled, h.registered, h.stores, h.ended, fun o' ho' => ?_, fun o' y hy ha hne => ?_⟩
    · cases ho'
      exact ⟨h5, op', records, rest, msg, a1, a2, by rw [a4]; simp, h2, h3, by rw [a3]; simp⟩
    · rcases (ops_step h4).back o' y hy with ⟨op, b1, b2, _, b4, _⟩ | ⟨i, b, _, _⟩
      · have := h.others o' op b1 (by rw [← b2]; exact ha) (by rw [h1]; simp)
        rw [b4 this]; exact this
      · rw [MockEv.call.injEq] at b
        exact absurd (by rw [b.1]) hne
  | sent h1 h2 h3 =>
    exact .inl ⟨quiet (.inl (by simp)), h.listener, by simpa using h.undelivered, by simpa using h.uncalled, h.registered, h.stores, h.ended, (by intro o ho; cases ho), fun o op ho ha _ => retd h1 h2 o op ho ha⟩
  | sendFailed h1 h2 h3 =>
    exact .inl ⟨quiet (.inl (by simp)), h.listener, by simpa using h.undelivered, by simpa using h.uncalled, h.registered, h.stores, h.ended, (by intro o ho; cases ho), fun o op ho ha _ => retd h1 h2 o op ho ha⟩
  | @router mev mock h1 h2 h3 h4 =>
    by_cases hacc : (∃ o m, mev = .accepted o k.addr m) ∧ MockEv.subscribed k.rcv ∈ n0 ++ evs.n
    · obtain ⟨⟨o, m, rfl⟩, hsub⟩ := hacc
      right
      obtain ⟨op, a1, a2, a3, a4⟩ := (ops_step h1).acc _ _ _ rfl
      have hsend : s.sending = some o := by
        by_contra hne
        obtain ⟨r, hr⟩ := h.others o op a1 a2 hne
        exact a4 r hr
      have hle := (C62_sent (hm.snoc h1) o).1
      have hlt := hdel.dom k.rcv 0 (.inr (.inl hsub))
      have hx : s.mock.rcvs[k.rcv]? = some s.mock.rcvs[k.rcv] := by simp [hlt]
      have hnew := (hdel.new k.rcv _).2 ⟨_, hx, rfl⟩
      refine ⟨by rw [hu _ hnew] at hnew; exact hnew, hsub, fun o' ho' a m' hmem => ?_⟩
      rw [hsend] at ho'
      obtain rfl := Option.some.inj ho'
      have : 0 < (n0 ++ evs.n).countP (isAccepted o) := List.countP_pos_iff.2 ⟨_, hmem, by simp [isAccepted]⟩
      rw [List.countP_append] at hle
      have : [MockEv.accepted o k.addr m].countP (isAccepted o) = 1 := by simp [isAccepted]
      omega
    · left
      refine ⟨quiet ?_, h.listener, by simpa using h.undelivered, by simpa using h.uncalled, h.registered, h.stores, h.ended, fun o ho => current h1 ho fun r => h3 o r ho, others h1 h4⟩
      by_cases hsub : MockEv.subscribed k.rcv ∈ n0 ++ evs.n
      · exact .inl fun o m e => hacc ⟨⟨o, m, e⟩, hsub⟩
      · exact .inr hsub
  | @next m msg mock cl h1 h2 h3 h4 h5 =>
    exfalso
    have hx : ∃ x, s.mock.rcvs[k.rcv]? = some x := by
      cases h3 with | recv hx _ _ => exact ⟨_, hx⟩
    obtain ⟨x, hx⟩ := hx
    have hnew := (hdel.new k.rcv _).2 ⟨_, hx, rfl⟩
    rw [hu _ hnew] at hnew
    have := C62_order (hm.snoc h3) (List.mem_append_left _ hnew)
    rw [sentAfter_snoc h.unsent (.inl (by simp)), received_append, List.prefix_nil] at this
    simp [received] at this
  | @client cev cl h1 h2 h3 h4 h5 h6 h7 =>
    left
    obtain ⟨g1, g2⟩ := pre_listener h1 h3 h.listener h4
    exact ⟨by simpa using h.unsent, g1, undelivered_snoc h.undelivered h4, fun hh d hmem => (List.mem_append.1 hmem).elim (h.uncalled hh d) fun e => g2 hh d (List.mem_singleton.1 e).symm, by rw [handlers_step h3 h5]; exact h.registered, h.stores, h.ended,
      fun o ho => ⟨(h.current o ho).busy, (h.current o ho).call⟩, h.others⟩
  | dispatch _ h1 h2 h3 h4 => exact absurd rfl ((pre_listener h1 h3 h.listener (by simp)).2 _ _)
  | dispatchPanic _ h1 h2 h3 h4 => exact absurd rfl ((pre_listener h1 h3 h.listener (by simp)).2 _ _)

/-- A run either has sent nothing yet to the subscribed receiver, or there was a moment when the collector joined. -/
theorem join_split {k : SysCfg} {n0 : List MockEv} {c0 : List ClEv} {s0 s : Sys} {evs : SysEv} (h0 : Sys.Before k n0 c0 s0) (hr : Sys.Run k s0 evs s)
    (hu : ∀ a, MockEv.newReceiver k.rcv a ∈ n0 ++ evs.n → a = k.addr) :
    PreInv k n0 s0.stores evs s ∨ ∃ e1 e2 sJ, Sys.Run k s0 e1 sJ ∧ sJ.stores = s0.stores ∧ Sys.Join k (n0 ++ e1.n) (c0 ++ e1.c) sJ ∧ Sys.Run k sJ e2 s ∧
      evs = { m := e1.m ++ e2.m, n := e1.n ++ e2.n, c := e1.c ++ e2.c } := by
  induction hr with
  | nil =>
    left
    refine ⟨by simpa using h0.unsent, h0.listener, rfl, by simp, h0.registered, rfl, h0.ended, h0.sending, fun o op ho ha hne => ?_⟩
    have := (callInv_run h0.mock).call o op ho
    rw [ha] at this
    obtain ⟨r, hr⟩ := h0.returned _ _ _ this hne
    obtain ⟨op', h3, h4⟩ := ret_done h0.mock hr
    rw [ho] at h3
    obtain rfl := Option.some.inj h3
    exact ⟨r, h4⟩
  | @snoc s' s'' evs ev hr hs ih =>
    have hu' : ∀ a, MockEv.newReceiver k.rcv a ∈ n0 ++ evs.n → a = k.addr := fun a ha => hu a (by
      rw [← List.append_assoc]; exact List.mem_append_left _ ha)
    rcases ih hu' with h | ⟨e1, e2, sJ, h1, h2, h3, h4, rfl⟩
    · have hm := mock_trans h0.mock (sys_mock hr)
      rcases pre_step hm hu' h hs with h' | ⟨g1, g2, g3⟩
      · exact .inl h'
      · obtain ⟨s1, evs1, q1, q2⟩ := h0.src
        refine .inr ⟨evs, ev, s', hr, h.stores, ?_, ?_, rfl⟩
        · exact pre_join h rfl ⟨s1, _, q1, src_trans q2 (sys_src hr)⟩ hm (client_trans h0.cl (sys_client hr)) g1 g2 g3
        · simpa using Sys.Run.nil.snoc hs
    · exact .inr ⟨e1, _, sJ, h1, h2, h3, h4.snoc hs, by simp [List.append_assoc]⟩

/-! ## A Send that began before the receiver was subscribed -/

/-- The manager without the message that is being sent. -/
def unload (m : Mgr) : Mgr := { m with sendQueue := m.sendQueue.tail, snd := .waiting }

theorem unload_step {cfg : MgrConfig} {m m' : Mgr} {ev : MgrEv} {r : List (GoRec GoTime)} {rest : List (List (GoRec GoTime))} {msg : Msg} (hs : Mgr.Step cfg m ev m')
    (hb : m.snd = .busy) (hq : m.sendQueue = r :: rest) (he : RecordMsg.encode vanRegistry { records := r } = .ok msg) (h1 : ∀ rs m, ev ≠ .sent rs m)
    (h2 : ∀ rs, ev ≠ .sendFailed rs) : Mgr.Step cfg (unload m) ev (unload m') := by
  have room : m.SendRoom → (unload m).SendRoom := by
    simp only [Mgr.SendRoom, unload, hb, hq, List.length_cons, List.tail_cons, if_true]
    intro h
    simp only [reduceCtorEq, if_false]
    omega
  have push : ∀ x : List (GoRec GoTime), (m.sendQueue ++ [x]).tail = (unload m).sendQueue ++ [x] := by intro x; simp [unload, hq]
  cases hs with
  | publish u h => exact .publish (s := unload m) u h
  | storeOp i op => exact .storeOp (s := unload m) i op
  | flushReceived => exact .flushReceived (s := unload m)
  | receiveError => exact .receiveError (s := unload m)
  | cancel => exact .cancel (s := unload m)
  | stop h h' => exact .stop (s := unload m) h h'
  | take h h' => exact .take (s := unload m) h h'
  | buffer h h' => exact .buffer (s := unload m) h h'
  | bufferTimeout h => exact .bufferTimeout (s := unload m) h
  | diff h h' => exact .diff (s := unload m) h h'
  | diffPanic h h' => exact .diffPanic (s := unload m) h h'
  | @queueUpdate x h h' =>
    have := Mgr.Step.queueUpdate (cfg := cfg) (s := unload m) h (room h')
    rw [← push] at this
    exact this
  | stopUpdate h h' => exact .stopUpdate (s := unload m) h h'
  | takeFlush h h' => exact .takeFlush (s := unload m) h h'
  | drain h h' => exact .drain (s := unload m) h h'
  | drainTimeout h => exact .drainTimeout (s := unload m) h
  | flushBegin h => exact .flushBegin (s := unload m) h
  | flushEnd h => exact .flushEnd (s := unload m) h
  | page n h h' => exact .page (s := unload m) n h h'
  | pageError n h h' => exact .pageError (s := unload m) n h h'
  | pagePanic n h h' => exact .pagePanic (s := unload m) n h h'
  | @queueFlush q c x h h' =>
    have := Mgr.Step.queueFlush (cfg := cfg) (s := unload m) h (room h')
    rw [← push] at this
    exact this
  | stopFlush h h' => exact .stopFlush (s := unload m) h h'
  | takeMsg h => rw [hb] at h; cases h
  | sndStop h => rw [hb] at h; cases h
  | send => exact absurd rfl (h1 _ _)
  | sendFail => exact absurd rfl (h2 _)
  | skip h3 h4 => rw [hq] at h3; cases h3; rw [he] at h4; cases h4
  | sendPanic h3 h4 => rw [hq] at h3; cases h3; rw [he] at h4; cases h4

theorem unload_src {cfg : MgrConfig} {id : String} {tm : TypeMeta} {a b : Src} {ev : Option MgrEv} {r : List (GoRec GoTime)} {rest : List (List (GoRec GoTime))} {msg : Msg}
    (hs : Src.Step cfg id tm a ev b) (hb : a.mgr.snd = .busy) (hq : a.mgr.sendQueue = r :: rest) (he : RecordMsg.encode vanRegistry { records := r } = .ok msg)
    (h1 : ∀ rs m, ev ≠ some (.sent rs m)) (h2 : ∀ rs, ev ≠ some (.sendFailed rs)) :
    Src.Step cfg id tm { a with mgr := unload a.mgr } ev { b with mgr := unload b.mgr } ∧ b.mgr.snd = .busy ∧ ∃ rest', b.mgr.sendQueue = r :: rest' := by
  refine ⟨?_, ?_, src_head_kept hs hq he h1 h2⟩
  · cases hs with
    | mint x y z => exact .mint (s := { a with mgr := unload a.mgr }) x y z
    | write h x y z => exact .write (s := { a with mgr := unload a.mgr }) (unload_step h hb hq he (by simp) (by simp)) x y z
    | storeOther h x => exact .storeOther (s := { a with mgr := unload a.mgr }) (unload_step h hb hq he (by simp) (by simp)) x
    | publish x h => exact .publish (s := { a with mgr := unload a.mgr }) x (unload_step h hb hq he (by simp) (by simp))
    | publishOther x y h => exact .publishOther (s := { a with mgr := unload a.mgr }) x y (unload_step h hb hq he (by simp) (by simp))
    | mgr x y h => exact .mgr (s := { a with mgr := unload a.mgr }) x y (unload_step h hb hq he (fun rs m e => h1 rs m (by rw [e])) (fun rs e => h2 rs (by rw [e])))
  · cases hs with
    | mint => exact hb
    | write h | storeOther h => exact busy_kept h hb hq he (by simp) (by simp)
    | publish _ h | publishOther _ _ h => exact busy_kept h hb hq he (by simp) (by simp)
    | mgr _ _ h => exact busy_kept h hb hq he (fun rs m e => h1 rs m (by rw [e])) (fun rs e => h2 rs (by rw [e]))

theorem unload_run {cfg : MgrConfig} {id : String} {tm : TypeMeta} {a b : Src} {evs : List MgrEv} {r : List (GoRec GoTime)} {rest : List (List (GoRec GoTime))} {msg : Msg}
    (hr : Src.Run cfg id tm a evs b) (hb : a.mgr.snd = .busy) (hq : a.mgr.sendQueue = r :: rest) (he : RecordMsg.encode vanRegistry { records := r } = .ok msg)
    (h1 : ∀ rs m, MgrEv.sent rs m ∉ evs) (h2 : ∀ rs, MgrEv.sendFailed rs ∉ evs) :
    Src.Run cfg id tm { a with mgr := unload a.mgr } evs { b with mgr := unload b.mgr } ∧ b.mgr.snd = .busy ∧ ∃ rest', b.mgr.sendQueue = r :: rest' := by
  induction hr with
  | nil => exact ⟨.nil, hb, rest, hq⟩
  | @snoc s' s'' evs ev _ hs ih =>
    obtain ⟨g1, g2, rest', g3⟩ := ih (fun rs m h => h1 rs m (List.mem_append_left _ h)) (fun rs h => h2 rs (List.mem_append_left _ h))
    obtain ⟨k1, k2⟩ := unload_src hs g2 g3 he (fun rs m e => h1 rs m (by simp [e])) (fun rs e => h2 rs (by simp [e]))
    exact ⟨g1.snoc k1, k2⟩

/-- The Send under way, whose message was taken before the receiver was subscribed, goes on, or it has returned. -/
theorem until_return {k : SysCfg} {n0 : List MockEv} {s0 s : Sys} {evs : SysEv} {o : Nat} {x : String} {m : Nat} (hm0 : Mock.Run {} n0 s0.mock) (h0 : PreInv k n0 s0.stores {} s0)
    (ho : s0.sending = some o) (hacc : MockEv.accepted o x m ∈ n0) (hr : Sys.Run k s0 evs s) (hu : ∀ a, MockEv.newReceiver k.rcv a ∈ n0 ++ evs.n → a = k.addr) :
    (s.sending = some o ∧ PreInv k n0 s0.stores evs s ∧ (∀ rs m, MgrEv.sent rs m ∉ evs.m) ∧ ∀ rs, MgrEv.sendFailed rs ∉ evs.m) ∨
    ∃ eR e2 y sR rs msg, Sys.Run k s0 eR y ∧ y.sending = some o ∧ (∀ rs m, MgrEv.sent rs m ∉ eR.m) ∧ (∀ rs, MgrEv.sendFailed rs ∉ eR.m) ∧
      Sys.Step k y { m := [.sent rs msg], n := [.ret o none] } sR ∧ Src.Step k.mgr k.id k.tm y.src (some (.sent rs msg)) sR.src ∧ sR.sending = none ∧ PreInv k n0 s0.stores { m := eR.m ++ [.sent rs msg], n := eR.n ++ [.ret o none], c := eR.c } sR ∧
      Sys.Run k sR e2 s ∧ evs = { m := eR.m ++ .sent rs msg :: e2.m, n := eR.n ++ .ret o none :: e2.n, c := eR.c ++ e2.c } := by
  induction hr with
  | nil => exact .inl ⟨ho, h0, by simp, by simp⟩
  | @snoc s s' evs ev hr hs ih =>
    have hu' : ∀ a, MockEv.newReceiver k.rcv a ∈ n0 ++ evs.n → a = k.addr := fun a ha => hu a (by
      rw [← List.append_assoc]; exact List.mem_append_left _ ha)
    rcases ih hu' with ⟨h1, h2, h3, h4⟩ | ⟨eR, e2, y, sR, rs, msg, q1, q2, q3, q4, q5, q5', q6, q7, q8, rfl⟩
    · have hm := mock_trans hm0 (sys_mock hr)
      have hpre : PreInv k n0 s0.stores { m := evs.m ++ ev.m, n := evs.n ++ ev.n, c := evs.c ++ ev.c } s' := by
        rcases pre_step hm hu' h2 hs with h | ⟨_, _, h⟩
        · exact h
        · exact absurd (List.mem_append_left _ hacc) (h o h1 x m)
      by_cases hend : s'.sending = some o
      · left
        refine ⟨hend, hpre, ?_⟩
        cases hs with
        | @source mev src g1 g2 g3 =>
          refine ⟨fun rs m h => ?_, fun rs h => ?_⟩
          · rcases List.mem_append.1 h with h | h
            · exact h3 rs m h
            · cases mev with
              | none => cases h
              | some e => simp only [Option.toList_some, List.mem_singleton] at h; exact g2 rs m (by rw [h])
          · rcases List.mem_append.1 h with h | h
            · exact h4 rs h
            · cases mev with
              | none => cases h
              | some e => simp only [Option.toList_some, List.mem_singleton] at h; exact g3 rs (by rw [h])
        | send g1 => rw [h1] at g1; cases g1
        | sent | sendFailed => cases hend
        | router | next | client | dispatch | dispatchPanic => simpa using ⟨h3, h4⟩
      · right
        have hret : ∀ {r : Option GoErr} {mock : Mock}, Mock.Step s.mock (.ret o r) mock → r = none := by
          intro r mock hstep
          cases r with
          | none => rfl
          | some e =>
            have := (C62_sent (hm.snoc hstep) o).2.2.2 e (by simp)
            exact absurd (List.countP_eq_zero.1 this _ (List.mem_append_left _ (List.mem_append_left _ hacc))) (by simp [isAccepted])
        cases hs with
        | @sent rs msg mock src o' g1 g2 g3 =>
          rw [h1] at g1
          obtain rfl := Option.some.inj g1
          exact ⟨evs, {}, s, _, rs, msg, hr, h1, h3, h4, .sent h1 g2 g3, g3, rfl, by simpa using hpre, .nil, by simp⟩
        | @sendFailed rs mock src o' e g1 g2 g3 =>
          rw [h1] at g1
          obtain rfl := Option.some.inj g1
          cases hret g2
        | send g1 => rw [h1] at g1; cases g1
        | _ => exact absurd h1 hend
    · exact .inr ⟨eR, _, y, sR, rs, msg, q1, q2, q3, q4, q5, q5', q6, q7, q8.snoc hs, by simp⟩

theorem pre_start {k : SysCfg} {n0 : List MockEv} {c0 : List ClEv} {s0 : Sys} (h0 : Sys.Before k n0 c0 s0) : PreInv k n0 s0.stores {} s0 := by
  refine ⟨by simpa using h0.unsent, h0.listener, rfl, by simp, h0.registered, rfl, h0.ended, h0.sending, fun o op ho ha hne => ?_⟩
  have := (callInv_run h0.mock).call o op ho
  rw [ha] at this
  obtain ⟨r, hr⟩ := h0.returned _ _ _ this hne
  obtain ⟨op', h3, h4⟩ := ret_done h0.mock hr
  rw [ho] at h3
  obtain rfl := Option.some.inj h3
  exact ⟨r, h4⟩

theorem pre_before {k : SysCfg} {n0 : List MockEv} {c0 : List ClEv} {s0 s : Sys} {evs : SysEv} (h0 : Sys.Before k n0 c0 s0) (hr : Sys.Run k s0 evs s) (h : PreInv k n0 s0.stores evs s) :
    Sys.Before k (n0 ++ evs.n) (c0 ++ evs.c) s := by
  have hm := mock_trans h0.mock (sys_mock hr)
  obtain ⟨s1, evs1, q1, q2⟩ := h0.src
  refine ⟨⟨s1, _, q1, src_trans q2 (sys_src hr)⟩, hm, h.unsent, ?_, client_trans h0.cl (sys_client hr), h.listener, h.registered, h.current, h.ended⟩
  intro o i m hcall hne
  obtain ⟨op, h1, h2⟩ := call_op hm hcall
  obtain ⟨r, hr⟩ := h.others o op h1 h2 hne
  exact ⟨r, done_ret hm o op r h1 hr⟩

theorem before_join {k : SysCfg} {n0 : List MockEv} {c0 : List ClEv} {s0 : Sys} (h : Sys.Before k n0 c0 s0) (hrcv : MockEv.newReceiver k.rcv k.addr ∈ n0) (hsub : MockEv.subscribed k.rcv ∈ n0)
    (hun : ∀ o, s0.sending = some o → ∀ a m, MockEv.accepted o a m ∉ n0) : Sys.Join k n0 c0 s0 :=
  ⟨h.src, h.mock, hrcv, hsub, h.unsent, h.returned, h.cl, h.listener, h.registered, fun o ho => ⟨h.sending o ho, hun o ho⟩, h.ended⟩

/-- **C104 (a Send under way).** `C104_resync` for a receiver that is subscribed while the manager is in a Send which the router has begun to hand out: that message the collector does not
get. -/
theorem C104_before {k : SysCfg} {n0 : List MockEv} {c0 : List ClEv} {s0 s : Sys} {evs : SysEv} (h0 : Sys.Before k n0 c0 s0) (hrcv : MockEv.newReceiver k.rcv k.addr ∈ n0)
    (hsub : MockEv.subscribed k.rcv ∈ n0) (hr : Sys.Run k s0 evs s) (hstill : s.Still k)
    (hfq : s.src.mgr.flushQueue = 0) (hopen : MockEv.closeReceiver k.rcv ∉ n0 ++ evs.n) (hcr : s.cl.crashed = false)
    {pre post : List MgrEv} (hev : evs.m = pre ++ .flushReceived :: post) (hl : Lossless post)
    {j : Nat} (hj : j < k.mgr.numStores) {c : CacheConfig (GoRec GoTime)} {hj0 : List (Op (GoRec GoTime))} (hst : s0.src.mgr.stores j = after vanOps c hj0) {key : String}
    (hstay : Stays c (hj0 ++ opsOn j pre) j key (fun e => Mine k.id k.tm e.record) post) {v : GoRec GoTime} (hv : s.src.versions.getLast? = some v)
    {cs1 cs2 : List RegCmd} {ref : SourceRef} {i : Nat} {cfg : Nat → CacheConfig (GoRec GoTime)} {h : Nat → List (Op (GoRec GoTime))}
    (hc : Collects k cs1 cs2 ref i cfg h s0.stores)
    (hstale : ∀ e, content vanOps (cfg i) (h i) k.id = some e → OfKind k.id k.tm e.record ∧ Encodable e.record) :
    ∃ h' e, s.stores i = after vanOps (cfg i) h' ∧ content vanOps (cfg i) h' k.id = some e ∧ OfKind k.id k.tm e.record ∧
      ∀ x y, attrOf v x = some y → attrOf e.record x = some y := by
  by_cases hun : ∀ o, s0.sending = some o → ∀ a m, MockEv.accepted o a m ∉ n0
  · exact C104_resync (before_join h0 hrcv hsub hun) hr hstill hfq hopen hcr hev hl hj hst hstay hv hc hstale
  · simp only [not_forall, not_not] at hun
    obtain ⟨o, ho, x, m, hacc⟩ := hun
    have hAll := mock_trans h0.mock (sys_mock hr)
    have hu : ∀ a, MockEv.newReceiver k.rcv a ∈ n0 ++ evs.n → a = k.addr := by
      intro a ha
      obtain ⟨y, y1, y2⟩ := ((delInv_run hAll).new _ _).1 ha
      obtain ⟨z, z1, z2⟩ := ((delInv_run hAll).new _ _).1 (List.mem_append_left _ hrcv)
      rw [y1] at z1
      obtain rfl := Option.some.inj z1
      rw [← y2, z2]
    rcases until_return h0.mock (pre_start h0) ho hacc hr hu with ⟨h1, _⟩ | ⟨eR, e2, y, sR, rs, msg, q1, q2, q3, q4, q5, q5', q6, q7, q8, rfl⟩
    · rw [hstill.2.1] at h1; cases h1
    have hrR : Sys.Run k s0 { m := eR.m ++ [.sent rs msg], n := eR.n ++ [.ret o none], c := eR.c } sR := by simpa using q1.snoc q5
    have hbR := pre_before h0 hrR q7
    have hjR : Sys.Join k _ _ sR := before_join hbR (List.mem_append_left _ hrcv) (List.mem_append_left _ hsub) (by simp [q6])
    have hopenR : MockEv.closeReceiver k.rcv ∉ n0 ++ (eR.n ++ [.ret o none]) ++ e2.n := by simpa using hopen
    have hcR : Collects k cs1 cs2 ref i cfg h sR.stores := by rw [q7.stores]; exact hc
    obtain ⟨s00, hist, hstart, hrun0⟩ := h0.src
    -- the flush message with the record
    have hsrc := sys_src hr
    simp only at hev
    rw [hev] at hsrc
    obtain ⟨a, fmsg, b, e, hpost, hmine, hin⟩ := requested (Proofs.Src.Run.toMgr hsrc) hstill.1.2.1 hfq hj hst hstay
    rw [hpost] at hev
    have hev' : eR.m ++ .sent rs msg :: e2.m = (pre ++ .flushReceived :: a) ++ .queueFlush fmsg :: b := by rw [hev]; simp
    have hlb : Lossless b := by
      intro rs
      have := hl rs
      simp only [hpost, List.mem_append, List.mem_cons, not_or] at this
      exact ⟨this.1.2.2, this.2.1.2.2, this.2.2.2.2⟩
    rcases List.append_eq_append_iff.1 hev' with ⟨t, t1, t2⟩ | ⟨t, t1, t2⟩
    · -- after the return of the Send
      cases t with
      | nil => simp at t2
      | cons t0 t =>
        simp only [List.cons_append, List.cons.injEq] at t2
        obtain ⟨rfl, t2⟩ := t2
        have hsR := sys_src q8
        rw [t2] at hsR
        obtain ⟨s1, s1', g1, g2, g3⟩ := src_split hsR t (.queueFlush fmsg) b rfl
        obtain ⟨m1, hq, hs1'⟩ : ∃ m1, Mgr.Step k.mgr s1.mgr (.queueFlush fmsg) m1 ∧ s1' = { s1 with mgr := m1 } := by
          cases g2 with
          | mgr _ _ h => exact ⟨_, h, rfl⟩
        rw [hs1'] at g3
        refine resync_at hjR q8 hstill hopenR hcr hstart (src_trans (src_trans hrun0 (sys_src hrR)) g1) hq ⟨_, hin, hmine⟩ g3 hlb (mid := sentMsgs t)
          (fun m hm => by rw [sentMsgs_append]; exact List.mem_append_right _ hm) ?_ hv hcR hstale
        rw [t2, sentMsgs_append t (.queueFlush fmsg :: b)]
        rfl
    · -- before it
      cases t with
      | nil => simp at t2
      | cons t0 t =>
        simp only [List.cons_append, List.cons.injEq] at t2
        obtain ⟨rfl, t2⟩ := t2
        have hsy := sys_src q1
        rw [t1] at hsy
        obtain ⟨s1, s1', g1, g2, g3⟩ := src_split hsy (pre ++ .flushReceived :: a) (.queueFlush fmsg) t rfl
        obtain ⟨m1, hq, hs1'⟩ : ∃ m1, Mgr.Step k.mgr s1.mgr (.queueFlush fmsg) m1 ∧ s1' = { s1 with mgr := m1 } := by
          cases g2 with
          | mgr _ _ h => exact ⟨_, h, rfl⟩
        obtain ⟨hb, op, r, rest, msg', _, _, _, c4, c5, _⟩ := h0.sending o ho
        have sub : ∀ {z}, z ∈ pre ++ MgrEv.flushReceived :: a → z ∈ eR.m := fun h => by rw [t1]; exact List.mem_append_left _ h
        have sub' : ∀ {z}, z ∈ t → z ∈ eR.m := fun h => by rw [t1]; simp [h]
        obtain ⟨_, hb1, rest1, hq1⟩ := unload_run g1 hb c4 c5 (fun rs m h => q3 rs m (sub h)) (fun rs h => q4 rs (sub h))
        obtain ⟨w1, hb2, rest2, hq2⟩ := unload_src g2 hb1 hq1 c5 (by simp) (by simp)
        obtain ⟨w2, hb3, rest3, hq3⟩ := unload_run g3 hb2 hq2 c5 (fun rs m h => q3 rs m (sub' h)) (fun rs h => q4 rs (sub' h))
        have hfail : Src.Step k.mgr k.id k.tm s1 (some (.sendFailed r)) { s1 with mgr := unload s1.mgr } := by
          have : Mgr.Step k.mgr s1.mgr (.sendFailed r) (unload s1.mgr) := by
            have := Mgr.Step.sendFail (cfg := k.mgr) hq1 c5 hb1
            simpa [unload, hq1] using this
          exact .mgr (by simp) (by simp) this
        have hR : { y.src with mgr := unload y.src.mgr } = sR.src := by
          generalize sR.src = z at q5'
          cases q5' with
          | mgr _ _ h =>
            cases h with
            | send h1 => simp [unload, h1]
        have w3 := src_trans w2 (by rw [hR]; exact sys_src q8)
        obtain ⟨m2, hq', hs2⟩ : ∃ m2, Mgr.Step k.mgr (unload s1.mgr) (.queueFlush fmsg) m2 ∧ { s1' with mgr := unload s1'.mgr } = { ({ s1 with mgr := unload s1.mgr } : Src) with mgr := m2 } := by
          generalize hz : ({ s1' with mgr := unload s1'.mgr } : Src) = z at w1
          cases w1 with
          | mgr _ _ h => exact ⟨_, h, rfl⟩
        rw [hs2] at w3
        rw [t2] at hlb
        refine resync_at hjR q8 hstill hopenR hcr hstart ((src_trans hrun0 g1).snoc hfail) hq' ⟨_, hin, hmine⟩ w3 ?_ (mid := []) (by simp) ?_ hv hcR hstale
        · intro rs
          have := hlb rs
          simp only [List.mem_append, List.mem_cons, not_or] at this ⊢
          exact ⟨⟨this.1.1, this.1.2.2⟩, ⟨this.2.1.1, this.2.1.2.2⟩, this.2.2.1, this.2.2.2.2⟩
        · rw [sentMsgs_append]
          have : sentMsgs t = [] := by
            rw [List.eq_nil_iff_forall_not_mem]
            intro m hm
            simp only [sentMsgs, List.mem_filterMap] at hm
            obtain ⟨ev, h1, h2⟩ := hm
            cases ev with
            | sent rs m' => exact q3 rs m' (sub' h1)
            | _ => cases h2
          rw [this]; rfl

/-! ## The composition -/

theorem dsys_f {a : AskCfg} {s s' : DSys} {evs : DEv} (h : DSys.Run a s evs s') : FSys.Run a.sys a.flush s.f evs.sys s'.f := by
  induction h with
  | nil => exact .nil
  | snoc _ hs ih =>
    cases hs with
    | handled _ h => exact ih.snoc h
    | ask _ _ _ h => exact ih.snoc h
    | asked _ _ _ h => exact ih.snoc h
    | alone => simpa using ih
    | other h => exact ih.snoc h

theorem dsys_fl {a : AskCfg} {s s' : DSys} {evs : DEv} (h : DSys.Run a s evs s') : Fl.Run a.info anyResult s.fl evs.fl s'.fl := by
  induction h with
  | nil => exact .nil
  | snoc _ hs ih =>
    cases hs with
    | handled _ _ h => exact ih.snoc h
    | ask _ _ h => exact ih.snoc h
    | asked _ _ h => exact ih.snoc h
    | alone _ h => exact ih.snoc h
    | other => simpa using ih

/-- The Send `o` of a flush message was called in the run: there the goroutine had been told of a message, or its context had ended. -/
def AskedAt (a : AskCfg) (s0 : DSys) (evs : DEv) (s : DSys) (o : Nat) : Prop :=
  ∃ sA eA eB, DSys.Run a s0 eA sA ∧ FSys.Run a.sys a.flush sA.f eB s.f ∧ evs.sys = { m := eA.sys.m ++ eB.m, n := eA.sys.n ++ eB.n, c := eA.sys.c ++ eB.c } ∧ (∃ fl, evs.fl = eA.fl ++ fl) ∧
    (sA.fl.ff.doneClosed = true ∨ sA.fl.ff.ctx ≠ none) ∧ sA.f.sys.mock.ops[o]? = none ∧ ∃ i m, MockEv.call o i a.info.direct m ∈ eB.n

theorem askedAt_snoc {a : AskCfg} {s0 s s' : DSys} {evs ev : DEv} {o : Nat} (h : AskedAt a s0 evs s o) (hs : FSys.Run a.sys a.flush s.f ev.sys s'.f) :
    AskedAt a s0 { sys := { m := evs.sys.m ++ ev.sys.m, n := evs.sys.n ++ ev.sys.n, c := evs.sys.c ++ ev.sys.c }, fl := evs.fl ++ ev.fl } s' o := by
  obtain ⟨sA, eA, eB, h1, h2, h3, ⟨fl, h4⟩, h5, h6, i, m, h7⟩ := h
  exact ⟨sA, eA, _, h1, fsys_trans h2 hs, by simp [h3, List.append_assoc], ⟨fl ++ ev.fl, by simp [h4]⟩, h5, h6, i, m, List.mem_append_left _ h7⟩

theorem fsys_call_new {k : SysCfg} {f : Nat} (hf : f ≠ k.rcv) {s s' : FSys} {o i m : Nat} {x : String} (h : FSys.Step k f s { n := [.call o i x m] } s') : s.sys.mock.ops[o]? = none := by
  have hm : Mock.Run s.sys.mock [.call o i x m] s'.sys.mock := sys_mock (by simpa using fsys_run hf (FSys.Run.nil.snoc h))
  generalize s.sys.mock = m0 at hm ⊢
  generalize s'.sys.mock = m1 at hm
  generalize he : [MockEv.call o i x m] = l at hm
  cases hm with
  | nil => cases he
  | snoc h1 h2 =>
    obtain ⟨h5, h6⟩ := List.append_inj' (show [] ++ [_] = _ from he) rfl
    obtain rfl := List.singleton_inj.1 h6
    subst h5
    generalize he' : ([] : List MockEv) = l' at h1
    cases h1 with
    | nil => exact mock_call_new h2
    | snoc => simp at he'

theorem asked_run {a : AskCfg} {s0 s : DSys} {evs : DEv} (hf : a.flush ≠ a.sys.rcv) (h0 : s0.asking = none) (h : DSys.Run a s0 evs s) :
    (∀ o, s.asking = some o → AskedAt a s0 evs s o) ∧ (FlEv.inner (.return_ none) ∈ evs.fl ∨ FlEv.sent none ∈ evs.fl → ∃ o, MockEv.ret o none ∈ evs.sys.n ∧ AskedAt a s0 evs s o) := by
  induction h with
  | nil => exact ⟨fun o ho => (by rw [h0] at ho; cases ho), by simp⟩
  | @snoc s s' evs ev hr hs ih =>
    have hF : FSys.Run a.sys a.flush s.f ev.sys s'.f := by
      have := dsys_f (DSys.Run.nil.snoc hs)
      simpa using this
    have old : (FlEv.inner (.return_ none) ∈ evs.fl ∨ FlEv.sent none ∈ evs.fl) → ∃ o, MockEv.ret o none ∈ evs.sys.n ++ ev.sys.n ∧
        AskedAt a s0 { sys := { m := evs.sys.m ++ ev.sys.m, n := evs.sys.n ++ ev.sys.n, c := evs.sys.c ++ ev.sys.c }, fl := evs.fl ++ ev.fl } s' o := by
      intro h
      obtain ⟨o, h1, h2⟩ := ih.2 h
      exact ⟨o, List.mem_append_left _ h1, askedAt_snoc h2 hF⟩
    have split : ∀ {P : FlEv → Prop}, (∀ e ∈ ev.fl, e ≠ .inner (.return_ none) ∧ e ≠ .sent none) → (FlEv.inner (.return_ none) ∈ evs.fl ++ ev.fl ∨ FlEv.sent none ∈ evs.fl ++ ev.fl) →
        (FlEv.inner (.return_ none) ∈ evs.fl ∨ FlEv.sent none ∈ evs.fl) := by
      intro _ hne h
      rcases h with h | h
      · exact .inl ((List.mem_append.1 h).resolve_right fun h => (hne _ h).1 rfl)
      · exact .inr ((List.mem_append.1 h).resolve_right fun h => (hne _ h).2 rfl)
    cases hs with
    | handled _ h2 h3 => exact ⟨fun o ho => askedAt_snoc (ih.1 o ho) hF, fun h => old (split (P := fun _ => True) (by simp) h)⟩
    | @ask o i m msg fev f fl h1 h2 h3 h4 =>
      refine ⟨fun o' ho' => ?_, fun h => old (split (P := fun _ => True) (by rcases h2 with rfl | rfl <;> simp) h)⟩
      cases ho'
      refine ⟨_, evs, _, hr, hF, rfl, ⟨_, rfl⟩, ?_, fsys_call_new hf h4, i, m, by simp⟩
      rcases h2 with rfl | rfl
      · cases h3 with | inner _ _ h => cases h with | flush _ h => exact .inl h
      · cases h3 with
        | @retry e h5 h6 h7 => exact .inr fun h => by rw [h] at h7; cases h7
    | @asked o r fev f fl h1 h2 h3 h4 =>
      refine ⟨by simp, fun h => ?_⟩
      by_cases hn : r = none
      · subst hn
        exact ⟨o, by simp, askedAt_snoc (ih.1 o h1) hF⟩
      · refine old (split (P := fun _ => True) ?_ h)
        cases r with
        | none => exact absurd rfl hn
        | some e => rcases h2 with ⟨_, rfl⟩ | rfl <;> simp [sendFlushResult]
    | @alone fev fl h1 h2 =>
      refine ⟨fun o ho => askedAt_snoc (ih.1 o ho) hF, fun h => old (split (P := fun _ => True) ?_ h)⟩
      intro e he
      obtain rfl := List.mem_singleton.1 he
      refine ⟨?_, ?_⟩
      · rintro rfl
        cases h2 with
        | inner _ _ h =>
          generalize hr : (none : Option GoErr) = r at h
          cases h with
          | flushed h _ => exact h1 h
          | ended => cases hr
      · rintro rfl; exact h1
    | other => exact ⟨fun o ho => by simpa using askedAt_snoc (ev := { sys := _ }) (ih.1 o ho) hF, fun h => by simpa using old (by simpa using h)⟩

theorem fl_told {src : Info} {snd : Callee} {s0 s : Fl} {evs : List FlEv} (h0 : s0 = {}) (h : Fl.Run src snd s0 evs s) :
    (s.ff.doneClosed = true → .inner .handled ∈ evs) ∧ (FlEv.timeout ∉ evs → FlEv.shutdown ∉ evs → s.ff.ctx = none) := by
  induction h with
  | nil => subst h0; exact ⟨fun h => (by cases h), fun _ _ => rfl⟩
  | snoc _ hs ih =>
    obtain ⟨ih1, ih2⟩ := ih
    have sub : ∀ {l : List FlEv} {x e : FlEv}, x ∉ l ++ [e] → x ∉ l := fun h h' => h (List.mem_append_left _ h')
    have keep : ∀ {l : List FlEv} {x e : FlEv}, x ∈ l → x ∈ l ++ [e] := fun h => List.mem_append_left _ h
    cases hs with
    | inner _ hne h =>
      cases h with
      | register | flush | flushed | ended => exact ⟨fun h => keep (ih1 h), fun a b => ih2 (sub a) (sub b)⟩
      | handle =>
        refine ⟨fun _ => by simp, fun a b => ?_⟩
        have := ih2 (sub a) (sub b)
        split
        · exact this
        · split <;> exact this
      | cancel => exact absurd rfl hne
    | timeout => exact ⟨fun h => keep (ih1 h), fun a => absurd (by simp) a⟩
    | shutdown => exact ⟨fun h => keep (ih1 h), fun _ b => absurd (by simp) b⟩
    | retry | retried | noRetry => exact ⟨fun h => keep (ih1 h), fun a b => ih2 (sub a) (sub b)⟩

theorem handled_call {a : AskCfg} {s s' : DSys} {evs : DEv} (h : DSys.Run a s evs s') (hh : .inner .handled ∈ evs.fl) : ∃ l h d, ClEv.call l h d ∈ evs.sys.c ∧ a.Awaits h d := by
  induction h with
  | nil => cases hh
  | snoc _ hs ih =>
    rcases List.mem_append.1 hh with hh | hh
    · obtain ⟨l, h, d, h1, h2⟩ := ih hh
      exact ⟨l, h, d, List.mem_append_left _ h1, h2⟩
    · cases hs with
      | handled h => exact ⟨_, _, _, List.mem_append_right _ (List.mem_singleton.2 rfl), h⟩
      | ask _ h => rcases h with rfl | rfl <;> simp at hh
      | asked _ h => rcases h with ⟨_, rfl⟩ | rfl <;> simp at hh
      | alone h => obtain rfl := (List.mem_singleton.1 hh); exact h.elim
      | other => cases hh

/-- The flush goroutine has ended without an error: a Send has returned without one. -/
theorem over_none {src : Info} {snd : Callee} {s0 s : Fl} {evs : List FlEv} (h : Fl.Run src snd s0 evs s) (h1 : s0.ff.pc ≠ .returned none) (h2 : s0.pc ≠ .over none) :
    (s.ff.pc = .returned none → .inner (.return_ none) ∈ evs) ∧ (s.pc = .over none → .inner (.return_ none) ∈ evs ∨ .sent none ∈ evs) := by
  induction h with
  | nil => exact ⟨fun h => absurd h h1, fun h => absurd h h2⟩
  | snoc _ hs ih =>
    obtain ⟨ih1, ih2⟩ := ih
    have keep : ∀ {l : List FlEv} {x e : FlEv}, x ∈ l → x ∈ l ++ [e] := fun h => List.mem_append_left _ h
    cases hs with
    | inner _ hne h =>
      refine ⟨?_, fun h => (ih2 h).imp keep keep⟩
      cases h with
      | register | flush => intro h; cases h
      | flushed => intro h; simp only [FfPC.returned.injEq] at h; simp [h]
      | ended => intro h; cases h
      | handle =>
        intro h
        refine keep (ih1 ?_)
        split at h
        · exact h
        · split at h <;> exact h
      | cancel => exact absurd rfl hne
    | timeout | shutdown => exact ⟨fun h => keep (ih1 h), fun h => (ih2 h).imp keep keep⟩
    | retry => exact ⟨fun h => keep (ih1 h), fun h => by cases h⟩
    | retried => exact ⟨fun h => keep (ih1 h), fun h => by simp only [FlPC.over.injEq] at h; simp [h]⟩
    | noRetry h1 h2 => exact ⟨fun h => keep (ih1 h), fun h => by simp only [FlPC.over.injEq] at h; rw [h] at h2; exact .inl (keep (ih1 h2))⟩

/-- The Send of an accepted flush message was taken by the router after it was asked for. -/
theorem asked_accepted {a : AskCfg} {s0 s : DSys} {evs : DEv} {n0 : List MockEv} {o : Nat} (hf : a.flush ≠ a.sys.rcv) (hm : Mock.Run {} n0 s0.f.sys.mock) (h : AskedAt a s0 evs s o)
    (hret : MockEv.ret o none ∈ evs.sys.n) : ∃ sA eA eB m, DSys.Run a s0 eA sA ∧ FSys.Run a.sys a.flush sA.f eB s.f ∧
      evs.sys = { m := eA.sys.m ++ eB.m, n := eA.sys.n ++ eB.n, c := eA.sys.c ++ eB.c } ∧ (∃ fl, evs.fl = eA.fl ++ fl) ∧
      (sA.fl.ff.doneClosed = true ∨ sA.fl.ff.ctx ≠ none) ∧ MockEv.accepted o a.info.direct m ∈ eB.n := by
  obtain ⟨sA, eA, eB, h1, h2, h3, h4, h5, h6, i, m, h7⟩ := h
  have mA := mock_trans hm (sys_mock (fsys_run hf (dsys_f h1)))
  have mB := mock_trans mA (sys_mock (fsys_run hf h2))
  have hret' : MockEv.ret o none ∈ n0 ++ eA.sys.n ++ eB.n := by
    rw [h3] at hret
    rw [List.append_assoc]; exact List.mem_append_right _ hret
  have hone := (C62_sent mB o).2.2.1 hret'
  have : 0 < (n0 ++ eA.sys.n ++ eB.n).countP (isAccepted o) := by omega
  obtain ⟨e, he, hacc⟩ := List.countP_pos_iff.1 this
  cases e with
  | accepted o' x m' =>
    have : o' = o := by simpa [isAccepted] using hacc
    subst this
    refine ⟨sA, eA, eB, m', h1, h2, h3, h4, h5, ?_⟩
    obtain ⟨op, q1, q2, _⟩ := (callInv_run mB).acc _ _ _ he
    obtain ⟨op', q3, q4⟩ := call_op mB (List.mem_append_right _ h7)
    rw [q1] at q3
    obtain rfl := Option.some.inj q3
    rw [← q2, q4] at he
    rcases List.mem_append.1 he with he | he
    · obtain ⟨op, q5, _⟩ := (callInv_run mA).acc _ _ _ he
      rw [h6] at q5; cases q5
    · exact he
  | _ => cases hacc

/-- **C108 (heard).** A client that has discovered a source and whose flush goroutine has ended without an error has made the manager of that source receive a flush request, once
`listenFlushes` has handled what it got. -/
theorem C108_heard {a : AskCfg} {n0 : List MockEv} {s0 s : DSys} {evs : DEv} (hm : Mock.Run {} n0 s0.f.sys.mock) (hfl : s0.fl = {}) (hask : s0.asking = none) (hr : DSys.Run a s0 evs s)
    (hsent : s.fl.pc = .over none) (hf : a.flush ≠ a.sys.rcv) (hnew : MockEv.newReceiver a.flush a.info.direct ∈ n0) (hsub : MockEv.subscribed a.flush ∈ n0)
    (hnc : MockEv.closeReceiver a.flush ∉ n0) (hp : s0.f.pc ≠ .finished)
    (hret : ∀ o m, MockEv.accepted o a.info.direct m ∈ n0 ++ evs.sys.n → ∃ r, MockEv.ret o r ∈ n0 ++ evs.sys.n)
    (hchan : ∀ x, s.f.sys.mock.rcvs[a.flush]? = some x → x.chan = []) (hpc : s.f.pc = .receiving) (hcan : s.f.sys.src.mgr.cancelled = false) : MgrEv.flushReceived ∈ evs.sys.m := by
  obtain ⟨o, h1, h2⟩ := (asked_run hf hask hr).2 ((over_none (dsys_fl hr) (by rw [hfl]; simp) (by rw [hfl]; simp)).2 hsent)
  obtain ⟨sA, eA, eB, m, g1, g2, g3, _, _, g6⟩ := asked_accepted hf hm h2 h1
  rw [g3] at hret ⊢
  simp only [← List.append_assoc] at hret
  exact List.mem_append_right _ (C107_heard hm hf hnew hnc hp (dsys_f g1) g2 (List.mem_append_left _ hsub) g6 hret hchan hpc hcan)

/-- **C108 (partial).** A client listens to the address of a running source and asks for a flush as serve.go:144-176 does.  Once the flush goroutine has ended without an error and everything
is handled, the collector's store has an entry of the record with every attribute of its last version: provided that there was a moment at which the receiver was subscribed and the Send of
the flush message was not called, and that since then the record stayed in a store of the manager, no smaller key was deleted and no message was lost on the side of the manager.  The code
does not take care of that moment (`C108_counterexample`). -/
theorem C108_subscribed_partial {a : AskCfg} {n0 : List MockEv} {c0 : List ClEv} {s0 s1 s : DSys} {e1 e2 : DEv} (h0 : Sys.Before a.sys n0 c0 s0.f.sys)
    (hr1 : DSys.Run a s0 e1 s1) (hsub : MockEv.subscribed a.sys.rcv ∈ n0 ++ e1.sys.n) (hask : s1.asking = none) (hun1 : s1.fl.ff.pc ≠ .returned none) (hun2 : s1.fl.pc ≠ .over none)
    (hr2 : DSys.Run a s1 e2 s) (hsent : s.fl.pc = .over none) (hrcv : MockEv.newReceiver a.sys.rcv a.sys.addr ∈ n0 ++ e1.sys.n)
    (hf : a.flush ≠ a.sys.rcv) (hnew : MockEv.newReceiver a.flush a.info.direct ∈ n0) (hsubf : MockEv.subscribed a.flush ∈ n0 ++ e1.sys.n)
    (hnc : MockEv.closeReceiver a.flush ∉ n0) (hp : s0.f.pc ≠ .finished)
    (hret : ∀ o m, MockEv.accepted o a.info.direct m ∈ n0 ++ e1.sys.n ++ e2.sys.n → ∃ r, MockEv.ret o r ∈ n0 ++ e1.sys.n ++ e2.sys.n)
    (hchan : ∀ x, s.f.sys.mock.rcvs[a.flush]? = some x → x.chan = []) (hpc : s.f.pc = .receiving) (hcan : s.f.sys.src.mgr.cancelled = false)
    (hstill : s.f.sys.Still a.sys) (hfq : s.f.sys.src.mgr.flushQueue = 0) (hopen : MockEv.closeReceiver a.sys.rcv ∉ n0 ++ e1.sys.n ++ e2.sys.n) (hcr : s.f.sys.cl.crashed = false)
    (hl : Lossless e2.sys.m) {j : Nat} (hj : j < a.sys.mgr.numStores) {c : CacheConfig (GoRec GoTime)} {hj0 : List (Op (GoRec GoTime))}
    (hst : s0.f.sys.src.mgr.stores j = after vanOps c hj0) {key : String}
    (hstay : Stays c (hj0 ++ opsOn j e1.sys.m) j key (fun e => Mine a.sys.id a.sys.tm e.record) e2.sys.m)
    {v : GoRec GoTime} (hv : s.f.sys.src.versions.getLast? = some v)
    {cs1 cs2 : List RegCmd} {ref : SourceRef} {i : Nat} {cfg : Nat → CacheConfig (GoRec GoTime)} {h : Nat → List (Op (GoRec GoTime))}
    (hc : Collects a.sys cs1 cs2 ref i cfg h s0.f.sys.stores)
    (hstale : ∀ e, content vanOps (cfg i) (h i) a.sys.id = some e → OfKind a.sys.id a.sys.tm e.record ∧ Encodable e.record) :
    ∃ h' e, s.f.sys.stores i = after vanOps (cfg i) h' ∧ content vanOps (cfg i) h' a.sys.id = some e ∧ OfKind a.sys.id a.sys.tm e.record ∧
      ∀ x y, attrOf v x = some y → attrOf e.record x = some y := by
  have hS1 := fsys_run hf (dsys_f hr1)
  have hS2 := fsys_run hf (dsys_f hr2)
  have m1 := mock_trans h0.mock (sys_mock hS1)
  obtain ⟨o, q1, q2⟩ := (asked_run hf hask hr2).2 ((over_none (dsys_fl hr2) hun1 hun2).2 hsent)
  obtain ⟨sA, eA, eB, m, g1, g2, g3, _, _, g6⟩ := asked_accepted hf m1 q2 q1
  have hfl : MgrEv.flushReceived ∈ e2.sys.m := by
    rw [g3] at hret ⊢
    refine List.mem_append_right _ (C107_heard h0.mock hf hnew hnc hp (fsys_trans (dsys_f hr1) (dsys_f g1)) g2 ?_ g6 ?_ hchan hpc hcan)
    · simp only [← List.append_assoc]; exact List.mem_append_left _ hsubf
    · simpa [List.append_assoc] using hret
  obtain ⟨fa, fb, hab⟩ := List.append_of_mem hfl
  have hu : ∀ x, MockEv.newReceiver a.sys.rcv x ∈ n0 ++ e1.sys.n → x = a.sys.addr := by
    intro x hx
    obtain ⟨y, y1, y2⟩ := ((delInv_run m1).new _ _).1 hx
    obtain ⟨z, z1, z2⟩ := ((delInv_run m1).new _ _).1 hrcv
    rw [y1] at z1
    obtain rfl := Option.some.inj z1
    rw [← y2, z2]
  rw [hab] at hl hstay
  have hl' : Lossless fb := by
    intro rs
    have := hl rs
    simp only [List.mem_append, List.mem_cons, not_or] at this
    exact ⟨this.1.2.2, this.2.1.2.2, this.2.2.2.2⟩
  have hstay' := stays_drop (a := fa ++ [.flushReceived]) (b := fb) (by simpa using hstay)
  have e0 : ∀ l, opsOn j (l ++ [.flushReceived]) = opsOn j l := by simp [opsOn]
  rw [e0] at hstay'
  rcases join_split h0 hS1 hu with hpre | ⟨d1, d2, sJ, j1, j2, j3, j4, j5⟩
  · exact C104_before (key := key) (pre_before h0 hS1 hpre) hrcv hsub hS2 hstill hfq hopen hcr hab hl' hj (stores_run (Proofs.Src.Run.toMgr (sys_src hS1)) hst) hstay' hv
      (by rw [hpre.stores]; exact hc) hstale
  · have hm5 : e1.sys.m = d1.m ++ d2.m := by rw [j5]
    have hn5 : e1.sys.n = d1.n ++ d2.n := by rw [j5]
    refine C104_resync (key := key) j3 (sys_trans j4 hS2) hstill hfq (by simpa [hn5, List.append_assoc] using hopen) hcr (pre := d2.m ++ fa) (post := fb) (by simp [hab]) hl' hj
      (stores_run (Proofs.Src.Run.toMgr (sys_src j1)) hst) ?_ hv (by rw [j2]; exact hc) hstale
    have e : hj0 ++ opsOn j d1.m ++ opsOn j (d2.m ++ fa) = hj0 ++ opsOn j e1.sys.m ++ opsOn j fa := by simp [hm5, opsOn]
    rw [e]
    exact hstay'

/-- **C108 (partial; the first message).** A client discovers a running source, listens to its address and asks for a flush with the first message it gets (serve.go:144-176).  Once the flush goroutine has
ended without an error and everything is handled, the collector's store has an entry of the record with every attribute of its last version: provided that the first message came within the
five seconds and on the listener to the address of the source, and that meanwhile the record stayed in a store of the manager, no smaller key was deleted and no message was lost on the side
of the manager.  Without the first condition it is not so (`C108_counterexample`). -/
theorem C108_first_partial {a : AskCfg} {n0 : List MockEv} {c0 : List ClEv} {s0 s : DSys} {evs : DEv} (h0 : Sys.Before a.sys n0 c0 s0.f.sys) (hfl : s0.fl = {}) (hask : s0.asking = none)
    (hr : DSys.Run a s0 evs s) (hsent : s.fl.pc = .over none) (htime : FlEv.timeout ∉ evs.fl) (hshut : FlEv.shutdown ∉ evs.fl)
    (honly : ∀ l h d, ClEv.call l h d ∈ evs.sys.c → a.Awaits h d → l = a.sys.lst) (hrcv : MockEv.newReceiver a.sys.rcv a.sys.addr ∈ n0 ++ evs.sys.n)
    (hf : a.flush ≠ a.sys.rcv) (hnew : MockEv.newReceiver a.flush a.info.direct ∈ n0) (hsub : MockEv.subscribed a.flush ∈ n0)
    (hnc : MockEv.closeReceiver a.flush ∉ n0) (hp : s0.f.pc ≠ .finished)
    (hret : ∀ o m, MockEv.accepted o a.info.direct m ∈ n0 ++ evs.sys.n → ∃ r, MockEv.ret o r ∈ n0 ++ evs.sys.n)
    (hchan : ∀ x, s.f.sys.mock.rcvs[a.flush]? = some x → x.chan = []) (hpc : s.f.pc = .receiving) (hcan : s.f.sys.src.mgr.cancelled = false)
    (hstill : s.f.sys.Still a.sys) (hfq : s.f.sys.src.mgr.flushQueue = 0) (hopen : MockEv.closeReceiver a.sys.rcv ∉ n0 ++ evs.sys.n) (hcr : s.f.sys.cl.crashed = false)
    (hl : Lossless evs.sys.m) {j : Nat} (hj : j < a.sys.mgr.numStores) {c : CacheConfig (GoRec GoTime)} {hj0 : List (Op (GoRec GoTime))}
    (hst : s0.f.sys.src.mgr.stores j = after vanOps c hj0) {key : String} (hstay : Stays c hj0 j key (fun e => Mine a.sys.id a.sys.tm e.record) evs.sys.m)
    {v : GoRec GoTime} (hv : s.f.sys.src.versions.getLast? = some v)
    {cs1 cs2 : List RegCmd} {ref : SourceRef} {i : Nat} {cfg : Nat → CacheConfig (GoRec GoTime)} {h : Nat → List (Op (GoRec GoTime))}
    (hc : Collects a.sys cs1 cs2 ref i cfg h s0.f.sys.stores)
    (hstale : ∀ e, content vanOps (cfg i) (h i) a.sys.id = some e → OfKind a.sys.id a.sys.tm e.record ∧ Encodable e.record) :
    ∃ h' e, s.f.sys.stores i = after vanOps (cfg i) h' ∧ content vanOps (cfg i) h' a.sys.id = some e ∧ OfKind a.sys.id a.sys.tm e.record ∧
      ∀ x y, attrOf v x = some y → attrOf e.record x = some y := by
  obtain ⟨o, q1, q2⟩ := (asked_run hf hask hr).2 ((over_none (dsys_fl hr) (by rw [hfl]; simp) (by rw [hfl]; simp)).2 hsent)
  obtain ⟨sA, eA, eB, m, g1, g2, g3, ⟨fl, g4⟩, g5, g6⟩ := asked_accepted hf h0.mock q2 q1
  have hAll := mock_trans h0.mock (sys_mock (fsys_run hf (dsys_f hr)))
  rw [g3] at hret hrcv hopen hl hstay hAll
  simp only [← List.append_assoc] at hret
  obtain ⟨fa, fb, hab⟩ := List.append_of_mem (C107_heard h0.mock hf hnew hnc hp (dsys_f g1) g2 (List.mem_append_left _ hsub) g6 hret hchan hpc hcan)
  obtain ⟨t1, t2⟩ := fl_told hfl (dsys_fl g1)
  have hctx := t2 (fun hx => htime (by rw [g4]; exact List.mem_append_left _ hx)) (fun hx => hshut (by rw [g4]; exact List.mem_append_left _ hx))
  obtain ⟨l, hh, d, c1, c2⟩ := handled_call g1 (t1 (g5.resolve_right fun h => h hctx))
  obtain rfl := honly l hh d (by rw [g3]; exact List.mem_append_left _ c1) c2
  have hu : ∀ x, MockEv.newReceiver a.sys.rcv x ∈ n0 ++ eA.sys.n → x = a.sys.addr := by
    intro x hx
    obtain ⟨y, y1, y2⟩ := ((delInv_run hAll).new _ _).1 (by simp only [List.mem_append] at hx ⊢; rcases hx with h | h; exact .inl h; exact .inr (.inl h))
    obtain ⟨z, z1, z2⟩ := ((delInv_run hAll).new _ _).1 hrcv
    rw [y1] at z1
    obtain rfl := Option.some.inj z1
    rw [← y2, z2]
  rcases join_split h0 (fsys_run hf (dsys_f g1)) hu with hpre | ⟨e1, e2, sJ, j1, j2, j3, j4, j5⟩
  · exact absurd c1 (hpre.uncalled hh d)
  have hB := fsys_run hf g2
  have hm5 : eA.sys.m = e1.m ++ e2.m := by rw [j5]
  have hn5 : eA.sys.n = e1.n ++ e2.n := by rw [j5]
  refine C104_resync (key := key) j3 (sys_trans j4 hB) hstill hfq (by simpa [hn5, List.append_assoc] using hopen) hcr (pre := e2.m ++ fa) (post := fb) (by simp [hab]) ?_ hj
    (stores_run (Proofs.Src.Run.toMgr (sys_src j1)) hst) ?_ hv (by rw [j2]; exact hc) hstale
  · intro rs
    have := hl rs
    simp only [hab, List.mem_append, List.mem_cons, not_or] at this
    exact ⟨this.1.2.2.2, this.2.1.2.2.2, this.2.2.2.2.2⟩
  · have e : hj0 ++ opsOn j e1.m ++ opsOn j (e2.m ++ fa) = hj0 ++ opsOn j (e1.m ++ e2.m ++ fa ++ [.flushReceived]) := by simp [opsOn]
    rw [e]
    exact stays_drop (b := fb) (by simpa [hab, hm5, List.append_assoc] using hstay)

theorem dsys_trans {a : AskCfg} {s1 s2 s3 : DSys} {e1 e2 : DEv} (h1 : DSys.Run a s1 e1 s2) (h2 : DSys.Run a s2 e2 s3) :
    DSys.Run a s1 { sys := { m := e1.sys.m ++ e2.sys.m, n := e1.sys.n ++ e2.sys.n, c := e1.sys.c ++ e2.sys.c }, fl := e1.fl ++ e2.fl } s3 := by
  induction h2 with
  | nil => simpa using h1
  | snoc _ hs ih => simpa [List.append_assoc] using ih.snoc hs

theorem join_before {k : SysCfg} {n0 : List MockEv} {c0 : List ClEv} {s : Sys} (h : Sys.Join k n0 c0 s) : Sys.Before k n0 c0 s :=
  ⟨h.src, h.mock, h.unsent, h.returned, h.cl, h.listener, h.registered, fun o ho => (h.sending o ho).1, h.ended⟩

/-! ## Instances -/

/-- The record listener and the heartbeat listener of a client, with the dispatcher 7 and the awaiter's handlers 3 and 5. -/
def discClient : Client where
  recordHandlers := [7, 3]
  heartbeatHandlers := [5]
  wg := 2
  listeners := [{ pc := .receiving }, { pc := .receiving }]

def discClEvs : List ClEv := [.onRecord 7, .listen, .listen, .tau, .tau, .onRecord 3, .onHeartbeat 5]

theorem disc_cl : Client.Run vanRegistry {} discClEvs discClient := by
  have r1 := (Client.Run.nil (reg := vanRegistry) (s := {})).snoc rfl (.onRecord 7 rfl)
  have r2 := r1.snoc rfl .listen
  have r3 := r2.snoc rfl .listen
  have r4 := r3.snoc rfl (.listenStart (l := 0) rfl rfl rfl)
  have r5 := r4.snoc rfl (.listenStart (l := 1) rfl rfl rfl)
  have r6 := r5.snoc rfl (.onRecord 3 rfl)
  exact r6.snoc rfl (.onHeartbeat 5 rfl)

/-- The router: the receiver of the record listener is not subscribed yet; the manager's receiver for flush messages and that of another collector are. -/
def discMock : Mock where
  topics := [("sfe.c1", 0), ("mc/sfe.c1", 1)]
  mcs := [{ receivers := [1], ver := 1 }, { receivers := [2], ver := 1 }]
  rcvs := [{ addr := "mc/sfe.c1", cap := 256, sub := .getting }, { addr := "sfe.c1", cap := 256, sub := .done }, { addr := "mc/sfe.c1", cap := 256, sub := .done }]
  snds := [{ addr := "mc/sfe.c1" }, { addr := "sfe.c1" }]

def discEvs : List MockEv := [.newReceiver 0 "mc/sfe.c1", .newReceiver 1 "sfe.c1", .step 1, .subscribed 1, .newReceiver 2 "mc/sfe.c1", .step 2, .subscribed 2, .newSender 0 "mc/sfe.c1", .newSender 1 "sfe.c1"]

theorem disc_mock : Mock.Run {} discEvs discMock := by
  have r1 := (Mock.Run.nil (s0 := {})).snoc (.newReceiver "mc/sfe.c1" 256)
  have r2 := r1.snoc (.newReceiver "sfe.c1" 256)
  have r3 := r2.snoc (.subGet (r := 1) rfl rfl)
  have r4 := r3.snoc (.subscribe (r := 1) (mc := 0) rfl rfl rfl rfl)
  have r5 := r4.snoc (.newReceiver "mc/sfe.c1" 256)
  have r6 := r5.snoc (.subGet (r := 2) rfl rfl)
  have r7 := r6.snoc (.subscribe (r := 2) (mc := 1) rfl rfl rfl rfl)
  have r8 := r7.snoc (.newSender "mc/sfe.c1")
  exact r8.snoc (.newSender "sfe.c1")

def discCfg : AskCfg := { sys := lateCfg, flush := 1, info := { id := "c1", type := "CONTROLLER", address := "mc/sfe.c1", direct := "sfe.c1" }, onRecord := 3, onHeartbeat := 5 }

def disc0 : DSys := { f := { sys := { late0 with mock := discMock, cl := discClient } } }

theorem disc0_before : Sys.Before lateCfg discEvs discClEvs disc0.f.sys :=
  ⟨late_src, disc_mock, rfl, by intro o i m; simp [discEvs], disc_cl, ⟨{ pc := .receiving }, rfl, Or.inr (Or.inl rfl)⟩, by decide, (by intro o h; cases h), rfl⟩

/-- **C108 (negation).** "flush sent" does not mean that the collector gets what the source has: a heartbeat comes before the receiver of the record listener is subscribed, the flush is asked
for and everything the source has is sent, but not to this collector.  All is as in `C108_first_partial`, but for the listener the first message comes on. -/
theorem C108_counterexample : ∃ (s : DSys) (evs : DEv), DSys.Run discCfg disc0 evs s ∧ s.fl.pc = .over none ∧ FlEv.timeout ∉ evs.fl ∧ FlEv.shutdown ∉ evs.fl ∧
    MockEv.subscribed lateCfg.rcv ∈ evs.sys.n ∧ MockEv.closeReceiver lateCfg.rcv ∉ discEvs ++ evs.sys.n ∧
    (∀ o m, MockEv.accepted o "sfe.c1" m ∈ discEvs ++ evs.sys.n → ∃ r, MockEv.ret o r ∈ discEvs ++ evs.sys.n) ∧
    (∀ x, s.f.sys.mock.rcvs[1]? = some x → x.chan = []) ∧ s.f.pc = .receiving ∧ s.f.sys.src.mgr.cancelled = false ∧
    s.f.sys.Still lateCfg ∧ s.f.sys.src.mgr.flushQueue = 0 ∧ s.f.sys.cl.crashed = false ∧ Lossless evs.sys.m ∧
    Stays exCfg lateOps 0 "h1" (fun e => Mine "h1" ⟨"flow/v1", "HostRecord"⟩ e.record) evs.sys.m ∧ s.f.sys.src.versions.getLast? = some (hostRec "h1" "x") ∧
    s.f.sys.stores 0 = after vanOps exCfg [] ∧ content vanOps exCfg [] "h1" = none := by
  have r0 : DSys.Run discCfg disc0 {} disc0 := .nil
  have p1 := r0.snoc (.alone (ev := .inner .registered) trivial (.inner rfl (by simp) (.register rfl)))
  have p2 := p1.snoc (.other (.other (.client rfl rfl (.deliver (l := 1) hbMsg rfl rfl) (by simp [lateCfg, sysCfg, discCfg]) (by simp) (by simp) (by simp)) (by simp) (by simp) (by simp) (by simp)) (by simp) (by simp))
  have p3 := p2.snoc (.other (.other (.client rfl rfl (.decoded (l := 1) rfl rfl rfl) (by simp) (by simp) (by simp) (by simp)) (by simp) (by simp) (by simp) (by simp)) (by simp) (by simp))
  have p4 := p3.snoc (.other (.other (.client rfl rfl (.fetch (l := 1) rfl rfl rfl) (by simp) (by simp) (by simp) (by simp)) (by simp) (by simp) (by simp) (by simp)) (by simp) (by simp))
  have p5 := p4.snoc (.handled (a := discCfg) (l := 1) (h := 5) (d := .heartbeat _) rfl (.other (.client rfl rfl (.call (l := 1) rfl rfl) (by simp) (by simp) (by simp [lateCfg, sysCfg, discCfg]) (by simp)) (by simp) (by simp) (by simp) (by simp)) (.inner rfl (by simp) .handle))
  have p6 := p5.snoc (.other (.other (.client rfl rfl (.again (l := 1) rfl rfl) (by simp) (by simp) (by simp) (by simp)) (by simp) (by simp) (by simp) (by simp)) (by simp) (by simp))
  have q1 := p6.snoc (.ask rfl (.inl rfl) (.inner rfl (by simp) (.flush rfl rfl)) (.other (.router (.call (i := 1) (x := { addr := "sfe.c1" }) 77 none rfl) (by simp) (by simp [disc0, late0]) (by simp [lateCfg, sysCfg, discCfg])) (by simp) (by simp) (by simp) (by simp)))
  have q2 := q1.snoc (.other (.other (.router (.startGo (o := 0) rfl rfl rfl rfl rfl) (by simp) (by simp) (by simp)) (by simp) (by simp) (by simp) (by simp)) (by simp) (by simp))
  have q3 := q2.snoc (.other (.other (.router (.get (o := 0) rfl rfl) (by simp) (by simp) (by simp)) (by simp) (by simp) (by simp) (by simp)) (by simp) (by simp))
  have q4 := q3.snoc (.other (.other (.router (.lock (o := 0) (mc := 0) rfl rfl rfl rfl (by decide)) (by simp) (by simp) (by simp)) (by simp) (by simp) (by simp) (by simp)) (by simp) (by simp))
  have q5 := q4.snoc (.other (.other (.router (.offer (o := 0) rfl rfl rfl rfl) (by simp) (by simp) (by simp)) (by simp) (by simp) (by simp) (by simp)) (by simp) (by simp))
  have q6 := q5.snoc (.other (.other (.router (.put (o := 0) rfl rfl rfl (by decide)) (by simp) (by simp) (by simp)) (by simp) (by simp) (by simp) (by simp)) (by simp) (by simp))
  have q7 := q6.snoc (.asked (o := 0) (r := none) rfl (.inl ⟨rfl, rfl⟩) (.inner rfl (by simp) (.flushed (r := none) rfl trivial)) (.other (.router (.finish (o := 0) rfl rfl) (by simp) (by simp [disc0, late0]) (by simp)) (by simp) (by simp) (by simp) (by simp)))
  have q8 := q7.snoc (.alone (ev := .over none) trivial (.noRetry rfl rfl (.inl rfl)))
  have q9 := q8.snoc (.other (.next (m := 77) rfl (.recv (r := 1) rfl rfl rfl)) (by simp) (by simp))
  have r1 := q9.snoc (.other (.queue rfl (.mgr (by simp) (by simp) .flushReceived)) (by simp) (by simp))
  have r2 := r1.snoc (.other (.other (.source (.mgr (by simp) (by simp) (.takeFlush rfl (by decide))) (by simp) (by simp)) (by simp) (by simp) (by simp) (by simp)) (by simp) (by simp))
  have r3 := r2.snoc (.other (.other (.source (.mgr (by simp) (by simp) (.flushBegin rfl)) (by simp) (by simp)) (by simp) (by simp) (by simp) (by simp)) (by simp) (by simp))
  have r4 := r3.snoc (.other (.other (.source (.mgr (by simp) (by simp) (.page 0 rfl rfl)) (by simp) (by simp)) (by simp) (by simp) (by simp) (by simp)) (by simp) (by simp))
  have r5 := r4.snoc (.other (.other (.source (.mgr (by simp) (by simp) (.queueFlush (msg := [hostRec "h1" "x"]) rfl (by decide))) (by simp) (by simp)) (by simp) (by simp) (by simp) (by simp)) (by simp) (by simp))
  have r5' := r5.snoc (.other (.other (.source (.mgr (by simp) (by simp) (.flushEnd rfl)) (by simp) (by simp)) (by simp) (by simp) (by simp) (by simp)) (by simp) (by simp))
  have r6t := r5'.snoc (.other (.other (.source (.mgr (by simp) (by simp) (.takeMsg rfl (List.cons_ne_nil _ _))) (by simp) (by simp)) (by simp) (by simp) (by simp) (by simp)) (by simp) (by simp))
  have r6 := r6t.snoc (.other (.other (.send (o := 1) rfl rfl rfl (.call (i := 0) (x := { addr := "mc/sfe.c1" }) 0 none rfl) rfl) (by simp) (by simp) (by simp) (by simp)) (by simp) (by simp))
  have r7 := r6.snoc (.other (.other (.router (.startGo (o := 1) rfl rfl rfl rfl rfl) (by simp) (by simp) (by simp)) (by simp) (by simp) (by simp) (by simp)) (by simp) (by simp))
  have r8 := r7.snoc (.other (.other (.router (.get (o := 1) rfl rfl) (by simp) (by simp) (by simp)) (by simp) (by simp) (by simp) (by simp)) (by simp) (by simp))
  have r9 := r8.snoc (.other (.other (.router (.lock (o := 1) (mc := 1) rfl rfl rfl rfl (by decide)) (by simp) (by simp) (by simp)) (by simp) (by simp) (by simp) (by simp)) (by simp) (by simp))
  have r10 := r9.snoc (.other (.other (.router (.offer (o := 1) rfl rfl rfl rfl) (by simp) (by simp) (by simp)) (by simp) (by simp) (by simp) (by simp)) (by simp) (by simp))
  have r11 := r10.snoc (.other (.other (.router (.put (o := 1) rfl rfl rfl (by decide)) (by simp) (by simp) (by simp)) (by simp) (by simp) (by simp) (by simp)) (by simp) (by simp))
  have r12 := r11.snoc (.other (.other (.sent (o := 1) rfl (.finish rfl rfl) (.mgr (by simp) (by simp) (.send rfl rfl rfl))) (by simp) (by simp) (by simp) (by simp)) (by simp) (by simp))
  have r13 := r12.snoc (.other (.other (.router (.subGet (r := 0) rfl rfl) (by simp) (by simp) (by simp)) (by simp) (by simp) (by simp) (by simp)) (by simp) (by simp))
  have r14 := r13.snoc (.other (.other (.router (.subscribe (r := 0) (mc := 1) rfl rfl rfl rfl) (by simp) (by simp) (by simp)) (by simp) (by simp) (by simp) (by simp)) (by simp) (by simp))
  refine ⟨_, _, r14, rfl, by simp, by simp, by simp [lateCfg, sysCfg], by simp [discEvs], ?_, ?_, rfl, rfl, ⟨⟨rfl, rfl, rfl, rfl⟩, rfl, ?_, _, rfl, rfl⟩, rfl, rfl, by intro rs; simp, late_stays rfl, rfl, rfl, rfl⟩
  · intro o m h
    simp [discEvs, discCfg] at h
    obtain ⟨rfl, rfl⟩ := h
    exact ⟨none, by simp⟩
  · intro x hx; cases hx; rfl
  · intro x hx; cases hx; rfl

/-- As `discMock`, when the receiver of the record listener is subscribed. -/
def discMock1 : Mock where
  topics := [("sfe.c1", 0), ("mc/sfe.c1", 1)]
  mcs := [{ receivers := [1], ver := 1 }, { receivers := [2, 0], ver := 2 }]
  rcvs := [{ addr := "mc/sfe.c1", cap := 256, sub := .done }, { addr := "sfe.c1", cap := 256, sub := .done }, { addr := "mc/sfe.c1", cap := 256, sub := .done }]
  snds := [{ addr := "mc/sfe.c1" }, { addr := "sfe.c1" }]

def disc1 : DSys := { f := { sys := { late0 with mock := discMock1, cl := discClient } } }

theorem disc_subscribe : DSys.Run discCfg disc0 { sys := { n := [.step 0, .subscribed 0] } } disc1 := by
  have r0 : DSys.Run discCfg disc0 {} disc0 := .nil
  have r1 := r0.snoc (.other (.other (.router (.subGet (r := 0) rfl rfl) (by simp) (by simp) (by simp)) (by simp) (by simp) (by simp) (by simp)) (by simp) (by simp))
  exact r1.snoc (.other (.other (.router (.subscribe (r := 0) (mc := 1) rfl rfl rfl rfl) (by simp) (by simp) (by simp)) (by simp) (by simp) (by simp) (by simp)) (by simp) (by simp))

theorem disc1_join : Sys.Join lateCfg (discEvs ++ [.step 0, .subscribed 0]) discClEvs disc1.f.sys :=
  ⟨late_src, mock_trans disc_mock (sys_mock (fsys_run (by decide) (dsys_f disc_subscribe))), by decide, by decide, rfl, by intro o i m; simp [discEvs], disc_cl,
    ⟨{ pc := .receiving }, rfl, Or.inr (Or.inl rfl)⟩, by decide, (by intro o h; cases h), rfl⟩

/-- As in `C108_counterexample`, but the receiver is subscribed first. -/
theorem disc_example : ∃ (s : DSys) (evs : DEv), DSys.Run discCfg disc1 evs s ∧ s.fl.pc = .over none ∧ MockEv.closeReceiver lateCfg.rcv ∉ evs.sys.n ∧
    (∀ o m, MockEv.accepted o "sfe.c1" m ∈ evs.sys.n → ∃ r, MockEv.ret o r ∈ evs.sys.n) ∧
    (∀ x, s.f.sys.mock.rcvs[1]? = some x → x.chan = []) ∧ s.f.pc = .receiving ∧ s.f.sys.src.mgr.cancelled = false ∧
    s.f.sys.Still lateCfg ∧ s.f.sys.src.mgr.flushQueue = 0 ∧ s.f.sys.cl.crashed = false ∧ Lossless evs.sys.m ∧ opsOn 0 evs.sys.m = [] ∧
    s.f.sys.src.versions.getLast? = some (hostRec "h1" "x") := by
  have r0 : DSys.Run discCfg disc1 {} disc1 := .nil
  have p1 := r0.snoc (.alone (ev := .inner .registered) trivial (.inner rfl (by simp) (.register rfl)))
  have p2 := p1.snoc (.other (.other (.client rfl rfl (.deliver (l := 1) hbMsg rfl rfl) (by simp [lateCfg, sysCfg, discCfg]) (by simp) (by simp) (by simp)) (by simp) (by simp) (by simp) (by simp)) (by simp) (by simp))
  have p3 := p2.snoc (.other (.other (.client rfl rfl (.decoded (l := 1) rfl rfl rfl) (by simp) (by simp) (by simp) (by simp)) (by simp) (by simp) (by simp) (by simp)) (by simp) (by simp))
  have p4 := p3.snoc (.other (.other (.client rfl rfl (.fetch (l := 1) rfl rfl rfl) (by simp) (by simp) (by simp) (by simp)) (by simp) (by simp) (by simp) (by simp)) (by simp) (by simp))
  have p5 := p4.snoc (.handled (a := discCfg) (l := 1) (h := 5) (d := .heartbeat _) rfl (.other (.client rfl rfl (.call (l := 1) rfl rfl) (by simp) (by simp) (by simp [lateCfg, sysCfg, discCfg]) (by simp)) (by simp) (by simp) (by simp) (by simp)) (.inner rfl (by simp) .handle))
  have p6 := p5.snoc (.other (.other (.client rfl rfl (.again (l := 1) rfl rfl) (by simp) (by simp) (by simp) (by simp)) (by simp) (by simp) (by simp) (by simp)) (by simp) (by simp))
  have q1 := p6.snoc (.ask rfl (.inl rfl) (.inner rfl (by simp) (.flush rfl rfl)) (.other (.router (.call (i := 1) (x := { addr := "sfe.c1" }) 77 none rfl) (by simp) (by simp [disc1, late0]) (by simp [lateCfg, sysCfg, discCfg])) (by simp) (by simp) (by simp) (by simp)))
  have q2 := q1.snoc (.other (.other (.router (.startGo (o := 0) rfl rfl rfl rfl rfl) (by simp) (by simp) (by simp)) (by simp) (by simp) (by simp) (by simp)) (by simp) (by simp))
  have q3 := q2.snoc (.other (.other (.router (.get (o := 0) rfl rfl) (by simp) (by simp) (by simp)) (by simp) (by simp) (by simp) (by simp)) (by simp) (by simp))
  have q4 := q3.snoc (.other (.other (.router (.lock (o := 0) (mc := 0) rfl rfl rfl rfl (by decide)) (by simp) (by simp) (by simp)) (by simp) (by simp) (by simp) (by simp)) (by simp) (by simp))
  have q5 := q4.snoc (.other (.other (.router (.offer (o := 0) rfl rfl rfl rfl) (by simp) (by simp) (by simp)) (by simp) (by simp) (by simp) (by simp)) (by simp) (by simp))
  have q6 := q5.snoc (.other (.other (.router (.put (o := 0) rfl rfl rfl (by decide)) (by simp) (by simp) (by simp)) (by simp) (by simp) (by simp) (by simp)) (by simp) (by simp))
  have q7 := q6.snoc (.asked (o := 0) (r := none) rfl (.inl ⟨rfl, rfl⟩) (.inner rfl (by simp) (.flushed (r := none) rfl trivial)) (.other (.router (.finish (o := 0) rfl rfl) (by simp) (by simp [disc1, late0]) (by simp)) (by simp) (by simp) (by simp) (by simp)))
  have q8 := q7.snoc (.alone (ev := .over none) trivial (.noRetry rfl rfl (.inl rfl)))
  have q9 := q8.snoc (.other (.next (m := 77) rfl (.recv (r := 1) rfl rfl rfl)) (by simp) (by simp))
  have r1 := q9.snoc (.other (.queue rfl (.mgr (by simp) (by simp) .flushReceived)) (by simp) (by simp))
  have r2 := r1.snoc (.other (.other (.source (.mgr (by simp) (by simp) (.takeFlush rfl (by decide))) (by simp) (by simp)) (by simp) (by simp) (by simp) (by simp)) (by simp) (by simp))
  have r3 := r2.snoc (.other (.other (.source (.mgr (by simp) (by simp) (.flushBegin rfl)) (by simp) (by simp)) (by simp) (by simp) (by simp) (by simp)) (by simp) (by simp))
  have r4 := r3.snoc (.other (.other (.source (.mgr (by simp) (by simp) (.page 0 rfl rfl)) (by simp) (by simp)) (by simp) (by simp) (by simp) (by simp)) (by simp) (by simp))
  have r5 := r4.snoc (.other (.other (.source (.mgr (by simp) (by simp) (.queueFlush (msg := [hostRec "h1" "x"]) rfl (by decide))) (by simp) (by simp)) (by simp) (by simp) (by simp) (by simp)) (by simp) (by simp))
  have r5' := r5.snoc (.other (.other (.source (.mgr (by simp) (by simp) (.flushEnd rfl)) (by simp) (by simp)) (by simp) (by simp) (by simp) (by simp)) (by simp) (by simp))
  have r6t := r5'.snoc (.other (.other (.source (.mgr (by simp) (by simp) (.takeMsg rfl (List.cons_ne_nil _ _))) (by simp) (by simp)) (by simp) (by simp) (by simp) (by simp)) (by simp) (by simp))
  have r6 := r6t.snoc (.other (.other (.send (o := 1) rfl rfl rfl (.call (i := 0) (x := { addr := "mc/sfe.c1" }) 0 none rfl) rfl) (by simp) (by simp) (by simp) (by simp)) (by simp) (by simp))
  have r7 := r6.snoc (.other (.other (.router (.startGo (o := 1) rfl rfl rfl rfl rfl) (by simp) (by simp) (by simp)) (by simp) (by simp) (by simp) (by simp)) (by simp) (by simp))
  have r8 := r7.snoc (.other (.other (.router (.get (o := 1) rfl rfl) (by simp) (by simp) (by simp)) (by simp) (by simp) (by simp) (by simp)) (by simp) (by simp))
  have r9 := r8.snoc (.other (.other (.router (.lock (o := 1) (mc := 1) rfl rfl rfl rfl (by decide)) (by simp) (by simp) (by simp)) (by simp) (by simp) (by simp) (by simp)) (by simp) (by simp))
  have r10 := r9.snoc (.other (.other (.router (.offer (o := 1) rfl rfl rfl rfl) (by simp) (by simp) (by simp)) (by simp) (by simp) (by simp) (by simp)) (by simp) (by simp))
  have r11 := r10.snoc (.other (.other (.router (.put (o := 1) rfl rfl rfl (by decide)) (by simp) (by simp) (by simp)) (by simp) (by simp) (by simp) (by simp)) (by simp) (by simp))
  have r10b := r11.snoc (.other (.other (.router (.offer (o := 1) rfl rfl rfl rfl) (by simp) (by simp) (by simp)) (by simp) (by simp) (by simp) (by simp)) (by simp) (by simp))
  have r11b := r10b.snoc (.other (.other (.router (.put (o := 1) rfl rfl rfl (by decide)) (by simp) (by simp) (by simp)) (by simp) (by simp) (by simp) (by simp)) (by simp) (by simp))
  have r12 := r11b.snoc (.other (.other (.sent (o := 1) rfl (.finish rfl rfl) (.mgr (by simp) (by simp) (.send rfl rfl rfl))) (by simp) (by simp) (by simp) (by simp)) (by simp) (by simp))
  have t1 := r12.snoc (.other (.other (.next (m := 0) rfl rfl (.recv (r := 0) rfl rfl rfl) rfl (.deliver (l := 0) _ rfl rfl)) (by simp) (by simp) (by simp [lateCfg, sysCfg, discCfg]) (by simp)) (by simp) (by simp))
  obtain ⟨rm, hrm⟩ := (C100_no_panic disc1_join (fsys_run (by decide) (dsys_f t1)) late0_collects).2 _ (by simp [deliveredTo, lateCfg, sysCfg, discCfg]; rfl)
  have t2 := t1.snoc (.other (.other (.client rfl rfl (.decoded (l := 0) rfl rfl hrm) (by simp) (by simp) (by simp) (by simp)) (by simp) (by simp) (by simp) (by simp)) (by simp) (by simp))
  have t3 := t2.snoc (.other (.other (.client rfl rfl (.fetch (l := 0) rfl rfl rfl) (by simp) (by simp) (by simp) (by simp)) (by simp) (by simp) (by simp) (by simp)) (by simp) (by simp))
  cases hd : (lateCfg.world.dispatch vanOps lateCfg.disp (rm.records.zipIdx.map fun p => (p.1, (fun _ => t0) p.2)) (fun _ => after vanOps exCfg [])) with
  | mk st po =>
  cases po with
  | some p =>
    have := (C100_no_panic disc1_join ((fsys_run (by decide) (dsys_f t3)).snoc (.dispatchPanic (fun _ => t0) rfl rfl (.call (l := 0) rfl rfl) hd)) late0_collects).1
    cases this
  | none =>
  have t4 := t3.snoc (.other (.other (.dispatch (fun _ => t0) rfl rfl (.call (l := 0) rfl rfl) hd) (by simp) (by simp) (by simp) (by simp)) (by intro l h d hm; simp only [List.mem_singleton] at hm; cases hm; exact (show ¬ (7 : Nat) = 3 by decide)) (by simp))
  have t5 := t4.snoc (.handled (a := discCfg) (l := 0) (h := 3) (d := .record _) rfl (.other (.client rfl rfl (.call (l := 0) rfl rfl) (by simp) (by simp) (by simp [lateCfg, sysCfg, discCfg]) (by simp)) (by simp) (by simp) (by simp) (by simp)) (.inner rfl (by simp) .handle))
  have t6 := t5.snoc (.other (.other (.client rfl rfl (.again (l := 0) rfl rfl) (by simp) (by simp) (by simp) (by simp)) (by simp) (by simp) (by simp) (by simp)) (by simp) (by simp))
  refine ⟨_, _, t6, rfl, by simp, ?_, ?_, rfl, rfl, ⟨⟨rfl, rfl, rfl, rfl⟩, rfl, ?_, _, rfl, rfl⟩, rfl, rfl, by intro rs; simp, rfl, rfl⟩
  · intro o m h
    simp [discCfg] at h
    obtain ⟨rfl, rfl⟩ := h
    exact ⟨none, by simp⟩
  · intro x hx; cases hx; rfl
  · intro x hx; cases hx; rfl

/-- The hypotheses of `C108_subscribed_partial` are met, and the host comes into the store of the collector. -/
example : ∃ s evs, DSys.Run discCfg disc1 evs s ∧ s.fl.pc = .over none ∧ ∃ h' e, s.f.sys.stores 0 = after vanOps exCfg h' ∧ content vanOps exCfg h' "h1" = some e ∧
    attrOf e.record (.u32 30) = some (.str "x") := by
  obtain ⟨s, evs, hr, hsent, ho, hret, hch, hp, hcan, hs, hq, hc, hl, hop, hv⟩ := disc_example
  have hno : ∀ o m, MockEv.accepted o "sfe.c1" m ∉ discEvs ++ [.step 0, .subscribed 0] := by simp [discEvs]
  obtain ⟨h', e, g1, g2, _, g3⟩ := C108_subscribed_partial (a := discCfg) (j := 0) (c := exCfg) (hj0 := lateOps) disc0_before disc_subscribe (by decide) rfl (by decide) (by decide) hr hsent (by decide)
    (by decide) (by decide) (by decide) (by decide) (by decide)
    (fun o m h => by
      simp only [List.mem_append] at h ⊢
      obtain ⟨r, h⟩ := hret o m (h.resolve_left fun hx => hno o m (List.mem_append.2 hx))
      exact ⟨r, .inr h⟩)
    hch hp hcan hs hq (by simp only [List.mem_append, not_or]; exact ⟨by decide, ho⟩) hc hl (by decide) rfl (late_stays hop) hv late0_collects (by intro e he; cases he)
  exact ⟨s, evs, hr, hsent, h', e, g1, g2, g3 _ _ rfl⟩

/-- The one host is stored and published; its message is queued. -/
def pendSrc : Src := { mgr := { stores := exHeldStores, sendQueue := [[hostRec "h1" "x"]] }, versions := [hostRec "h1" "x"], pub := 1 }

theorem pend_src : ∃ s1 evs1, Src.Start lateCfg.mgr lateCfg.id lateCfg.tm s1 ∧ Src.Run lateCfg.mgr lateCfg.id lateCfg.tm s1 evs1 pendSrc := by
  have z : StoresHold 1 "h1" ⟨"flow/v1", "HostRecord"⟩ (some (hostRec "h1" "x")) exHeldStores := by
    intro i hi e he
    obtain rfl : i = 0 := by omega
    obtain ⟨res, h1, h2⟩ := he
    have h3 : ((after vanOps exCfg []).step vanOps (.accumulate exSrc (hostRec "h1" "x") t0)).1.list none 0 =
      .ok { entries := [{ record := hostRec "h1" "x", md := { source := exSrc, updatedAt := t0, annotations := [] }, typeMeta := ⟨"flow/v1", "HostRecord"⟩ }], cont := "" } := rfl
    have h1 := h3.symm.trans h1
    simp only [Res.ok.injEq] at h1
    subst h1
    simp only [List.mem_singleton] at h2
    subst h2
    exact ⟨hostRec_good _ _, fun _ => rfl⟩
  have r1 := Src.Run.nil (cfg := { numStores := 1 }) (id := "h1") (tm := ⟨"flow/v1", "HostRecord"⟩) (s := { mgr := { stores := fun _ => after vanOps exCfg [] } })
  have r2 := r1.snoc (.write (.storeOp 0 (.accumulate exSrc (hostRec "h1" "x") t0)) (r := hostRec "h1" "x") ⟨hostRec_good _ _, rfl, rfl⟩ rfl z)
  have r3 := r2.snoc (.publish rfl (.publish { curr := hostRec "h1" "x" } (by simp [changeQueueCap])))
  have r4 := r3.snoc (.mgr (by simp) (by simp) (.take rfl rfl))
  have r5 := r4.snoc (.mgr (by simp) (by simp) (.diff rfl rfl))
  have r6 := r5.snoc (.mgr (by simp) (by simp) (.queueUpdate rfl (by simp [Mgr.SendRoom, sendQueueCap])))
  refine ⟨_, _, ⟨⟨rfl, rfl, rfl, rfl, rfl, rfl⟩, rfl, rfl, ?_⟩, r6⟩
  intro i _ e he
  obtain ⟨res, h1, h2⟩ := he
  have h3 : (after vanOps exCfg []).list none 0 = .ok { entries := [], cont := "" } := rfl
  have h1 := h3.symm.trans h1
  simp only [Res.ok.injEq] at h1
  subst h1
  simp at h2

def first0 : DSys := { f := { sys := { src := pendSrc, mock := discMock1, cl := discClient, stores := fun _ => after vanOps exCfg [] } } }

theorem first0_join : Sys.Join lateCfg (discEvs ++ [.step 0, .subscribed 0]) discClEvs first0.f.sys :=
  ⟨pend_src, disc1_join.mock, by decide, by decide, rfl, by intro o i m; simp [discEvs], disc_cl, ⟨{ pc := .receiving }, rfl, Or.inr (Or.inl rfl)⟩, by decide, (by intro o h; cases h), rfl⟩

/-- The router after the first message. -/
def firstMock : Mock where
  topics := [("sfe.c1", 0), ("mc/sfe.c1", 1)]
  mcs := [{ receivers := [1], ver := 1 }, { receivers := [2, 0], ver := 2 }]
  rcvs := [{ addr := "mc/sfe.c1", cap := 256, sub := .done }, { addr := "sfe.c1", cap := 256, sub := .done }, { addr := "mc/sfe.c1", cap := 256, sub := .done, chan := [0] }]
  snds := [{ addr := "mc/sfe.c1" }, { addr := "sfe.c1" }]
  ops := [{ sender := 0, addr := "mc/sfe.c1", msg := 0, pc := .done none }]

/-- The first message is handled. -/
def first1 (msg : Msg) (st : Stores (GoRec GoTime)) : DSys :=
  { f := { sys := { src := lateSrc, mock := firstMock, cl := discClient, stores := st, msgs := [msg] } }, fl := { ff := { once := true, doneClosed := true, pc := .waiting } } }

/-- The message of a new host is the first one the collector gets. -/
theorem first_handled : ∃ msg st evs, DSys.Run discCfg first0 evs (first1 msg st) ∧ FlEv.timeout ∉ evs.fl ∧ FlEv.shutdown ∉ evs.fl ∧
    (∀ l h d, ClEv.call l h d ∈ evs.sys.c → l = 0) ∧ MockEv.closeReceiver 0 ∉ evs.sys.n ∧ (∀ o m, MockEv.accepted o "sfe.c1" m ∉ evs.sys.n) ∧ Lossless evs.sys.m ∧
    opsOn 0 evs.sys.m = [] ∧ RecordMsg.encode vanRegistry { records := [hostRec "h1" "x"] } = .ok msg ∧ ∃ rm, decodeMsg vanRegistry (some msg) = .ok (.record rm) := by
  have r0 : DSys.Run discCfg first0 {} first0 := .nil
  have q1 := r0.snoc (.alone (ev := .inner .registered) trivial (.inner rfl (by simp) (.register rfl)))
  have q2 := q1.snoc (.other (.other (.source (.mgr (by simp) (by simp) (.takeMsg rfl (List.cons_ne_nil _ _))) (by simp) (by simp)) (by simp) (by simp) (by simp) (by simp)) (by simp) (by simp))
  have q3 := q2.snoc (.other (.other (.send (o := 0) rfl rfl rfl (.call (i := 0) (x := { addr := "mc/sfe.c1" }) 0 none rfl) rfl) (by simp) (by simp) (by simp) (by simp)) (by simp) (by simp))
  have q4 := q3.snoc (.other (.other (.router (.startGo (o := 0) rfl rfl rfl rfl rfl) (by simp) (by simp) (by simp)) (by simp) (by simp) (by simp) (by simp)) (by simp) (by simp))
  have q5 := q4.snoc (.other (.other (.router (.get (o := 0) rfl rfl) (by simp) (by simp) (by simp)) (by simp) (by simp) (by simp) (by simp)) (by simp) (by simp))
  have q6 := q5.snoc (.other (.other (.router (.lock (o := 0) (mc := 1) rfl rfl rfl rfl (by decide)) (by simp) (by simp) (by simp)) (by simp) (by simp) (by simp) (by simp)) (by simp) (by simp))
  have q7 := q6.snoc (.other (.other (.router (.offer (o := 0) rfl rfl rfl rfl) (by simp) (by simp) (by simp)) (by simp) (by simp) (by simp) (by simp)) (by simp) (by simp))
  have q8 := q7.snoc (.other (.other (.router (.put (o := 0) rfl rfl rfl (by decide)) (by simp) (by simp) (by simp)) (by simp) (by simp) (by simp) (by simp)) (by simp) (by simp))
  have q9 := q8.snoc (.other (.other (.router (.offer (o := 0) rfl rfl rfl rfl) (by simp) (by simp) (by simp)) (by simp) (by simp) (by simp) (by simp)) (by simp) (by simp))
  have q10 := q9.snoc (.other (.other (.router (.put (o := 0) rfl rfl rfl (by decide)) (by simp) (by simp) (by simp)) (by simp) (by simp) (by simp) (by simp)) (by simp) (by simp))
  have q11 := q10.snoc (.other (.other (.sent (o := 0) rfl (.finish rfl rfl) (.mgr (by simp) (by simp) (.send rfl rfl rfl))) (by simp) (by simp) (by simp) (by simp)) (by simp) (by intro o r h; cases h))
  have q12 := q11.snoc (.other (.other (.next (m := 0) rfl rfl (.recv (r := 0) rfl rfl rfl) rfl (.deliver (l := 0) _ rfl rfl)) (by simp) (by simp) (by simp [lateCfg, sysCfg, discCfg]) (by simp)) (by simp) (by simp))
  obtain ⟨rm, hrm⟩ := (C100_no_panic first0_join (fsys_run (by decide) (dsys_f q12)) late0_collects).2 _ (by simp [deliveredTo, lateCfg, sysCfg, discCfg]; rfl)
  have q13 := q12.snoc (.other (.other (.client rfl rfl (.decoded (l := 0) rfl rfl hrm) (by simp) (by simp) (by simp) (by simp)) (by simp) (by simp) (by simp) (by simp)) (by simp) (by simp))
  have q14 := q13.snoc (.other (.other (.client rfl rfl (.fetch (l := 0) rfl rfl rfl) (by simp) (by simp) (by simp) (by simp)) (by simp) (by simp) (by simp) (by simp)) (by simp) (by simp))
  cases hd : (lateCfg.world.dispatch vanOps lateCfg.disp (rm.records.zipIdx.map fun p => (p.1, (fun _ => t0) p.2)) (fun _ => after vanOps exCfg [])) with
  | mk st po =>
  cases po with
  | some p =>
    have := (C100_no_panic first0_join ((fsys_run (by decide) (dsys_f q14)).snoc (.dispatchPanic (fun _ => t0) rfl rfl (.call (l := 0) rfl rfl) hd)) late0_collects).1
    cases this
  | none =>
  have q15 := q14.snoc (.other (.other (.dispatch (fun _ => t0) rfl rfl (.call (l := 0) rfl rfl) hd) (by simp) (by simp) (by simp) (by simp)) (by intro l h d hm; simp only [List.mem_singleton] at hm; cases hm; exact (show ¬ (7 : Nat) = 3 by decide)) (by simp))
  have q16 := q15.snoc (.handled (a := discCfg) (l := 0) (h := 3) (d := .record _) rfl (.other (.client rfl rfl (.call (l := 0) rfl rfl) (by simp) (by simp) (by simp [lateCfg, sysCfg, discCfg]) (by simp)) (by simp) (by simp) (by simp) (by simp)) (.inner rfl (by simp) .handle))
  have q17 := q16.snoc (.other (.other (.client rfl rfl (.again (l := 0) rfl rfl) (by simp) (by simp) (by simp) (by simp)) (by simp) (by simp) (by simp) (by simp)) (by simp) (by simp))
  refine ⟨_, _, _, q17, by simp, by simp, ?_, by simp, ?_, by intro rs; simp, rfl, rfl, rm, hrm⟩
  · intro l h d hm
    simp [lateCfg, sysCfg, discCfg] at hm
    omega
  · intro o m
    simp [lateCfg, sysCfg, discCfg]

/-- Then it asks for a flush. -/
theorem first_example : ∃ s evs, DSys.Run discCfg first0 evs s ∧ s.fl.pc = .over none ∧ FlEv.timeout ∉ evs.fl ∧ FlEv.shutdown ∉ evs.fl ∧ (∀ l h d, ClEv.call l h d ∈ evs.sys.c → l = 0) ∧
    MockEv.closeReceiver 0 ∉ evs.sys.n ∧ (∀ o m, MockEv.accepted o "sfe.c1" m ∈ evs.sys.n → ∃ r, MockEv.ret o r ∈ evs.sys.n) ∧
    (∀ x, s.f.sys.mock.rcvs[1]? = some x → x.chan = []) ∧ s.f.pc = .receiving ∧ s.f.sys.src.mgr.cancelled = false ∧
    s.f.sys.Still lateCfg ∧ s.f.sys.src.mgr.flushQueue = 0 ∧ s.f.sys.cl.crashed = false ∧ Lossless evs.sys.m ∧ opsOn 0 evs.sys.m = [] ∧
    s.f.sys.src.versions.getLast? = some (hostRec "h1" "x") := by
  obtain ⟨msg, st, e0, hr0, f1, f2, f3, f4, f5, f6, f7, f8, rm, hrm⟩ := first_handled
  have r0 : DSys.Run discCfg (first1 msg st) {} (first1 msg st) := .nil
  have q1 := r0.snoc (.ask rfl (.inl rfl) (.inner rfl (by simp) (.flush rfl rfl)) (.other (.router (.call (i := 1) (x := { addr := "sfe.c1" }) 77 none rfl) (by simp) (by simp [first1]) (by simp [lateCfg, sysCfg, discCfg])) (by simp) (by simp) (by simp) (by simp)))
  have q2 := q1.snoc (.other (.other (.router (.startGo (o := 1) rfl rfl rfl rfl rfl) (by simp) (by simp) (by simp)) (by simp) (by simp) (by simp) (by simp)) (by simp) (by simp))
  have q3 := q2.snoc (.other (.other (.router (.get (o := 1) rfl rfl) (by simp) (by simp) (by simp)) (by simp) (by simp) (by simp) (by simp)) (by simp) (by simp))
  have q4 := q3.snoc (.other (.other (.router (.lock (o := 1) (mc := 0) rfl rfl rfl rfl (by decide)) (by simp) (by simp) (by simp)) (by simp) (by simp) (by simp) (by simp)) (by simp) (by simp))
  have q5 := q4.snoc (.other (.other (.router (.offer (o := 1) rfl rfl rfl rfl) (by simp) (by simp) (by simp)) (by simp) (by simp) (by simp) (by simp)) (by simp) (by simp))
  have q6 := q5.snoc (.other (.other (.router (.put (o := 1) rfl rfl rfl (by decide)) (by simp) (by simp) (by simp)) (by simp) (by simp) (by simp) (by simp)) (by simp) (by simp))
  have q7 := q6.snoc (.asked (o := 1) (r := none) rfl (.inl ⟨rfl, rfl⟩) (.inner rfl (by simp) (.flushed (r := none) rfl trivial)) (.other (.router (.finish (o := 1) rfl rfl) (by simp) (by simp [first1]) (by simp)) (by simp) (by simp) (by simp) (by simp)))
  have q8 := q7.snoc (.alone (ev := .over none) trivial (.noRetry rfl rfl (.inl rfl)))
  have q9 := q8.snoc (.other (.next (m := 77) rfl (.recv (r := 1) rfl rfl rfl)) (by simp) (by simp))
  have q10 := q9.snoc (.other (.queue rfl (.mgr (by simp) (by simp) .flushReceived)) (by simp) (by simp))
  have q11 := q10.snoc (.other (.other (.source (.mgr (by simp) (by simp) (.takeFlush rfl Nat.one_pos)) (by simp) (by simp)) (by simp) (by simp) (by simp) (by simp)) (by simp) (by simp))
  have q12 := q11.snoc (.other (.other (.source (.mgr (by simp) (by simp) (.flushBegin rfl)) (by simp) (by simp)) (by simp) (by simp) (by simp) (by simp)) (by simp) (by simp))
  have q13 := q12.snoc (.other (.other (.source (.mgr (by simp) (by simp) (.page 0 rfl rfl)) (by simp) (by simp)) (by simp) (by simp) (by simp) (by simp)) (by simp) (by simp))
  have q14 := q13.snoc (.other (.other (.source (.mgr (by simp) (by simp) (.queueFlush (msg := [hostRec "h1" "x"]) rfl (show 0 < 256 by decide))) (by simp) (by simp)) (by simp) (by simp) (by simp) (by simp)) (by simp) (by simp))
  have q15 := q14.snoc (.other (.other (.source (.mgr (by simp) (by simp) (.flushEnd rfl)) (by simp) (by simp)) (by simp) (by simp) (by simp) (by simp)) (by simp) (by simp))
  have q16 := q15.snoc (.other (.other (.source (.mgr (by simp) (by simp) (.takeMsg rfl (List.cons_ne_nil _ _))) (by simp) (by simp)) (by simp) (by simp) (by simp) (by simp)) (by simp) (by simp))
  have q17 := q16.snoc (.other (.other (.send (o := 2) rfl rfl f8 (.call (i := 0) (x := { addr := "mc/sfe.c1" }) 1 none rfl) rfl) (by simp) (by simp) (by simp) (by simp)) (by simp) (by simp))
  have q18 := q17.snoc (.other (.other (.router (.startGo (o := 2) rfl rfl rfl rfl rfl) (by simp) (by simp) (by simp)) (by simp) (by simp) (by simp) (by simp)) (by simp) (by simp))
  have q19 := q18.snoc (.other (.other (.router (.get (o := 2) rfl rfl) (by simp) (by simp) (by simp)) (by simp) (by simp) (by simp) (by simp)) (by simp) (by simp))
  have q20 := q19.snoc (.other (.other (.router (.lock (o := 2) (mc := 1) rfl rfl rfl rfl (by decide)) (by simp) (by simp) (by simp)) (by simp) (by simp) (by simp) (by simp)) (by simp) (by simp))
  have q21 := q20.snoc (.other (.other (.router (.offer (o := 2) rfl rfl rfl rfl) (by simp) (by simp) (by simp)) (by simp) (by simp) (by simp) (by simp)) (by simp) (by simp))
  have q22 := q21.snoc (.other (.other (.router (.put (o := 2) rfl rfl rfl (by decide)) (by simp) (by simp) (by simp)) (by simp) (by simp) (by simp) (by simp)) (by simp) (by simp))
  have q23 := q22.snoc (.other (.other (.router (.offer (o := 2) rfl rfl rfl rfl) (by simp) (by simp) (by simp)) (by simp) (by simp) (by simp) (by simp)) (by simp) (by simp))
  have q24 := q23.snoc (.other (.other (.router (.put (o := 2) rfl rfl rfl (by decide)) (by simp) (by simp) (by simp)) (by simp) (by simp) (by simp) (by simp)) (by simp) (by simp))
  have q25 := q24.snoc (.other (.other (.sent (o := 2) rfl (.finish rfl rfl) (.mgr (by simp) (by simp) (.send rfl rfl rfl))) (by simp) (by simp) (by simp) (by simp)) (by simp) (by simp))
  have q26 := q25.snoc (.other (.other (.next (m := 1) rfl rfl (.recv (r := 0) rfl rfl rfl) rfl (.deliver (l := 0) _ rfl rfl)) (by simp) (by simp) (by simp [lateCfg, sysCfg, discCfg]) (by simp)) (by simp) (by simp))
  have q27 := q26.snoc (.other (.other (.client rfl rfl (.decoded (l := 0) rfl rfl hrm) (by simp) (by simp) (by simp) (by simp)) (by simp) (by simp) (by simp) (by simp)) (by simp) (by simp))
  have q28 := q27.snoc (.other (.other (.client rfl rfl (.fetch (l := 0) rfl rfl rfl) (by simp) (by simp) (by simp) (by simp)) (by simp) (by simp) (by simp) (by simp)) (by simp) (by simp))
  cases hd : (lateCfg.world.dispatch vanOps lateCfg.disp (rm.records.zipIdx.map fun p => (p.1, (fun _ => t0) p.2)) st) with
  | mk st' po =>
  cases po with
  | some p =>
    have := (C100_no_panic first0_join ((fsys_run (by decide) (dsys_f (dsys_trans hr0 q28))).snoc (.dispatchPanic (fun _ => t0) rfl rfl (.call (l := 0) rfl rfl) hd)) late0_collects).1
    cases this
  | none =>
  have q29 := q28.snoc (.other (.other (.dispatch (fun _ => t0) rfl rfl (.call (l := 0) rfl rfl) hd) (by simp) (by simp) (by simp) (by simp)) (by intro l h d hm; simp only [List.mem_singleton] at hm; cases hm; exact (show ¬ (7 : Nat) = 3 by decide)) (by simp))
  have q30 := q29.snoc (.handled (a := discCfg) (l := 0) (h := 3) (d := .record _) rfl (.other (.client rfl rfl (.call (l := 0) rfl rfl) (by simp) (by simp) (by simp [lateCfg, sysCfg, discCfg]) (by simp)) (by simp) (by simp) (by simp) (by simp)) (.inner rfl (by simp) .handle))
  have q31 := q30.snoc (.other (.other (.client rfl rfl (.again (l := 0) rfl rfl) (by simp) (by simp) (by simp) (by simp)) (by simp) (by simp) (by simp) (by simp)) (by simp) (by simp))
  refine ⟨_, _, dsys_trans hr0 q31, rfl, by simp [f1], by simp [f2], ?_, by simp [f4], ?_, ?_, rfl, rfl, ⟨⟨rfl, rfl, rfl, rfl⟩, rfl, ?_, _, rfl, rfl⟩, rfl, rfl, ?_, ?_, rfl⟩
  · intro l h d hm
    simp [lateCfg, sysCfg, discCfg] at hm
    rcases hm with hm | hm
    · exact f3 l h d hm
    · omega
  · intro o m h
    simp [discCfg, f5] at h
    obtain ⟨rfl, rfl⟩ := h
    exact ⟨none, by simp⟩
  · intro x hx; cases hx; rfl
  · intro x hx; cases hx; rfl
  · intro rs
    have := f6 rs
    simpa using this
  · simpa [opsOn] using f7

/-- The hypotheses of `C108_first_partial` are met. -/
example : ∃ s evs, DSys.Run discCfg first0 evs s ∧ s.fl.pc = .over none ∧ ∃ h' e, s.f.sys.stores 0 = after vanOps exCfg h' ∧ content vanOps exCfg h' "h1" = some e ∧
    attrOf e.record (.u32 30) = some (.str "x") := by
  obtain ⟨s, evs, hr, hsent, ht, hsh, honly, ho, hret, hch, hp, hcan, hs, hq, hc, hl, hop, hv⟩ := first_example
  have hno : ∀ o m, MockEv.accepted o "sfe.c1" m ∉ discEvs ++ [.step 0, .subscribed 0] := by simp [discEvs]
  obtain ⟨h', e, g1, g2, _, g3⟩ := C108_first_partial (a := discCfg) (s0 := first0) (n0 := discEvs ++ [MockEv.step 0, MockEv.subscribed 0]) (c0 := discClEvs) (j := 0) (c := exCfg) (hj0 := lateOps) (join_before first0_join) rfl rfl hr hsent ht hsh
    (fun l h d hm _ => honly l h d hm) (List.mem_append_left _ (by decide)) (by decide) (by decide) (by decide) (by decide) (by decide)
    (fun o m h => by
      rw [List.mem_append] at h
      obtain ⟨r, h⟩ := hret o m (h.resolve_left (hno o m))
      exact ⟨r, List.mem_append_right _ h⟩)
    hch hp hcan hs hq (by rw [List.mem_append, not_or]; exact ⟨by decide, ho⟩) hc hl (by decide) rfl (late_stays hop) hv late0_collects (by intro e he; cases he)
  exact ⟨s, evs, hr, hsent, h', e, g1, g2, g3 _ _ rfl⟩

end Verif.Props
