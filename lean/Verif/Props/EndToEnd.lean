import Verif.Spec.EndToEnd
import Verif.Props.Pipeline
import Verif.Props.Mock
import Verif.Props.Client

/-! # C100: from a source through the router to the stores of a collector -/
namespace Verif.Props
open Verif Verif.Model Verif.Spec Verif.Proofs

/-- What a step of the router does to the calls of Send. -/
structure OpsStep (ev : MockEv) (s s' : Mock) : Prop where
  back : ∀ (o : Nat) (op' : MSend), s'.ops[o]? = some op' →
    (∃ op, s.ops[o]? = some op ∧ op'.addr = op.addr ∧ op'.msg = op.msg ∧ ((∃ r, op.pc = .done r) → op'.pc = op.pc) ∧
      ((∃ r, op'.pc = .done r) → (∃ r, op.pc = .done r) ∨ ∃ r, ev = .ret o r)) ∨
    (∃ i, ev = .call o i op'.addr op'.msg ∧ op'.pc = .start ∧ s.ops[o]? = none)
  keep : ∀ (o : Nat) (op : MSend), s.ops[o]? = some op → ∃ op', s'.ops[o]? = some op' ∧ op'.addr = op.addr ∧ op'.msg = op.msg
  ret : ∀ o r, ev = .ret o r → ∃ op', s'.ops[o]? = some op' ∧ op'.pc = .done r
  acc : ∀ o a m, ev = .accepted o a m → ∃ op, s.ops[o]? = some op ∧ op.addr = a ∧ op.msg = m ∧ ∀ r, op.pc ≠ .done r
  call : ∀ o i a m, ev = .call o i a m → ∃ op', s'.ops[o]? = some op' ∧ op'.addr = a ∧ op'.msg = m ∧ op'.pc = .start

theorem opsStep_same {ev : MockEv} {s s' : Mock} (h : s'.ops = s.ops) (h1 : ∀ o r, ev ≠ .ret o r) (h2 : ∀ o a m, ev ≠ .accepted o a m) (h3 : ∀ o i a m, ev ≠ .call o i a m) :
    OpsStep ev s s' := by
  refine ⟨?_, ?_, fun o r e => absurd e (h1 o r), fun o a m e => absurd e (h2 o a m), fun o i a m e => absurd e (h3 o i a m)⟩
  · intro o op' ho
    rw [h] at ho
    exact .inl ⟨op', ho, rfl, rfl, fun _ => rfl, fun h => .inl h⟩
  · intro o op ho
    exact ⟨op, by rw [h]; exact ho, rfl, rfl⟩

theorem opsStep_setOp {ev : MockEv} {s s1 : Mock} {o : Nat} {op : MSend} {pc : MSendPC} (h : s1.ops = s.ops) (ho : s.ops[o]? = some op) (hn : ∀ r, op.pc ≠ .done r)
    (h1 : ∀ o' r, ev = .ret o' r → o' = o ∧ pc = .done r) (h1' : ∀ r, pc = .done r → ev = .ret o r) (h2 : ∀ o' a m, ev = .accepted o' a m → o' = o ∧ a = op.addr ∧ m = op.msg)
    (h3 : ∀ o i a m, ev ≠ .call o i a m) : OpsStep ev s (s1.setOp o pc) := by
  refine ⟨?_, ?_, ?_, ?_, fun o i a m e => absurd e (h3 o i a m)⟩
  · intro o' op' ho'
    simp only [Mock.setOp, modify_some, h] at ho'
    obtain ⟨y, hy, rfl⟩ := ho'
    refine .inl ⟨y, hy, ?_⟩
    by_cases e : o = o'
    · subst e
      rw [ho] at hy
      obtain rfl := Option.some.inj hy
      simp only [if_true]
      exact ⟨trivial, trivial, fun ⟨r, hr⟩ => absurd hr (hn r), fun ⟨r, hr⟩ => .inr ⟨r, h1' r hr⟩⟩
    · simp only [e, if_false]
      exact ⟨trivial, trivial, fun _ => trivial, fun h => .inl h⟩
  · intro o' y hy
    refine ⟨_, by simp only [Mock.setOp, modify_some, h]; exact ⟨y, hy, rfl⟩, ?_, ?_⟩ <;> split <;> rfl
  · intro o' r e
    obtain ⟨rfl, rfl⟩ := h1 o' r e
    exact ⟨_, by simp only [Mock.setOp, modify_some, h]; exact ⟨op, ho, rfl⟩, by simp⟩
  · intro o' a m e
    obtain ⟨rfl, rfl, rfl⟩ := h2 o' a m e
    exact ⟨op, ho, rfl, rfl, hn⟩

theorem ops_step {ev : MockEv} {s s' : Mock} (hs : Mock.Step s ev s') : OpsStep ev s s' := by
  cases hs with
  | newReceiver | recv | nextClosed | closeReceiver | newSender | closeSender => exact opsStep_same rfl (by simp) (by simp) (by simp)
  | subscribe => exact opsStep_same rfl (by simp) (by simp) (by simp)
  | subGet => exact opsStep_same (by simp [Mock.setRcv, get_ops]) (by simp) (by simp) (by simp)
  | @call i x m ctx hx =>
    refine ⟨?_, ?_, by simp, by simp, ?_⟩
    · intro o op' ho
      rw [snoc_some] at ho
      rcases ho with ho | ⟨rfl, rfl⟩
      · exact .inl ⟨op', ho, rfl, rfl, fun _ => rfl, fun h => .inl h⟩
      · exact .inr ⟨i, rfl, rfl, by simp⟩
    · intro o op ho
      exact ⟨op, by rw [snoc_some]; exact .inl ho, rfl, rfl⟩
    · intro o i' a m' e
      cases e
      exact ⟨_, by rw [snoc_some]; exact .inr ⟨rfl, rfl⟩, rfl, rfl, rfl⟩
  | @cancelOp op o e he ho hc =>
    refine ⟨?_, ?_, by simp, by simp, by simp⟩
    · intro o' op' ho'
      rw [modify_some] at ho'
      obtain ⟨y, hy, rfl⟩ := ho'
      refine .inl ⟨y, hy, ?_⟩
      split
      · exact ⟨rfl, rfl, fun _ => rfl, fun h => .inl h⟩
      · exact ⟨rfl, rfl, fun _ => rfl, fun h => .inl h⟩
    · intro o' y hy
      refine ⟨_, by rw [modify_some]; exact ⟨y, hy, rfl⟩, ?_, ?_⟩ <;> split <;> rfl
  | startClosed ho hp | startCtx ho hp | parkCtx ho hp => exact opsStep_setOp rfl ho (by simp [hp]) (by simp) (by simp) (by simp) (by simp)
  | startGo ho hp | lockEmpty ho hp | wake ho hp | skip ho hp | offer ho hp => exact opsStep_setOp rfl ho (by simp [hp]) (by simp) (by simp) (by simp) (by simp)
  | get ho hp => exact opsStep_setOp get_ops ho (by simp [hp]) (by simp) (by simp) (by simp) (by simp)
  | lock ho hp => exact opsStep_setOp rfl ho (by simp [hp]) (by simp) (by simp) (by simp) (by simp)
  | put ho hp => exact opsStep_setOp rfl ho (by simp [hp]) (by simp) (by simp) (by simp) (by simp)
  | finish ho hp => exact opsStep_setOp rfl ho (by simp [hp]) (by simp) (by simp) (by simp) (by simp)

/-! ## The three parts of a run -/

theorem sys_src {k : SysCfg} {s s' : Sys} {evs : SysEv} (h : Sys.Run k s evs s') : Src.Run k.mgr k.id k.tm s.src evs.m s'.src := by
  induction h with
  | nil => exact .nil
  | snoc _ hs ih =>
    cases hs with
    | source h1 => exact ih.snoc h1
    | sent _ _ h1 => exact ih.snoc h1
    | sendFailed _ _ h1 => exact ih.snoc h1
    | _ => simpa using ih

theorem sys_mock {k : SysCfg} {s s' : Sys} {evs : SysEv} (h : Sys.Run k s evs s') : Mock.Run s.mock evs.n s'.mock := by
  induction h with
  | nil => exact .nil
  | snoc _ hs ih =>
    cases hs with
    | send _ _ _ h1 => exact ih.snoc h1
    | sent _ h1 => exact ih.snoc h1
    | sendFailed _ h1 => exact ih.snoc h1
    | router h1 => exact ih.snoc h1
    | next _ _ h1 => exact ih.snoc h1
    | _ => simpa using ih

theorem client_trans {reg : Registry} {a b c : Client} {e1 e2 : List ClEv} (h1 : Client.Run reg a e1 b) (h2 : Client.Run reg b e2 c) : Client.Run reg a (e1 ++ e2) c := by
  induction h2 with
  | nil => simpa using h1
  | snoc _ hc hs ih => rw [← List.append_assoc]; exact ih.snoc hc hs

theorem sys_client {k : SysCfg} {s s' : Sys} {evs : SysEv} (h : Sys.Run k s evs s') : Client.Run vanRegistry s.cl evs.c s'.cl := by
  induction h with
  | nil => exact .nil
  | snoc _ hs ih =>
    cases hs with
    | next hc _ _ _ h1 => exact ih.snoc hc h1
    | client hc _ h1 => exact ih.snoc hc h1
    | dispatch _ hc _ h1 => exact ih.snoc hc h1
    | dispatchPanic _ hc _ h1 => exact ih.snoc hc h1
    | _ => simpa using ih

/-! ## The way of the messages -/

theorem sentMsgs_append (a b : List MgrEv) : sentMsgs (a ++ b) = sentMsgs a ++ sentMsgs b := List.filterMap_append

theorem deliveredTo_append (l : Nat) (a b : List ClEv) : deliveredTo l (a ++ b) = deliveredTo l a ++ deliveredTo l b := List.filterMap_append

theorem sentAfter_suffix (r : Nat) (a : String) (evs : List MockEv) : sentAfter r a evs <:+ sentTo a evs := by
  induction evs with
  | nil => exact List.suffix_refl _
  | cons e t ih =>
    cases e <;> simp only [sentAfter, sentTo] <;> try exact ih
    · split
      · exact List.suffix_refl _
      · exact ih
    · split
      · exact ih.trans (List.suffix_cons _ _)
      · exact ih

theorem sentTo_mem {a : String} {m : Nat} {evs : List MockEv} (h : m ∈ sentTo a evs) : ∃ o, MockEv.accepted o a m ∈ evs := by
  induction evs with
  | nil => cases h
  | cons e t ih =>
    have keep : m ∈ sentTo a t → ∃ o, MockEv.accepted o a m ∈ e :: t := fun h => (ih h).imp fun o ho => List.mem_cons_of_mem _ ho
    cases e <;> simp only [sentTo] at h <;> try exact keep h
    rename_i o a' m'
    split at h
    · rename_i ea
      rcases List.mem_cons.1 h with rfl | h
      · exact ⟨o, by rw [ea]; exact List.mem_cons_self⟩
      · exact keep h
    · exact keep h

theorem lookup_stable {α : Type} {t u : List α} {l : List Nat} {xs : List α} (h : l.map (t[·]?) = xs.map some) : l.map ((t ++ u)[·]?) = xs.map some := by
  rw [← h]
  refine List.map_congr_left fun i hi => ?_
  have : t[i]? ∈ xs.map some := by rw [← h]; exact List.mem_map_of_mem hi
  obtain ⟨x, _, hx⟩ := List.mem_map.1 this
  exact List.getElem?_append_left (List.getElem?_eq_some_iff.1 hx.symm).1

/-- The message of a Send that is not over, once it is sent. -/
def inFlight (n : List MockEv) (s : Sys) : List (Option Msg) :=
  match s.sending with
  | none => []
  | some o => if n.countP (isAccepted o) = 0 then [] else [(s.mock.ops[o]?).bind fun op => s.msgs[op.msg]?]

structure WayInv (k : SysCfg) (n0 : List MockEv) (evs : SysEv) (s : Sys) : Prop where
  table : (sentTo k.addr evs.n).map (s.msgs[·]?) = (sentMsgs evs.m).map some ++ inFlight (n0 ++ evs.n) s
  current : ∀ o, s.sending = some o → ∃ op records rest msg, s.mock.ops[o]? = some op ∧ op.addr = k.addr ∧ s.src.mgr.sendQueue = records :: rest ∧
    RecordMsg.encode vanRegistry { records := records } = .ok msg ∧ s.msgs[op.msg]? = some msg
  others : ∀ (o : Nat) (op : MSend), s.mock.ops[o]? = some op → op.addr = k.addr → s.sending ≠ some o → ∃ r, op.pc = .done r
  recv : (received k.rcv (n0 ++ evs.n)).map (s.msgs[·]?) = (deliveredTo k.lst evs.c).map some

theorem head_kept {cfg : MgrConfig} {m m' : Mgr} {ev : MgrEv} {r : List (GoRec GoTime)} {rest : List (List (GoRec GoTime))} {msg : Msg} (hs : Mgr.Step cfg m ev m')
    (hq : m.sendQueue = r :: rest) (he : RecordMsg.encode vanRegistry { records := r } = .ok msg) (h1 : ∀ rs m, ev ≠ .sent rs m) (h2 : ∀ rs, ev ≠ .sendFailed rs) :
    ∃ rest', m'.sendQueue = r :: rest' := by
  cases hs with
  | send => exact absurd rfl (h1 _ _)
  | sendFail => exact absurd rfl (h2 _)
  | skip h3 h4 => rw [hq] at h3; cases h3; rw [he] at h4; cases h4
  | sendPanic h3 h4 => rw [hq] at h3; cases h3; rw [he] at h4; cases h4
  | queueUpdate | queueFlush => simp [hq]
  | _ => exact ⟨rest, hq⟩

theorem src_head_kept {cfg : MgrConfig} {id : String} {tm : TypeMeta} {a b : Src} {ev : Option MgrEv} {r : List (GoRec GoTime)} {rest : List (List (GoRec GoTime))} {msg : Msg}
    (hs : Src.Step cfg id tm a ev b) (hq : a.mgr.sendQueue = r :: rest) (he : RecordMsg.encode vanRegistry { records := r } = .ok msg)
    (h1 : ∀ rs m, ev ≠ some (.sent rs m)) (h2 : ∀ rs, ev ≠ some (.sendFailed rs)) : ∃ rest', b.mgr.sendQueue = r :: rest' := by
  cases hs with
  | mint => exact ⟨rest, hq⟩
  | write h | storeOther h => exact head_kept h hq he (by simp) (by simp)
  | publish _ h | publishOther _ _ h => exact head_kept h hq he (by simp) (by simp)
  | mgr _ _ h => exact head_kept h hq he (fun rs m e => h1 rs m (by rw [e])) (fun rs e => h2 rs (by rw [e]))

theorem src_sent {cfg : MgrConfig} {id : String} {tm : TypeMeta} {a b : Src} {rs : List (GoRec GoTime)} {msg : Msg} (hs : Src.Step cfg id tm a (some (.sent rs msg)) b) :
    ∃ rest, a.mgr.sendQueue = rs :: rest ∧ RecordMsg.encode vanRegistry { records := rs } = .ok msg := by
  cases hs with
  | mgr _ _ h => cases h with | send h1 h2 => exact ⟨_, h1, h2⟩

theorem mock_call_new {s s' : Mock} {o i m : Nat} {a : String} (h : Mock.Step s (.call o i a m) s') : s.ops[o]? = none := by
  cases h; simp

theorem ret_done {s : Mock} {n : List MockEv} (h : Mock.Run {} n s) {o : Nat} {r : Option GoErr} (hr : MockEv.ret o r ∈ n) : ∃ op, s.ops[o]? = some op ∧ op.pc = .done r := by
  induction h with
  | nil => cases hr
  | @snoc s s' n ev h hs ih =>
    have hO := ops_step hs
    rcases List.mem_append.1 hr with hr | hr
    · obtain ⟨op, h1, h2⟩ := ih hr
      obtain ⟨op', h3, _⟩ := hO.keep o op h1
      rcases hO.back o op' h3 with ⟨y, g1, _, _, g4, _⟩ | ⟨i, _, _, g⟩
      · rw [h1] at g1
        obtain rfl := Option.some.inj g1
        exact ⟨op', h3, (g4 ⟨_, h2⟩).trans h2⟩
      · rw [h1] at g; cases g
    · exact hO.ret o r (List.mem_singleton.1 hr).symm

theorem start_join {k : SysCfg} {n0 : List MockEv} {c0 : List ClEv} {s : Sys} (h : Sys.Start k n0 c0 s) : Sys.Join k n0 c0 s := by
  have h1 : sentTo k.addr n0 = [] := by
    rw [List.eq_nil_iff_forall_not_mem]
    intro m hm
    obtain ⟨o, ho⟩ := sentTo_mem hm
    obtain ⟨i, hi⟩ := (C62_sent h.mock o).2.1 _ _ ho
    exact h.unsent o i m hi
  have b := sentAfter_suffix k.rcv k.addr n0
  rw [h1, List.suffix_nil] at b
  exact ⟨⟨_, _, h.src, .nil⟩, h.mock, h.receiver, h.subscribed, b, fun o i m hc => absurd hc (h.unsent o i m), h.cl, h.listener, h.registered,
    by simp [h.sending], h.ended⟩

theorem src_trans {cfg : MgrConfig} {id : String} {tm : TypeMeta} {a b c : Src} {e1 e2 : List MgrEv} (h1 : Src.Run cfg id tm a e1 b) (h2 : Src.Run cfg id tm b e2 c) :
    Src.Run cfg id tm a (e1 ++ e2) c := by
  induction h2 with
  | nil => simpa using h1
  | snoc _ hs ih => rw [← List.append_assoc]; exact ih.snoc hs

theorem way_start {k : SysCfg} {n0 : List MockEv} {c0 : List ClEv} {s : Sys} (h : Sys.Join k n0 c0 s) : WayInv k n0 {} s := by
  have hC := callInv_run h.mock
  have h2 : received k.rcv n0 = [] := by
    have a := C62_order h.mock h.receiver
    rw [h.unsent] at a
    exact List.prefix_nil.1 a
  refine ⟨?_, ?_, ?_, ?_⟩
  · simp only [sentTo, sentMsgs, List.map_nil, List.filterMap_nil, List.nil_append, List.append_nil, inFlight]
    split
    · rfl
    · rename_i o ho
      rw [if_pos]
      rw [List.countP_eq_zero]
      intro e he hacc
      cases e with
      | accepted o' a m =>
        simp only [isAccepted, beq_iff_eq] at hacc
        subst hacc
        exact (h.sending _ ho).2 a m he
      | _ => cases hacc
  · intro o ho
    obtain ⟨op, records, rest, msg, g1, g2, _, g4, g5, g6⟩ := (h.sending o ho).1.call
    exact ⟨op, records, rest, msg, g1, g2, g4, g5, g6⟩
  · intro o op ho ha hne
    have := hC.call o op ho
    rw [ha] at this
    obtain ⟨r, hr⟩ := h.returned _ _ _ this hne
    obtain ⟨op', h3, h4⟩ := ret_done h.mock hr
    rw [ho] at h3
    obtain rfl := Option.some.inj h3
    exact ⟨r, h4⟩
  · simp [h2, deliveredTo]

theorem isAccepted_append {o : Nat} {n : List MockEv} {ev : MockEv} (h : ∀ a m, ev ≠ .accepted o a m) : (n ++ [ev]).countP (isAccepted o) = n.countP (isAccepted o) := by
  have : isAccepted o ev = false := by
    cases ev with
    | accepted o' a m =>
      simp only [isAccepted, beq_eq_false_iff_ne, ne_eq]
      rintro rfl
      exact h a m rfl
    | _ => rfl
  simp [this]

theorem sentTo_snoc {a : String} {n : List MockEv} {ev : MockEv} (h : ∀ o m, ev ≠ .accepted o a m) : sentTo a (n ++ [ev]) = sentTo a n := by
  have : sentTo a [ev] = [] := by
    cases ev with
    | accepted o' a' m =>
      simp only [sentTo]
      rw [if_neg]
      rintro rfl
      exact h o' m rfl
    | _ => rfl
  rw [sentTo_append, this, List.append_nil]

theorem received_snoc {r : Nat} {n : List MockEv} {ev : MockEv} (h : ∀ m, ev ≠ .recv r m) : received r (n ++ [ev]) = received r n := by
  have : received r [ev] = [] := by
    cases ev with
    | recv r' m =>
      simp only [received]
      rw [if_neg]
      rintro rfl
      exact h m rfl
    | _ => rfl
  rw [received_append, this, List.append_nil]

theorem inFlight_eq {n n' : List MockEv} {s s' : Sys} (h1 : s'.sending = s.sending) (h2 : s'.mock.ops = s.mock.ops) (h3 : s'.msgs = s.msgs)
    (h4 : ∀ o, s.sending = some o → n'.countP (isAccepted o) = n.countP (isAccepted o)) : inFlight n' s' = inFlight n s := by
  unfold inFlight
  rw [h1, h2, h3]
  split
  · rfl
  · rename_i o ho
    rw [h4 o ho]

theorem way_step {k : SysCfg} {n0 : List MockEv} {c0 : List ClEv} {s0 s s' : Sys} {evs ev : SysEv} (h0 : Sys.Join k n0 c0 s0) (hr : Sys.Run k s0 evs s) (h : WayInv k n0 evs s)
    (hs : Sys.Step k s ev s') : WayInv k n0 { m := evs.m ++ ev.m, n := evs.n ++ ev.n, c := evs.c ++ ev.c } s' := by
  have hm : Mock.Run {} (n0 ++ evs.n) s.mock := mock_trans h0.mock (sys_mock hr)
  cases hs with
  | @source ev src h1 h2 h3 =>
    refine ⟨?_, ?_, h.others, by simpa using h.recv⟩
    · have : sentMsgs (evs.m ++ ev.toList) = sentMsgs evs.m := by
        rw [sentMsgs_append]
        cases ev with
        | none => simp [sentMsgs]
        | some e =>
          cases e with
          | sent rs m => exact absurd rfl (h2 rs m)
          | _ => simp [sentMsgs]
      simp only [List.append_nil, this]
      exact h.table
    · intro o ho
      obtain ⟨op, records, rest, msg, g1, g2, g3, g4, g5⟩ := h.current o ho
      obtain ⟨rest', g⟩ := src_head_kept h1 g3 g4 h2 h3
      exact ⟨op, records, rest', msg, g1, g2, g, g4, g5⟩
  | @send records rest msg mock o h1 h2 h3 h4 =>
    have hO := ops_step h4
    obtain ⟨op', a1, a2, a3, a4⟩ := hO.call _ _ _ _ rfl
    have hnew : s.mock.ops[o]? = none := mock_call_new h4
    have hcount : (n0 ++ evs.n).countP (isAccepted o) = 0 := by
      rw [List.countP_eq_zero]
      intro e he hacc
      cases e with
      | accepted o' a m =>
        have : o' = o := by simpa [isAccepted] using hacc
        subst this
        obtain ⟨op, q1, _⟩ := (callInv_run hm).acc _ _ _ he
        rw [hnew] at q1; cases q1
      | _ => cases hacc
    have htab := h.table
    simp only [inFlight, h1, List.append_nil] at htab
    refine ⟨?_, ?_, ?_, ?_⟩
    · simp only [← List.append_assoc, List.append_nil]
      rw [sentTo_snoc (by simp)]
      simp only [inFlight]
      rw [isAccepted_append (by simp), if_pos hcount, List.append_nil]
      exact lookup_stable htab
    · intro o' ho'
      cases ho'
      refine ⟨op', records, rest, msg, a1, a2, h2, h3, ?_⟩
      rw [a3]; simp
    · intro o' y hy ha hne
      rcases hO.back o' y hy with ⟨op, b1, b2, _, b4, _⟩ | ⟨i, b, _, _⟩
      · have := h.others o' op b1 (by rw [← b2]; exact ha) (by rw [h1]; simp)
        rw [b4 this]; exact this
      · rw [MockEv.call.injEq] at b
        exact absurd (by rw [b.1]) hne
    · simp only [← List.append_assoc, List.append_nil]
      rw [received_snoc (by simp)]
      exact lookup_stable h.recv
  | @sent records msg mock src o h1 h2 h3 =>
    have hO := ops_step h2
    obtain ⟨op, rs, rest, msg', c1, c2, c3, c4, c5⟩ := h.current o h1
    obtain ⟨rest', d1, d2⟩ := src_sent h3
    rw [c3] at d1; cases d1
    rw [c4] at d2; cases d2
    have hone := (C62_sent (hm.snoc h2) o).2.2.1 (by simp)
    rw [isAccepted_append (by simp)] at hone
    have htab := h.table
    simp only [inFlight, h1, hone, c1, Option.bind_some, c5] at htab
    refine ⟨?_, by simp, ?_, ?_⟩
    · simp only [← List.append_assoc]
      rw [sentTo_snoc (by simp), htab, sentMsgs_append]
      simp [inFlight, sentMsgs]
    · intro o' y hy ha _
      rcases hO.back o' y hy with ⟨op, b1, b2, _, b4, _⟩ | ⟨i, b, _, _⟩
      · by_cases e : o' = o
        · subst e
          obtain ⟨op', e1, e2⟩ := hO.ret _ _ rfl
          rw [hy] at e1
          obtain rfl := Option.some.inj e1
          exact ⟨_, e2⟩
        · have := h.others o' op b1 (by rw [← b2]; exact ha) (by rw [h1]; simpa using Ne.symm e)
          rw [b4 this]; exact this
      · cases b
    · simp only [← List.append_assoc, List.append_nil]
      rw [received_snoc (by simp)]
      exact h.recv
  | @sendFailed records mock src o e h1 h2 h3 =>
    have hO := ops_step h2
    have hone := (C62_sent (hm.snoc h2) o).2.2.2 e (by simp)
    rw [isAccepted_append (by simp)] at hone
    have htab := h.table
    simp only [inFlight, h1, hone, if_true, List.append_nil] at htab
    refine ⟨?_, by simp, ?_, ?_⟩
    · simp only [← List.append_assoc]
      rw [sentTo_snoc (by simp), htab, sentMsgs_append]
      simp [inFlight, sentMsgs]
    · intro o' y hy ha _
      rcases hO.back o' y hy with ⟨op, b1, b2, _, b4, _⟩ | ⟨i, b, _, _⟩
      · by_cases e : o' = o
        · subst e
          obtain ⟨op', e1, e2⟩ := hO.ret _ _ rfl
          rw [hy] at e1
          obtain rfl := Option.some.inj e1
          exact ⟨_, e2⟩
        · have := h.others o' op b1 (by rw [← b2]; exact ha) (by rw [h1]; simpa using Ne.symm e)
          rw [b4 this]; exact this
      · cases b
    · simp only [← List.append_assoc, List.append_nil]
      rw [received_snoc (by simp)]
      exact h.recv
  | @router ev mock h1 h2 h3 h4 =>
    have hO := ops_step h1
    refine ⟨?_, ?_, ?_, ?_⟩
    · simp only [← List.append_assoc, List.append_nil]
      by_cases hacc : ∃ o m, ev = .accepted o k.addr m
      · obtain ⟨o, m, rfl⟩ := hacc
        obtain ⟨op, a1, a2, a3, a4⟩ := hO.acc _ _ _ rfl
        have hsend : s.sending = some o := by
          by_contra hne
          obtain ⟨r, hr⟩ := h.others o op a1 a2 hne
          exact a4 r hr
        have hle := (C62_sent (hm.snoc h1) o).1
        have hcount : (n0 ++ evs.n ++ [MockEv.accepted o k.addr m]).countP (isAccepted o) = (n0 ++ evs.n).countP (isAccepted o) + 1 := by
          simp [isAccepted]; omega
        have hz : (n0 ++ evs.n).countP (isAccepted o) = 0 := by omega
        have htab := h.table
        simp only [inFlight, hsend, hz, if_true, List.append_nil] at htab
        obtain ⟨op', k1, k2, k3⟩ := hO.keep o op a1
        rw [sentTo_append, List.map_append, htab]
        simp only [inFlight, hsend]
        rw [hcount, if_neg (by omega), k1]
        simp [sentTo, k3, a3]
      · have hno : ∀ o m, ev ≠ .accepted o k.addr m := fun o m e => hacc ⟨o, m, e⟩
        rw [sentTo_snoc hno, h.table]
        congr 1
        unfold inFlight
        simp only
        split
        · rfl
        · rename_i o ho
          obtain ⟨op, _, _, _, c1, c2, _⟩ := h.current o ho
          rw [isAccepted_append]
          · obtain ⟨op', k1, k2, k3⟩ := hO.keep o op c1
            rw [c1, k1]; simp [k3]
          · rintro a m rfl
            obtain ⟨op', a1, a2, _⟩ := hO.acc _ _ _ rfl
            rw [c1] at a1
            obtain rfl := Option.some.inj a1
            exact hno o m (by rw [← a2, c2])
    · intro o ho
      obtain ⟨op, records, rest, msg, g1, g2, g3, g4, g5⟩ := h.current o ho
      obtain ⟨op', k1, k2, k3⟩ := hO.keep o op g1
      exact ⟨op', records, rest, msg, k1, by rw [k2]; exact g2, g3, g4, by rw [k3]; exact g5⟩
    · intro o y hy ha hne
      rcases hO.back o y hy with ⟨op, b1, b2, _, b4, _⟩ | ⟨i, b, _, _⟩
      · have := h.others o op b1 (by rw [← b2]; exact ha) hne
        rw [b4 this]; exact this
      · rw [ha] at b; exact absurd b (h4 _ _ _)
    · simp only [← List.append_assoc, List.append_nil]
      rw [received_snoc h2]
      exact h.recv
  | @next m msg mock cl h1 h2 h3 h4 h5 =>
    have hops : mock.ops = s.mock.ops := by cases h3; rfl
    refine ⟨?_, ?_, ?_, ?_⟩
    · simp only [← List.append_assoc, List.append_nil]
      rw [sentTo_snoc (by simp), h.table]
      congr 1
      refine Eq.symm (inFlight_eq (s := s) (n := n0 ++ evs.n) rfl ?_ rfl fun o _ => isAccepted_append (by simp))
      exact hops
    · intro o ho
      obtain ⟨op, records, rest, msg, g1, g2⟩ := h.current o ho
      exact ⟨op, records, rest, msg, by simp only [hops]; exact g1, g2⟩
    · intro o op ho
      simp only [hops] at ho
      exact h.others o op ho
    · simp only [← List.append_assoc]
      rw [received_append, deliveredTo_append, List.map_append, List.map_append, h.recv]
      simp [received, deliveredTo, h4]
  | @client ev cl h1 h2 h3 h4 h5 h6 h7 =>
    refine ⟨by simpa [inFlight] using h.table, h.current, h.others, ?_⟩
    have : deliveredTo k.lst [ev] = [] := by
      cases ev with
      | delivered l m =>
        simp only [deliveredTo, List.filterMap_cons, List.filterMap_nil]
        rw [if_neg]
        rintro rfl
        exact h4 m rfl
      | _ => rfl
    simp only [deliveredTo_append, this, List.append_nil]
    exact h.recv
  | dispatch | dispatchPanic =>
    refine ⟨by simpa [inFlight] using h.table, h.current, h.others, ?_⟩
    simp only [deliveredTo_append, List.append_nil]
    simpa [deliveredTo] using h.recv

theorem way_run {k : SysCfg} {n0 : List MockEv} {c0 : List ClEv} {s0 s : Sys} {evs : SysEv} (h0 : Sys.Join k n0 c0 s0) (hr : Sys.Run k s0 evs s) : WayInv k n0 evs s := by
  induction hr with
  | nil => exact way_start h0
  | snoc hr hs ih => exact way_step h0 hr ih hs

/-! ## The collector -/

/-- How listener `l` moves when the client makes a step. -/
inductive LMove (reg : Registry) (s : Client) (l : Nat) : ClEv → LPC → LPC → Prop where
  | stay {ev : ClEv} {pc : LPC} : (∀ m, ev ≠ .delivered l m) → (∀ h d, ev ≠ .call l h d) → LMove reg s l ev pc pc
  | start {ev : ClEv} : (∀ h d, ev ≠ .call l h d) → LMove reg s l ev .adding .receiving
  | deliver {m : Msg} : LMove reg s l (.delivered l m) .receiving (.accepting m)
  | ended {e : GoErr} : LMove reg s l (.failed l e) .receiving .finished
  | failed {e : GoErr} {m : Msg} {pc : LPC} : LMove reg s l (.failed l e) (.accepting m) pc
  | decoded {m : Msg} {d : Decoded} : decodeMsg reg (some m) = .ok d → LMove reg s l (.accepted l m) (.accepting m) (.fetching d)
  | undecodable {m : Msg} {e : String} : decodeMsg reg (some m) = .err e → LMove reg s l (.accepted l m) (.accepting m) .receiving
  | fetch {ev : ClEv} {d : Decoded} : (∀ m, ev ≠ .delivered l m) → LMove reg s l ev (.fetching d) (.calling d (s.handlersFor d))
  | call {d : Decoded} {h : Nat} {hs : List Nat} : LMove reg s l (.call l h d) (.calling d (h :: hs)) (.calling d hs)
  | again {ev : ClEv} {d : Decoded} : (∀ m, ev ≠ .delivered l m) → LMove reg s l ev (.calling d []) .receiving

theorem lmove {reg : Registry} {s s' : Client} {ev : ClEv} (hs : Client.Step reg s ev s') (l : Nat) : LMove reg s l ev (pcOf s l) (pcOf s' l) := by
  have same : ∀ {s' : Client}, s'.listeners = s.listeners → pcOf s' l = pcOf s l := fun h => by simp [pcOf, h]
  have hat : ∀ {l' : Nat} {x : Listener} {pc : LPC} {s' : Client}, s.listeners[l']? = some x → s'.listeners = (s.at l' pc).listeners →
      (l = l' → LMove reg s l ev x.pc pc) → (l ≠ l' → (∀ m, ev ≠ .delivered l m) ∧ ∀ h d, ev ≠ .call l h d) → LMove reg s l ev (pcOf s l) (pcOf s' l) := by
    intro l' x pc s' hx hl h1 h2
    have e : pcOf s' l = pcOf (s.at l' pc) l := by simp only [pcOf, hl]
    rw [e, pcOf_at hx]
    by_cases hl' : l = l'
    · subst hl'; rw [if_pos rfl, pcOf_some hx]; exact h1 rfl
    · rw [if_neg hl']
      exact .stay (h2 hl').1 (h2 hl').2
  cases hs with
  | onRecord | onHeartbeat | close | closePanic | closeReturn => exact .stay (by simp) (by simp)
  | nextError | decodePanic => exact .stay (by simp) (by simp)
  | listen =>
    have e : pcOf { s with wg := s.wg + 1, listeners := s.listeners ++ [{}] } l = pcOf s l := by
      simp only [pcOf]
      rcases Nat.lt_trichotomy l s.listeners.length with hl | hl | hl
      · rw [List.getElem?_append_left hl]
      · subst hl; simp
      · rw [List.getElem?_eq_none (by simp; omega), List.getElem?_eq_none (by omega)]
    rw [e]; exact .stay (by simp) (by simp)
  | listenStart hx hp _ => exact hat hx rfl (fun e => by rw [hp]; exact .start (by simp)) (by simp)
  | @cancel l' x e _ hx _ =>
    have e' : pcOf { s with listeners := s.listeners.modify l' fun x => { x with ctx := some e } } l = pcOf s l := by
      simp only [pcOf, List.getElem?_modify]
      cases h' : s.listeners[l]? with
      | none => rfl
      | some y => by_cases hl : l' = l <;> simp [hl]
    rw [e']; exact .stay (by simp) (by simp)
  | deliver m hx hp => exact hat hx rfl (fun e => by rw [hp, e]; exact .deliver) (fun hl => ⟨by simp [Ne.symm hl], by simp⟩)
  | nextEnded e hx hp _ => exact hat hx rfl (fun e => by rw [hp, e]; exact .ended) (by simp)
  | acceptEnded e hx hp _ => exact hat hx rfl (fun e => by rw [hp, e]; exact .failed) (by simp)
  | acceptError e hx hp _ => exact hat hx rfl (fun e => by rw [hp, e]; exact .failed) (by simp)
  | decoded hx hp hd => exact hat hx rfl (fun e => by rw [hp, e]; exact .decoded hd) (by simp)
  | undecodable hx hp hd => exact hat hx rfl (fun e => by rw [hp, e]; exact .undecodable hd) (by simp)
  | fetch hx hp _ => exact hat hx rfl (fun e => by rw [hp]; exact .fetch (by simp)) (by simp)
  | call hx hp => exact hat hx rfl (fun e => by rw [hp, e]; exact .call) (fun hl => ⟨by simp, by simp [Ne.symm hl]⟩)
  | again hx hp => exact hat hx rfl (fun e => by rw [hp]; exact .again (by simp)) (by simp)
  | @closeLock c _ _ _ =>
    have e := pcOf_cleanup (s := s) _ rfl { s with lock := some c, doneClosed := true, closers := s.closers.set c .waiting, listeners := s.listeners.map Listener.cleanup } rfl l
    rw [e]; exact .stay (by simp) (by simp)

theorem handlers_step {reg : Registry} {s s' : Client} {ev : ClEv} {h : Nat} (hs : Client.Step reg s ev s') (hne : ev ≠ .onRecord h) :
    s'.recordHandlers.count h = s.recordHandlers.count h := by
  cases hs with
  | onRecord h' =>
    have : h' ≠ h := fun e => hne (by rw [e])
    simp [List.count_append, this]
  | _ => rfl

theorem collect_snoc (w : RegWorld) (d : Dispatcher) (clock : Nat → Nat → GoTime) (m : Msg) : ∀ (ms : List Msg) (n : Nat) (s : Stores (GoRec GoTime)),
    collect w d clock n (ms ++ [m]) s = match collect w d clock n ms s with
      | (s', none) => collect w d clock (n + ms.length) [m] s'
      | r => r
  | [], n, s => by simp [collect]
  | m' :: ms, n, s => by
    have ih := collect_snoc w d clock m ms (n + 1)
    rw [List.cons_append, collect, collect]
    rw [List.length_cons, show n + (ms.length + 1) = n + 1 + ms.length by omega]
    split
    · split
      · exact ih _
      · rfl
    · rfl
    · exact ih _

theorem collect_clock (w : RegWorld) (d : Dispatcher) {c1 c2 : Nat → Nat → GoTime} : ∀ (ms : List Msg) (n : Nat) (s : Stores (GoRec GoTime)),
    (∀ i, i < n + ms.length → c1 i = c2 i) → collect w d c1 n ms s = collect w d c2 n ms s
  | [], n, s, _ => rfl
  | m :: ms, n, s, h => by
    have ih := fun s => collect_clock w d ms (n + 1) s fun i hi => h i (by simp; omega)
    rw [collect, collect]
    rw [h n (by simp)]
    split
    · split
      · exact ih _
      · rfl
    · rfl
    · exact ih _

/-- The messages handed over of which the dispatcher has not been told yet, by the place of the listener. -/
def Pend (h : Nat) (pc : LPC) (pend : List Msg) : Prop :=
  match pc with
  | .accepting m => pend = [m]
  | .fetching d => ∃ m, pend = [m] ∧ decodeMsg vanRegistry (some m) = .ok d
  | .calling (.record rm) hs => (hs.count h = 1 ∧ ∃ m, pend = [m] ∧ decodeMsg vanRegistry (some m) = .ok (.record rm)) ∨ (hs.count h = 0 ∧ pend = [])
  | _ => pend = []

/-- Of the messages delivered, `base` and perhaps more have been handled. -/
structure CollInv (k : SysCfg) (base : List Msg) (stores0 : Stores (GoRec GoTime)) (evs : SysEv) (s : Sys) : Prop where
  handlers : s.cl.recordHandlers.count k.hnd = 1
  told : s.cl.crashed = false → s.ended = false → ∃ done pend clock, deliveredTo k.lst evs.c = done ++ pend ∧
    collect k.world k.disp clock 0 done stores0 = (s.stores, none) ∧ Pend k.hnd (pcOf s.cl k.lst) pend ∧ base <+: done

/-- A message that is not a record message makes no difference. -/
theorem collect_other {w : RegWorld} {d : Dispatcher} {clock : Nat → Nat → GoTime} {done : List Msg} {m : Msg} {s s' : Stores (GoRec GoTime)}
    (h : collect w d clock 0 done s = (s', none)) (h1 : ∀ p, decodeMsg vanRegistry (some m) ≠ .panic p) (h2 : ∀ rm, decodeMsg vanRegistry (some m) ≠ .ok (.record rm)) :
    collect w d clock 0 (done ++ [m]) s = (s', none) := by
  rw [collect_snoc, h]
  simp only [collect]

theorem coll_step {k : SysCfg} {base : List Msg} {stores0 : Stores (GoRec GoTime)} {s s' : Sys} {evs ev : SysEv} (h : CollInv k base stores0 evs s)
    (hs : Sys.Step k s ev s') : CollInv k base stores0 { m := evs.m ++ ev.m, n := evs.n ++ ev.n, c := evs.c ++ ev.c } s' := by
  cases hs with
  | source | send | sent | sendFailed | router => exact ⟨h.handlers, by simpa using h.told⟩
  | @next m msg mock cl h1 h2 h3 h4 h5 =>
    refine ⟨by rw [handlers_step h5 (by simp)]; exact h.handlers, fun _ _ => ?_⟩
    obtain ⟨done, pend, clock, g1, g2, g3, g4⟩ := h.told h1 h2
    have hm := lmove h5 k.lst
    generalize pcOf s.cl k.lst = pc at hm g3
    generalize hpc' : pcOf cl k.lst = pc' at hm
    cases hm with
    | stay a _ => exact absurd rfl (a _)
    | fetch a => exact absurd rfl (a _)
    | again a => exact absurd rfl (a _)
    | start =>
      cases h5 with
      | deliver _ hx hp => simp only [pcOf_at hx] at hpc'; simp at hpc'
    | deliver =>
      simp only [Pend] at g3
      subst g3
      refine ⟨done, [msg], clock, ?_, g2, by simp only [Pend], g4⟩
      rw [deliveredTo_append, g1]
      simp [deliveredTo]
  | @client ev cl h1 h2 h3 h4 h5 h6 h7 =>
    refine ⟨by rw [handlers_step h3 h5]; exact h.handlers, fun _ _ => ?_⟩
    obtain ⟨done, pend, clock, g1, g2, g3, g4⟩ := h.told h1 h2
    have hdel : deliveredTo k.lst (evs.c ++ [ev]) = done ++ pend := by
      rw [deliveredTo_append, g1]
      have : deliveredTo k.lst [ev] = [] := by
        cases ev with
        | delivered l m =>
          simp only [deliveredTo, List.filterMap_cons, List.filterMap_nil]
          rw [if_neg]
          rintro rfl
          exact h4 m rfl
        | _ => rfl
      rw [this, List.append_nil]
    have hm := lmove h3 k.lst
    have hacc : ∀ e m, ev = .failed k.lst e → pcOf s.cl k.lst ≠ .accepting m := by
      intro e m he hp
      unfold pcOf at hp
      cases hx : s.cl.listeners[k.lst]? with
      | none => rw [hx] at hp; cases hp
      | some x => rw [hx] at hp; exact h7 e x m he hx hp
    show ∃ done pend clock, deliveredTo k.lst (evs.c ++ [ev]) = done ++ pend ∧ collect k.world k.disp clock 0 done stores0 = (s.stores, none) ∧ Pend k.hnd (pcOf cl k.lst) pend ∧ base <+: done
    generalize pcOf s.cl k.lst = pc at hm g3 hacc
    generalize pcOf cl k.lst = pc' at hm
    cases hm with
    | stay => exact ⟨done, pend, clock, hdel, g2, g3, g4⟩
    | start | ended => exact ⟨done, pend, clock, hdel, g2, g3, g4⟩
    | deliver => exact absurd rfl (h4 _)
    | failed => exact absurd rfl (hacc _ _ rfl)
    | decoded hd => exact ⟨done, pend, clock, hdel, g2, ⟨_, g3, hd⟩, g4⟩
    | undecodable hd =>
      simp only [Pend] at g3
      subst g3
      exact ⟨_, [], clock, by rw [hdel, List.append_nil], collect_other g2 (by simp [hd]) (by simp [hd]), rfl, g4.trans (List.prefix_append _ _)⟩
    | @fetch _ d =>
      obtain ⟨m, rfl, hd⟩ := g3
      cases d with
      | record rm => exact ⟨done, [m], clock, hdel, g2, .inl ⟨h.handlers, m, rfl, hd⟩, g4⟩
      | _ => exact ⟨_, [], clock, by rw [hdel, List.append_nil], collect_other g2 (by simp [hd]) (by simp [hd]), rfl, g4.trans (List.prefix_append _ _)⟩
    | @call d hh hs =>
      cases d with
      | record rm =>
        have hne : hh ≠ k.hnd := fun e => h6 k.lst rm (by rw [e])
        refine ⟨done, pend, clock, hdel, g2, ?_, g4⟩
        simp only [Pend, List.count_cons, beq_iff_eq, hne, if_false, Nat.add_zero] at g3 ⊢
        exact g3
      | _ => exact ⟨done, pend, clock, hdel, g2, g3, g4⟩
    | @again _ d =>
      cases d with
      | record rm =>
        rcases g3 with ⟨g, _⟩ | ⟨_, g⟩
        · simp at g
        · exact ⟨done, pend, clock, hdel, g2, g, g4⟩
      | _ => exact ⟨done, pend, clock, hdel, g2, g3, g4⟩
  | @dispatch rm cl stores times h1 h2 h3 h4 =>
    refine ⟨by rw [handlers_step h3 (by simp)]; exact h.handlers, fun _ _ => ?_⟩
    obtain ⟨done, pend, clock, g1, g2, g3, g4⟩ := h.told h1 h2
    have hdel : deliveredTo k.lst (evs.c ++ [.call k.lst k.hnd (.record rm)]) = done ++ pend := by
      rw [deliveredTo_append, g1]
      simp [deliveredTo]
    have hm := lmove h3 k.lst
    show ∃ done pend clock, deliveredTo k.lst (evs.c ++ [.call k.lst k.hnd (.record rm)]) = done ++ pend ∧
      collect k.world k.disp clock 0 done stores0 = (stores, none) ∧ Pend k.hnd (pcOf cl k.lst) pend ∧ base <+: done
    have hpc' : ∃ d hs, pcOf s.cl k.lst = .calling d (k.hnd :: hs) ∧ d = .record rm ∧ pcOf cl k.lst = .calling d hs := by
      generalize hl : k.lst = l at h3
      generalize hh : k.hnd = hnd at h3
      generalize hd : Decoded.record rm = d at h3
      cases h3 with
      | call hx hp => exact ⟨_, _, by rw [pcOf_some hx, hp], rfl, by simp [pcOf_at hx]⟩
    obtain ⟨d, hs, e1, rfl, e2⟩ := hpc'
    rw [e1] at g3
    rw [e2]
    rcases g3 with ⟨g, m, rfl, hd⟩ | ⟨g, _⟩
    · simp only [List.count_cons, beq_self_eq_true, if_true, Nat.add_eq_right] at g
      refine ⟨done ++ [m], [], fun i => if i = done.length then times else clock i, by rw [hdel, List.append_nil], ?_, .inr ⟨g, rfl⟩, g4.trans (List.prefix_append _ _)⟩
      rw [collect_snoc, collect_clock (c2 := clock), g2]
      · simp only [collect, hd, Nat.zero_add, if_true]
        rw [h4]
      · intro i hi
        simp only [Nat.zero_add] at hi
        rw [if_neg (by omega)]
    · simp at g
  | @dispatchPanic rm cl stores p times h1 h2 h3 h4 => exact ⟨by rw [handlers_step h3 (by simp)]; exact h.handlers, fun _ h => by cases h⟩

theorem coll_run {k : SysCfg} {n0 : List MockEv} {c0 : List ClEv} {s0 s : Sys} {evs : SysEv} (h0 : Sys.Join k n0 c0 s0) (hr : Sys.Run k s0 evs s) :
    CollInv k [] s0.stores evs s := by
  induction hr with
  | nil =>
    refine ⟨h0.registered, fun _ _ => ⟨[], [], fun _ _ => ⟨0, 0⟩, rfl, rfl, ?_, List.nil_prefix⟩⟩
    obtain ⟨x, hx, hp⟩ := h0.listener
    rw [pcOf_some hx]
    rcases hp with hp | hp | hp <;> rw [hp] <;> rfl
  | snoc hr hs ih => exact coll_step ih hs

/-- What has been handled stays handled. -/
theorem coll_from {k : SysCfg} {base : List Msg} {stores0 : Stores (GoRec GoTime)} {s s' : Sys} {evs evs' : SysEv} (h : CollInv k base stores0 evs s) (hr : Sys.Run k s evs' s') :
    CollInv k base stores0 { m := evs.m ++ evs'.m, n := evs.n ++ evs'.n, c := evs.c ++ evs'.c } s' := by
  induction hr with
  | nil => simpa using h
  | snoc _ hs ih => simpa [List.append_assoc] using coll_step ih hs

/-! ## The theorems -/

theorem queued_append (a b : List MgrEv) : queued (a ++ b) = queued a ++ queued b := List.filterMap_append

/-- Only good records are queued. -/
theorem queued_good {cfg : MgrConfig} {id : String} {tm : TypeMeta} {evs : List MgrEv} {s s' : Src} (h : Src.Start cfg id tm s)
    (hr : Src.Run cfg id tm s evs s') : ∀ r ∈ (queued evs).flatten, GoodRecord vanRegistry r := by
  induction hr with
  | nil => simp [queued]
  | @snoc s1 s2 evs ev hr hs ih =>
    by_cases hq : queued ev.toList = []
    · rw [queued_append, hq, List.append_nil]; exact ih
    · obtain ⟨_, hdead | ⟨V1, V2, buf, hi⟩⟩ := srcOK_run allTold_kept (srcOK_start (fun k => rfl) h) (hr.snoc hs)
      · exfalso
        have hne : ∀ e : MgrEv, ev = some e → queued [e] ≠ [] := fun e he => by rw [he] at hq; exact hq
        cases hs with
        | mint => exact hq rfl
        | write | storeOther | publish | publishOther => exact hne _ rfl rfl
        | mgr _ _ hm =>
          cases hm <;> first | exact hne _ rfl rfl | (unfold Dead at hdead; simp at hdead)
      · exact hi.out

theorem sent_encoded {cfg : MgrConfig} {s s' : Mgr} {evs : List MgrEv} (h : Mgr.Run cfg s evs s') {m : Msg} (hm : m ∈ sentMsgs evs) :
    ∃ rs ∈ handled evs, RecordMsg.encode vanRegistry { records := rs } = .ok m := by
  induction h with
  | nil => simp [sentMsgs] at hm
  | @snoc s1 s2 evs ev hr hs ih =>
    have ha : ∀ a b, handled (a ++ b) = handled a ++ handled b := fun a b => List.filterMap_append
    rw [sentMsgs_append] at hm
    rcases List.mem_append.1 hm with hm | hm
    · obtain ⟨rs, h1, h2⟩ := ih hm
      exact ⟨rs, by rw [ha]; exact List.mem_append_left _ h1, h2⟩
    · cases hs with
      | @send records rest msg h1 h2 =>
        simp only [sentMsgs, List.filterMap_cons, List.filterMap_nil, List.mem_singleton] at hm
        subst hm
        exact ⟨records, by rw [ha]; simp [handled], h2⟩
      | _ => simp [sentMsgs] at hm

/-- Every message handed to the listener is the encoding of records that were queued. -/
theorem delivered_queued {k : SysCfg} {n0 : List MockEv} {c0 : List ClEv} {s0 s : Sys} {evs : SysEv} (h0 : Sys.Join k n0 c0 s0) (hr : Sys.Run k s0 evs s) {m : Msg}
    {s1 : Src} {evs1 : List MgrEv} (hs1 : Src.Start k.mgr k.id k.tm s1) (hr1 : Src.Run k.mgr k.id k.tm s1 evs1 s0.src) (hm : m ∈ deliveredTo k.lst evs.c) :
    ∃ rs ∈ queued (evs1 ++ evs.m), RecordMsg.encode vanRegistry { records := rs } = .ok m := by
  have hw := way_run h0 hr
  have hmock := mock_trans h0.mock (sys_mock hr)
  have hrs := src_trans hr1 (sys_src hr)
  have hmgr := Proofs.Src.Run.toMgr hrs
  have hq := (C37_updates_in_order hs1.1 hmgr).2.2
  have hin : some m ∈ (received k.rcv (n0 ++ evs.n)).map (s.msgs[·]?) := by rw [hw.recv]; exact List.mem_map_of_mem hm
  have hin : some m ∈ (sentTo k.addr evs.n).map (s.msgs[·]?) := by
    refine (List.map_subset _ ?_) hin
    intro x hx
    have := (C62_order hmock (List.mem_append_left _ h0.receiver)).subset hx
    rw [sentAfter_append h0.subscribed, h0.unsent] at this
    exact this
  rw [hw.table] at hin
  rcases List.mem_append.1 hin with hin | hin
  · simp only [List.mem_map, Option.some.injEq, exists_eq_right] at hin
    obtain ⟨rs, h1, h2⟩ := sent_encoded hmgr (m := m) (by rw [sentMsgs_append]; exact List.mem_append_right _ hin)
    exact ⟨rs, by rw [hq]; exact List.mem_append_left _ h1, h2⟩
  · unfold inFlight at hin
    split at hin
    · simp at hin
    · rename_i o ho
      obtain ⟨op, records, rest, msg, g1, g2, g3, g4, g5⟩ := hw.current o ho
      rw [g1] at hin
      simp only [Option.bind_some, g5] at hin
      split at hin
      · simp at hin
      · simp only [List.mem_singleton, Option.some.injEq] at hin
        subst hin
        exact ⟨records, by rw [hq, g3]; simp, g4⟩

/-- Every message handed to the listener is the encoding of good records. -/
theorem delivered_good {k : SysCfg} {n0 : List MockEv} {c0 : List ClEv} {s0 s : Sys} {evs : SysEv} (h0 : Sys.Join k n0 c0 s0) (hr : Sys.Run k s0 evs s) {m : Msg}
    (hm : m ∈ deliveredTo k.lst evs.c) : ∃ rs, (∀ r ∈ rs, GoodRecord vanRegistry r) ∧ RecordMsg.encode vanRegistry { records := rs } = .ok m := by
  obtain ⟨s1, evs1, hs1, hr1⟩ := h0.src
  obtain ⟨rs, h1, h2⟩ := delivered_queued h0 hr hs1 hr1 hm
  exact ⟨rs, fun r hr' => queued_good hs1 (src_trans hr1 (sys_src hr)) r (List.mem_flatten.2 ⟨rs, h1, hr'⟩), h2⟩

theorem pointwise_of_all {α β : Type} {R : α → β → Prop} {P : α → Prop} : ∀ {bs : List β}, (∀ b ∈ bs, ∃ a, P a ∧ R a b) → ∃ as, (∀ a ∈ as, P a) ∧ Pointwise R as bs
  | [], _ => ⟨[], by simp, trivial⟩
  | b :: bs, h => by
    obtain ⟨a, h1, h2⟩ := h b List.mem_cons_self
    obtain ⟨as, g1, g2⟩ := pointwise_of_all (R := R) (P := P) fun b hb => h b (List.mem_cons_of_mem _ hb)
    exact ⟨a :: as, by simpa using ⟨h1, g1⟩, h2, g2⟩

/-- C100: nothing the source sends makes the collector panic: every message the listener gets is a record message that can be decoded, and the dispatcher does not panic. -/
theorem C100_no_panic {k : SysCfg} {n0 : List MockEv} {c0 : List ClEv} {s0 s : Sys} {evs : SysEv} (h0 : Sys.Join k n0 c0 s0) (hr : Sys.Run k s0 evs s)
    {cs1 cs2 : List RegCmd} {ref : SourceRef} {i : Nat} {cfg : Nat → CacheConfig (GoRec GoTime)} {h : Nat → List (Op (GoRec GoTime))}
    (hc : Collects k cs1 cs2 ref i cfg h s0.stores) :
    s.ended = false ∧ ∀ m ∈ deliveredTo k.lst evs.c, ∃ rm, decodeMsg vanRegistry (some m) = .ok (.record rm) := by
  refine ⟨?_, fun m hm => ?_⟩
  · induction hr with
    | nil => exact h0.ended
    | @snoc s1 s2 evs ev hr hs ih =>
      cases hs with
      | @dispatchPanic rm cl stores p times h1 h2 h3 h4 =>
        exfalso
        obtain ⟨done, pend, clock, g1, g2, g3, _⟩ := (coll_run h0 hr).told h1 h2
        have hpc' : ∃ hs, pcOf s1.cl k.lst = .calling (.record rm) (k.hnd :: hs) := by
          generalize k.lst = l at h3
          generalize k.hnd = hnd at h3
          generalize Decoded.record rm = d at h3
          cases h3 with
          | call hx hp => exact ⟨_, by rw [pcOf_some hx, hp]⟩
        obtain ⟨hs, e1⟩ := hpc'
        rw [e1] at g3
        rcases g3 with ⟨g, m, rfl, hd⟩ | ⟨g, _⟩
        · obtain ⟨rss, k1, k2⟩ := pointwise_of_all (bs := done ++ [m]) (P := fun rs => ∀ r ∈ rs, GoodRecord vanRegistry r)
            (R := fun rs m => RecordMsg.encode vanRegistry { records := rs } = .ok m) fun b hb => delivered_good h0 hr (by rw [g1]; exact hb)
          obtain ⟨L, _, hL⟩ := collect_run cs1 cs2 ref hc.plain cfg hc.key hc.good hc.disp (fun i => if i = done.length then times else clock i) rss (done ++ [m]) 0 h hc.hist k1 k2
          rw [← hc.world, ← hc.stores, collect_snoc, collect_clock (c2 := clock), g2] at hL
          · simp only [collect, hd, Nat.zero_add, if_true] at hL
            rw [h4] at hL
            simp at hL
          · intro i hi
            simp only [Nat.zero_add] at hi
            rw [if_neg (by omega)]
        · simp at g
      | _ => exact ih
  · obtain ⟨rs, h1, h2⟩ := delivered_good h0 hr hm
    obtain ⟨rm, h3, _⟩ := wire_msg h1 h2
    exact ⟨rm, h3⟩

/-- C100: when all is quiet, the messages handed to the listener are those the manager has sent, all of them and in order, and the stores are what a collector makes of them. -/
theorem C100_delivered {k : SysCfg} {n0 : List MockEv} {c0 : List ClEv} {s0 s : Sys} {evs : SysEv} (h0 : Sys.Join k n0 c0 s0) (hr : Sys.Run k s0 evs s) (hstill : s.Still k)
    (hopen : MockEv.closeReceiver k.rcv ∉ n0 ++ evs.n) :
    deliveredTo k.lst evs.c = sentMsgs evs.m ∧
      (s.cl.crashed = false → s.ended = false → ∃ clock, collect k.world k.disp clock 0 (sentMsgs evs.m) s0.stores = (s.stores, none)) := by
  have hw := way_run h0 hr
  have hm := mock_trans h0.mock (sys_mock hr)
  have hD := delInv_run hm
  have hT := topInv_run hm
  obtain ⟨hd, hsend, hchan, y, hy, hpy⟩ := hstill
  obtain ⟨x, hx, hxa⟩ := (hD.new k.rcv k.addr).1 (List.mem_append_left _ h0.receiver)
  have hsub := (hD.sub _ _ hx).2 (List.mem_append_left _ h0.subscribed)
  have hclosed : x.closed = false := by
    cases h1 : x.closed with
    | true => exact absurd ((hD.closed _ _ hx).1 h1) hopen
    | false => rfl
  obtain ⟨tail, g1, g2⟩ := hD.del _ x hx hsub
  have htail : tail = [] := by
    refine (g2.2 hclosed).2 fun o op ho hr1 => ?_
    have hh : ∃ t, holds op.pc = some t := by
      cases hp : op.pc <;> rw [hp] at hr1 <;> first | exact ⟨_, rfl⟩ | cases hr1
    obtain ⟨t, ht⟩ := hh
    have haddr : op.addr = k.addr := by
      obtain ⟨m1, a1, _, _, a4⟩ := hT.held t o op ho ht
      obtain ⟨y, b1, _, b3⟩ := hT.mem t m1 k.rcv a1 (a4 k.rcv hr1)
      rw [hx] at b1
      obtain rfl := Option.some.inj b1
      rw [← hxa]
      refine hT.inj _ _ t (hT.op o op t ho ?_) b3
      cases hp : op.pc <;> rw [hp] at ht <;> first | exact ht | cases ht
    obtain ⟨r, hr⟩ := hw.others o op ho haddr (by rw [hsend]; simp)
    rw [hr] at ht; cases ht
  have hall : sentTo k.addr evs.n = received k.rcv (n0 ++ evs.n) := by
    rw [hxa, sentAfter_append h0.subscribed, h0.unsent, hchan x hx, htail, List.append_nil, List.append_nil, List.nil_append] at g1
    exact g1
  have htab := hw.table
  simp only [inFlight, hsend, List.append_nil] at htab
  have hdel : deliveredTo k.lst evs.c = sentMsgs evs.m := by
    have := hw.recv
    rw [← hall, htab] at this
    exact (List.map_injective_iff.2 (fun _ _ => Option.some.inj) this).symm
  refine ⟨hdel, fun hcr he => ?_⟩
  obtain ⟨done, pend, clock, e1, e2, e3, _⟩ := (coll_run h0 hr).told hcr he
  rw [pcOf_some hy, hpy] at e3
  simp only [Pend] at e3
  rw [e3, List.append_nil, hdel] at e1
  exact ⟨clock, by rw [e1]; exact e2⟩

/-- C100, whatever the interleaving of source, manager, router and collector: once everything is published, sent, received and handled, and nothing was lost on the side of the manager,
the store of the collector holds an entry of the record with the source of the dispatcher, in which every attribute has the value of the last version that has one, and no other
attribute; so if no version lacks an attribute that the version before it had, the entry has exactly the attributes of the last version. -/
theorem C100_converges {k : SysCfg} {n0 : List MockEv} {c0 : List ClEv} {s0 s : Sys} {evs : SysEv} (h0 : Sys.Start k n0 c0 s0) (hr : Sys.Run k s0 evs s) (hstill : s.Still k)
    (hopen : MockEv.closeReceiver k.rcv ∉ n0 ++ evs.n) (hcr : s.cl.crashed = false) (hl : Lossless evs.m) (hv : s.src.versions ≠ [])
    {cs1 cs2 : List RegCmd} {ref : SourceRef} {i : Nat} {cfg : Nat → CacheConfig (GoRec GoTime)} {h : Nat → List (Op (GoRec GoTime))}
    (hc : Collects k cs1 cs2 ref i cfg h s0.stores) (hnone : content vanOps (cfg i) (h i) k.id = none) :
    ∃ h' e a, s.stores i = after vanOps (cfg i) h' ∧ content vanOps (cfg i) h' k.id = some e ∧ OfKind k.id k.tm e.record ∧ e.md.source = ref ∧
      vanOps.encode e.record = .ok a ∧ (∀ x, a.get? x = latest s.src.versions x) ∧
      (NeverCleared s.src.versions → ∀ v, s.src.versions.getLast? = some v → ∀ x, a.get? x = attrOf v x) := by
  obtain ⟨clock, hcol⟩ := (C100_delivered (start_join h0) hr hstill hopen).2 hcr (C100_no_panic (start_join h0) hr hc).1
  obtain ⟨d, hd, _, h', e, a, g⟩ := C36_converges_partial h0.src (sys_src hr) hstill.1 hl hv cs1 cs2 ref hc.plain hc.only cfg hc.key hc.good h hc.hist hnone clock
  rw [hc.disp] at hd
  obtain rfl := Option.some.inj hd
  rw [← hc.world, ← hc.stores, hcol] at g
  exact ⟨h', e, a, g⟩

/-! ## An instance -/

/-- One store, for hosts, and a dispatcher. -/
def sysReg : RegWorld × List Dispatcher := runReg (hostReg ++ [.newDispatcher exSrc]) {}

def sysCfg : SysCfg where
  mgr := {}
  id := "h1"
  tm := ⟨"flow/v1", "HostRecord"⟩
  addr := "mc/sfe.c1"
  snd := 0
  rcv := 0
  lst := 0
  hnd := 7
  world := sysReg.1
  disp := (sysReg.2[0]?).getD ⟨exSrc, 0⟩

/-- The client before: a handler of somebody else (3) and the dispatcher (7) are registered, one listener runs. -/
def sysClient : Client where
  recordHandlers := [3, 7]
  wg := 1
  listeners := [{ pc := .receiving }]

theorem sys_cl0 : Client.Run vanRegistry {} [.onRecord 3, .onRecord 7, .listen, .tau] sysClient := by
  have r1 := (Client.Run.nil (reg := vanRegistry) (s := {})).snoc rfl (.onRecord 3 rfl)
  have r2 := r1.snoc rfl (.onRecord 7 rfl)
  have r3 := r2.snoc rfl .listen
  exact r3.snoc rfl (.listenStart (l := 0) rfl rfl rfl)

/-- The router before: a sender and a receiver for the address. -/
def sysMock : Mock where
  topics := [("mc/sfe.c1", 0)]
  mcs := [{ receivers := [0], ver := 1 }]
  rcvs := [{ addr := "mc/sfe.c1", cap := 256, sub := .done }]
  snds := [{ addr := "mc/sfe.c1" }]

theorem sys_mock0 : Mock.Run {} [.newReceiver 0 "mc/sfe.c1", .step 0, .subscribed 0, .newSender 0 "mc/sfe.c1"] sysMock := by
  have r1 := (Mock.Run.nil (s0 := {})).snoc (.newReceiver "mc/sfe.c1" 256)
  have r2 := r1.snoc (.subGet (r := 0) rfl rfl)
  have r3 := r2.snoc (.subscribe (r := 0) (mc := 0) rfl rfl rfl rfl)
  exact r3.snoc (.newSender "mc/sfe.c1")

theorem sysCfg_disp : (runReg (hostReg ++ [.newDispatcher exSrc]) {}).2[(runReg hostReg {}).2.length]? = some sysCfg.disp := by
  have h : ((runReg (hostReg ++ [.newDispatcher exSrc]) {}).2[(runReg hostReg {}).2.length]?).isSome := by decide
  obtain ⟨d, hd⟩ := Option.isSome_iff_exists.1 h
  rw [hd]
  have : (runReg hostReg {}).2.length = 0 := by decide
  rw [this] at hd
  simp only [sysCfg, sysReg, hd, Option.getD_some]

def sys0 : Sys := { src := { mgr := { stores := fun _ => after vanOps exCfg [] } }, mock := sysMock, cl := sysClient, stores := fun _ => after vanOps exCfg [] }

theorem sys0_start : Sys.Start sysCfg [.newReceiver 0 "mc/sfe.c1", .step 0, .subscribed 0, .newSender 0 "mc/sfe.c1"] [.onRecord 3, .onRecord 7, .listen, .tau] sys0 :=
  ⟨exStart, sys_mock0, by decide, by decide, by intro o i m; simp, sys_cl0, ⟨{ pc := .receiving }, rfl, Or.inr (Or.inl rfl)⟩, rfl, by decide, rfl, rfl, rfl⟩

theorem sys0_collects : Collects sysCfg hostReg [] exSrc 0 (fun _ => exCfg) (fun _ => []) sys0.stores :=
  ⟨hostReg_plain, hostReg_only, rfl, sysCfg_disp, fun _ => rfl, fun _ => exCfg_good, by simp, rfl⟩

/-- Instance of C100: a host is published; its record goes through the manager, the router and the client into the store. -/
theorem sys_example : ∃ evs s, Sys.Run sysCfg sys0 evs s ∧ s.Still sysCfg ∧ MockEv.closeReceiver 0 ∉ evs.n ∧ s.cl.crashed = false ∧
    Lossless evs.m ∧ s.src.versions = [hostRec "h1" "x"] ∧ ∀ msg, .queueFlush msg ∉ evs.m := by
  have z : ∀ r st, StoresHold 0 "h1" ⟨"flow/v1", "HostRecord"⟩ r st := fun _ _ i hi => absurd hi (Nat.not_lt_zero i)
  have r0 : Sys.Run sysCfg sys0 {} sys0 := .nil
  have r1 := r0.snoc (.source (.mint (r := hostRec "h1" "x") ⟨hostRec_good _ _, rfl, rfl⟩ rfl (z _ _)) (by simp) (by simp))
  have r2 := r1.snoc (.source (.publish rfl (.publish { curr := hostRec "h1" "x" } (by decide))) (by simp) (by simp))
  have r3 := r2.snoc (.source (.mgr (by simp) (by simp) (.take rfl rfl)) (by simp) (by simp))
  have r4 := r3.snoc (.source (.mgr (by simp) (by simp) (.diff rfl rfl)) (by simp) (by simp))
  have r5 := r4.snoc (.source (.mgr (by simp) (by simp) (.queueUpdate rfl (by decide))) (by simp) (by simp))
  have r6t := r5.snoc (.source (.mgr (by simp) (by simp) (.takeMsg rfl (List.cons_ne_nil _ _))) (by simp) (by simp))
  have r6 := r6t.snoc (.send (o := 0) rfl rfl rfl (.call (i := 0) (x := { addr := "mc/sfe.c1" }) 0 none rfl) rfl)
  have r7 := r6.snoc (.router (.startGo (o := 0) rfl rfl rfl rfl rfl) (by simp) (by simp) (by simp))
  have r8 := r7.snoc (.router (.get (o := 0) rfl rfl) (by simp) (by simp) (by simp))
  have r9 := r8.snoc (.router (.lock (o := 0) (mc := 0) rfl rfl rfl rfl (by decide)) (by simp) (by simp) (by simp))
  have r10 := r9.snoc (.router (.offer (o := 0) rfl rfl rfl rfl) (by simp) (by simp) (by simp))
  have r11 := r10.snoc (.router (.put (o := 0) rfl rfl rfl (by decide)) (by simp) (by simp) (by simp))
  have r12 := r11.snoc (.sent (o := 0) rfl (.finish rfl rfl) (.mgr (by simp) (by simp) (.send rfl rfl rfl)))
  have r13 := r12.snoc (.next (m := 0) rfl rfl (.recv (r := 0) rfl rfl rfl) rfl (.deliver (l := 0) _ rfl rfl))
  obtain ⟨rm, hrm⟩ := (C100_no_panic (start_join sys0_start) r13 sys0_collects).2 _ (by simp [deliveredTo, sysCfg]; rfl)
  have r14 := r13.snoc (.client rfl rfl (.decoded (l := 0) rfl rfl hrm) (by simp) (by simp) (by simp) (by simp))
  have r15 := r14.snoc (.client rfl rfl (.fetch (l := 0) rfl rfl rfl) (by simp) (by simp) (by simp) (by simp))
  have r16 := r15.snoc (.client rfl rfl (.call (l := 0) (h := 3) rfl rfl) (by simp) (by simp) (by simp [sysCfg]) (by simp))
  cases hd : (sysCfg.world.dispatch vanOps sysCfg.disp (rm.records.zipIdx.map fun p => (p.1, (fun _ => t0) p.2)) (fun _ => after vanOps exCfg [])) with
  | mk st po =>
  cases po with
  | some p =>
    have := (C100_no_panic (start_join sys0_start) (r16.snoc (.dispatchPanic (fun _ => t0) rfl rfl (.call (l := 0) rfl rfl) hd)) sys0_collects).1
    cases this
  | none =>
  have r17 := r16.snoc (.dispatch (fun _ => t0) rfl rfl (.call (l := 0) rfl rfl) hd)
  have r18 := r17.snoc (.client rfl rfl (.again (l := 0) rfl rfl) (by simp) (by simp) (by simp) (by simp))
  refine ⟨_, _, r18, ⟨⟨rfl, rfl, rfl, rfl⟩, rfl, ?_, _, rfl, rfl⟩, by simp, rfl, by intro rs; simp, rfl, by simp⟩
  intro x hx
  cases hx
  rfl

example : ∃ evs s, Sys.Run sysCfg sys0 evs s ∧ s.src.versions = [hostRec "h1" "x"] ∧ ∃ h' e a, s.stores 0 = after vanOps exCfg h' ∧ content vanOps exCfg h' "h1" = some e ∧
    e.md.source = exSrc ∧ vanOps.encode e.record = .ok a ∧ a.get? (.u32 30) = some (.str "x") := by
  obtain ⟨evs, s, hr, hs, ho, hc, hl, hv, _⟩ := sys_example
  obtain ⟨h', e, a, g1, g2, _, g3, g4, g5, _⟩ := C100_converges sys0_start hr hs (by simp [ho, sysCfg]) hc hl (by rw [hv]; simp) sys0_collects rfl
  refine ⟨evs, s, hr, hv, h', e, a, g1, g2, g3, g4, ?_⟩
  rw [g5, hv]; rfl

end Verif.Props
