import Verif.Proofs.Mock

/-! # C62, C70: the mock router -/
namespace Verif.Props
open Verif Verif.Model Verif.Spec Verif.Proofs

/-- **C62**: in every run, what a receiver has got are the first of the messages sent to its address since it was subscribed, each once and in the order of sending; nothing
from other addresses. -/
theorem C62_order {evs : List MockEv} {s : Mock} (h : Mock.Run {} evs s) {r : Nat} {a : String} (hr : MockEv.newReceiver r a ∈ evs) :
    received r evs <+: sentAfter r a evs := by
  have hD := delInv_run h
  obtain ⟨x, hx, rfl⟩ := (hD.new r a).mp hr
  by_cases hs : x.sub = .done
  · obtain ⟨tail, g1, _⟩ := hD.del r x hx hs
    rw [g1, List.append_assoc]
    exact List.prefix_append _ _
  · rw [(hD.pre r x hx hs).2]
    exact List.nil_prefix

/-- **C62**: nothing is lost for an open receiver: if it has not got all, then the next message can be received at once, or it is the last one and its Send has not returned. -/
theorem C62_complete {evs : List MockEv} {s : Mock} (h : Mock.Run {} evs s) {r : Nat} {a : String} (hr : MockEv.newReceiver r a ∈ evs) (hsub : MockEv.subscribed r ∈ evs)
    (hop : MockEv.closeReceiver r ∉ evs) :
    received r evs = sentAfter r a evs ∨ (∃ m s', received r evs ++ [m] <+: sentAfter r a evs ∧ Mock.Step s (.recv r m) s') ∨
      ∃ o m, sentAfter r a evs = received r evs ++ [m] ∧ MockEv.accepted o a m ∈ evs ∧ ∀ res, MockEv.ret o res ∉ evs := by
  have hD := delInv_run h
  have hT := topInv_run h
  have hC := callInv_run h
  obtain ⟨x, hx, rfl⟩ := (hD.new r a).mp hr
  have hs := (hD.sub r x hx).mpr hsub
  have hc : x.closed = false := by
    cases h1 : x.closed with
    | true => exact absurd ((hD.closed r x hx).mp h1) hop
    | false => rfl
  obtain ⟨tail, g1, g2⟩ := hD.del r x hx hs
  obtain ⟨k1, k2⟩ := g2.2 hc
  cases hch : x.chan with
  | cons m rest =>
    right; left
    refine ⟨m, _, ?_, .recv hx hs hch⟩
    rw [g1, hch]
    exact ⟨rest ++ tail, by simp⟩
  | nil =>
    by_cases hn : ∀ (o : Nat) (op : MSend), s.ops[o]? = some op → r ∉ owes op.pc
    · left
      rw [g1, hch, k2 hn]
      simp
    · right; right
      simp only [Classical.not_forall, Decidable.not_not] at hn
      obtain ⟨o, op, ho, hr1⟩ := hn
      have hb : begun op.pc = true ∧ ∀ res, op.pc ≠ .done res := by
        cases hp : op.pc <;> rw [hp] at hr1 <;> first | exact ⟨rfl, by simp⟩ | cases hr1
      refine ⟨o, op.msg, ?_, ?_, ?_⟩
      · rw [g1, hch, k1 o op ho hr1]; simp
      · have hcount := hC.count o op ho
        rw [hb.1] at hcount
        have hpos : 0 < evs.countP (isAccepted o) := by rw [hcount]; exact Nat.one_pos
        obtain ⟨ev, hev, hacc⟩ := List.countP_pos_iff.mp hpos
        cases ev with
        | accepted o' a' m' =>
          have : o' = o := by simpa [isAccepted] using hacc
          subst this
          obtain ⟨op', q1, q2, q3, q4⟩ := hC.acc _ _ _ hev
          rw [ho] at q1
          obtain rfl := Option.some.inj q1
          subst q2 q3
          have haddr : op.addr = x.addr := by
            have hh : ∃ t, holds op.pc = some t := by
              cases hp : op.pc <;> rw [hp] at hr1 <;> first | exact ⟨_, rfl⟩ | cases hr1
            obtain ⟨t, ht⟩ := hh
            obtain ⟨m1, a1, _, _, a4⟩ := hT.held t o' op ho ht
            obtain ⟨y, b1, _, b3⟩ := hT.mem t m1 r a1 (a4 r hr1)
            rw [hx] at b1
            obtain rfl := Option.some.inj b1
            refine hT.inj _ _ t (hT.op o' op t ho ?_) b3
            cases hp : op.pc <;> rw [hp] at ht <;> first | exact ht | cases ht
          rw [haddr] at hev
          exact hev
        | _ => cases hacc
      · intro res hret
        obtain ⟨op', q1, q2⟩ := hC.ret o res hret
        rw [ho] at q1
        obtain rfl := Option.some.inj q1
        exact hb.2 res q2

/-- **C62**: a message is sent at most once, as given to Send and to its sender's address; and it was sent when Send returns nil. -/
theorem C62_sent {evs : List MockEv} {s : Mock} (h : Mock.Run {} evs s) (o : Nat) :
    evs.countP (isAccepted o) ≤ 1 ∧ (∀ a m, MockEv.accepted o a m ∈ evs → ∃ i, MockEv.call o i a m ∈ evs) ∧
      (MockEv.ret o none ∈ evs → evs.countP (isAccepted o) = 1) ∧ (∀ e, MockEv.ret o (some e) ∈ evs → evs.countP (isAccepted o) = 0) := by
  have hC := callInv_run h
  refine ⟨?_, ?_, ?_, ?_⟩
  · cases ho : s.ops[o]? with
    | some op => rw [hC.count o op ho]; split <;> omega
    | none =>
      rw [List.countP_eq_zero.mpr]
      · exact Nat.zero_le _
      · intro ev hev hacc
        cases ev with
        | accepted o' a m =>
          have : o' = o := by simpa [isAccepted] using hacc
          subst this
          obtain ⟨op, q1, _⟩ := hC.acc _ _ _ hev
          rw [ho] at q1
          cases q1
        | _ => cases hacc
  · intro a m hacc
    obtain ⟨op, q1, rfl, rfl, _⟩ := hC.acc _ _ _ hacc
    exact ⟨_, hC.call o op q1⟩
  · intro hret
    obtain ⟨op, q1, q2⟩ := hC.ret o none hret
    rw [hC.count o op q1, q2]; rfl
  · intro e hret
    obtain ⟨op, q1, q2⟩ := hC.ret o _ hret
    rw [hC.count o op q1, q2]; rfl

/-- **C62**: when Send has returned nil, every receiver that was open and subscribed all the time has the message or can receive up to it: the messages not received yet are in
its channel (stated for any moment when no Send is under way). -/
theorem C62_quiet {evs : List MockEv} {s : Mock} (h : Mock.Run {} evs s) {r : Nat} {x : MRcv} (hx : s.rcvs[r]? = some x) (hsub : x.sub = .done) (hop : x.closed = false)
    (hq : ∀ (o : Nat) (op : MSend), s.ops[o]? = some op → begun op.pc = true → op.pc = .done none) : sentAfter r x.addr evs = received r evs ++ x.chan := by
  obtain ⟨tail, g1, g2⟩ := (delInv_run h).del r x hx hsub
  rw [g1, (g2.2 hop).2, List.append_nil]
  intro o op ho hr
  have hb : begun op.pc = true ∧ ∀ res, op.pc ≠ .done res := by
    cases hp : op.pc <;> rw [hp] at hr <;> first | exact ⟨rfl, by simp⟩ | cases hr
  exact hb.2 _ (hq o op ho hb.1)

/-- The calls of sender `i` since it was closed, at a time when `n` calls had been made. -/
structure LateInv (n i : Nat) (evs : List MockEv) (s : Mock) : Prop where
  closed : ∃ x, s.snds[i]? = some x ∧ x.closed = true
  many : n ≤ s.ops.length
  pc : ∀ (o : Nat) (op : MSend), n ≤ o → s.ops[o]? = some op → op.sender = i →
    op.pc = .start ∨ ∃ e, op.pc = .done (some e) ∧ MockEv.ret o (some e) ∈ evs
  call : ∀ o j a m, MockEv.call o j a m ∈ evs → n ≤ o ∧ ∃ op, s.ops[o]? = some op ∧ op.sender = j

theorem LateInv.same {n i : Nat} {evs : List MockEv} {s s' : Mock} {ev : MockEv} (h : LateInv n i evs s) (h1 : s'.ops = s.ops) (h2 : s'.snds = s.snds)
    (h3 : ∀ o j a m, ev ≠ .call o j a m) : LateInv n i (evs ++ [ev]) s' := by
  refine ⟨by rw [h2]; exact h.closed, by rw [h1]; exact h.many, ?_, ?_⟩
  · intro o op hn ho hi
    rw [h1] at ho
    exact (h.pc o op hn ho hi).imp id fun ⟨e, g1, g2⟩ => ⟨e, g1, List.mem_append_left _ g2⟩
  intro o j a m hm
  rw [h1]
  rcases List.mem_append.1 hm with hm | hm
  · exact h.call o j a m hm
  · simp only [List.mem_singleton] at hm; exact absurd hm.symm (h3 o j a m)

theorem LateInv.setOp {n i : Nat} {evs : List MockEv} {s s' : Mock} {ev : MockEv} {o : Nat} {op : MSend} {pc : MSendPC} (h : LateInv n i evs s) (h1 : s'.ops = s.ops)
    (h2 : s'.snds = s.snds) (h3 : ∀ o j a m, ev ≠ .call o j a m) (ho : s.ops[o]? = some op)
    (hok : n ≤ o → op.sender = i → ∃ e, pc = .done (some e) ∧ ev = .ret o (some e)) : LateInv n i (evs ++ [ev]) (s'.setOp o pc) := by
  have h := h.same h1 h2 h3
  have hops : s'.ops[o]? = some op := by rw [h1]; exact ho
  refine ⟨h.closed, by simpa [Mock.setOp] using h.many, ?_, ?_⟩
  · intro o' op' hn ho' hi
    simp only [Mock.setOp, modify_some] at ho'
    obtain ⟨y, hy, rfl⟩ := ho'
    by_cases e : o = o'
    · subst e
      rw [hops] at hy
      obtain rfl := Option.some.inj hy
      simp only [if_true] at hi ⊢
      obtain ⟨e, g1, g2⟩ := hok hn hi
      exact .inr ⟨e, g1, by simp [g2]⟩
    · simp only [e, if_false] at hi ⊢
      exact h.pc o' y hn hy hi
  · intro o' j a m hm
    obtain ⟨g1, y, g2, g3⟩ := h.call o' j a m hm
    refine ⟨g1, _, by simp only [Mock.setOp, modify_some]; exact ⟨y, g2, rfl⟩, ?_⟩
    split <;> exact g3

theorem late_step {n i : Nat} {evs : List MockEv} {s s' : Mock} {ev : MockEv} (h : LateInv n i evs s) (hs : Mock.Step s ev s') : LateInv n i (evs ++ [ev]) s' := by
  have hno : ∀ {o : Nat} {op : MSend} {p : Prop}, s.ops[o]? = some op → op.pc ≠ .start → (∀ e, op.pc ≠ .done (some e)) → n ≤ o → op.sender = i → p := by
    intro o op p ho h1 h2 hn hi
    rcases h.pc o op hn ho hi with g | ⟨e, g, _⟩
    · exact absurd g h1
    · exact absurd g (h2 e)
  cases hs with
  | newReceiver | recv | nextClosed | closeReceiver => exact h.same rfl rfl (by simp)
  | subscribe => exact h.same rfl rfl (by simp)
  | subGet => exact h.same (by simp [Mock.setRcv, get_ops]) (by simp [Mock.setRcv, get_snds]) (by simp)
  | newSender a =>
    have h' := h.same (s' := s) (ev := .newSender s.snds.length a) rfl rfl (by simp)
    refine ⟨?_, h'.many, h'.pc, h'.call⟩
    obtain ⟨x, h1, h2⟩ := h.closed
    exact ⟨x, by rw [snoc_some]; exact .inl h1, h2⟩
  | @call j x m ctx hx =>
    refine ⟨h.closed, by simp; have := h.many; omega, ?_, ?_⟩
    · intro o op hn ho hi
      rw [snoc_some] at ho
      rcases ho with ho | ⟨rfl, rfl⟩
      · exact (h.pc o op hn ho hi).imp id fun ⟨e, g1, g2⟩ => ⟨e, g1, List.mem_append_left _ g2⟩
      · exact .inl rfl
    · intro o j' a m' hm
      rcases List.mem_append.1 hm with hm | hm
      · obtain ⟨g1, op, g2, g3⟩ := h.call o j' a m' hm
        exact ⟨g1, op, by rw [snoc_some]; exact .inl g2, g3⟩
      · simp only [List.mem_singleton, MockEv.call.injEq] at hm
        obtain ⟨rfl, rfl, _, _⟩ := hm
        exact ⟨h.many, _, by rw [snoc_some]; exact .inr ⟨rfl, rfl⟩, rfl⟩
  | @cancelOp op o e he ho hc =>
    have h' := h.same (s' := s) (ev := .cancelOp o e) rfl rfl (by simp)
    refine ⟨h'.closed, by simpa using h'.many, ?_, ?_⟩
    · intro o' op' hn ho' hi
      rw [modify_some] at ho'
      obtain ⟨y, hy, rfl⟩ := ho'
      have hi' : y.sender = i := by split at hi <;> exact hi
      have := h'.pc o' y hn hy hi'
      split <;> exact this
    · intro o' j a m hm
      obtain ⟨g1, y, g2, g3⟩ := h'.call o' j a m hm
      refine ⟨g1, _, by rw [modify_some]; exact ⟨y, g2, rfl⟩, ?_⟩
      split <;> exact g3
  | startClosed ho hp => exact h.setOp rfl rfl (by simp) ho fun _ _ => ⟨_, rfl, rfl⟩
  | startCtx ho hp => exact h.setOp rfl rfl (by simp) ho fun _ _ => ⟨_, rfl, rfl⟩
  | parkCtx ho hp => exact h.setOp rfl rfl (by simp) ho fun _ _ => ⟨_, rfl, rfl⟩
  | @startGo o op x ho hp hx hcl =>
    refine h.setOp rfl rfl (by simp) ho fun hn hi => ?_
    obtain ⟨y, g1, g2⟩ := h.closed
    rw [hi, g1] at hx
    obtain rfl := Option.some.inj hx
    rw [hcl] at g2; cases g2
  | get ho hp => exact h.setOp get_ops get_snds (by simp) ho (hno ho (by simp [hp]) (by simp [hp]))
  | lock ho hp => exact h.setOp rfl rfl (by simp) ho (hno ho (by simp [hp]) (by simp [hp]))
  | lockEmpty ho hp => exact h.setOp rfl rfl (by simp) ho (hno ho (by simp [hp]) (by simp [hp]))
  | wake ho hp => exact h.setOp rfl rfl (by simp) ho (hno ho (by simp [hp]) (by simp [hp]))
  | skip ho hp => exact h.setOp rfl rfl (by simp) ho (hno ho (by simp [hp]) (by simp [hp]))
  | offer ho hp => exact h.setOp rfl rfl (by simp) ho (hno ho (by simp [hp]) (by simp [hp]))
  | put ho hp => exact h.setOp rfl rfl (by simp) ho (hno ho (by simp [hp]) (by simp [hp]))
  | finish ho hp => exact h.setOp rfl rfl (by simp) ho (hno ho (by simp [hp]) (by simp [hp]))
  | @closeSender j x hx =>
    have h' := h.same (s' := s) (ev := .closeSender j) rfl rfl (by simp)
    refine ⟨?_, h'.many, h'.pc, h'.call⟩
    obtain ⟨x, h1, h2⟩ := h.closed
    refine ⟨_, by rw [modify_some]; exact ⟨x, h1, rfl⟩, ?_⟩
    split
    · rfl
    · exact h2

/-- **C62 (closed senders)**: a message given to a sender after it was closed is never sent, and Send does not claim it was; the only ways the call can end are
errors. -/
theorem C62_closed_sender {pre post : List MockEv} {s : Mock} {i o : Nat} {a : String} {m : Nat} (h : Mock.Run {} (pre ++ .closeSender i :: post) s)
    (hc : MockEv.call o i a m ∈ post) :
    (∀ a' m', MockEv.accepted o a' m' ∉ pre ++ .closeSender i :: post) ∧ MockEv.ret o none ∉ pre ++ .closeSender i :: post ∧
      ((∃ s', Mock.Step s (.ret o (some (.other "sender closed"))) s') ∨ ∃ e, MockEv.ret o (some e) ∈ pre ++ .closeSender i :: post) := by
  obtain ⟨b, b', r1, st, r2⟩ := mock_split h
  have h0 : LateInv b'.ops.length i [] b' := by
    refine ⟨?_, Nat.le_refl _, ?_, by simp⟩
    · cases st with
      | closeSender hx => exact ⟨_, by rw [modify_some]; exact ⟨_, hx, rfl⟩, by simp⟩
    · intro o op hn ho
      rw [List.getElem?_eq_none hn] at ho; cases ho
  have h1 : LateInv b'.ops.length i post s := by
    clear h hc st r1
    induction r2 with
    | nil => exact h0
    | snoc _ hs ih => exact late_step ih hs
  have hC := callInv_run h
  obtain ⟨g1, op, g2, g3⟩ := h1.call o i a m hc
  have hp := h1.pc o op g1 g2 g3
  refine ⟨?_, ?_, ?_⟩
  · intro a' m' hacc
    obtain ⟨op', q1, _, _, q4⟩ := hC.acc _ _ _ hacc
    rw [g2] at q1
    obtain rfl := Option.some.inj q1
    rcases hp with hp | ⟨e, hp, _⟩ <;> rw [hp] at q4 <;> cases q4
  · intro hret
    obtain ⟨op', q1, q2⟩ := hC.ret _ _ hret
    rw [g2] at q1
    obtain rfl := Option.some.inj q1
    rcases hp with hp | ⟨e, hp, _⟩ <;> rw [hp] at q2 <;> cases q2
  · rcases hp with hp | ⟨e, hp, he⟩
    · obtain ⟨x, k1, k2⟩ := h1.closed
      exact .inl ⟨_, .startClosed g2 hp (by rw [g3]; exact k1) k2⟩
    · exact .inr ⟨e, by simp [he]⟩

/-- **C62 (closed receivers)**: Next reports that a receiver is closed only after it was subscribed and closed, and from then on it can do so at any time. -/
theorem C62_closed_receiver {evs : List MockEv} {s : Mock} (h : Mock.Run {} evs s) {r : Nat} :
    (∃ s', Mock.Step s (.nextClosed r) s') ↔ MockEv.subscribed r ∈ evs ∧ MockEv.closeReceiver r ∈ evs := by
  have hD := delInv_run h
  constructor
  · rintro ⟨s', hs⟩
    cases hs with
    | nextClosed hx h1 h2 => exact ⟨(hD.sub _ _ hx).1 h1, (hD.closed _ _ hx).1 h2⟩
  · rintro ⟨h1, h2⟩
    have hlt := hD.dom r 0 (.inr (.inl h1))
    have hx : s.rcvs[r]? = some s.rcvs[r] := by simp [hlt]
    exact ⟨_, .nextClosed hx ((hD.sub _ _ hx).2 h1) ((hD.closed _ _ hx).2 h2)⟩

/-- Two receivers on an address and one on another; two messages. -/
theorem C62_instance : ∃ (evs : List MockEv) (s : Mock), Mock.Run {} evs s ∧ received 0 evs = [5, 6] ∧ sentAfter 0 "a" evs = [5, 6] ∧ received 2 evs = [6] ∧
    sentAfter 2 "a" evs = [6] ∧ received 1 evs = [] ∧ MockEv.subscribed 1 ∈ evs := by
  have r1 := (Mock.Run.nil (s0 := {})).snoc (.newReceiver "a" 0)
  have r2 := r1.snoc (.subGet (r := 0) rfl rfl)
  have r3 := r2.snoc (.subscribe (r := 0) rfl rfl rfl rfl)
  have r4 := r3.snoc (.newReceiver "b" 1)
  have r5 := r4.snoc (.newReceiver "a" 1)
  have r6 := r5.snoc (.subGet (r := 1) rfl rfl)
  have r7 := r6.snoc (.subscribe (r := 1) rfl rfl rfl rfl)
  have r8 := r7.snoc (.newSender "a")
  have r9 := r8.snoc (.call (i := 0) 5 none rfl)
  have r10 := r9.snoc (.startGo (o := 0) rfl rfl rfl rfl rfl)
  have r11 := r10.snoc (.get (o := 0) rfl rfl)
  have r12 := r11.snoc (.lock (o := 0) rfl rfl rfl rfl (by decide))
  have r13 := r12.snoc (.offer (o := 0) rfl rfl rfl rfl)
  have r14 := r13.snoc (.put (o := 0) rfl rfl rfl (by decide))
  have r15 := r14.snoc (.finish (o := 0) rfl rfl)
  have r16 := r15.snoc (.recv (r := 0) rfl rfl rfl)
  have r17 := r16.snoc (.subGet (r := 2) rfl rfl)
  have r18 := r17.snoc (.subscribe (r := 2) rfl rfl rfl rfl)
  have r19 := r18.snoc (.call (i := 0) 6 none rfl)
  have r20 := r19.snoc (.startGo (o := 1) rfl rfl rfl rfl rfl)
  have r21 := r20.snoc (.get (o := 1) rfl rfl)
  have r22 := r21.snoc (.lock (o := 1) rfl rfl rfl rfl (by decide))
  have r23 := r22.snoc (.offer (o := 1) rfl rfl rfl rfl)
  have r24 := r23.snoc (.put (o := 1) rfl rfl rfl (by decide))
  have r25 := r24.snoc (.offer (o := 1) rfl rfl rfl rfl)
  have r26 := r25.snoc (.put (o := 1) rfl rfl rfl (by decide))
  have r27 := r26.snoc (.finish (o := 1) rfl rfl)
  have r28 := r27.snoc (.recv (r := 2) rfl rfl rfl)
  have r29 := r28.snoc (.recv (r := 0) rfl rfl rfl)
  exact ⟨[.newReceiver 0 "a", .step 0, .subscribed 0, .newReceiver 1 "b", .newReceiver 2 "a", .step 1, .subscribed 1, .newSender 0 "a", .call 0 0 "a" 5, .step 0, .step 0,
    .accepted 0 "a" 5, .step 0, .step 0, .ret 0 none, .recv 0 5, .step 2, .subscribed 2, .call 1 0 "a" 6, .step 1, .step 1, .accepted 1 "a" 6, .step 1, .step 1, .step 1, .step 1,
    .ret 1 none, .recv 2 6, .recv 0 6], _, r29, by decide, by decide, by decide, by decide, by decide, by decide⟩

/-! ## C70 -/

/-- **C70** is false: a Send at a full receiver stays there until somebody receives from it, whatever happens to its context and even when the receiver is closed. -/
theorem C70_stuck {s s' : Mock} {evs : List MockEv} {o t r : Nat} {left : List Nat} {op : MSend} {x : MRcv} (h : Mock.Run s evs s') (ho : s.ops[o]? = some op)
    (hpc : op.pc = .offering t r left) (hx : s.rcvs[r]? = some x) (hfull : x.cap ≤ x.chan.length) (hn : ∀ m, MockEv.recv r m ∉ evs) :
    (∃ op', s'.ops[o]? = some op' ∧ op'.pc = .offering t r left) ∧ ∃ x', s'.rcvs[r]? = some x' ∧ x'.cap ≤ x'.chan.length := by
  induction h with
  | nil => exact ⟨⟨op, ho, hpc⟩, x, hx, hfull⟩
  | @snoc s1 s2 evs ev hr hs ih =>
    obtain ⟨⟨op1, i1, i2⟩, x1, i3, i4⟩ := ih fun m hm => hn m (List.mem_append_left _ hm)
    have setOp : ∀ {s3 : Mock} {o1 : Nat} {op2 : MSend} {pc : MSendPC}, s3.ops = s1.ops → s1.ops[o1]? = some op2 → (∀ t left, op2.pc ≠ .offering t r left) →
        ∃ op', (s3.setOp o1 pc).ops[o]? = some op' ∧ op'.pc = .offering t r left := by
      intro s3 o1 op2 pc h0 h1 h2
      refine ⟨op1, modify_some.mpr ⟨op1, by rw [h0]; exact i1, ?_⟩, i2⟩
      by_cases e : o1 = o
      · subst e
        rw [i1] at h1
        obtain rfl := Option.some.inj h1
        exact absurd i2 (h2 _ _)
      · rw [if_neg e]
    have setRcv : ∀ {s3 : Mock} {r1 : Nat} {f : MRcv → MRcv}, s3.rcvs = s1.rcvs → (r1 = r → ∀ y, (f y).cap = y.cap ∧ y.chan.length ≤ (f y).chan.length) →
        ∃ x', (s3.setRcv r1 f).rcvs[r]? = some x' ∧ x'.cap ≤ x'.chan.length := by
      intro s3 r1 f h0 h1
      refine ⟨_, modify_some.mpr ⟨x1, by rw [h0]; exact i3, rfl⟩, ?_⟩
      split
      · rename_i e
        obtain ⟨e1, e2⟩ := h1 e x1
        omega
      · exact i4
    cases hs with
    | newReceiver a c => exact ⟨⟨op1, i1, i2⟩, x1, snoc_some.mpr (Or.inl i3), i4⟩
    | subGet h1 h2 => exact ⟨⟨op1, by show (s1.get _).2.ops[o]? = _; rw [get_ops]; exact i1, i2⟩, setRcv get_rcvs fun _ y => ⟨rfl, Nat.le_refl _⟩⟩
    | subscribe h1 h2 => exact ⟨⟨op1, i1, i2⟩, setRcv rfl fun _ y => ⟨rfl, Nat.le_refl _⟩⟩
    | newSender => exact ⟨⟨op1, i1, i2⟩, x1, i3, i4⟩
    | call m c h1 => exact ⟨⟨op1, snoc_some.mpr (Or.inl i1), i2⟩, x1, i3, i4⟩
    | cancelOp o1 e h1 h2 h3 => exact ⟨⟨_, modify_some.mpr ⟨op1, i1, rfl⟩, by split <;> exact i2⟩, x1, i3, i4⟩
    | startClosed h1 h2 => exact ⟨setOp rfl h1 (by rw [h2]; simp), x1, i3, i4⟩
    | startCtx h1 h2 => exact ⟨setOp rfl h1 (by rw [h2]; simp), x1, i3, i4⟩
    | startGo h1 h2 => exact ⟨setOp rfl h1 (by rw [h2]; simp), x1, i3, i4⟩
    | get h1 h2 => exact ⟨setOp get_ops h1 (by rw [h2]; simp), x1, by show (s1.get _).2.rcvs[r]? = _; rw [get_rcvs]; exact i3, i4⟩
    | lock h1 h2 => exact ⟨setOp (s3 := s1.setMC _ _) rfl h1 (by rw [h2]; simp), x1, i3, i4⟩
    | lockEmpty h1 h2 => exact ⟨setOp rfl h1 (by rw [h2]; simp), x1, i3, i4⟩
    | parkCtx h1 h2 => exact ⟨setOp rfl h1 (by rw [h2]; simp), x1, i3, i4⟩
    | wake h1 h2 => exact ⟨setOp rfl h1 (by rw [h2]; simp), x1, i3, i4⟩
    | skip h1 h2 => exact ⟨setOp rfl h1 (by rw [h2]; simp), x1, i3, i4⟩
    | offer h1 h2 => exact ⟨setOp rfl h1 (by rw [h2]; simp), x1, i3, i4⟩
    | @put o1 t1 r1 left1 op2 y h1 h2 h3 h4 =>
      by_cases e : r1 = r
      · subst e
        rw [i3] at h3
        obtain rfl := Option.some.inj h3
        omega
      · exact ⟨setOp (s3 := s1.setRcv r1 _) rfl h1 (by rw [h2]; simp [e]), setRcv (s3 := s1) rfl fun h => absurd h e⟩
    | finish h1 h2 => exact ⟨setOp (s3 := s1.setMC _ _) rfl h1 (by rw [h2]; simp), x1, i3, i4⟩
    | @recv r1 m rest y h1 h2 h3 =>
      by_cases e : r1 = r
      · subst e
        exact absurd (by simp) (hn m)
      · exact ⟨⟨op1, i1, i2⟩, setRcv rfl fun h => absurd h e⟩
    | nextClosed => exact ⟨⟨op1, i1, i2⟩, x1, i3, i4⟩
    | closeReceiver h1 => exact ⟨⟨op1, i1, i2⟩, setRcv rfl fun _ y => ⟨rfl, Nat.le_refl _⟩⟩
    | closeSender => exact ⟨⟨op1, i1, i2⟩, x1, i3, i4⟩

/-- **C70** is false also for NewReceiver: a Send holds the multicast as long as it offers the message: nobody else can subscribe to the address. -/
theorem C70_subscribe_blocked {evs : List MockEv} {s s' : Mock} (h : Mock.Run {} evs s) {o t r r1 : Nat} {left : List Nat} {op : MSend} {x : MRcv} (ho : s.ops[o]? = some op)
    (hpc : op.pc = .offering t r left) (hx : s.rcvs[r1]? = some x) (ha : x.addr = op.addr) : ¬ Mock.Step s (.subscribed r1) s' := by
  intro hs
  have hT := topInv_run h
  obtain ⟨m, g1, g2, _⟩ := hT.held t o op ho (by rw [hpc]; rfl)
  cases hs with
  | @subscribe _ t1 y m1 h1 h2 h3 h4 =>
    rw [hx] at h1
    obtain rfl := Option.some.inj h1
    have k1 := hT.sub r1 x t1 hx h2
    have k2 := hT.op o op t ho (by rw [hpc]; rfl)
    rw [ha, k2] at k1
    obtain rfl := Option.some.inj k1
    rw [g1] at h3
    obtain rfl := Option.some.inj h3
    rw [h4] at g2
    cases g2

/-- A receiver with credit 1 that nobody reads from: the second Send blocks; its context ends and the receiver is closed, and still it does not return, whatever else happens, unless
somebody reads from the closed receiver. -/
theorem C70_counterexample : ∃ (evs : List MockEv) (s : Mock), Mock.Run {} evs s ∧ MockEv.cancelOp 1 .canceled ∈ evs ∧ MockEv.closeReceiver 0 ∈ evs ∧ (∃ a m, MockEv.accepted 1 a m ∈ evs) ∧
    ∀ (evs' : List MockEv) (s' : Mock), Mock.Run s evs' s' → (∀ m, MockEv.recv 0 m ∉ evs') → ∀ res, MockEv.ret 1 res ∉ evs ++ evs' := by
  have r1 := (Mock.Run.nil (s0 := {})).snoc (.newReceiver "a" 1)
  have r2 := r1.snoc (.subGet (r := 0) rfl rfl)
  have r3 := r2.snoc (.subscribe (r := 0) rfl rfl rfl rfl)
  have r4 := r3.snoc (.newSender "a")
  have r5 := r4.snoc (.call (i := 0) 5 none rfl)
  have r6 := r5.snoc (.startGo (o := 0) rfl rfl rfl rfl rfl)
  have r7 := r6.snoc (.get (o := 0) rfl rfl)
  have r8 := r7.snoc (.lock (o := 0) rfl rfl rfl rfl (by decide))
  have r9 := r8.snoc (.offer (o := 0) rfl rfl rfl rfl)
  have r10 := r9.snoc (.put (o := 0) rfl rfl rfl (by decide))
  have r11 := r10.snoc (.finish (o := 0) rfl rfl)
  have r12 := r11.snoc (.call (i := 0) 6 none rfl)
  have r13 := r12.snoc (.startGo (o := 1) rfl rfl rfl rfl rfl)
  have r14 := r13.snoc (.get (o := 1) rfl rfl)
  have r15 := r14.snoc (.lock (o := 1) rfl rfl rfl rfl (by decide))
  have r16 := r15.snoc (.offer (o := 1) rfl rfl rfl rfl)
  have r17 := r16.snoc (.cancelOp 1 .canceled (by decide) rfl rfl)
  have r18 := r17.snoc (.closeReceiver (r := 0) rfl rfl)
  refine ⟨[.newReceiver 0 "a", .step 0, .subscribed 0, .newSender 0 "a", .call 0 0 "a" 5, .step 0, .step 0, .accepted 0 "a" 5, .step 0, .step 0, .ret 0 none, .call 1 0 "a" 6, .step 1, .step 1,
    .accepted 1 "a" 6, .step 1, .cancelOp 1 .canceled, .closeReceiver 0], _, r18, by decide, by decide, ⟨"a", 6, by decide⟩, fun evs' s' h hn res hres => ?_⟩
  obtain ⟨⟨op', k1, k2⟩, _⟩ := C70_stuck (o := 1) (r := 0) h rfl rfl rfl (by decide) hn
  obtain ⟨op'', k3, k4⟩ := (callInv_run (mock_trans r18 h)).ret 1 res hres
  rw [k1] at k3
  obtain rfl := Option.some.inj k3
  rw [k2] at k4
  cases k4

/-- **C70** (partial: the receivers have room or are closed).  A Send that has begun to deliver its message can finish by itself. -/
theorem C70_room_partial {s : Mock} {o t : Nat} {left : List Nat} {op : MSend} (ho : s.ops[o]? = some op) (hpc : op.pc = .sending t left) (hnd : left.Nodup)
    (hroom : ∀ r ∈ left, ∃ x, s.rcvs[r]? = some x ∧ (x.closed = true ∨ x.chan.length < x.cap)) :
    ∃ evs s' op', Mock.Run s evs s' ∧ (∀ ev ∈ evs, ev = .step o ∨ ev = .ret o none) ∧ s'.ops[o]? = some op' ∧ op'.pc = .done none := by
  induction left generalizing s op with
  | nil =>
    exact ⟨_, _, { op with pc := .done none }, Mock.Run.nil.snoc (.finish ho hpc), by simp, modify_some.mpr ⟨op, ho, by rw [if_pos rfl]⟩, rfl⟩
  | cons r left ih =>
    obtain ⟨x, hx, hr⟩ := hroom r List.mem_cons_self
    obtain ⟨n1, n2⟩ := List.nodup_cons.mp hnd
    cases hc : x.closed with
    | true =>
      have r1 := (Mock.Run.nil (s0 := s)).snoc (.skip ho hpc hx hc)
      obtain ⟨evs, s', op', q1, q2, q3⟩ := ih (s := s.setOp o (.sending t left)) (modify_some.mpr ⟨op, ho, rfl⟩) (by rw [if_pos rfl]) n2 fun r' hr' => hroom r' (List.mem_cons_of_mem _ hr')
      refine ⟨_, s', op', mock_trans r1 q1, ?_, q3⟩
      intro ev hev
      rw [List.mem_append] at hev
      rcases hev with hev | hev
      · left; simpa using hev
      · exact q2 ev hev
    | false =>
      have hlt : x.chan.length < x.cap := hr.resolve_left (by rw [hc]; simp)
      have r1 := (Mock.Run.nil (s0 := s)).snoc (.offer ho hpc hx hc)
      have o1 : (s.setOp o (.offering t r left)).ops[o]? = some { op with pc := .offering t r left } := modify_some.mpr ⟨op, ho, by rw [if_pos rfl]⟩
      have r2 := r1.snoc (.put o1 rfl hx hlt)
      have o2 := modify_some (l := (s.setOp o (.offering t r left)).ops) (i := o) (j := o) (f := fun x => { x with pc := .sending t left }) |>.mpr ⟨_, o1, rfl⟩
      rw [if_pos rfl] at o2
      obtain ⟨evs, s', op', q1, q2, q3⟩ := ih (s := ((s.setOp o (.offering t r left)).setRcv r fun y => { y with chan := y.chan ++ [op.msg] }).setOp o (.sending t left)) o2 rfl n2
        (by
          intro r' hr'
          obtain ⟨y, y1, y2⟩ := hroom r' (List.mem_cons_of_mem _ hr')
          have hne : r ≠ r' := fun e => n1 (e ▸ hr')
          exact ⟨y, modify_some.mpr ⟨y, y1, by rw [if_neg hne]⟩, y2⟩)
      refine ⟨_, s', op', mock_trans r2 q1, ?_, q3⟩
      intro ev hev
      rw [List.mem_append] at hev
      rcases hev with hev | hev
      · left; simpa using hev
      · exact q2 ev hev

/-- A parked Send has seen no receivers, and none has come since if the version is the same; the sender of a Send exists. -/
structure ParkInv (s : Mock) : Prop where
  parked : ∀ (o : Nat) (op : MSend) (t v : Nat) (m : MCast), s.ops[o]? = some op → op.pc = .parked t v → s.mcs[t]? = some m → v ≤ m.ver ∧ (m.ver = v → m.receivers = [])
  snd : ∀ (o : Nat) (op : MSend), s.ops[o]? = some op → op.sender < s.snds.length

theorem get_mcs {s : Mock} {a : String} {t : Nat} {m : MCast} (h : (s.get a).2.mcs[t]? = some m) : s.mcs[t]? = some m ∨ (t = s.mcs.length ∧ m = {}) := by
  unfold Mock.get at h
  split at h
  · exact .inl h
  · exact snoc_some.mp h

theorem parkInv_step {s s' : Mock} {ev : MockEv} (hT : TopInv s) (h : ParkInv s) (hs : Mock.Step s ev s') : ParkInv s' := by
  obtain ⟨h1, h2⟩ := h
  -- the multicast of a parked Send exists
  have old : ∀ (o : Nat) (op : MSend) (t v : Nat), s.ops[o]? = some op → op.pc = .parked t v → t < s.mcs.length := fun o op t v ho hp =>
    hT.bound _ _ (hT.op o op t ho (by rw [hp]; rfl))
  cases hs with
  | subGet g1 g2 =>
    refine ⟨fun o op t v m ho hp hm => ?_, fun o op ho => ?_⟩
    · simp only [Mock.setRcv, get_ops] at ho hm
      rcases get_mcs hm with hm | ⟨e, _⟩
      · exact h1 o op t v m ho hp hm
      · exact absurd (old o op t v ho hp) (by omega)
    · simp only [Mock.setRcv, get_ops, get_snds] at ho ⊢
      exact h2 o op ho
  | get g1 g2 =>
    refine ⟨fun o op t v m ho hp hm => ?_, fun o op ho => ?_⟩
    · simp only [Mock.setOp, get_ops, modify_some] at ho hm
      obtain ⟨x, hx, rfl⟩ := ho
      rcases get_mcs hm with hm | ⟨e, _⟩
      · split at hp
        · cases hp
        · exact h1 o x t v m hx hp hm
      · split at hp
        · cases hp
        · exact absurd (old o x t v hx hp) (by omega)
    · simp only [Mock.setOp, get_ops, get_snds, modify_some] at ho ⊢
      obtain ⟨x, hx, rfl⟩ := ho
      have := h2 o x hx
      split <;> exact this
  | closeSender g1 =>
    refine ⟨fun o op t v m ho hp hm => h1 o op t v m ho hp hm, fun o op ho => ?_⟩
    show op.sender < (s.snds.modify _ _).length
    rw [List.length_modify]
    exact h2 o op ho
  | newSender =>
    refine ⟨fun o op t v m ho hp hm => h1 o op t v m ho hp hm, fun o op ho => ?_⟩
    have := h2 o op ho
    show op.sender < (s.snds ++ [_]).length
    rw [List.length_append]
    exact Nat.lt_add_right _ this
  | call m c g1 =>
    have := (List.getElem?_eq_some_iff.mp g1).1
    constructor <;> simp only [snoc_some] <;> grind
  | lockEmpty | lock | subscribe => constructor <;> simp only [Mock.setOp, Mock.setMC, Mock.setRcv, modify_some] <;> grind
  | nextClosed => exact ⟨h1, h2⟩
  | newReceiver => exact ⟨h1, h2⟩
  | _ => constructor <;> simp only [Mock.setOp, Mock.setMC, Mock.setRcv, modify_some] <;> grind

theorem parkInv_run {evs : List MockEv} {s : Mock} (h : Mock.Run {} evs s) : ParkInv s := by
  generalize hs0 : ({} : Mock) = s0 at h
  induction h with
  | nil => subst hs0; constructor <;> simp
  | snoc hr hs ih => exact parkInv_step (topInv_run (hs0 ▸ hr)) ih hs

/-- **C70** (partial: what a Send waits for).  In every reachable state a Send that has not returned can go on by itself, unless it waits for another Send to the same address that is delivering
its message, or nobody has subscribed to the address and its context has not ended, or it is at a full receiver. -/
theorem C70_waits_partial {evs : List MockEv} {s : Mock} (h : Mock.Run {} evs s) {o : Nat} {op : MSend} (ho : s.ops[o]? = some op) (hnd : ∀ r, op.pc ≠ .done r) :
    (∃ ev s' op', Mock.Step s ev s' ∧ (ev = .step o ∨ ev = .accepted o op.addr op.msg ∨ ∃ r, ev = .ret o r) ∧ s'.ops[o]? = some op' ∧ op'.pc ≠ op.pc) ∨
    (∃ o' op', o' ≠ o ∧ s.ops[o']? = some op' ∧ op'.addr = op.addr ∧ MockEv.accepted o' op.addr op'.msg ∈ evs ∧ ∀ r, MockEv.ret o' r ∉ evs) ∨
    (op.ctx = none ∧ ∀ r, MockEv.newReceiver r op.addr ∈ evs → MockEv.subscribed r ∉ evs) ∨
    (∃ (r : Nat) (x : MRcv), s.rcvs[r]? = some x ∧ x.addr = op.addr ∧ x.cap ≤ x.chan.length) := by
  have hT := topInv_run h
  have hD := delInv_run h
  have hC := callInv_run h
  have hP := parkInv_run h
  have go : ∀ {ev : MockEv} {s1 : Mock} {pc : MSendPC}, s1.ops = s.ops → Mock.Step s ev (s1.setOp o pc) → (ev = .step o ∨ ev = .accepted o op.addr op.msg ∨ ∃ r, ev = .ret o r) → pc ≠ op.pc →
      ∃ ev s' op', Mock.Step s ev s' ∧ (ev = .step o ∨ ev = .accepted o op.addr op.msg ∨ ∃ r, ev = .ret o r) ∧ s'.ops[o]? = some op' ∧ op'.pc ≠ op.pc := by
    intro ev s1 pc h0 hs he hp
    exact ⟨ev, _, { op with pc := pc }, hs, he, modify_some.mpr ⟨op, by rw [h0]; exact ho, by rw [if_pos rfl]⟩, hp⟩
  -- somebody holding the multicast of the address
  have acc : ∀ {o' : Nat} {op' : MSend}, s.ops[o']? = some op' → (∃ t, holds op'.pc = some t) → MockEv.accepted o' op'.addr op'.msg ∈ evs ∧ ∀ r, MockEv.ret o' r ∉ evs := by
    intro o' op' ho' ⟨t, ht⟩
    have hb : begun op'.pc = true ∧ ∀ res, op'.pc ≠ .done res := by
      cases hp : op'.pc <;> rw [hp] at ht <;> first | exact ⟨rfl, by simp⟩ | cases ht
    constructor
    · have hcount := hC.count o' op' ho'
      rw [hb.1] at hcount
      have hpos : 0 < evs.countP (isAccepted o') := by rw [hcount]; exact Nat.one_pos
      obtain ⟨ev, hev, hacc⟩ := List.countP_pos_iff.mp hpos
      cases ev with
      | accepted o2 a' m' =>
        have : o2 = o' := by simpa [isAccepted] using hacc
        subst this
        obtain ⟨op2, k1, k2, k3, _⟩ := hC.acc o2 a' m' hev
        rw [ho'] at k1
        obtain rfl := Option.some.inj k1
        rw [k2, k3]
        exact hev
      | _ => simp [isAccepted] at hacc
    · intro res hres
      obtain ⟨op2, k1, k2⟩ := hC.ret o' res hres
      rw [ho'] at k1
      obtain rfl := Option.some.inj k1
      exact hb.2 res k2
  obtain ⟨pc, hp⟩ : ∃ pc, op.pc = pc := ⟨_, rfl⟩
  cases pc with
  | start =>
    left
    obtain ⟨x, hx⟩ : ∃ x, s.snds[op.sender]? = some x := ⟨_, List.getElem?_eq_getElem (hP.snd o op ho)⟩
    cases hc : x.closed with
    | true => exact go rfl (.startClosed ho hp hx hc) (.inr (.inr ⟨_, rfl⟩)) (by simp [hp])
    | false =>
      cases hctx : op.ctx with
      | some e => exact go rfl (.startCtx ho hp hctx) (.inr (.inr ⟨_, rfl⟩)) (by simp [hp])
      | none => exact go rfl (.startGo ho hp hx hc hctx) (.inl rfl) (by simp [hp])
  | getting => exact .inl (go get_ops (.get ho hp) (.inl rfl) (by simp [hp]))
  | locking t =>
    have ht := hT.op o op t ho (by rw [hp]; rfl)
    obtain ⟨m, hm⟩ : ∃ m, s.mcs[t]? = some m := ⟨_, List.getElem?_eq_getElem (hT.bound _ _ ht)⟩
    cases hh : m.holder with
    | none =>
      left
      by_cases hr : m.receivers = []
      · exact go rfl (.lockEmpty ho hp hm hh hr) (.inl rfl) (by simp [hp])
      · exact go (s1 := s.setMC _ _) rfl (.lock ho hp hm hh hr) (.inr (.inl rfl)) (by simp [hp])
    | some o' =>
      right; left
      obtain ⟨op', k1, k2⟩ := hT.holder t o' m hm hh
      have ht' : topicOf op'.pc = some t := by
        cases hp' : op'.pc <;> rw [hp'] at k2 <;> first | exact k2 | cases k2
      have ha : op'.addr = op.addr := hT.inj _ _ t (hT.op o' op' t k1 ht') ht
      obtain ⟨k3, k4⟩ := acc k1 ⟨t, k2⟩
      refine ⟨o', op', ?_, k1, ha, ha ▸ k3, k4⟩
      rintro rfl
      rw [ho] at k1
      obtain rfl := Option.some.inj k1
      rw [hp] at k2
      cases k2
  | parked t v =>
    have ht := hT.op o op t ho (by rw [hp]; rfl)
    obtain ⟨m, hm⟩ : ∃ m, s.mcs[t]? = some m := ⟨_, List.getElem?_eq_getElem (hT.bound _ _ ht)⟩
    obtain ⟨ctx, hctx⟩ : ∃ ctx, op.ctx = ctx := ⟨_, rfl⟩
    cases ctx with
    | some e => exact .inl (go rfl (.parkCtx ho hp hctx) (.inr (.inr ⟨_, rfl⟩)) (by simp [hp]))
    | none =>
      by_cases hv : m.ver = v
      · right; right; left
        refine ⟨hctx, fun r hr hsub => ?_⟩
        obtain ⟨x, hx, ha⟩ := (hD.new r op.addr).mp hr
        obtain ⟨t', m', j1, j2, j3⟩ := hT.has r x hx ((hD.sub r x hx).mpr hsub)
        rw [ha, ht] at j1
        obtain rfl := Option.some.inj j1
        rw [hm] at j2
        obtain rfl := Option.some.inj j2
        rw [(hP.parked o op t v m ho hp hm).2 hv] at j3
        cases j3
      · exact .inl (go rfl (.wake ho hp hm hv) (.inl rfl) (by simp [hp]))
  | sending t left' =>
    left
    cases left' with
    | nil => exact go (s1 := s.setMC _ _) rfl (.finish ho hp) (.inr (.inr ⟨_, rfl⟩)) (by simp [hp])
    | cons r rest =>
      obtain ⟨m, hm, _, _, hmem⟩ := hT.held t o op ho (by rw [hp]; rfl)
      obtain ⟨x, hx, _⟩ := hT.mem t m r hm (hmem r (by rw [hp]; exact List.mem_cons_self))
      cases hc : x.closed with
      | true => exact go rfl (.skip ho hp hx hc) (.inl rfl) (by simp [hp])
      | false => exact go rfl (.offer ho hp hx hc) (.inl rfl) (by simp [hp])
  | offering t r rest =>
    obtain ⟨m, hm, _, _, hmem⟩ := hT.held t o op ho (by rw [hp]; rfl)
    obtain ⟨x, hx, _, hxt⟩ := hT.mem t m r hm (hmem r (by rw [hp]; exact List.mem_cons_self))
    have ht := hT.op o op t ho (by rw [hp]; rfl)
    rcases Nat.lt_or_ge x.chan.length x.cap with hl | hl
    · exact .inl (go (s1 := s.setRcv _ _) rfl (.put ho hp hx hl) (.inl rfl) (by simp [hp]))
    · exact .inr (.inr (.inr ⟨r, x, hx, hT.inj _ _ t hxt ht, hl⟩))
  | done r => exact absurd hp (hnd r)

end Verif.Props
