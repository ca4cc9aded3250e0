import Verif.Proofs.RecvLoop
import Verif.Props.Container

/-!
# C111: what the loops that receive messages make of errors

`Client.Listen`, `Manager.listenFlushes` and `Discovery.Run` on a link of the container (Model/RecvLoop.lean).
-/
namespace Verif.Props
open Verif Verif.Model Verif.Spec Verif.Proofs

/-- **C111 (discovery).** `Discovery.Run` handles each message it receives once, in the order received, and nothing else, whatever fails: at any time all messages received but the one in hand
have been handled. -/
theorem C111_discovery {P : LinkPolicy} {s0 s : RSys} {past : List CtrEv} {evs : RsEv} (hi : RSys.Init P s0 past) (h : RSys.Run P .discovery s0 evs s) :
    loopHandled evs.l ++ loopInHand s = loopReceived evs.l ∧ (loopReceived evs.l).Nodup :=
  ⟨(loopListInv_run hi h).discovery rfl, (loopListInv_run hi h).nodup⟩

/-- **C111 (client)** (partial: for the messages whose `Accept` succeeds).  A listener handles each message that it receives and accepts once, in order, and nothing else.
Missing: that a message is handled when its acceptance fails (false, `C111_counterexample_client`). -/
theorem C111_client_partial {P : LinkPolicy} {s0 s : RSys} {past : List CtrEv} {evs : RsEv} (hi : RSys.Init P s0 past) (h : RSys.Run P .client s0 evs s) :
    loopHandled evs.l ++ loopInHand s = (loopReceived evs.l).filter (fun m => decide (m ∉ loopRefused evs.l)) ∧ (loopReceived evs.l).Nodup :=
  ⟨(loopListInv_run hi h).client rfl, (loopListInv_run hi h).nodup⟩

theorem arrived_received {ce : GoErr} {l : List LoopEv} (h : ∀ e, LoopEv.nextErr e ∉ l) : loopArrived ce l = loopReceived l := by
  induction l with
  | nil => rfl
  | cons x l ih =>
    have ih := ih fun e he => h e (List.mem_cons_of_mem _ he)
    cases x with
    | nextErr e => exact absurd (List.mem_cons_self ..) (h e)
    | _ => simp [loopArrived, loopReceived, ih]

/-- **C111 (flush requests)** (partial: until the context of the manager ends).  `listenFlushes` asks for one flush per message it receives, in order, and for no other.
Missing: that it asks for none without a message when the context has ended (false, `C111_counterexample_flushes`). -/
theorem C111_flushes_partial {P : LinkPolicy} {s0 s : RSys} {past : List CtrEv} {evs : RsEv} (hi : RSys.Init P s0 past) (h : RSys.Run P .flushes s0 evs s) (hctx : s.ctx = none) :
    loopHandled evs.l ++ loopInHand s = loopReceived evs.l ∧ (loopReceived evs.l).Nodup := by
  have hl := loopListInv_run hi h
  refine ⟨?_, hl.nodup⟩
  rw [hl.flushes rfl .canceled (.inl hctx)]
  exact arrived_received fun e he => hl.live e he hctx

/-- **C111 (flush requests, exactly).** The flushes asked for are those of the messages, and one for each error of `Next` that is not the error of the context, with the nil message. -/
theorem C111_flushes {P : LinkPolicy} {s0 s : RSys} {past : List CtrEv} {evs : RsEv} {ce : GoErr} (hi : RSys.Init P s0 past) (h : RSys.Run P .flushes s0 evs s) (hctx : s.ctx = some ce) :
    loopHandled evs.l ++ loopInHand s = loopArrived ce evs.l :=
  (loopListInv_run hi h).flushes rfl ce (.inr hctx)

theorem ended_pc {P : LinkPolicy} {k : LoopKind} {s0 s : RSys} {evs : RsEv} (h : RSys.Run P k s0 evs s) (he : LoopEv.ended ∈ evs.l) : s.pc = .ended := by
  induction h with
  | nil => cases he
  | @snoc s1 s2 a ev h1 hc hs ih =>
    simp only [List.mem_append] at he
    rcases he with he | he
    · have := ih he
      cases hs with
      | env => exact this
      | cancel => exact this
      | cancelCall => exact this
      | callNext hp => rw [this] at hp; cases hp
      | callAccept hp => rw [this] at hp; cases hp
      | received hp => rw [this] at hp; cases hp
      | nextErr hp => rw [this] at hp; cases hp
      | accepted hp => rw [this] at hp; cases hp
      | acceptErr hp => rw [this] at hp; cases hp
      | handle hp => rw [this] at hp; cases hp
      | close hp => rfl
    · cases hs <;> first | rfl | simp at he

/-- **C111 (not before).** None of the three loops ends before its context has ended, and none sees an error of `Next` before: sessions that fail are not its concern. -/
theorem C111_lasts {P : LinkPolicy} {k : LoopKind} {s0 s : RSys} {past : List CtrEv} {evs : RsEv} (hi : RSys.Init P s0 past) (h : RSys.Run P k s0 evs s) (hctx : s.ctx = none) :
    LoopEv.ended ∉ evs.l ∧ s.pc ≠ .closing ∧ ∀ e, LoopEv.nextErr e ∉ evs.l := by
  have hl := loopListInv_run hi h
  exact ⟨fun he => hl.ended (.inr (ended_pc h he)) hctx, fun hp => hl.ended (.inl hp) hctx, fun e he => hl.live e he hctx⟩

/-- What the loop did after an event that ends it. -/
theorem after_end {P : LinkPolicy} {k : LoopKind} {s s' : RSys} {evs : RsEv} (h : RSys.Run P k s evs s') (hp : s.pc = .closing) :
    (s'.pc = .closing ∧ ∀ x ∈ evs.l, ∃ e, x = .cancel e) ∨ (s'.pc = .ended ∧ ∀ x ∈ evs.l, x = .ended ∨ ∃ e, x = .cancel e) := by
  induction h with
  | nil => exact .inl ⟨hp, by simp⟩
  | @snoc s1 s2 a ev h1 hc hs ih =>
    cases hs with
    | env => simpa using ih
    | cancel | cancelCall =>
      rcases ih with ⟨h2, h3⟩ | ⟨h2, h3⟩
      · exact .inl ⟨h2, fun x hx => (List.mem_append.1 hx).elim (h3 x) fun hx => ⟨_, List.mem_singleton.1 hx⟩⟩
      · exact .inr ⟨h2, fun x hx => (List.mem_append.1 hx).elim (h3 x) fun hx => .inr ⟨_, List.mem_singleton.1 hx⟩⟩
    | close hq =>
      rcases ih with ⟨h2, h3⟩ | ⟨h2, h3⟩
      · exact .inr ⟨rfl, fun x hx => (List.mem_append.1 hx).elim (fun hx => .inr (h3 x hx)) fun hx => .inl (List.mem_singleton.1 hx)⟩
      · rw [h2] at hq; cases hq
    | callNext hq | received hq | nextErr hq | callAccept hq | accepted hq | acceptErr hq | handle hq =>
      rcases ih with ⟨h2, -⟩ | ⟨h2, -⟩ <;> (rw [h2] at hq; cases hq)

/-- **C111 (end).** When `Next` returns the error of the context of the loop, or any error in the discovery, or `Accept` that error in a listener, then the loop handles nothing more: it closes its link and ends. -/
theorem C111_ends {P : LinkPolicy} {k : LoopKind} {s s1 s2 : RSys} {ev evs : RsEv} {x : LoopEv} (hs : RSys.Step P k s ev s1) (hx : ev.l = [x])
    (he : (∃ e, x = .nextErr e ∧ (k = .discovery ∨ errorsIs (some e) s.ctx)) ∨ ∃ m e, x = .acceptErr m e ∧ k = .client ∧ errorsIs (some e) s.ctx) (h : RSys.Run P k s1 evs s2) :
    (s2.pc = .closing ∨ s2.pc = .ended) ∧ ∀ y ∈ evs.l, y = .ended ∨ ∃ e, y = .cancel e := by
  have hp : s1.pc = .closing := by
    rcases he with ⟨e, rfl, he⟩ | ⟨m, e, rfl, rfl, he⟩
    · cases hs <;> simp at hx
      subst hx
      cases k <;> simp [LoopKind.onNextErr] at he ⊢ <;> exact he
    · cases hs <;> simp at hx
      obtain ⟨rfl, rfl⟩ := hx
      simp [LoopKind.onAccept, he]
  rcases after_end h hp with ⟨h1, h2⟩ | ⟨h1, h2⟩
  · exact ⟨.inl h1, fun y hy => .inr (h2 y hy)⟩
  · exact ⟨.inr h1, h2⟩

theorem gen_sessions {P : LinkPolicy} {s s' : Ctr} {evs : List CtrEv} (h : Ctr.Run P s evs s') : s'.gen = s.gen + countEv isSession evs := by
  induction h with
  | nil => rfl
  | snoc h1 hc hs ih =>
    rw [countEv_snoc, ← Nat.add_assoc, ← ih]
    cases hs <;> rfl

theorem ctx_same {P : LinkPolicy} {k : LoopKind} {s0 s : RSys} {evs : RsEv} {ce : GoErr} (h : RSys.Run P k s0 evs s) (h0 : s0.ctx = some ce) : s.ctx = some ce := by
  induction h with
  | nil => exact h0
  | snoc _ _ hs ih =>
    cases hs with
    | cancel e he hn => rw [ih] at hn; cases hn
    | cancelCall e hn => rw [ih] at hn; cases hn
    | _ => exact ih

/-- **C111 (how many).** From any time after the end of the context on, the calls of `Next` return at most two errors other than the error of the context, and one more for each session the
container establishes from then on.  So `listenFlushes` asks for at most as many flushes without a message. -/
theorem C111_stray {P : LinkPolicy} (hP : P.overlap = false) {k : LoopKind} {s0 s1 s2 : RSys} {past : List CtrEv} {a b : RsEv} {ce : GoErr} (hi : RSys.Init P s0 past)
    (ha : RSys.Run P k s0 a s1) (hctx : s1.ctx = some ce) (hb : RSys.Run P k s1 b s2) : strayErrors ce b.l ≤ countEv isSession b.c + 2 := by
  have hb0 : LoopBoundInv s1 s1.ctr.gen 0 := by
    have : ∃ A, LoopBoundInv s1 0 A := by
      clear hctx hb
      induction ha with
      | nil => exact ⟨0, loopBoundInv_init hP hi 0 (Nat.zero_le _)⟩
      | @snoc s' s'' evs ev h1 hc hs ih =>
        obtain ⟨A, ih⟩ := ih
        have hseq := seqInv_run hP (ctr_trans hi.run (rsys_proj h1))
        cases hx : s'.ctx with
        | none => exact ⟨_, loopBoundInv_step (ce := .canceled) hseq (loopCallInv_run hi h1) ih hs (.inl hx)⟩
        | some e => exact ⟨_, loopBoundInv_step (ce := e) hseq (loopCallInv_run hi h1) ih hs (.inr hx)⟩
    obtain ⟨A, h⟩ := this
    exact h.restart (Nat.le_refl _)
  have hend : LoopBoundInv s2 s1.ctr.gen (strayErrors ce b.l) := by
    induction hb with
    | nil => exact hb0
    | @snoc s' s'' evs ev h1 hc hs ih =>
      have hr := rsys_trans ha h1
      have := loopBoundInv_step (ce := ce) (seqInv_run hP (ctr_trans hi.run (rsys_proj hr))) (loopCallInv_run hi hr) ih hs (.inr (ctx_same h1 hctx))
      rw [← strayErrors_append] at this
      exact this
  obtain ⟨l, h1, h2⟩ := hend.link
  have hle := ((seqInv_run hP (ctr_trans hi.run (rsys_proj (rsys_trans ha hb)))).link _ _ h1).1.le
  have hg := gen_sessions (rsys_proj hb)
  have := h2.all
  unfold usedFrom at this
  split at this <;> omega

theorem none_stray {ce : GoErr} (l : List LoopEv) : (loopArrived ce l).count none = strayErrors ce l := by
  induction l with
  | nil => rfl
  | cons x l ih =>
    cases x with
    | nextErr e =>
      simp only [loopArrived, strayErrors]
      split
      · simp [ih]
      · simp [ih, Nat.add_comm]
    | _ => simp [loopArrived, strayErrors, ih]

/-- **C111 (how many flushes).** From the start of `listenFlushes` with a context that has ended at most two flushes more than sessions are asked for without a message; and before the context ends,
none (`C111_flushes_partial`). -/
theorem C111_flushes_none {P : LinkPolicy} {s0 s : RSys} {past : List CtrEv} {evs : RsEv} {ce : GoErr} (hi : RSys.Init P s0 past) (h : RSys.Run P .flushes s0 evs s) (hctx : s.ctx = some ce) :
    (loopHandled evs.l).count none ≤ strayErrors ce evs.l := by
  rw [← none_stray, ← C111_flushes hi h hctx, List.count_append]
  exact Nat.le_add_right _ _

/-! ## Examples -/

/-- A container with a session, and a receiver that was made then. -/
def recvStart : Ctr :=
  { gen := 1, loop := .serving, conns := [{ gen := some 1 }], links := [{ sender := false, currGen := 1, curr := some 1 }] }

def recv0 : RSys := { ctr := recvStart, link := 0 }

theorem recv_init : RSys.Init exclusive recv0 [.start, .dialOk, .session 1] where
  run := by
    have r1 := (Ctr.Run.nil (P := exclusive) (s := {})).snoc rfl (.start rfl)
    have r2 := r1.snoc rfl (.dialOk rfl)
    have r3 := r2.snoc rfl (.session rfl)
    exact r3.snoc rfl (.newLink false rfl)
  receiver := by intro l hl; cases hl; rfl
  pc := rfl
  ctx := by intro e h; cases h

/-- Events that are no calls, returns or cancellations of operations and close no link. -/
def isInner : CtrEv → Bool
  | .call .. | .close _ | .cancelOp .. | .ret .. => false
  | _ => true

/-- A step of the container by an operation of the loop. -/
theorem RSys.Run.op {k : LoopKind} {s0 s : RSys} {evs : RsEv} {ev : CtrEv} {c : Ctr} (h : RSys.Run exclusive k s0 evs s) (hc : s.ctr.crashed = false) (hs : Ctr.Step exclusive s.ctr ev c)
    (hf : isInner ev = true) :
    RSys.Run exclusive k s0 { c := evs.c ++ [ev], l := evs.l ++ [] } { s with ctr := c } := by
  refine h.snoc hc (.env hs ⟨?_, ?_, fun o _ => ⟨?_, ?_⟩⟩)
  · intro o h; subst h; cases hf
  · intro h; subst h; cases hf
  · intro e h; subst h; cases hf
  · intro r h; subst h; cases hf

/-- A receive call that fails with the session: from the call of `Next` to the point where the error is about to be returned, in a container that has established another session since. -/
theorem recv_fails (k : LoopKind) : ∃ (evs : RsEv) (c : Ctr), RSys.Run exclusive k recv0 evs { ctr := c, link := 0, pc := .inNext 0 } ∧ evs.l = [] ∧
    c = { gen := 2, loop := .serving, conns := [{ gen := some 1, open_ := false }, { gen := some 2 }], eps := [{ gen := 1, link := 0, open_ := false }],
          links := [{ sender := false, currGen := 1, curr := some 1, epGen := 1, ep := some 0 }],
          ops := [{ link := 0, kind := .next, pc := .clearing (.wrap "error" (.other "x")) }] } := by
  have r1 := (RSys.Run.nil (P := exclusive) (k := k) (s := recv0)).snoc rfl (.callNext rfl (.call 0 .next none rfl rfl (by simp) (by intro _; rfl)))
  have r2 := RSys.Run.op r1 rfl (.startHas (o := 0) rfl rfl rfl rfl rfl) rfl
  have r3 := RSys.Run.op r2 rfl (.attach (o := 0) rfl rfl rfl (by simp) rfl) rfl
  have r4 := RSys.Run.op r3 rfl (.useFail (.other "x") (o := 0) rfl rfl (by decide) rfl rfl) rfl
  have r5 := RSys.Run.op r4 rfl (.prepare (o := 0) rfl rfl (by decide) (by decide) rfl) rfl
  have r6 := RSys.Run.op r5 rfl (.report (o := 0) rfl rfl (by decide)) rfl
  have r7 := RSys.Run.op r6 rfl (.restart "x" rfl rfl) rfl
  have r8 := RSys.Run.op r7 rfl (.retry rfl rfl) rfl
  have r9 := RSys.Run.op r8 rfl (.notified rfl) rfl
  have r10 := RSys.Run.op r9 rfl (.again rfl) rfl
  have r11 := RSys.Run.op r10 rfl (.dialOk rfl) rfl
  have r12 := RSys.Run.op r11 rfl (.session rfl) rfl
  exact ⟨_, _, r12, rfl, rfl⟩

/-- **C111** is false for flush requests: a session fails during `Next` and the context ends before `Next` looks at it.  No message was ever received, and a flush is asked for.
In between the AMQP library is called with a nil message (`accept` of the session that was established since; `C111_counterexample_nil`). -/
theorem C111_counterexample_flushes : ∃ (evs : RsEv) (s : RSys), RSys.Run exclusive .flushes recv0 evs s ∧ loopReceived evs.l = [] ∧ loopHandled evs.l = [none] := by
  obtain ⟨evs, c, h, hl, rfl⟩ := recv_fails .flushes
  have r1 := h.snoc rfl (.cancelCall .canceled (o := 0) rfl rfl (.cancelOp 0 .canceled (by decide) rfl rfl))
  have r2 := RSys.Run.op r1 rfl (.clear (o := 0) rfl rfl rfl) rfl
  have r3 := r2.snoc rfl (.nextErr (o := 0) rfl (.ret rfl rfl (by simp)))
  have r4 := r3.snoc rfl (.callAccept (m := none) rfl (.call 0 .accept (some .canceled) rfl rfl (by intro e h; cases h; exact .inl rfl) (by intro _; rfl)))
  have r5 := RSys.Run.op r4 rfl (.startWait (o := 1) rfl rfl rfl rfl rfl) rfl
  have r6 := RSys.Run.op r5 rfl (.waited (o := 1) rfl rfl rfl (by decide)) rfl
  have r7 := RSys.Run.op r6 rfl (.take (o := 1) rfl rfl rfl) rfl
  have r8 := RSys.Run.op r7 rfl (.attachFail .canceled (o := 1) rfl rfl rfl (by simp) rfl rfl) rfl
  have r9 := RSys.Run.op r8 rfl (.benign (o := 1) rfl rfl (.inl rfl)) rfl
  have r10 := r9.snoc rfl (.acceptErr (o := 1) (m := none) rfl (.ret rfl rfl (by simp)))
  have r11 := r10.snoc rfl (.handle (m := none) rfl)
  exact ⟨_, _, r11, by simp [hl, loopReceived], by simp [hl, loopHandled]⟩

/-- The AMQP library is called to accept the nil message: the loop is in `Accept(ctx, nil)` and the operation is in the call of `AcceptMessage` (container.go:411). -/
theorem C111_counterexample_nil : ∃ (evs : RsEv) (s : RSys) (o ep : Nat) (op : LOp), RSys.Run exclusive .flushes recv0 evs s ∧ s.pc = .inAccept o none ∧ s.ctr.ops[o]? = some op ∧
    op.pc = .inCall ep := by
  obtain ⟨evs, c, h, hl, rfl⟩ := recv_fails .flushes
  have r1 := h.snoc rfl (.cancelCall .canceled (o := 0) rfl rfl (.cancelOp 0 .canceled (by decide) rfl rfl))
  have r2 := RSys.Run.op r1 rfl (.clear (o := 0) rfl rfl rfl) rfl
  have r3 := r2.snoc rfl (.nextErr (o := 0) rfl (.ret rfl rfl (by simp)))
  have r4 := r3.snoc rfl (.callAccept (m := none) rfl (.call 0 .accept (some .canceled) rfl rfl (by intro e h; cases h; exact .inl rfl) (by intro _; rfl)))
  have r5 := RSys.Run.op r4 rfl (.startWait (o := 1) rfl rfl rfl rfl rfl) rfl
  have r6 := RSys.Run.op r5 rfl (.waited (o := 1) rfl rfl rfl (by decide)) rfl
  have r7 := RSys.Run.op r6 rfl (.take (o := 1) rfl rfl rfl) rfl
  have r8 := RSys.Run.op r7 rfl (.attach (o := 1) rfl rfl rfl (by simp) rfl) rfl
  exact ⟨_, _, 1, 1, _, r8, rfl, rfl, rfl⟩

/-- **C111** is false for a client: a message is received, its acceptance fails, and the listener goes on without handling it, while its context has not ended. -/
theorem C111_counterexample_client : ∃ (evs : RsEv) (s : RSys), RSys.Run exclusive .client recv0 evs s ∧ s.ctx = none ∧ s.pc = .next ∧ loopReceived evs.l = [some 0] ∧ loopHandled evs.l = [] := by
  have r1 := (RSys.Run.nil (P := exclusive) (k := .client) (s := recv0)).snoc rfl (.callNext rfl (.call 0 .next none rfl rfl (by simp) (by intro _; rfl)))
  have r2 := RSys.Run.op r1 rfl (.startHas (o := 0) rfl rfl rfl rfl rfl) rfl
  have r3 := RSys.Run.op r2 rfl (.attach (o := 0) rfl rfl rfl (by simp) rfl) rfl
  have r4 := RSys.Run.op r3 rfl (.useOk (o := 0) rfl rfl) rfl
  have r5 := r4.snoc rfl (.received (o := 0) rfl (.ret rfl rfl (by simp)))
  have r6 := r5.snoc rfl (.callAccept (m := some 0) rfl (.call 0 .accept none rfl rfl (by simp) (by intro _; rfl)))
  have r7 := RSys.Run.op r6 rfl (.startHas (o := 1) rfl rfl rfl rfl rfl) rfl
  have r8 := RSys.Run.op r7 rfl (.reuse (o := 1) rfl rfl rfl rfl rfl rfl) rfl
  have r9 := RSys.Run.op r8 rfl (.acceptFail (.other "x") (o := 1) rfl rfl rfl rfl) rfl
  have r10 := r9.snoc rfl (.acceptErr (o := 1) (m := some 0) rfl (.ret rfl rfl (by simp)))
  exact ⟨_, _, r10, rfl, rfl, rfl, rfl⟩

/-- Instance of `C111_discovery` and of the other loops: a message is received, accepted and handled. -/
theorem C111_instance (k : LoopKind) : ∃ (evs : RsEv) (s : RSys), RSys.Run exclusive k recv0 evs s ∧ s.ctx = none ∧ s.pc = .next ∧ loopReceived evs.l = [some 0] ∧
    loopHandled evs.l = [some 0] := by
  have r1 := (RSys.Run.nil (P := exclusive) (k := k) (s := recv0)).snoc rfl (.callNext rfl (.call 0 .next none rfl rfl (by simp) (by intro _; rfl)))
  have r2 := RSys.Run.op r1 rfl (.startHas (o := 0) rfl rfl rfl rfl rfl) rfl
  have r3 := RSys.Run.op r2 rfl (.attach (o := 0) rfl rfl rfl (by simp) rfl) rfl
  have r4 := RSys.Run.op r3 rfl (.useOk (o := 0) rfl rfl) rfl
  have r5 := r4.snoc rfl (.received (o := 0) rfl (.ret rfl rfl (by simp)))
  have r6 := r5.snoc rfl (.callAccept (m := some 0) rfl (.call 0 .accept none rfl rfl (by simp) (by intro _; rfl)))
  have r7 := RSys.Run.op r6 rfl (.startHas (o := 1) rfl rfl rfl rfl rfl) rfl
  have r8 := RSys.Run.op r7 rfl (.reuse (o := 1) rfl rfl rfl rfl rfl rfl) rfl
  have r9 := RSys.Run.op r8 rfl (.useOk (o := 1) rfl rfl) rfl
  have r10 := r9.snoc rfl (.accepted (o := 1) (m := some 0) rfl (.ret rfl rfl (by simp)))
  have e : k.onAccept (some 0) none none = .handle (some 0) := by cases k <;> rfl
  have r11 := r10.snoc rfl (.handle (m := some 0) e)
  exact ⟨_, _, r11, rfl, rfl, rfl, rfl⟩

/-- The state of `recv_fails` when the context has ended. -/
def recv1 : RSys where
  ctr := { gen := 2, loop := .serving, conns := [{ gen := some 1, open_ := false }, { gen := some 2 }], eps := [{ gen := 1, link := 0, open_ := false }],
           links := [{ sender := false, currGen := 1, curr := some 1, epGen := 1, ep := some 0 }],
           ops := [{ link := 0, kind := .next, ctx := some .canceled, pc := .clearing (.wrap "error" (.other "x")) }] }
  link := 0
  ctx := some .canceled
  pc := .inNext 0

/-- The bound of `C111_stray` is reached: two errors other than that of the context, and no session is established after its end. -/
theorem C111_stray_example : ∃ (a b : RsEv) (s1 s2 : RSys), RSys.Run exclusive .client recv0 a s1 ∧ s1.ctx = some .canceled ∧ RSys.Run exclusive .client s1 b s2 ∧
    strayErrors .canceled b.l = 2 ∧ countEv isSession b.c = 0 := by
  obtain ⟨evs, c, h, hl, rfl⟩ := recv_fails .client
  have r1 := h.snoc rfl (.cancelCall .canceled (o := 0) rfl rfl (.cancelOp 0 .canceled (by decide) rfl rfl))
  have q0 := RSys.Run.nil (P := exclusive) (k := .client) (s := recv1)
  have r2 := RSys.Run.op q0 rfl (.clear (o := 0) rfl rfl rfl) rfl
  have r3 := r2.snoc rfl (.nextErr (o := 0) rfl (.ret rfl rfl (by simp)))
  have r4 := r3.snoc rfl (.callNext rfl (.call 0 .next (some .canceled) rfl rfl (by intro e h; cases h; exact .inl rfl) (by intro _; rfl)))
  have r5 := RSys.Run.op r4 rfl (.startWait (o := 1) rfl rfl rfl rfl rfl) rfl
  have r6 := RSys.Run.op r5 rfl (.waited (o := 1) rfl rfl rfl (by decide)) rfl
  have r7 := RSys.Run.op r6 rfl (.take (o := 1) rfl rfl rfl) rfl
  have r8 := RSys.Run.op r7 rfl (.attachFail (.other "y") (o := 1) rfl rfl rfl (by simp) rfl rfl) rfl
  have r9 := RSys.Run.op r8 rfl (.prepare (o := 1) rfl rfl (by decide) (by decide) rfl) rfl
  have r10 := RSys.Run.op r9 rfl (.report (o := 1) rfl rfl (by decide)) rfl
  have r11 := RSys.Run.op r10 rfl (.clear (o := 1) rfl rfl rfl) rfl
  have r12 := r11.snoc rfl (.nextErr (o := 1) rfl (.ret rfl rfl (by simp [recv1])))
  exact ⟨_, _, _, _, r1, rfl, r12, rfl, rfl⟩

end Verif.Props
