import Verif.Spec.RecvLoop
import Verif.Proofs.Container

/-!
# Loops that receive messages: invariants
-/
namespace Verif.Proofs
open Verif Verif.Model Verif.Spec

theorem loopReceived_append (a b : List LoopEv) : loopReceived (a ++ b) = loopReceived a ++ loopReceived b := by
  induction a with
  | nil => rfl
  | cons x a ih => cases x <;> simp [loopReceived, ih]

theorem loopHandled_append (a b : List LoopEv) : loopHandled (a ++ b) = loopHandled a ++ loopHandled b := by
  induction a with
  | nil => rfl
  | cons x a ih => cases x <;> simp [loopHandled, ih]

theorem loopRefused_append (a b : List LoopEv) : loopRefused (a ++ b) = loopRefused a ++ loopRefused b := by
  induction a with
  | nil => rfl
  | cons x a ih => cases x <;> simp [loopRefused, ih]

theorem loopArrived_append (ce : GoErr) (a b : List LoopEv) : loopArrived ce (a ++ b) = loopArrived ce a ++ loopArrived ce b := by
  induction a with
  | nil => rfl
  | cons x a ih =>
    cases x with
    | nextErr e => simp only [List.cons_append, loopArrived, ih]; split <;> simp
    | _ => simp [loopArrived, ih]

theorem strayErrors_append (ce : GoErr) (a b : List LoopEv) : strayErrors ce (a ++ b) = strayErrors ce a + strayErrors ce b := by
  induction a with
  | nil => simp [strayErrors]
  | cons x a ih => cases x <;> simp [strayErrors, ih, Nat.add_assoc]

/-- The loop is one user of the container. -/
theorem rsys_proj {P : LinkPolicy} {k : LoopKind} {s0 s : RSys} {evs : RsEv} (h : RSys.Run P k s0 evs s) : Ctr.Run P s0.ctr evs.c s.ctr := by
  induction h with
  | nil => exact .nil
  | snoc h1 hc hs ih =>
    cases hs with
    | env h _ => exact .snoc ih hc h
    | cancel => simpa using ih
    | cancelCall e _ _ h => exact .snoc ih hc h
    | callNext _ h => exact .snoc ih hc h
    | received _ h => exact .snoc ih hc h
    | nextErr _ h => exact .snoc ih hc h
    | callAccept _ h => exact .snoc ih hc h
    | accepted _ h => exact .snoc ih hc h
    | acceptErr _ h => exact .snoc ih hc h
    | handle => simpa using ih
    | close _ h => exact .snoc ih hc h

theorem rsys_trans {P : LinkPolicy} {k : LoopKind} {s0 s s' : RSys} {a b : RsEv} (h : RSys.Run P k s0 a s) (h' : RSys.Run P k s b s') :
    RSys.Run P k s0 { c := a.c ++ b.c, l := a.l ++ b.l } s' := by
  induction h' with
  | nil => simpa using h
  | snoc _ hc hs ih =>
    have := RSys.Run.snoc ih hc hs
    simpa [List.append_assoc] using this

theorem rsys_link {P : LinkPolicy} {k : LoopKind} {s0 s : RSys} {evs : RsEv} (h : RSys.Run P k s0 evs s) : s.link = s0.link := by
  induction h with
  | nil => rfl
  | snoc _ _ hs ih => cases hs <;> exact ih

/-- Which operation the loop is in. -/
def RecvPC.kind? : RecvPC → Option OpKind
  | .inNext _ => some .next
  | .inAccept .. => some .accept
  | _ => none

/-- The call the loop is in is an operation of the container, with the context of the loop. -/
structure LoopCallInv (s : RSys) : Prop where
  call : ∀ o, s.pc.op? = some o → ∃ op, s.ctr.ops[o]? = some op ∧ op.link = s.link ∧ RecvPC.kind? s.pc = some op.kind ∧ op.ctx = s.ctx ∧ op.active = true

/-- An operation ends only with its return. -/
theorem active_stays {P : LinkPolicy} {s s' : Ctr} {ev : CtrEv} {o : Nat} {op op' : LOp} (hs : Ctr.Step P s ev s') (ho : s.ops[o]? = some op) (ha : op.active = true)
    (hr : ∀ r, ev ≠ .ret o r) (ho' : s'.ops[o]? = some op') : op'.active = true := by
  have same : s'.ops = s.ops → op'.active = true := fun h0 => by rw [h0, ho] at ho'; obtain rfl := Option.some.inj ho'; exact ha
  have move : ∀ {o1 : Nat} {op1 : LOp} {pc : OpPC} {s1 : Ctr}, s' = s1.setOp o1 pc → s1.ops = s.ops → s.ops[o1]? = some op1 → (o1 = o → ∀ r, pc ≠ .done r) → op'.active = true := by
    intro o1 op1 pc s1 h0 h1 h2 h3
    subst h0
    have hg := setOp_get' (pc := pc) h1 h2 o
    rw [hg] at ho'
    by_cases e : o1 = o
    · rw [if_pos e] at ho'
      obtain rfl := Option.some.inj ho'
      have := h3 e
      cases pc <;> first | rfl | exact absurd rfl (this _)
    · rw [if_neg e, ho] at ho'
      obtain rfl := Option.some.inj ho'
      exact ha
  cases hs with
  | @call l i k ctx h1 h2 h3 h4 =>
    have : (s.ops ++ [_])[o]? = some op' := ho'
    rw [List.getElem?_append_left (List.getElem?_eq_some_iff.mp ho).1, ho] at this
    obtain rfl := Option.some.inj this
    exact ha
  | @cancelOp op1 o1 e1 h1 h2 h3 =>
    have : (s.ops.set o1 _)[o]? = some op' := ho'
    rw [List.getElem?_set] at this
    by_cases e : o1 = o
    · subst e
      rw [ho] at h2
      obtain rfl := Option.some.inj h2
      rw [if_pos rfl, if_pos (List.getElem?_eq_some_iff.mp ho).1] at this
      obtain rfl := Option.some.inj this
      exact ha
    · rw [if_neg e, ho] at this
      obtain rfl := Option.some.inj this
      exact ha
  | startClosed h1 => exact move rfl rfl h1 (by simp)
  | startHas h1 => exact move rfl rfl h1 (by simp)
  | startWait h1 => exact move rfl rfl h1 (by simp)
  | waited h1 => exact move rfl rfl h1 (by simp)
  | park h1 => exact move rfl rfl h1 (by simp)
  | wake h1 => exact move rfl rfl h1 (by simp)
  | woken h1 => exact move rfl rfl h1 (by simp)
  | waitCancelled h1 => exact move rfl rfl h1 (by simp)
  | take h1 => exact move rfl rfl h1 (by simp)
  | reuse h1 => exact move rfl rfl h1 (by simp)
  | attach h1 => exact move rfl rfl h1 (by simp)
  | attachFail e h1 => exact move rfl rfl h1 (by simp)
  | useOk h1 => exact move rfl rfl h1 (by simp)
  | useFail e h1 => exact move rfl rfl h1 (by simp)
  | acceptFail e h1 => exact move rfl rfl h1 (by simp)
  | benign h1 => exact move rfl rfl h1 (by simp)
  | prepare h1 => exact move rfl rfl h1 (by simp)
  | report h1 => exact move rfl rfl h1 (by simp)
  | clear h1 => exact move rfl rfl h1 (by simp)
  | nextAgain h1 => exact move rfl rfl h1 (by simp)
  | ret h1 => exact move rfl rfl h1 (fun e => absurd (by rw [e]) (hr _))
  | _ => exact same rfl

theorem called_get (s : RSys) (k : OpKind) : (s.called k).ops[s.ctr.ops.length]? = some { link := s.link, kind := k, ctx := s.ctx } := by
  simp [RSys.called]

theorem onNextErr_op {k : LoopKind} {e : GoErr} {ctx : Option GoErr} : (k.onNextErr e ctx).op? = none := by
  cases k <;> simp only [LoopKind.onNextErr] <;> first | rfl | (split <;> rfl)

theorem onAccept_op {k : LoopKind} {m : Option Nat} {r ctx : Option GoErr} : (k.onAccept m r ctx).op? = none := by
  cases k <;> cases r <;> simp only [LoopKind.onAccept] <;> first | rfl | (split <;> rfl)

theorem loopCallInv_step {P : LinkPolicy} {k : LoopKind} {s s' : RSys} {ev : RsEv} (h : LoopCallInv s) (hs : RSys.Step P k s ev s') : LoopCallInv s' := by
  have none : ∀ {s' : RSys}, s'.pc.op? = none → LoopCallInv s' := fun h0 => ⟨fun o ho => by rw [h0] at ho; cases ho⟩
  cases hs with
  | @env ev c hst hf =>
    refine ⟨fun o ho => ?_⟩
    obtain ⟨op, h1, h2, h3, h4, h5⟩ := h.call o ho
    obtain ⟨op', g1, g2, g3, g4⟩ := op_view hst h1
    refine ⟨op', g1, g2.trans h2, by rw [g3]; exact h3, ?_, active_stays hst h1 h5 (hf.2.2 o ho).2 g1⟩
    rcases g4 with ⟨e, _⟩ | ⟨e, he, _⟩ | ⟨e1, e2, e3⟩
    · rw [e]; exact h4
    · exact absurd he ((hf.2.2 o ho).1 e)
    · exact e1.trans h4
  | cancel e _ _ hp => exact none hp
  | @cancelCall o c e hc hp hst =>
    refine ⟨fun o' ho' => ?_⟩
    have : o' = o := by have := ho'.symm.trans hp; exact Option.some.inj this
    subst this
    obtain ⟨op, h1, h2, h3, h4, h5⟩ := h.call o' hp
    obtain ⟨op', g1, g2, g3, g4⟩ := op_view hst h1
    refine ⟨op', g1, g2.trans h2, by rw [g3]; exact h3, ?_, active_stays hst h1 h5 (by simp) g1⟩
    generalize hev : CtrEv.cancelOp o' e = ev at hst g4
    cases hst with
    | cancelOp o1 e1 q1 q2 q3 =>
      cases hev
      have : (s.ctr.ops.set o' _)[o']? = some op' := g1
      rw [List.getElem?_set, if_pos rfl, if_pos (List.getElem?_eq_some_iff.mp h1).1] at this
      obtain rfl := Option.some.inj this
      rfl
    | _ => cases hev
  | callNext hp hst =>
    refine ⟨fun o ho => ?_⟩
    cases ho
    exact ⟨_, called_get s .next, rfl, rfl, rfl, rfl⟩
  | callAccept hp hst =>
    refine ⟨fun o ho => ?_⟩
    cases ho
    exact ⟨_, called_get s .accept, rfl, rfl, rfl, rfl⟩
  | received => exact none rfl
  | nextErr => exact none onNextErr_op
  | accepted => exact none onAccept_op
  | acceptErr => exact none onAccept_op
  | handle => exact none rfl
  | close => exact none rfl

theorem loopCallInv_run {P : LinkPolicy} {k : LoopKind} {s0 s : RSys} {past : List CtrEv} {evs : RsEv} (hi : RSys.Init P s0 past) (h : RSys.Run P k s0 evs s) : LoopCallInv s := by
  induction h with
  | nil => exact ⟨fun o ho => by rw [hi.pc] at ho; cases ho⟩
  | snoc _ _ hs ih => exact loopCallInv_step ih hs

/-- What a return of Next says. -/
theorem ret_view {P : LinkPolicy} {s s' : Ctr} {o : Nat} {r : Option GoErr} (hs : Ctr.Step P s (.ret o r) s') :
    ∃ op, s.ops[o]? = some op ∧ op.pc = .leaving r ∧ (op.kind = .next → r = none ∨ op.ctx ≠ none) ∧ s' = s.setOp o (.done r) := by
  generalize hev : CtrEv.ret o r = ev at hs
  cases hs with
  | ret h1 h2 h3 => cases hev; exact ⟨_, h1, h2, h3, rfl⟩
  | _ => cases hev

/-- `Next` returns an error only after the context has ended. -/
theorem nextErr_ctx {P : LinkPolicy} {s : RSys} {c : Ctr} {o : Nat} {e : GoErr} (h : LoopCallInv s) (hp : s.pc = .inNext o) (hs : Ctr.Step P s.ctr (.ret o (some e)) c) : s.ctx ≠ none := by
  obtain ⟨op, h1, h2, h3, h4, h5⟩ := h.call o (by rw [hp]; rfl)
  obtain ⟨op', g1, g2, g3, _⟩ := ret_view hs
  rw [h1] at g1
  obtain rfl := Option.some.inj g1
  rw [hp] at h3
  rcases g3 (Option.some.inj h3).symm with h | h
  · cases h
  · rwa [h4] at h

theorem ops_grow {P : LinkPolicy} {s s' : Ctr} {ev : CtrEv} (hs : Ctr.Step P s ev s') {o : Nat} (h : o < s.ops.length) : o < s'.ops.length := by
  obtain ⟨op', h', _⟩ := op_view hs (List.getElem?_eq_getElem h)
  exact (List.getElem?_eq_some_iff.mp h').1

/-- A matching error needs a context that has ended. -/
theorem errorsIs_ctx {e : GoErr} {c : Option GoErr} (h : errorsIs (some e) c = true) : c ≠ none := by
  intro h0; subst h0; cases h

/-- What the events of the loop say. -/
structure LoopListInv (k : LoopKind) (l : List LoopEv) (s : RSys) : Prop where
  live : ∀ e, LoopEv.nextErr e ∈ l → s.ctx ≠ none
  ended : s.pc = .closing ∨ s.pc = .ended → s.ctx ≠ none
  nodup : (loopReceived l).Nodup
  some_ : ∀ m ∈ loopReceived l, ∃ n, m = some n ∧ n < s.ctr.ops.length
  fresh : ∀ o, s.pc = .inNext o → some o ∉ loopReceived l
  mine : ∀ m ∈ loopInHand s, m ∈ loopReceived l ∨ (k = .flushes ∧ m = none)
  refused : k ≠ .flushes → ∀ m ∈ loopRefused l, m ∈ loopReceived l
  flushes : k = .flushes → ∀ ce, (s.ctx = none ∨ s.ctx = some ce) → loopHandled l ++ loopInHand s = loopArrived ce l
  discovery : k = .discovery → loopHandled l ++ loopInHand s = loopReceived l
  client : k = .client → loopHandled l ++ loopInHand s = (loopReceived l).filter fun m => decide (m ∉ loopRefused l)

/-- A step that does not concern the messages. -/
theorem LoopListInv.still {k : LoopKind} {l : List LoopEv} {s s' : RSys} (h : LoopListInv k l s) (hctx : s'.ctx = s.ctx) (hh : loopInHand s' = loopInHand s)
    (hpc : s'.pc = .closing ∨ s'.pc = .ended → s.ctx ≠ none) (hf : ∀ o, s'.pc = .inNext o → some o ∉ loopReceived l)
    (hops : ∀ o, o < s.ctr.ops.length → o < s'.ctr.ops.length) : LoopListInv k l s' where
  live e he := by rw [hctx]; exact h.live e he
  ended hp := by rw [hctx]; exact hpc hp
  nodup := h.nodup
  some_ m hm := let ⟨n, h1, h2⟩ := h.some_ m hm; ⟨n, h1, hops n h2⟩
  fresh := hf
  mine m hm := h.mine m (by rwa [hh] at hm)
  refused := h.refused
  flushes hk ce hce := by rw [hh]; exact h.flushes hk ce (by rwa [hctx] at hce)
  discovery hk := by rw [hh]; exact h.discovery hk
  client hk := by rw [hh]; exact h.client hk

theorem filter_refuse {L R H : List (Option Nat)} {m : Option Nat} (hn : L.Nodup) (h : H ++ [m] = L.filter fun x => decide (x ∉ R)) :
    H = L.filter fun x => decide (x ∉ R ++ [m]) := by
  have e1 : (L.filter fun x => decide (x ∉ R ++ [m])) = (L.filter fun x => decide (x ∉ R)).filter fun x => decide (x ≠ m) := by
    rw [List.filter_filter]
    congr 1
    funext x
    by_cases h1 : x = m <;> by_cases h2 : x ∈ R <;> simp [h1, h2]
  have hn' : (H ++ [m]).Nodup := by rw [h]; exact hn.filter _
  rw [e1, ← h, List.filter_append]
  have h1 : H.filter (fun x => decide (x ≠ m)) = H := by
    rw [List.filter_eq_self]
    intro x hx
    rw [List.nodup_append] at hn'
    simpa using hn'.2.2 x hx m (by simp)
  rw [h1]; simp

theorem loopListInv_step {P : LinkPolicy} {k : LoopKind} {l : List LoopEv} {s s' : RSys} {ev : RsEv} (hc : LoopCallInv s) (h : LoopListInv k l s) (hs : RSys.Step P k s ev s') :
    LoopListInv k (l ++ ev.l) s' := by
  cases hs with
  | env hst hf =>
    show LoopListInv k (l ++ []) _
    rw [List.append_nil]
    exact h.still rfl rfl h.ended h.fresh (fun o ho => ops_grow hst ho)
  | cancel e he hn hp =>
    refine ⟨fun _ _ => by simp, fun _ => by simp, ?_, ?_, ?_, ?_, ?_, ?_, ?_, ?_⟩
    · simpa [loopReceived_append, loopReceived] using h.nodup
    · simpa [loopReceived_append, loopReceived] using h.some_
    · simpa [loopReceived_append, loopReceived] using h.fresh
    · simpa [loopReceived_append, loopReceived, loopInHand] using h.mine
    · simpa [loopReceived_append, loopReceived, loopRefused_append, loopRefused] using h.refused
    · intro hk ce hce; simpa [loopHandled_append, loopHandled, loopArrived_append, loopArrived, loopInHand] using h.flushes hk ce (.inl hn)
    · simpa [loopHandled_append, loopHandled, loopReceived_append, loopReceived, loopInHand] using h.discovery
    · simpa [loopHandled_append, loopHandled, loopReceived_append, loopReceived, loopRefused_append, loopRefused, loopInHand] using h.client
  | cancelCall e hn hp hst =>
    refine ⟨fun _ _ => by simp, fun _ => by simp, ?_, ?_, ?_, ?_, ?_, ?_, ?_, ?_⟩
    · simpa [loopReceived_append, loopReceived] using h.nodup
    · intro m hm
      obtain ⟨n, h1, h2⟩ := h.some_ m (by simpa [loopReceived_append, loopReceived] using hm)
      exact ⟨n, h1, ops_grow hst h2⟩
    · simpa [loopReceived_append, loopReceived] using h.fresh
    · simpa [loopReceived_append, loopReceived, loopInHand] using h.mine
    · simpa [loopReceived_append, loopReceived, loopRefused_append, loopRefused] using h.refused
    · intro hk ce hce; simpa [loopHandled_append, loopHandled, loopArrived_append, loopArrived, loopInHand] using h.flushes hk ce (.inl hn)
    · simpa [loopHandled_append, loopHandled, loopReceived_append, loopReceived, loopInHand] using h.discovery
    · simpa [loopHandled_append, loopHandled, loopReceived_append, loopReceived, loopRefused_append, loopRefused, loopInHand] using h.client
  | callNext hp hst =>
    show LoopListInv k (l ++ []) _
    rw [List.append_nil]
    refine h.still rfl (by simp [loopInHand, hp]) (by simp) ?_ (fun o ho => ops_grow hst ho)
    intro o ho
    cases ho
    intro hm
    obtain ⟨n, h1, h2⟩ := h.some_ _ hm
    cases h1; exact absurd h2 (Nat.lt_irrefl _)
  | @callAccept m hp hst =>
    show LoopListInv k (l ++ []) _
    rw [List.append_nil]
    exact h.still rfl (by simp [loopInHand, hp]) (by simp) (by simp) (fun o ho => ops_grow hst ho)
  | @received o c hp hst =>
    have hnot := h.fresh o hp
    obtain ⟨op, h1, _⟩ := hc.call o (by rw [hp]; rfl)
    have hlt := (List.getElem?_eq_some_iff.mp h1).1
    have hh : loopInHand s = [] := by simp [loopInHand, hp]
    refine ⟨?_, by simp, ?_, ?_, by simp, ?_, ?_, ?_, ?_, ?_⟩
    · intro e he; exact h.live e (by simpa using he)
    · simp only [loopReceived_append, loopReceived]
      rw [List.nodup_append]
      exact ⟨h.nodup, by simp, by rintro a ha b hb rfl; simp at hb; subst hb; exact hnot ha⟩
    · intro m hm
      simp only [loopReceived_append, loopReceived, List.mem_append, List.mem_singleton] at hm
      rcases hm with hm | rfl
      · obtain ⟨n, h1, h2⟩ := h.some_ m hm; exact ⟨n, h1, ops_grow hst h2⟩
      · exact ⟨o, rfl, ops_grow hst hlt⟩
    · intro m hm; simp [loopInHand] at hm; subst hm; left; simp [loopReceived_append, loopReceived]
    · intro hk m hm
      simp only [loopRefused_append, loopRefused, List.append_nil] at hm
      simp only [loopReceived_append, List.mem_append]
      exact .inl (h.refused hk m hm)
    · intro hk ce hce
      have := h.flushes hk ce hce
      rw [hh, List.append_nil] at this
      simp [loopHandled_append, loopHandled, loopArrived_append, loopArrived, loopInHand, this]
    · intro hk
      have := h.discovery hk
      rw [hh, List.append_nil] at this
      simp [loopHandled_append, loopHandled, loopReceived_append, loopReceived, loopInHand, this]
    · intro hk
      have := h.client hk
      rw [hh, List.append_nil] at this
      have hr : some o ∉ loopRefused l := fun hm => hnot (h.refused (by rw [hk]; simp) _ hm)
      simp only [loopHandled_append, loopHandled, loopReceived_append, loopReceived, loopRefused_append, loopRefused, loopInHand, List.append_nil, List.filter_append, this]
      simp [hr]
  | @nextErr o e c hp hst =>
    have hne := nextErr_ctx hc hp hst
    have hh : loopInHand s = [] := by simp [loopInHand, hp]
    refine ⟨fun _ _ => hne, fun _ => hne, ?_, ?_, ?_, ?_, ?_, ?_, ?_, ?_⟩
    · simpa [loopReceived_append, loopReceived] using h.nodup
    · intro m hm
      obtain ⟨n, h1, h2⟩ := h.some_ m (by simpa [loopReceived_append, loopReceived] using hm)
      exact ⟨n, h1, ops_grow hst h2⟩
    · intro o' ho'
      have : (k.onNextErr e s.ctx).op? = some o' := by rw [show k.onNextErr e s.ctx = .inNext o' from ho']; rfl
      rw [onNextErr_op] at this; cases this
    · intro m hm
      right
      cases k with
      | flushes =>
        refine ⟨rfl, ?_⟩
        by_cases hb : errorsIs (some e) s.ctx = true <;> simp [loopInHand, LoopKind.onNextErr, hb] at hm
        exact hm
      | client => by_cases hb : errorsIs (some e) s.ctx = true <;> simp [loopInHand, LoopKind.onNextErr, hb] at hm
      | discovery => simp [loopInHand, LoopKind.onNextErr] at hm
    · simpa [loopReceived_append, loopReceived, loopRefused_append, loopRefused] using h.refused
    · intro hk ce hce
      have hce' : s.ctx = some ce := hce.resolve_left hne
      have := h.flushes hk ce (.inr hce')
      rw [hh, List.append_nil] at this
      subst hk
      by_cases hb : errorsIs (some e) (some ce) = true <;>
        simp [loopHandled_append, loopHandled, loopArrived_append, loopArrived, loopInHand, LoopKind.onNextErr, hce', this, hb]
    · intro hk
      have := h.discovery hk
      rw [hh, List.append_nil] at this
      subst hk
      simp [loopHandled_append, loopHandled, loopReceived_append, loopReceived, loopInHand, LoopKind.onNextErr, this]
    · intro hk
      have := h.client hk
      rw [hh, List.append_nil] at this
      subst hk
      by_cases hb : errorsIs (some e) s.ctx = true <;>
        simp [loopHandled_append, loopHandled, loopReceived_append, loopReceived, loopRefused_append, loopRefused, loopInHand, LoopKind.onNextErr, this, hb]
  | @accepted o m c hp hst =>
    have e1 : k.onAccept m none s.ctx = .handle m := by cases k <;> rfl
    rw [e1]
    show LoopListInv k (l ++ []) _
    rw [List.append_nil]
    exact h.still rfl (by simp [loopInHand, hp]) (by simp) (by simp) (fun o ho => ops_grow hst ho)
  | @acceptErr o m e c hp hst =>
    have hh : loopInHand s = [m] := by simp [loopInHand, hp]
    have hops : ∀ m' ∈ loopReceived l, ∃ n, m' = some n ∧ n < c.ops.length := fun m' hm =>
      let ⟨n, h1, h2⟩ := h.some_ m' hm; ⟨n, h1, ops_grow hst h2⟩
    refine ⟨?_, ?_, ?_, ?_, ?_, ?_, ?_, ?_, ?_, ?_⟩
    · intro e' he; exact h.live e' (by simpa using he)
    · intro hp'
      cases k with
      | client =>
        simp only [LoopKind.onAccept] at hp'
        split at hp'
        · next hm => exact errorsIs_ctx hm
        · rcases hp' with hp' | hp' <;> cases hp'
      | flushes => rcases hp' with hp' | hp' <;> cases hp'
      | discovery => rcases hp' with hp' | hp' <;> cases hp'
    · simpa [loopReceived_append, loopReceived] using h.nodup
    · simpa [loopReceived_append, loopReceived] using hops
    · intro o' ho'
      have : (k.onAccept m (some e) s.ctx).op? = some o' := by rw [show k.onAccept m (some e) s.ctx = .inNext o' from ho']; rfl
      rw [onAccept_op] at this; cases this
    · intro m' hm'
      have : m' ∈ loopInHand s := by
        rw [hh]
        cases k with
        | client => by_cases hb : errorsIs (some e) s.ctx = true <;> simp [loopInHand, LoopKind.onAccept, hb] at hm'
        | flushes => simpa [loopInHand, LoopKind.onAccept] using hm'
        | discovery => simpa [loopInHand, LoopKind.onAccept] using hm'
      simpa [loopReceived_append, loopReceived] using h.mine m' this
    · intro hk m' hm'
      simp only [loopRefused_append, loopRefused, List.mem_append, List.mem_singleton] at hm'
      simp only [loopReceived_append, loopReceived, List.append_nil]
      rcases hm' with hm' | rfl
      · exact h.refused hk m' hm'
      · rcases h.mine m' (by rw [hh]; simp) with h' | ⟨h', _⟩
        · exact h'
        · exact absurd h' hk
    · intro hk ce hce
      have := h.flushes hk ce hce
      rw [hh] at this
      subst hk
      simpa [loopHandled_append, loopHandled, loopArrived_append, loopArrived, loopInHand, LoopKind.onAccept] using this
    · intro hk
      have := h.discovery hk
      rw [hh] at this
      subst hk
      simpa [loopHandled_append, loopHandled, loopReceived_append, loopReceived, loopInHand, LoopKind.onAccept] using this
    · intro hk
      have := h.client hk
      rw [hh] at this
      subst hk
      have h2 := filter_refuse h.nodup this
      by_cases hb : errorsIs (some e) s.ctx = true <;>
        simp only [loopHandled_append, loopHandled, loopReceived_append, loopReceived, loopRefused_append, loopRefused, loopInHand, LoopKind.onAccept, List.append_nil, ← h2, hb,
          if_true, Bool.false_eq_true, if_false]
  | @handle m hp =>
    have hh : loopInHand s = [m] := by simp [loopInHand, hp]
    refine ⟨?_, by simp, ?_, ?_, by simp, by simp [loopInHand], ?_, ?_, ?_, ?_⟩
    · intro e' he; exact h.live e' (by simpa using he)
    · simpa [loopReceived_append, loopReceived] using h.nodup
    · simpa [loopReceived_append, loopReceived] using h.some_
    · simpa [loopReceived_append, loopReceived, loopRefused_append, loopRefused] using h.refused
    · intro hk ce hce
      have := h.flushes hk ce hce
      rw [hh] at this
      simpa [loopHandled_append, loopHandled, loopArrived_append, loopArrived, loopInHand] using this
    · intro hk
      have := h.discovery hk
      rw [hh] at this
      simpa [loopHandled_append, loopHandled, loopReceived_append, loopReceived, loopInHand] using this
    · intro hk
      have := h.client hk
      rw [hh] at this
      simpa [loopHandled_append, loopHandled, loopReceived_append, loopReceived, loopRefused_append, loopRefused, loopInHand] using this
  | @close c hp hst =>
    have hne := h.ended (.inl hp)
    have hh : loopInHand s = [] := by simp [loopInHand, hp]
    have hops : ∀ m' ∈ loopReceived l, ∃ n, m' = some n ∧ n < c.ops.length := fun m' hm =>
      let ⟨n, h1, h2⟩ := h.some_ m' hm; ⟨n, h1, ops_grow hst h2⟩
    refine ⟨?_, fun _ => hne, ?_, ?_, by simp, by simp [loopInHand], ?_, ?_, ?_, ?_⟩
    · intro e' he; exact h.live e' (by simpa using he)
    · simpa [loopReceived_append, loopReceived] using h.nodup
    · simpa [loopReceived_append, loopReceived] using hops
    · simpa [loopReceived_append, loopReceived, loopRefused_append, loopRefused] using h.refused
    · intro hk ce hce
      have := h.flushes hk ce hce
      rw [hh] at this
      simpa [loopHandled_append, loopHandled, loopArrived_append, loopArrived, loopInHand] using this
    · intro hk
      have := h.discovery hk
      rw [hh] at this
      simpa [loopHandled_append, loopHandled, loopReceived_append, loopReceived, loopInHand] using this
    · intro hk
      have := h.client hk
      rw [hh] at this
      simpa [loopHandled_append, loopHandled, loopReceived_append, loopReceived, loopRefused_append, loopRefused, loopInHand] using this

theorem loopListInv_run {P : LinkPolicy} {k : LoopKind} {s0 s : RSys} {past : List CtrEv} {evs : RsEv} (hi : RSys.Init P s0 past) (h : RSys.Run P k s0 evs s) : LoopListInv k evs.l s := by
  induction h with
  | nil =>
    have hh : loopInHand s0 = [] := by simp [loopInHand, hi.pc]
    refine ⟨by simp, by simp [hi.pc], by simp [loopReceived], by simp [loopReceived], by simp [loopReceived], by simp [hh], by simp [loopRefused], ?_, ?_, ?_⟩ <;>
      simp [hh, loopHandled, loopArrived, loopReceived]
  | snoc h1 _ hs ih => exact loopListInv_step (loopCallInv_run hi h1) ih hs

/-! ## Errors of Next after the end of the context -/

/-- How many sessions from generation `G` on a link has come to use. -/
def usedFrom (G c : Nat) : Nat := if c < G then 0 else c - G + 1

/-- What the place of an operation says about the number `A` of errors so far. -/
def PcBound (ctx : Option GoErr) (G A : Nat) (l : Lnk) (k : OpKind) : OpPC → Prop
  | .got g => A ≤ usedFrom G g
  | .ready | .inCall _ | .reporting _ _ | .clearing _ => A ≤ usedFrom G l.currGen
  | .failing e => errorsIs (some e) ctx = true ∨ (A ≤ usedFrom G l.currGen ∧ errorsIs (some e) (some .linkClosed) = false)
  | .leaving (some e) => k = .next → errorsIs (some e) ctx = true ∨ (A ≤ usedFrom G l.currGen ∧ l.curr = none)
  | _ => True

structure LinkBound (s : RSys) (G A : Nat) (l : Lnk) : Prop where
  open_ : s.pc ≠ .ended → l.closed = false
  all : A ≤ usedFrom G l.currGen + 1
  has : l.curr ≠ none → A ≤ usedFrom G l.currGen
  op : ∀ o op, s.pc.op? = some o → s.ctr.ops[o]? = some op → PcBound s.ctx G A l op.kind op.pc

structure LoopBoundInv (s : RSys) (G A : Nat) : Prop where
  own : ∀ o op, s.ctr.ops[o]? = some op → op.link = s.link → op.active = true → s.pc.op? = some o
  link : ∃ l, s.ctr.links[s.link]? = some l ∧ LinkBound s G A l
  gen : G ≤ s.ctr.gen

theorem LoopBoundInv.keep {s : RSys} {G A : Nat} {c : Ctr} (h : LoopBoundInv s G A) (hl : c.links[s.link]? = s.ctr.links[s.link]?) (ho : c.ops = s.ctr.ops) (hg : s.ctr.gen ≤ c.gen) :
    LoopBoundInv { s with ctr := c } G A where
  own := by intro o op h1; exact h.own o op (by rw [← ho]; exact h1)
  link := by
    obtain ⟨l, h1, h2⟩ := h.link
    exact ⟨l, hl.trans h1, ⟨h2.open_, h2.all, h2.has, fun o op q1 q2 => h2.op o op q1 (by rw [← ho]; exact q2)⟩⟩
  gen := Nat.le_trans h.gen hg

/-- An operation moves. -/
theorem LoopBoundInv.move {s : RSys} {G A : Nat} {c : Ctr} {o1 : Nat} {op1 : LOp} {l1 l1' : Lnk} {pc : OpPC} (hc : LoopCallInv s) (h : LoopBoundInv s G A) (h1 : s.ctr.ops[o1]? = some op1)
    (ha : op1.active = true) (hl1 : s.ctr.links[op1.link]? = some l1)
    (hops : ∀ o', c.ops[o']? = if o1 = o' then some { op1 with pc := pc } else s.ctr.ops[o']?) (hlinks : ∀ j, c.links[j]? = if op1.link = j then some l1' else s.ctr.links[j]?)
    (hg : s.ctr.gen ≤ c.gen)
    (hnew : op1.link = s.link → s.pc.op? = some o1 → LinkBound s G A l1 → l1'.closed = l1.closed ∧ A ≤ usedFrom G l1'.currGen + 1 ∧ (l1'.curr ≠ none → A ≤ usedFrom G l1'.currGen) ∧
      PcBound s.ctx G A l1' op1.kind pc) : LoopBoundInv { s with ctr := c } G A where
  own := by
    intro o op q1 q2 q3
    rw [show ({ s with ctr := c } : RSys).ctr.ops = c.ops from rfl, hops o] at q1
    by_cases e : o1 = o
    · subst e
      rw [if_pos rfl] at q1
      obtain rfl := Option.some.inj q1
      exact h.own o1 op1 h1 q2 ha
    · rw [if_neg e] at q1
      exact h.own o op q1 q2 q3
  link := by
    obtain ⟨l, g1, g2⟩ := h.link
    by_cases e : op1.link = s.link
    · have ho1 := h.own o1 op1 h1 e ha
      rw [e, g1] at hl1
      obtain rfl := Option.some.inj hl1
      obtain ⟨n1, n2, n3, n4⟩ := hnew e ho1 g2
      refine ⟨l1', (hlinks s.link).trans (if_pos e), ⟨fun hp => by rw [n1]; exact g2.open_ hp, n2, n3, ?_⟩⟩
      intro o op q1 q2
      have : o = o1 := Option.some.inj (q1.symm.trans ho1)
      subst this
      rw [show ({ s with ctr := c } : RSys).ctr.ops = c.ops from rfl, hops o, if_pos rfl] at q2
      obtain rfl := Option.some.inj q2
      exact n4
    · refine ⟨l, (hlinks s.link).trans ((if_neg e).trans g1), ⟨g2.open_, g2.all, g2.has, ?_⟩⟩
      intro o op q1 q2
      rw [show ({ s with ctr := c } : RSys).ctr.ops = c.ops from rfl, hops o] at q2
      by_cases e' : o1 = o
      · subst e'
        rw [if_pos rfl] at q2
        obtain rfl := Option.some.inj q2
        obtain ⟨op', r1, r2, _⟩ := hc.call o1 q1
        rw [h1] at r1
        obtain rfl := Option.some.inj r1
        exact absurd r2 e
      · rw [if_neg e'] at q2
        exact g2.op o op q1 q2
  gen := Nat.le_trans h.gen hg

theorem usedFrom_next {G c g : Nat} (h1 : c < g) (h2 : G ≤ g) : usedFrom G c + 1 ≤ usedFrom G g := by
  unfold usedFrom
  split <;> split <;> omega

/-- The steps of the container keep the bound. -/
theorem loopBoundInv_env {P : LinkPolicy} {s : RSys} {G A : Nat} {evs : List CtrEv} {ev : CtrEv} {c : Ctr} (hseq : SeqInv evs s.ctr) (hc : LoopCallInv s) (h : LoopBoundInv s G A)
    (hs : Ctr.Step P s.ctr ev c) (hf : s.foreign ev) : LoopBoundInv { s with ctr := c } G A := by
  have act : ∀ {op : LOp} {pc : OpPC}, op.pc = pc → (∀ r, pc ≠ .done r) → op.active = true := fun h hd => active_of_pc h hd
  -- what is known of the operation before
  have was : ∀ {o : Nat} {op : LOp} {l : Lnk} {pc : OpPC}, s.ctr.ops[o]? = some op → op.pc = pc → s.pc.op? = some o → LinkBound s G A l → PcBound s.ctx G A l op.kind pc :=
    fun h1 h2 h3 h4 => by have := h4.op _ _ h3 h1; rwa [h2] at this
  have ctx : ∀ {o : Nat} {op : LOp}, s.ctr.ops[o]? = some op → s.pc.op? = some o → op.ctx = s.ctx := fun h1 h2 => by
    obtain ⟨op', r1, _, _, r4, _⟩ := hc.call _ h2
    rw [h1] at r1; obtain rfl := Option.some.inj r1; exact r4
  have lnk : ∀ {o : Nat} {op : LOp}, s.ctr.ops[o]? = some op → ∃ l, s.ctr.links[op.link]? = some l := fun h1 => let ⟨l, hl, _⟩ := hseq.op _ _ h1; ⟨l, hl⟩
  -- an operation moves and leaves its link alone
  have only : ∀ {o : Nat} {op : LOp} {pc : OpPC}, s.ctr.ops[o]? = some op → op.active = true →
      (∀ l, s.ctr.links[op.link]? = some l → op.link = s.link → s.pc.op? = some o → LinkBound s G A l → PcBound s.ctx G A l op.kind pc) →
      LoopBoundInv { s with ctr := s.ctr.setOp o pc } G A := by
    intro o op pc h1 h2 h3
    obtain ⟨l, hl⟩ := lnk h1
    exact h.move hc h1 h2 hl (fun o' => setOp_get' rfl h1 o') (links_same hl) (Nat.le_refl _) fun e1 e2 e3 => ⟨rfl, e3.all, e3.has, h3 l hl e1 e2 e3⟩
  cases hs with
  | @session cn hl => exact h.keep rfl rfl (Nat.le_succ _)
  | newLink sender hm =>
    refine h.keep ?_ rfl (Nat.le_refl _)
    obtain ⟨l, hl, _⟩ := h.link
    show (s.ctr.links ++ [_])[s.link]? = _
    exact List.getElem?_append_left (List.getElem?_eq_some_iff.mp hl).1
  | @call l i k ctx h1 h2 h3 h4 =>
    have hne : i ≠ s.link := fun e => hf.1 _ (by rw [e])
    have hget : ∀ (o : Nat) (op : LOp), (s.ctr.ops ++ [{ link := i, kind := k, ctx := ctx }])[o]? = some op → s.ctr.ops[o]? = some op ∨ op.link = i := by
      intro o op q
      rw [List.getElem?_append] at q
      split at q
      · exact .inl q
      · right
        rw [List.getElem?_singleton] at q
        split at q
        · cases q; rfl
        · cases q
    obtain ⟨l, g1, g2⟩ := h.link
    refine ⟨?_, ⟨l, g1, ⟨g2.open_, g2.all, g2.has, ?_⟩⟩, h.gen⟩
    · intro o op q1 q2 q3
      rcases hget o op q1 with q | q
      · exact h.own o op q q2 q3
      · exact absurd (q.symm.trans q2) hne
    · intro o op q1 q2
      obtain ⟨op', r1, r2, _⟩ := hc.call o q1
      have : (s.ctr.ops ++ [{ link := i, kind := k, ctx := ctx }])[o]? = some op := q2
      rw [List.getElem?_append_left (List.getElem?_eq_some_iff.mp r1).1] at this
      exact g2.op o op q1 this
  | @cancelOp op1 o1 e1 h1 h2 h3 =>
    have hne : s.pc.op? ≠ some o1 := fun e => (hf.2.2 o1 e).1 _ rfl
    have hget : ∀ (o : Nat) (op : LOp), (s.ctr.ops.set o1 { op1 with ctx := some e1 })[o]? = some op → (o1 ≠ o ∧ s.ctr.ops[o]? = some op) ∨ (o1 = o ∧ op = { op1 with ctx := some e1 }) := by
      intro o op q
      rw [List.getElem?_set] at q
      split at q
      · next e =>
        split at q
        · exact .inr ⟨e, (Option.some.inj q).symm⟩
        · cases q
      · next e => exact .inl ⟨e, q⟩
    obtain ⟨l, g1, g2⟩ := h.link
    refine ⟨?_, ⟨l, g1, ⟨g2.open_, g2.all, g2.has, ?_⟩⟩, h.gen⟩
    · intro o op q1 q2 q3
      rcases hget o op q1 with ⟨_, q⟩ | ⟨rfl, rfl⟩
      · exact h.own o op q q2 q3
      · exact h.own o1 op1 h2 q2 q3
    · intro o op q1 q2
      rcases hget o op q2 with ⟨_, q⟩ | ⟨rfl, rfl⟩
      · exact g2.op o op q1 q
      · exact absurd q1 hne
  | @close l i h1 h2 =>
    have hne : i ≠ s.link := fun e => hf.2.1 (by rw [e])
    refine h.keep ?_ rfl (Nat.le_refl _)
    have := setLink_get (s := s.ctr) (j := s.link) (l := { l with closed := true, curr := none, ep := none }) h1
    exact this.trans (if_neg hne)
  | @startClosed o op l h1 h2 h3 h4 =>
    refine only h1 (act h2 (by simp)) ?_
    intro l' hl' e1 e2 e3
    rw [h3] at hl'; obtain rfl := Option.some.inj hl'
    have := e3.open_ (by intro hp; rw [hp] at e2; cases e2)
    rw [h4] at this; cases this
  | @startHas o op l g h1 h2 h3 h4 h5 =>
    refine only h1 (act h2 (by simp)) ?_
    intro l' hl' e1 e2 e3
    rw [h3] at hl'; obtain rfl := Option.some.inj hl'
    exact e3.has (by rw [h5]; simp)
  | startWait h1 h2 => exact only h1 (act h2 (by simp)) (fun _ _ _ _ _ => trivial)
  | @waited o op prev h1 h2 h3 h4 =>
    refine only h1 (act h2 (by simp)) ?_
    intro l hl e1 e2 e3
    obtain ⟨l', hl', hok⟩ := hseq.op o op h1
    rw [hl] at hl'; obtain rfl := Option.some.inj hl'
    rw [h2] at hok
    have hlt : l.currGen < s.ctr.gen := by
      have := (hseq.link _ _ hl).1.le
      have := hok.1
      omega
    exact Nat.le_trans e3.all (usedFrom_next hlt h.gen)
  | park h1 h2 => exact only h1 (act h2 (by simp)) (fun _ _ _ _ _ => trivial)
  | wake h1 h2 => exact only h1 (act h2 (by simp)) (fun _ _ _ _ _ => trivial)
  | @woken o op prev h1 h2 h3 h4 =>
    refine only h1 (act h2 (by simp)) ?_
    intro l hl e1 e2 e3
    obtain ⟨l', hl', hok⟩ := hseq.op o op h1
    rw [hl] at hl'; obtain rfl := Option.some.inj hl'
    rw [h2] at hok
    have hlt : l.currGen < s.ctr.gen := by
      have := (hseq.link _ _ hl).1.le
      have := hok.1
      omega
    exact Nat.le_trans e3.all (usedFrom_next hlt h.gen)
  | @waitCancelled o op prev e h1 h2 h3 =>
    refine only h1 (act h2 (by simp)) ?_
    intro l hl e1 e2 e3
    left
    rw [← ctx h1 e2, h3]
    simp only [errorsIs, GoErr.is, Bool.or_eq_true]
    right
    cases e <;> simp [GoErr.is]
  | @take o op l g h1 h2 h3 =>
    refine h.move hc h1 (act h2 (by simp)) h3 (fun o' => setOp_get' rfl h1 o') (fun j => setLink_get h3) (Nat.le_refl _) fun e1 e2 e3 => ?_
    have hb := was h1 h2 e2 e3
    exact ⟨rfl, Nat.le_succ_of_le hb, fun _ => hb, hb⟩
  | reuse h1 h2 => exact only h1 (act h2 (by simp)) (fun l hl e1 e2 e3 => by have := was h1 h2 e2 e3; exact this)
  | noSession h1 h2 h3 h4 h5 => exact h.keep rfl rfl (Nat.le_refl _)
  | @attach o op l g h1 h2 h3 h4 h5 =>
    refine h.move (l1 := l) (l1' := { l with ep := some s.ctr.eps.length, epGen := l.currGen }) hc h1 (act h2 (by simp)) h3
      (fun o' => setOp_get' rfl h1 o') (fun j => setLink_get (s := { s.ctr with eps := _ }) h3) (Nat.le_refl _) fun e1 e2 e3 => ?_
    exact ⟨rfl, e3.all, e3.has, by have := was h1 h2 e2 e3; exact this⟩
  | @attachFail o op l g e h1 h2 h3 h4 h5 h6 =>
    refine only h1 (act h2 (by simp)) ?_
    intro l' hl' e1 e2 e3
    exact .inr ⟨was h1 h2 e2 e3, by simpa [errorsIs, GoErr.is] using h6⟩
  | useOk h1 h2 => exact only h1 (act h2 (by simp)) (fun _ _ _ _ _ => trivial)
  | useFail e h1 h2 h3 h4 h5 =>
    refine only h1 (act h2 (by simp)) ?_
    intro l' hl' e1 e2 e3
    exact .inr ⟨was h1 h2 e2 e3, by simpa [errorsIs, GoErr.is] using h5⟩
  | acceptFail e h1 h2 h3 => exact only h1 (act h2 (by simp)) (fun _ _ _ _ _ hk => by rw [h3] at hk; cases hk)
  | benign h1 h2 h3 =>
    refine only h1 (act h2 (by simp)) ?_
    intro l' hl' e1 e2 e3 hk
    left
    rcases was h1 h2 e2 e3 with hb | ⟨_, hb⟩
    · exact hb
    · rcases h3 with h3 | h3
      · rw [ctx h1 e2] at h3; exact h3
      · rw [hb] at h3; cases h3
  | prepare h1 h2 h3 h4 h5 =>
    refine only h1 (act h2 (by simp)) ?_
    intro l' hl' e1 e2 e3
    rcases was h1 h2 e2 e3 with hb | ⟨hb, _⟩
    · rw [ctx h1 e2, hb] at h3; cases h3
    · exact hb
  | @report o op g e h1 h2 h3 =>
    obtain ⟨l, hl⟩ := lnk h1
    exact h.move hc h1 (act h2 (by simp)) hl (fun o' => setOp_get' rfl h1 o') (links_same hl) (Nat.le_refl _) fun e1 e2 e3 =>
      ⟨rfl, e3.all, e3.has, by have := was h1 h2 e2 e3; exact this⟩
  | @clear o op l e h1 h2 h3 =>
    refine h.move hc h1 (act h2 (by simp)) h3 (fun o' => setOp_get' rfl h1 o') (fun j => setLink_get h3) (Nat.le_refl _) fun e1 e2 e3 => ?_
    exact ⟨rfl, e3.all, fun hne => absurd rfl hne, fun _ => .inr ⟨by have := was h1 h2 e2 e3; exact this, rfl⟩⟩
  | nextAgain h1 h2 => exact only h1 (act h2 (by simp)) (fun _ _ _ _ _ => trivial)
  | @ret o op r h1 h2 h3 => exact only h1 (act h2 (by simp)) (fun _ _ _ _ _ => trivial)
  | _ => exact h.keep rfl rfl (Nat.le_refl _)

/-- The end of the context does no harm. -/
theorem PcBound.cancel {G A : Nat} {l : Lnk} {k : OpKind} {pc : OpPC} {e : GoErr} (h : PcBound none G A l k pc) : PcBound (some e) G A l k pc := by
  cases pc with
  | failing e' => exact .inr (h.resolve_left (by simp [errorsIs]))
  | leaving r =>
    cases r with
    | none => trivial
    | some e' => exact fun hk => .inr ((h hk).resolve_left (by simp [errorsIs]))
  | _ => exact h

/-- The loop calls an operation. -/
theorem LoopBoundInv.calls {s : RSys} {G A : Nat} {k : OpKind} {pc : RecvPC} (h : LoopBoundInv s G A) (hp : s.pc.op? = none) (hp' : pc.op? = some s.ctr.ops.length) (hne : s.pc ≠ .ended) :
    LoopBoundInv { s with ctr := s.called k, pc := pc } G A := by
  have hget : ∀ (o : Nat) (op : LOp), (s.called k).ops[o]? = some op → s.ctr.ops[o]? = some op ∨ (o = s.ctr.ops.length ∧ op.pc = .start) := by
    intro o op q
    unfold RSys.called at q
    rw [List.getElem?_append] at q
    split at q
    · exact .inl q
    · next hge =>
      right
      rw [List.getElem?_singleton] at q
      split at q
      · cases q; exact ⟨by omega, rfl⟩
      · cases q
  obtain ⟨l, g1, g2⟩ := h.link
  refine ⟨?_, ⟨l, g1, ⟨fun _ => g2.open_ hne, g2.all, g2.has, ?_⟩⟩, h.gen⟩
  · intro o op q1 q2 q3
    rcases hget o op q1 with q | ⟨q, _⟩
    · have := h.own o op q q2 q3
      rw [hp] at this; cases this
    · rw [q]; exact hp'
  · intro o op q1 q2
    have : o = s.ctr.ops.length := by
      have := q1.symm.trans hp'
      exact Option.some.inj this
    rcases hget o op q2 with q | ⟨_, q⟩
    · rw [this] at q
      rw [List.getElem?_eq_none (Nat.le_refl _)] at q; cases q
    · rw [q]; trivial

/-- The call of the loop returns. -/
theorem LoopBoundInv.returns {P : LinkPolicy} {s : RSys} {G A A' : Nat} {c : Ctr} {o : Nat} {r : Option GoErr} {pc : RecvPC} (h : LoopBoundInv s G A) (hp : s.pc.op? = some o)
    (hs : Ctr.Step P s.ctr (.ret o r) c) (hp' : pc.op? = none)
    (hA : ∀ l op, s.ctr.ops[o]? = some op → op.pc = .leaving r → LinkBound s G A l → A' ≤ usedFrom G l.currGen + 1 ∧ (l.curr ≠ none → A' ≤ usedFrom G l.currGen)) :
    LoopBoundInv { s with ctr := c, pc := pc } G A' := by
  obtain ⟨op, h1, h2, h3, rfl⟩ := ret_view hs
  obtain ⟨l, g1, g2⟩ := h.link
  obtain ⟨a1, a2⟩ := hA l op h1 h2 g2
  refine ⟨?_, ⟨l, g1, ⟨fun _ => g2.open_ (by intro e; rw [e] at hp; cases hp), a1, a2, ?_⟩⟩, h.gen⟩
  · intro o' op' q1 q2 q3
    have q1 : (s.ctr.setOp o (.done r)).ops[o']? = some op' := q1
    rw [setOp_get' rfl h1 o'] at q1
    split at q1
    · obtain rfl := Option.some.inj q1; cases q3
    · next e =>
      have := h.own o' op' q1 q2 q3
      rw [hp] at this
      exact absurd (Option.some.inj this) e
  · intro o' op' q1 q2
    rw [show ({ s with ctr := s.ctr.setOp o (.done r), pc := pc } : RSys).pc.op? = none from hp'] at q1; cases q1

theorem loopBoundInv_step {P : LinkPolicy} {k : LoopKind} {s s' : RSys} {G A : Nat} {evs : List CtrEv} {ev : RsEv} {ce : GoErr} (hseq : SeqInv evs s.ctr) (hc : LoopCallInv s)
    (h : LoopBoundInv s G A) (hs : RSys.Step P k s ev s') (hce : s.ctx = none ∨ s.ctx = some ce) : LoopBoundInv s' G (A + strayErrors ce ev.l) := by
  have op_ne : ∀ {o : Nat}, s.pc.op? = some o → s.pc ≠ .ended := fun h e => by rw [e] at h; cases h
  cases hs with
  | env hst hf => exact loopBoundInv_env hseq hc h hst hf
  | cancel e he hn hp =>
    obtain ⟨l, g1, g2⟩ := h.link
    exact ⟨h.own, ⟨l, g1, ⟨g2.open_, g2.all, g2.has, fun o op q1 => by rw [show s.pc.op? = some o from q1] at hp; cases hp⟩⟩, h.gen⟩
  | @cancelCall o c e hn hp hst =>
    obtain ⟨l, g1, g2⟩ := h.link
    generalize hev : CtrEv.cancelOp o e = ev at hst
    cases hst with
    | @cancelOp op1 o1 e1 h1 h2 h3 =>
      cases hev
      have hget : ∀ (o' : Nat) (op : LOp), (s.ctr.ops.set o { op1 with ctx := some e })[o']? = some op → s.ctr.ops[o']? = some op ∨ (o = o' ∧ op = { op1 with ctx := some e }) := by
        intro o' op q
        rw [List.getElem?_set] at q
        split at q
        · next e =>
          split at q
          · exact .inr ⟨e, (Option.some.inj q).symm⟩
          · cases q
        · exact .inl q
      refine ⟨?_, ⟨l, g1, ⟨g2.open_, g2.all, g2.has, ?_⟩⟩, h.gen⟩
      · intro o' op q1 q2 q3
        rcases hget o' op q1 with q | ⟨rfl, rfl⟩
        · exact h.own o' op q q2 q3
        · exact h.own o op1 h2 q2 q3
      · intro o' op q1 q2
        rcases hget o' op q2 with q | ⟨rfl, rfl⟩
        · have := g2.op o' op q1 q
          rw [hn] at this
          exact this.cancel
        · have := g2.op o op1 q1 h2
          rw [hn] at this
          exact this.cancel
    | _ => cases hev
  | callNext hp hst => exact h.calls (by rw [hp]; rfl) rfl (by rw [hp]; simp)
  | callAccept hp hst => exact h.calls (by rw [hp]; rfl) rfl (by rw [hp]; simp)
  | received hp hst => exact h.returns (by rw [hp]; rfl) hst rfl fun l op _ _ hl => ⟨hl.all, hl.has⟩
  | @nextErr o e c hp hst =>
    refine h.returns (by rw [hp]; rfl) hst onNextErr_op fun l op h1 h2 hl => ?_
    have hne := nextErr_ctx hc hp hst
    have hce : s.ctx = some ce := hce.resolve_left hne
    have hb := hl.op o op (by rw [hp]; rfl) h1
    obtain ⟨op', r1, _, r3, _⟩ := hc.call o (by rw [hp]; rfl)
    rw [h1] at r1; obtain rfl := Option.some.inj r1
    rw [hp] at r3
    rw [h2] at hb
    have hb := hb (Option.some.inj r3).symm
    rw [hce] at hb
    simp only [strayErrors, Nat.add_zero]
    by_cases hm : errorsIs (some e) (some ce) = true
    · rw [if_pos hm]; exact ⟨hl.all, hl.has⟩
    · rw [if_neg hm]
      obtain ⟨hb1, hb2⟩ := hb.resolve_left hm
      exact ⟨Nat.succ_le_succ hb1, fun h => absurd hb2 h⟩
  | accepted hp hst => exact h.returns (by rw [hp]; rfl) hst onAccept_op fun l op _ _ hl => ⟨hl.all, hl.has⟩
  | acceptErr hp hst => exact h.returns (by rw [hp]; rfl) hst onAccept_op fun l op _ _ hl => ⟨hl.all, hl.has⟩
  | @handle m hp =>
    obtain ⟨l, g1, g2⟩ := h.link
    refine ⟨?_, ⟨l, g1, ⟨fun _ => g2.open_ (by rw [hp]; simp), g2.all, g2.has, fun o op q1 => by cases q1⟩⟩, h.gen⟩
    intro o op q1 q2 q3
    have := h.own o op q1 q2 q3
    rw [hp] at this; cases this
  | @close c hp hst =>
    obtain ⟨l, g1, g2⟩ := h.link
    generalize hev : CtrEv.close s.link = ev at hst
    cases hst with
    | @close l' i h1 h2 =>
      cases hev
      rw [g1] at h1; obtain rfl := Option.some.inj h1
      refine ⟨?_, ⟨_, (setLink_get (s := s.ctr) (j := s.link) g1).trans (if_pos rfl), ⟨fun h => absurd rfl h, g2.all, fun h => absurd rfl h, fun o op q1 => by cases q1⟩⟩, h.gen⟩
      intro o op q1 q2 q3
      have := h.own o op q1 q2 q3
      rw [hp] at this; cases this
    | _ => cases hev

theorem loopBoundInv_init {P : LinkPolicy} (hP : P.overlap = false) {s : RSys} {past : List CtrEv} (hi : RSys.Init P s past) (G : Nat) (hG : G ≤ s.ctr.gen) : LoopBoundInv s G 0 := by
  obtain ⟨hrun, _, hpc, _⟩ := hi
  obtain ⟨s1, h1, h2, h3⟩ : ∃ s1, Ctr.Run P {} past s1 ∧ s1.crashed = false ∧ Ctr.Step P s1 (.newLink s.link) s.ctr := by
    generalize hev : past ++ [CtrEv.newLink s.link] = evs at hrun
    generalize s.ctr = c at hrun
    cases hrun with
    | nil => simp at hev
    | snoc a b c =>
      obtain ⟨rfl, hx⟩ := List.append_inj' hev rfl
      cases hx
      exact ⟨_, a, b, c⟩
  have hseq := seqInv_run hP h1
  generalize hc : s.ctr = c at h3
  generalize hev : CtrEv.newLink s.link = ev at h3
  cases h3 with
  | newLink sender hm =>
    have hlk : s.link = s1.links.length := by injection hev
    have hlinks : s.ctr.links = s1.links ++ [{ sender := sender, currGen := s1.gen, curr := if s1.gen = 0 then none else some s1.gen }] := by rw [hc]
    refine ⟨?_, ⟨{ sender := sender, currGen := s1.gen, curr := if s1.gen = 0 then none else some s1.gen }, by rw [hlinks, hlk]; simp,
      ⟨fun _ => rfl, Nat.zero_le _, fun _ => Nat.zero_le _, fun o op q1 => by rw [hpc] at q1; cases q1⟩⟩, hG⟩
    intro o op q1 q2 q3
    rw [hc] at q1
    obtain ⟨l, hl, _⟩ := hseq.op o op q1
    have := (List.getElem?_eq_some_iff.mp hl).1
    rw [q2, hlk] at this
    exact absurd this (Nat.lt_irrefl _)
  | _ => cases hev

/-- A bound that holds without any error yet holds with every starting point. -/
theorem LoopBoundInv.restart {s : RSys} {G A G' : Nat} (h : LoopBoundInv s G A) (hG : G' ≤ s.ctr.gen) : LoopBoundInv s G' 0 := by
  obtain ⟨l, g1, g2⟩ := h.link
  refine ⟨h.own, ⟨l, g1, ⟨g2.open_, Nat.zero_le _, fun _ => Nat.zero_le _, fun o op q1 q2 => ?_⟩⟩, hG⟩
  have := g2.op o op q1 q2
  cases hpc : op.pc with
  | failing e => rw [hpc] at this; exact this.imp id fun h => ⟨Nat.zero_le _, h.2⟩
  | leaving r =>
    rw [hpc] at this
    cases r with
    | none => trivial
    | some e => exact fun hk => (this hk).imp id fun h => ⟨Nat.zero_le _, h.2⟩
  | got g => exact Nat.zero_le _
  | ready => exact Nat.zero_le _
  | inCall ep => exact Nat.zero_le _
  | reporting g e => exact Nat.zero_le _
  | clearing e => exact Nat.zero_le _
  | _ => trivial

end Verif.Proofs
