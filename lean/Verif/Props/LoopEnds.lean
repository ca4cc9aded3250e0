import Verif.Props.RecvLoop

/-!
# C111: a receive loop whose context has ended can end
-/
namespace Verif.Props
open Verif Verif.Model Verif.Spec Verif.Proofs

variable {P : LinkPolicy} {k : LoopKind}

/-- The operation `o` can reach its end with a result in `Q`, with steps of its own. -/
def Leaves (P : LinkPolicy) (s : Ctr) (o : Nat) (op : LOp) (Q : Option GoErr → Prop) : Prop :=
  ∃ evs s' r, Ctr.Run P s evs s' ∧ (∀ ev ∈ evs, isInner ev = true) ∧ s'.ops[o]? = some { op with pc := .leaving r } ∧ Q r ∧ s'.crashed = false ∧ s'.loop = s.loop

theorem Leaves.cons {s s1 : Ctr} {o : Nat} {op op1 : LOp} {Q : Option GoErr → Prop} {ev : CtrEv} (hc : s.crashed = false) (hs : Ctr.Step P s ev s1) (hi : isInner ev = true)
    (hl : s1.loop = s.loop) (ho : ({ op1 with pc := op.pc } : LOp) = op) (h : Leaves P s1 o op1 Q) : Leaves P s o op Q := by
  obtain ⟨evs, s', r, h1, h2, h3, h4, h5, h6⟩ := h
  refine ⟨[ev] ++ evs, s', r, ctr_trans (Ctr.Run.nil.snoc hc hs) h1, ?_, ?_, h4, h5, h6.trans hl⟩
  · intro x hx
    rcases List.mem_append.1 hx with hx | hx
    · rw [List.mem_singleton.1 hx]; exact hi
    · exact h2 x hx
  · rw [h3, ← ho]

theorem get_setOp {s : Ctr} {o : Nat} {op : LOp} (h : s.ops[o]? = some op) (pc : OpPC) : (s.setOp o pc).ops[o]? = some { op with pc := pc } := by
  simp [Ctr.setOp, h]

/-- The result is the error of the context, or wraps it. -/
def ByCtx (ctx : Option GoErr) (r : Option GoErr) : Prop := ∃ e, r = some e ∧ errorsIs (some e) ctx = true

section
variable {s : Ctr} {o : Nat} {op : LOp} {ce : GoErr}

theorem leaves_now {r : Option GoErr} {Q : Option GoErr → Prop} (hc : s.crashed = false) (ho : s.ops[o]? = some op) (hp : op.pc = .leaving r) (hq : Q r) : Leaves P s o op Q :=
  ⟨[], s, r, .nil, by simp, by rw [ho]; congr 1; cases op; cases hp; rfl, hq, hc, rfl⟩

theorem leaves_failing {e : GoErr} (hc : s.crashed = false) (ho : s.ops[o]? = some op) (hp : op.pc = .failing e) (he : errorsIs (some e) op.ctx = true) :
    Leaves P s o op (ByCtx op.ctx) :=
  .cons hc (.benign ho hp (.inl he)) rfl rfl rfl (leaves_now (op := { op with pc := .leaving (some e) }) hc (get_setOp ho _) rfl ⟨e, rfl, he⟩)

theorem err_self (e : GoErr) : errorsIs (some e) (some e) = true := by
  cases e <;> simp [errorsIs, GoErr.is]

theorem is_wrap {m : String} {e c : GoErr} (h : errorsIs (some e) (some c) = true) : errorsIs (some (.wrap m e)) (some c) = true := by
  unfold errorsIs at *
  simp only [GoErr.is, h, Bool.or_true]

theorem ctx_not_closed (h : ce.IsCtx) : errorsIs (some ce) (some .linkClosed) = false := by
  rcases h with rfl | rfl <;> rfl

theorem leaves_inCall {ep : Nat} {x : Ep} (hc : s.crashed = false) (ho : s.ops[o]? = some op) (hp : op.pc = .inCall ep) (hx : op.ctx = some ce) (hce : ce.IsCtx)
    (he : s.eps[ep]? = some x) : Leaves P s o op (ByCtx op.ctx) := by
  have hself : errorsIs (some ce) (some ce) = true := err_self ce
  by_cases hk : op.kind = .accept
  · exact .cons hc (.acceptFail ce ho hp hk (ctx_not_closed hce)) rfl rfl rfl
      (leaves_now (op := { op with pc := .leaving (some ce) }) hc (get_setOp ho _) rfl ⟨ce, rfl, by rw [hx]; exact hself⟩)
  · exact .cons hc (.useFail ce ho hp hk he (ctx_not_closed hce)) rfl rfl rfl
      (leaves_failing (op := { op with pc := .failing (.wrap "error" ce) }) hc (get_setOp ho _) rfl (by rw [hx]; exact is_wrap hself))

theorem leaves_ready {l : Lnk} {g : Nat} (hc : s.crashed = false) (ho : s.ops[o]? = some op) (hp : op.pc = .ready) (hx : op.ctx = some ce) (hce : ce.IsCtx)
    (hl : s.links[op.link]? = some l) (hcur : l.curr = some g) (hep : ∀ e, l.ep = some e → e < s.eps.length) : Leaves P s o op (ByCtx op.ctx) := by
  by_cases hr : l.ep.isSome = true ∧ l.epGen = l.currGen
  · obtain ⟨h1, h2⟩ := hr
    obtain ⟨e, he⟩ := Option.isSome_iff_exists.1 h1
    have hlt := hep e he
    exact .cons hc (.reuse ho hp hl he h2 (List.getElem?_eq_getElem hlt)) rfl rfl rfl
      (leaves_inCall (op := { op with pc := .inCall e }) hc (get_setOp ho _) rfl hx hce (List.getElem?_eq_getElem hlt))
  · exact .cons hc (.attachFail ce ho hp hl hr hcur (ctx_not_closed hce)) rfl rfl rfl
      (leaves_failing (op := { op with pc := .failing (.wrap "create error" ce) }) hc (get_setOp ho _) rfl (by rw [hx]; exact is_wrap (err_self ce)))

theorem leaves_got {l : Lnk} {g : Nat} (hc : s.crashed = false) (ho : s.ops[o]? = some op) (hp : op.pc = .got g) (hx : op.ctx = some ce) (hce : ce.IsCtx)
    (hl : s.links[op.link]? = some l) (hep : ∀ e, l.ep = some e → e < s.eps.length) : Leaves P s o op (ByCtx op.ctx) := by
  have hlt := (List.getElem?_eq_some_iff.1 hl).1
  refine .cons hc (.take ho hp hl) rfl rfl rfl (leaves_ready (op := { op with pc := .ready }) (l := { l with curr := some g, currGen := g }) (g := g) hc ?_ rfl hx hce ?_ rfl hep)
  · exact get_setOp (s := s.setLink op.link { l with curr := some g, currGen := g }) ho _
  · simp [Ctr.setOp, Ctr.setLink, hlt]

theorem leaves_waiting {prev : Nat} {l : Lnk} (hc : s.crashed = false) (hm : s.muHeld = false) (ho : s.ops[o]? = some op) (hp : op.pc = .waiting prev) (hx : op.ctx = some ce) (hce : ce.IsCtx)
    (hl : s.links[op.link]? = some l) (hep : ∀ e, l.ep = some e → e < s.eps.length) : Leaves P s o op (ByCtx op.ctx) := by
  by_cases hg : s.gen = prev
  · refine .cons hc (.park ho hp hm hg) rfl rfl rfl (op1 := { op with pc := .parked prev }) ?_
    refine .cons hc (.waitCancelled (op := { op with pc := .parked prev }) (get_setOp ho _) rfl hx) rfl rfl rfl (op1 := { op with pc := .failing (.wrap "session await error" ce) }) ?_
    exact leaves_failing hc (get_setOp (get_setOp ho _) _) rfl (by rw [hx]; exact is_wrap (err_self ce))
  · exact .cons hc (.waited ho hp hm hg) rfl rfl rfl (leaves_got (op := { op with pc := .got s.gen }) (l := l) hc (get_setOp ho _) rfl hx hce hl hep)

theorem leaves_start {l : Lnk} (hc : s.crashed = false) (hm : s.muHeld = false) (ho : s.ops[o]? = some op) (hp : op.pc = .start) (hx : op.ctx = some ce) (hce : ce.IsCtx)
    (hl : s.links[op.link]? = some l) (hcl : l.closed = false) (hep : ∀ e, l.ep = some e → e < s.eps.length) : Leaves P s o op (ByCtx op.ctx) := by
  cases hcur : l.curr with
  | some g =>
    exact .cons hc (.startHas ho hp hl hcl hcur) rfl rfl rfl (leaves_ready (op := { op with pc := .ready }) (l := l) hc (get_setOp ho _) rfl hx hce hl hcur hep)
  | none =>
    exact .cons hc (.startWait ho hp hl hcl hcur) rfl rfl rfl (leaves_waiting (op := { op with pc := .waiting l.currGen }) (l := l) hc hm (get_setOp ho _) rfl hx hce hl hep)

/-- An operation whose context has ended can return, wherever it is. -/
theorem leaves_any {evs : List CtrEv} {l : Lnk} (hP : P.overlap = false) (hP2 : P.closeInUse = false) (h : Ctr.Run P {} evs s) (hc : s.crashed = false) (hm : s.muHeld = false)
    (hr : s.errs.length < sessionErrorsCap) (ho : s.ops[o]? = some op) (ha : op.active = true) (hx : op.ctx = some ce) (hce : ce.IsCtx)
    (hl : s.links[op.link]? = some l) (hcl : l.closed = false) : Leaves P s o op fun _ => True := by
  have weaken : Leaves P s o op (ByCtx op.ctx) → Leaves P s o op fun _ => True := by
    rintro ⟨evs, s', r, h1, h2, h3, _, h5⟩
    exact ⟨evs, s', r, h1, h2, h3, trivial, h5⟩
  have hep : ∀ e, l.ep = some e → e < s.eps.length := (resInv_run h).link _ l hl
  have clearing : ∀ {s1 : Ctr} {op1 : LOp} {e : GoErr}, s1.crashed = false → s1.ops[o]? = some op1 → op1.pc = .clearing e → s1.links[op1.link]? = some l →
      Leaves P s1 o op1 fun _ => True := by
    intro s1 op1 e hc ho hp hl
    refine .cons hc (.clear ho hp hl) rfl rfl rfl (leaves_now (op := { op1 with pc := .leaving (some e) }) hc ?_ rfl trivial)
    exact get_setOp (s := s1.setLink op1.link { l with curr := none, ep := none }) ho _
  have reporting : ∀ {s1 : Ctr} {op1 : LOp} {e : GoErr} {g : Nat}, s1.crashed = false → s1.ops[o]? = some op1 → op1.pc = .reporting g e → s1.links[op1.link]? = some l →
      s1.errs.length < sessionErrorsCap → Leaves P s1 o op1 fun _ => True := by
    intro s1 op1 e g hc ho hp hl hr
    refine .cons hc (.report ho hp hr) rfl rfl rfl (clearing (op1 := { op1 with pc := .clearing e }) (e := e) hc ?_ rfl hl)
    exact get_setOp (s := { s1 with errs := s1.errs ++ [(g, e)] }) ho _
  cases hp : op.pc with
  | start => exact weaken (leaves_start hc hm ho hp hx hce hl hcl hep)
  | waiting prev => exact weaken (leaves_waiting hc hm ho hp hx hce hl hep)
  | parked prev =>
    refine weaken (.cons hc (.waitCancelled ho hp hx) rfl rfl rfl (op1 := { op with pc := .failing (.wrap "session await error" ce) }) ?_)
    exact leaves_failing hc (get_setOp ho _) rfl (by rw [hx]; exact is_wrap (err_self ce))
  | waking prev =>
    have hg := (waking_lt h o op prev ho).2 hp
    exact weaken (.cons hc (.woken ho hp hm (by omega)) rfl rfl rfl (leaves_got (op := { op with pc := .got s.gen }) (l := l) hc (get_setOp ho _) rfl hx hce hl hep))
  | got g => exact weaken (leaves_got hc ho hp hx hce hl hep)
  | ready =>
    obtain ⟨l', hl', hq⟩ := (closeInv_run h).op o op ho
    rw [hl] at hl'; cases hl'
    have := (hq hP2).2 hP hp
    cases hcur : l.curr with
    | none => exact absurd hcur this
    | some g => exact weaken (leaves_ready hc ho hp hx hce hl hcur hep)
  | inCall ep =>
    obtain ⟨l', hl', hq⟩ := (seqInv_run hP h).op o op ho
    rw [hp] at hq
    obtain ⟨⟨x, he, _⟩, _⟩ := hq
    exact weaken (leaves_inCall hc ho hp hx hce he)
  | failing e =>
    by_cases hb : errorsIs (some e) op.ctx = true ∨ errorsIs (some e) (some .linkClosed) = true
    · exact .cons hc (.benign ho hp hb) rfl rfl rfl (leaves_now (op := { op with pc := .leaving (some e) }) hc (get_setOp ho _) rfl trivial)
    · simp only [not_or, Bool.not_eq_true] at hb
      exact .cons hc (.prepare ho hp hb.1 hb.2 hl) rfl rfl rfl (reporting (op1 := { op with pc := .reporting l.currGen e }) hc (get_setOp ho _) rfl hl hr)
  | reporting g e => exact reporting hc ho hp hl hr
  | clearing e => exact clearing hc ho hp hl
  | leaving r => exact leaves_now hc ho hp trivial
  | done r => simp [LOp.active, hp] at ha

end

/-- Steps of an operation are steps of the system of loop and container. -/
theorem lift_op {s : RSys} {c : Ctr} {evs : List CtrEv} (h : Ctr.Run P s.ctr evs c) (hi : ∀ ev ∈ evs, isInner ev = true) : RSys.Run P k s { c := evs } { s with ctr := c } := by
  generalize hs : s.ctr = c0 at h
  induction h with
  | nil => subst hs; exact .nil
  | @snoc c1 c2 e1 ev hr hc hst ih =>
    subst hs
    have ih := ih (fun x hx => hi x (List.mem_append_left _ hx))
    have hf := hi ev (List.mem_append_right _ (List.mem_singleton.2 rfl))
    have := ih.snoc (ev := { c := [ev] }) hc (.env hst ⟨?_, ?_, fun o _ => ⟨?_, ?_⟩⟩)
    · simpa using this
    · intro o h; subst h; cases hf
    · intro h; subst h; cases hf
    · intro e h; subst h; cases hf
    · intro r h; subst h; cases hf

/-- What is known of a loop in a run. -/
theorem loopBoundInv_run (hP : P.overlap = false) {s0 s : RSys} {past : List CtrEv} {evs : RsEv} (hi : RSys.Init P s0 past) (h : RSys.Run P k s0 evs s) : ∃ A, LoopBoundInv s 0 A := by
  induction h with
  | nil => exact ⟨0, loopBoundInv_init hP hi 0 (Nat.zero_le _)⟩
  | @snoc s' s'' evs ev h1 hc hs ih =>
    obtain ⟨A, ih⟩ := ih
    have hseq := seqInv_run hP (ctr_trans hi.run (rsys_proj h1))
    cases hx : s'.ctx with
    | none => exact ⟨_, loopBoundInv_step (ce := .canceled) hseq (loopCallInv_run hi h1) ih hs (.inl hx)⟩
    | some e => exact ⟨_, loopBoundInv_step (ce := e) hseq (loopCallInv_run hi h1) ih hs (.inr hx)⟩

theorem loopCtx_run {s0 s : RSys} {past : List CtrEv} {evs : RsEv} (hi : RSys.Init P s0 past) (h : RSys.Run P k s0 evs s) : ∀ e, s.ctx = some e → e.IsCtx := by
  induction h with
  | nil => exact hi.ctx
  | snoc _ _ hs ih =>
    cases hs with
    | cancel e he _ _ => intro e' h'; cases h'; exact he
    | @cancelCall o c e h1 h2 h3 =>
      intro e' h'; cases h'
      cases h3 with
      | cancelOp o e he => exact he
    | _ => exact ih

/-- A state of a loop whose context has ended, of which the container stands and is not held by `Start`. -/
structure Calm (P : LinkPolicy) (k : LoopKind) (ce : GoErr) (s : RSys) : Prop where
  reach : ∃ s0 past evs, RSys.Init P s0 past ∧ RSys.Run P k s0 evs s
  ctx : s.ctx = some ce
  up : s.ctr.crashed = false
  free : s.ctr.muHeld = false

/-- The loop can end, with at most `n` more messages received. -/
def CanEnd (P : LinkPolicy) (k : LoopKind) (n : Nat) (s : RSys) : Prop := ∃ evs s', RSys.Run P k s evs s' ∧ s'.pc = .ended ∧ (loopReceived evs.l).length ≤ n

theorem CanEnd.cons {s s1 : RSys} {evs : RsEv} {n m : Nat} (h : RSys.Run P k s evs s1) (hl : (loopReceived evs.l).length + n ≤ m) (h1 : CanEnd P k n s1) : CanEnd P k m s := by
  obtain ⟨e, s', h2, h3, h4⟩ := h1
  refine ⟨_, s', rsys_trans h h2, h3, ?_⟩
  show (loopReceived (evs.l ++ e.l)).length ≤ m
  rw [loopReceived_append, List.length_append]; omega

theorem run_one {s s1 : RSys} {ev : RsEv} (hc : s.ctr.crashed = false) (hs : RSys.Step P k s ev s1) : RSys.Run P k s { c := [] ++ ev.c, l := [] ++ ev.l } s1 :=
  RSys.Run.nil.snoc hc hs

theorem Calm.after {ce : GoErr} {s s1 : RSys} {evs : RsEv} (h : Calm P k ce s) (hr : RSys.Run P k s evs s1) (h1 : s1.ctx = s.ctx) (h2 : s1.ctr.crashed = false) (h3 : s1.ctr.loop = s.ctr.loop) :
    Calm P k ce s1 := by
  obtain ⟨s0, past, e0, hi, h0⟩ := h.reach
  exact ⟨⟨s0, past, _, hi, rsys_trans h0 hr⟩, h1.trans h.ctx, h2, by unfold Ctr.muHeld; rw [h3]; exact h.free⟩

section
variable {s : RSys} {ce : GoErr} (hP : P.overlap = false) (h : Calm P k ce s)
include hP h

/-- The link of the loop, as long as the loop has not ended. -/
theorem Calm.link (hne : s.pc ≠ .ended) : ∃ l, s.ctr.links[s.link]? = some l ∧ l.closed = false ∧ ∀ e, l.ep = some e → e < s.ctr.eps.length := by
  obtain ⟨s0, past, evs, hi, hr⟩ := h.reach
  obtain ⟨A, hb⟩ := loopBoundInv_run hP hi hr
  obtain ⟨l, h1, h2⟩ := hb.link
  exact ⟨l, h1, h2.open_ hne, (resInv_run (ctr_trans hi.run (rsys_proj hr))).link _ l h1⟩

theorem Calm.idle (hp : s.pc.op? = none) : s.ctr.inUse s.link = false := by
  obtain ⟨s0, past, evs, hi, hr⟩ := h.reach
  obtain ⟨A, hb⟩ := loopBoundInv_run hP hi hr
  refine inUse_false.2 fun o op h1 h2 => ?_
  cases ha : op.active with
  | false => rfl
  | true => have := hb.own o op h1 h2 ha; rw [hp] at this; cases this

omit hP in
theorem Calm.isCtx : ce.IsCtx := by
  obtain ⟨s0, past, evs, hi, hr⟩ := h.reach
  exact loopCtx_run hi hr ce h.ctx

/-- The link is one of a receiver. -/
theorem Calm.fits {l : Lnk} (hl : s.ctr.links[s.link]? = some l) : l.sender = false := by
  obtain ⟨s0, past, evs, hi, hr⟩ := h.reach
  obtain ⟨A, hb⟩ := loopBoundInv_run hP hi (RSys.Run.nil (P := P) (k := k) (s := s0))
  obtain ⟨l0, h0, _⟩ := hb.link
  have keep : ∀ {c0 c : Ctr} {evs : List CtrEv}, Ctr.Run P c0 evs c → c0.links[s0.link]? = some l0 → ∃ l', c.links[s0.link]? = some l' ∧ l'.sender = l0.sender := by
    intro c0 c evs hrun h0
    induction hrun with
    | nil => exact ⟨l0, h0, rfl⟩
    | snoc _ _ hs ih =>
      obtain ⟨l1, h1, h2⟩ := ih
      obtain ⟨l2, h3, h4, _⟩ := link_view hs h1
      exact ⟨l2, h3, h4.trans h2⟩
  obtain ⟨l', h1, h2⟩ := keep (rsys_proj hr) h0
  rw [← rsys_link hr, hl] at h1
  cases h1
  rw [h2]; exact hi.receiver l0 h0

theorem ends_closing (hp : s.pc = .closing) : CanEnd P k 0 s := by
  obtain ⟨l, h1, _⟩ := h.link hP (by rw [hp]; simp)
  exact ⟨_, _, run_one h.up (.close hp (.close s.link h1 fun _ => h.idle hP (by rw [hp]; rfl))), rfl, Nat.le_refl _⟩

/-- The call of an operation on the link, with the context that has ended, up to its return. -/
theorem call_leaves (kd : OpKind) (hk : kd.fits false = true) (hp : s.pc.op? = none) (hne : s.pc ≠ .ended) :
    Ctr.Step P s.ctr (.call s.link s.ctr.ops.length) (s.called kd) ∧
    Leaves P (s.called kd) s.ctr.ops.length { link := s.link, kind := kd, ctx := s.ctx } (ByCtx s.ctx) := by
  obtain ⟨l, h1, h2, h3⟩ := h.link hP hne
  refine ⟨.call s.link kd s.ctx h1 (by rw [h.fits hP h1]; exact hk) (fun e he => ?_) fun _ => h.idle hP hp, ?_⟩
  · rw [h.ctx] at he; cases he; exact h.isCtx
  · exact leaves_start h.up h.free (called_get s kd) rfl h.ctx h.isCtx h1 h2 h3

theorem ends_next (hp : s.pc = .next) : CanEnd P k 0 s := by
  obtain ⟨h1, evs, c, r, h2, h3, h4, ⟨e, rfl, h5⟩, h6, h7⟩ := call_leaves hP h .next rfl (by rw [hp]; rfl) (by rw [hp]; simp)
  have r1 := run_one h.up (.callNext (P := P) (k := k) hp h1)
  have r2 := rsys_trans r1 (lift_op (s := { s with ctr := s.called .next, pc := .inNext s.ctr.ops.length }) h2 h3)
  have hn : Ctr.Step P c (.ret s.ctr.ops.length (some e)) _ := .ret h4 rfl fun _ => .inr (by rw [h.ctx]; simp)
  have r3 := r2.snoc h6 (.nextErr rfl hn)
  refine .cons r3 (Nat.le_refl _) (ends_closing hP (h.after r3 rfl h6 h7) ?_)
  show k.onNextErr e s.ctx = .closing
  cases k <;> simp [LoopKind.onNextErr, h5]

theorem ends_handle {m : Option Nat} (hp : s.pc = .handle m) : CanEnd P k 0 s := by
  have r1 := run_one h.up (.handle (P := P) (k := k) hp)
  exact .cons r1 (Nat.le_refl _) (ends_next hP (h.after r1 rfl h.up rfl) rfl)

theorem ends_accept {m : Option Nat} (hp : s.pc = .accept m) : CanEnd P k 0 s := by
  obtain ⟨h1, evs, c, r, h2, h3, h4, ⟨e, rfl, h5⟩, h6, h7⟩ := call_leaves hP h .accept rfl (by rw [hp]; rfl) (by rw [hp]; simp)
  have r1 := run_one h.up (.callAccept (P := P) (k := k) hp h1)
  have r2 := rsys_trans r1 (lift_op (s := { s with ctr := s.called .accept, pc := .inAccept s.ctr.ops.length m }) h2 h3)
  have hn : Ctr.Step P c (.ret s.ctr.ops.length (some e)) _ := .ret h4 rfl fun h => nomatch h
  have r3 := r2.snoc h6 (.acceptErr rfl hn)
  refine .cons (n := 0) r3 (Nat.le_refl _) ?_
  have hc := h.after r3 rfl h6 h7
  cases k with
  | client => exact ends_closing hP hc (by show LoopKind.onAccept .client m (some e) s.ctx = .closing; simp [LoopKind.onAccept, h5])
  | flushes => exact ends_handle hP hc (m := m) rfl
  | discovery => exact ends_handle hP hc (m := m) rfl

end

/-- Once its context has ended, a loop can end, wherever it is: no more than the message it may have in hand already is received. -/
theorem C111_can_end (hP : P.overlap = false) (hP2 : P.closeInUse = false) {s0 s : RSys} {past : List CtrEv} {evs : RsEv} {ce : GoErr} (hi : RSys.Init P s0 past) (h : RSys.Run P k s0 evs s)
    (hctx : s.ctx = some ce) (hup : s.ctr.crashed = false) (hmu : s.ctr.muHeld = false) (hroom : s.ctr.errs.length < sessionErrorsCap) :
    ∃ evs' s', RSys.Run P k s evs' s' ∧ s'.pc = .ended ∧ (loopReceived evs'.l).length ≤ 1 := by
  have hcalm : Calm P k ce s := ⟨⟨s0, past, evs, hi, h⟩, hctx, hup, hmu⟩
  have more : ∀ {s : RSys}, CanEnd P k 0 s → CanEnd P k 1 s := fun ⟨a, b, c, d, e⟩ => ⟨a, b, c, d, Nat.le_succ_of_le e⟩
  have leaves : ∀ o, s.pc.op? = some o → ∃ op, s.ctr.ops[o]? = some op ∧ op.ctx = s.ctx ∧ Leaves P s.ctr o op fun _ => True := by
    intro o ho
    obtain ⟨op, h1, h2, h3, h4, h5⟩ := (loopCallInv_run hi h).call o ho
    obtain ⟨l, g1, g2, g3⟩ := hcalm.link hP (by intro e; rw [e] at ho; cases ho)
    exact ⟨op, h1, h4, leaves_any hP hP2 (ctr_trans hi.run (rsys_proj h)) hup hmu hroom h1 h5 (h4.trans hctx) hcalm.isCtx (by rw [h2]; exact g1) g2⟩
  show CanEnd P k 1 s
  cases hp : s.pc with
  | next => exact more (ends_next hP hcalm hp)
  | accept m => exact more (ends_accept hP hcalm hp)
  | handle m => exact more (ends_handle hP hcalm hp)
  | closing => exact more (ends_closing hP hcalm hp)
  | ended => exact ⟨_, s, .nil, hp, Nat.zero_le _⟩
  | inNext o =>
    obtain ⟨op, h1, h2, evs', c, r, h3, h4, h5, _, h6, h7⟩ := leaves o (by rw [hp]; rfl)
    have r1 : RSys.Run P k s _ _ := lift_op h3 h4
    have hn : Ctr.Step P c (.ret o r) _ := .ret h5 rfl fun _ => .inr (by show op.ctx ≠ none; rw [h2, hctx]; simp)
    cases r with
    | none =>
      have r2 := r1.snoc h6 (.received hp hn)
      exact .cons r2 (Nat.le_refl _) (ends_accept hP (hcalm.after r2 rfl h6 h7) rfl)
    | some e =>
      have r2 := r1.snoc h6 (.nextErr hp hn)
      refine .cons (n := 0) r2 (Nat.zero_le _) ?_
      have hc := hcalm.after r2 rfl h6 h7
      have hpc : k.onNextErr e s.ctx = .closing ∨ k.onNextErr e s.ctx = .next ∨ k.onNextErr e s.ctx = .accept none := by
        unfold LoopKind.onNextErr
        cases k <;> simp only <;> (try split) <;> simp
      rcases hpc with hpc | hpc | hpc
      · exact ends_closing hP hc hpc
      · exact ends_next hP hc hpc
      · exact ends_accept hP hc hpc
  | inAccept o m =>
    obtain ⟨op, h1, h2, evs', c, r, h3, h4, h5, _, h6, h7⟩ := leaves o (by rw [hp]; rfl)
    have r1 : RSys.Run P k s _ _ := lift_op h3 h4
    have hn : Ctr.Step P c (.ret o r) _ := .ret h5 rfl fun _ => .inr (by show op.ctx ≠ none; rw [h2, hctx]; simp)
    cases r with
    | none =>
      have r2 := r1.snoc h6 (.accepted hp hn)
      refine .cons r2 (Nat.zero_le _) (ends_handle hP (hcalm.after r2 rfl h6 h7) (m := m) ?_)
      show k.onAccept m none s.ctx = _
      cases k <;> rfl
    | some e =>
      have r2 := r1.snoc h6 (.acceptErr hp hn)
      refine .cons (n := 0) r2 (Nat.zero_le _) ?_
      have hc := hcalm.after r2 rfl h6 h7
      have hpc : k.onAccept m (some e) s.ctx = .closing ∨ k.onAccept m (some e) s.ctx = .next ∨ k.onAccept m (some e) s.ctx = .handle m := by
        unfold LoopKind.onAccept
        cases k <;> simp only <;> (try split) <;> simp
      rcases hpc with hpc | hpc | hpc
      · exact ends_closing hP hc hpc
      · exact ends_next hP hc hpc
      · exact ends_handle hP hc hpc

/-- Instance of `C111_can_end`: the context of a loop ends before its first call. -/
theorem C111_can_end_example (k : LoopKind) : ∃ (a b : RsEv) (s s' : RSys), RSys.Run exclusive k recv0 a s ∧ a.l = [.cancel .deadline] ∧ RSys.Run exclusive k s b s' ∧ s'.pc = .ended ∧
    (loopReceived b.l).length ≤ 1 := by
  have r1 := (RSys.Run.nil (P := exclusive) (k := k) (s := recv0)).snoc rfl (.cancel .deadline (.inr rfl) rfl rfl)
  obtain ⟨b, s', h1, h2, h3⟩ := C111_can_end (P := exclusive) (k := k) rfl rfl recv_init r1 rfl rfl rfl (by decide)
  exact ⟨_, b, _, s', r1, rfl, h1, h2, h3⟩

end Verif.Props
