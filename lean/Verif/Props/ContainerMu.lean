import Verif.Proofs.ContainerMu
import Verif.Props.Container

/-!
# C123: waiting for `r.mu`

`Verif/Model/ContainerMu.lean` lets go-amqp take its time.  First: what happens there happens in `Verif/Model/Container.lean` too, so the claims about that model
hold here.  Then: who waits for whom.
-/
namespace Verif.Props
open Verif Verif.Model Verif.Proofs Verif.Spec

/-- The events of `Verif/Model/Container.lean` among the events. -/
def FEv.seen : FEv → Option CtrEv
  | .ev e => some e
  | _ => none

/-- **C123 (refinement).** Every run in which attaching, closing a receiver and closing the previous connection take time is, without the events in between, a run in
which they do not; the states differ in what is still being closed. -/
theorem C123_refines {P : LinkPolicy} {evs : List FEv} {s : CtrF} (h : CtrF.Run P {} evs s) : Ctr.Run P {} (evs.filterMap FEv.seen) s.coarse := by
  generalize hs0 : ({} : CtrF) = s0 at h
  induction h with
  | nil => subst hs0; exact .nil
  | @snoc s s' evs ev hr hc hs ih =>
    subst hs0
    have st := coarse_step (finv_run hr) hs
    rw [List.filterMap_append]
    cases ev with
    | ev e => exact ih.snoc hc st
    | attaching o => rw [show s'.coarse = s.coarse from st]; simpa [FEv.seen, List.filterMap_cons] using ih
    | closed i => rw [show s'.coarse = s.coarse from st]; simpa [FEv.seen, List.filterMap_cons] using ih
    | tornDown g => rw [show s'.coarse = s.coarse from st]; simpa [FEv.seen, List.filterMap_cons] using ih

/-- **C123 (refinement).** When nothing is being closed the states agree. -/
theorem C123_settled {s : CtrF} (h1 : s.closing = none) (h2 : s.closings = []) : s.coarse = s.c := by
  have e1 : s.epsDone = s.c.eps := by
    apply List.ext_getElem?
    intro k
    rw [epsDone_get, h1, h2]
    cases s.c.eps[k]? <;> simp
  have e2 : s.connsDone = s.c.conns := by
    apply List.ext_getElem?
    intro k
    rw [connsDone_get, h1]
    cases s.c.conns[k]? <;> simp
  unfold CtrF.coarse
  rw [e1, e2]

/-- **C54** with time: a link that has reported a session goes on with a later one only. -/
theorem C123_later_partial {P : LinkPolicy} (hP : P.overlap = false) {a b : List FEv} {s : CtrF} {i g g' : Nat} {ev' : CtrEv}
    (h : CtrF.Run P {} (a ++ .ev ev' :: b) s) (hmem : FEv.ev (.reported i g) ∈ a) (hev' : Touches i g' ev') : g < g' := by
  have hr := C123_refines h
  rw [List.filterMap_append, List.filterMap_cons] at hr
  exact C54_later_partial hP hr (List.mem_filterMap.2 ⟨_, hmem, rfl⟩) hev'

/-- **C59** with time: used by one operation at a time, and closed when not in use, a container does not panic. -/
theorem C123_safe_partial {evs : List FEv} {s : CtrF} (h : CtrF.Run exclusive {} evs s) : s.c.crashed = false :=
  (C59_exclusive_partial (C123_refines h)).1

/-- **C60** with time: a connection with a session that is open is the newest of a container that has not ended, or is being closed. -/
theorem C123_connections {P : LinkPolicy} {evs : List FEv} {s : CtrF} (h : CtrF.Run P {} evs s) {c : Conn} (hc : c ∈ s.c.conns) {g : Nat} (hg : c.gen = some g)
    (ho : c.open_ = true) : (g = s.c.gen ∧ s.c.loop ≠ .ended) ∨ s.closing = some g := by
  by_cases hcl : s.closing = some g
  · exact .inr hcl
  · left
    obtain ⟨k, hk⟩ := List.getElem?_of_mem hc
    have hx := connsDone_get s k
    rw [hk] at hx
    refine C60_connections_partial (C123_refines h) (c := { c with open_ := c.open_ && !(s.closing.isSome && decide (c.gen = s.closing)) }) (List.mem_of_getElem? hx) hg ?_
    cases hs : s.closing with
    | none => simp [ho]
    | some g' =>
      have : ¬ g = g' := by
        rintro rfl
        exact hcl hs
      simp [ho, hg, this]

/-! ## Waiting -/

/-- What is being closed is not in use. -/
theorem closings_unused {P : LinkPolicy} (hP : P.closeInUse = false) {evs : List FEv} {s : CtrF} (h : CtrF.Run P {} evs s) :
    ∀ i e, (i, e) ∈ s.closings → s.c.inUse i = false := by
  generalize hs0 : ({} : CtrF) = s0 at h
  induction h with
  | nil => subst hs0; intro i e h; exact absurd h List.not_mem_nil
  | @snoc s s' evs ev hr hc hs ih =>
    subst hs0
    -- an operation that is not active stays so
    have keep : ∀ {i : Nat} {c' : Ctr} {e : CtrEv}, (∀ o, e ≠ .call i o) → Ctr.Step P s.coarse e c' → s.c.inUse i = false → c'.inUse i = false := by
      intro i c' e hne st hu
      rw [inUse_false] at hu ⊢
      intro o op' ho' hi
      have hlen : s.coarse.ops = s.c.ops := rfl
      cases ho : s.c.ops[o]? with
      | some op =>
        obtain ⟨op2, g1, g2, _, g4⟩ := op_view st (show s.coarse.ops[o]? = some op from ho)
        rw [ho'] at g1
        obtain rfl := Option.some.inj g1
        have ha := hu o op ho (g2.symm.trans hi)
        rcases g4 with ⟨rfl, _⟩ | ⟨e1, _, _, rfl⟩ | ⟨_, hp, _⟩
        · exact ha
        · exact ha
        · unfold LOp.active at ha
          generalize op'.pc = q at hp
          cases hp <;> simp_all
      | none =>
        exfalso
        cases st with
        | @call l j k ctx h1 h2 h3 h4 =>
          replace ho' : (s.c.ops ++ [_])[o]? = some op' := ho'
          have hge : s.c.ops.length ≤ o := by
            rcases Nat.lt_or_ge o s.c.ops.length with h | h
            · rw [List.getElem?_eq_getElem h] at ho; cases ho
            · exact h
          rw [List.getElem?_append_right hge] at ho'
          cases hk : o - s.c.ops.length with
          | zero =>
            rw [hk] at ho'
            obtain rfl := Option.some.inj ho'
            subst hi
            exact hne _ rfl
          | succ n => rw [hk] at ho'; cases ho'
        | cancelOp o1 e1 h1 h2 h3 =>
          replace ho' : (s.c.ops.set _ _)[o]? = some op' := ho'
          rw [List.getElem?_set] at ho'
          split at ho'
          · subst_vars
            rw [show s.coarse.ops = s.c.ops from rfl, ho] at h2; cases h2
          · rw [ho] at ho'; cases ho'
        | _ =>
          first
          | (replace ho' : s.c.ops[o]? = some op' := ho'
             rw [ho] at ho'; cases ho')
          | (replace ho' : (s.c.ops.modify _ _)[o]? = some op' := ho'
             rw [List.getElem?_modify, ho] at ho'; cases ho')
    have hI := finv_run hr
    have hcs := coarse_step hI hs
    have same : ∀ {e : CtrEv}, ev = .ev e → (∀ i o, e = .call i o → ∀ x, (i, x) ∉ s.closings) → s'.closings = s.closings → ∀ i x, (i, x) ∈ s'.closings → s'.c.inUse i = false := by
      intro e he hn hcl i x hx
      subst he
      rw [hcl] at hx
      exact keep (c' := s'.coarse) (fun o ho => hn i o ho x hx) hcs (ih i x hx)
    cases hs with
    | attaching h1 h2 h3 h4 h5 h6 => exact ih
    | tornDown h1 => exact ih
    | closed h1 => intro i x hx; exact ih i x (List.mem_filter.1 hx).1
    | call h1 h2 => exact same (e := .call _ _) rfl (by intro i o he; cases he; exact h1 hP) rfl
    | @closing l e i h1 h2 h3 h4 h5 =>
      intro j x hx
      rcases List.mem_append.1 hx with hx | hx
      · exact ih j x hx
      · simp only [List.mem_singleton, Prod.mk.injEq] at hx
        obtain ⟨rfl, rfl⟩ := hx
        exact h3 hP
    | caller h1 h2 => exact same rfl (by rintro i o rfl; simp [CtrEv.ofCaller] at h1) rfl
    | loop h1 h2 h3 => exact same rfl (by rintro i o rfl; simp [CtrEv.ofLoop] at h1) rfl
    | op h1 h2 => exact same rfl (by rintro i o rfl; simp [CtrF.opEvent] at h1) rfl
    | publish h1 h2 => exact same (e := .session _) rfl (by intro i o he; cases he) rfl
    | ended h1 h2 => exact same (e := .ended) rfl (by intro i o he; cases he) rfl
    | useFail e h1 h2 h3 h4 h5 => exact same (e := .fail _ _) rfl (by intro i o he; cases he) rfl
    | short h1 h2 h3 h4 => exact same (e := .step _) rfl (by intro i o he; cases he) rfl
    | reuse h1 h2 h3 h4 h5 h6 h7 => exact same (e := .use _ _) rfl (by intro i o he; cases he) rfl
    | noSession h1 h2 h3 h4 h5 h6 => exact same (e := .panic) rfl (by intro i o he; cases he) rfl
    | attached h1 h2 => exact same (e := .use _ _) rfl (by intro i o he; cases he) rfl
    | attachFail e h1 h2 => exact same (e := .fail _ _) rfl (by intro i o he; cases he) rfl
    | close j h1 h2 h3 h4 => exact same (e := .close _) rfl (by intro i o he; cases he) rfl

/-- **C123** (partial: operations on a link do not overlap, and a link is closed when it is not in use).  Whatever an operation comes to, `r.mu` is free for it: nobody else
is using it, or it is the operation's own attachment that is under way. -/
theorem C123_no_wait_partial {P : LinkPolicy} (h1 : P.overlap = false) (h2 : P.closeInUse = false) {evs : List FEv} {s : CtrF} (h : CtrF.Run P {} evs s) {o : Nat} {op : LOp}
    (ho : s.c.ops[o]? = some op) (ha : op.active = true) : (∃ g, (op.link, o, g) ∈ s.attaching) ∨ s.free op.link := by
  have hI := finv_run h
  have hS := seqInv_run h1 (C123_refines h)
  by_cases hx : ∃ o' g, (op.link, o', g) ∈ s.attaching
  · obtain ⟨o', g, hm⟩ := hx
    obtain ⟨op', l, k1, k2, k3, _⟩ := hI.att _ _ _ hm
    have : o' = o := hS.seq o' o op' op k1 ho k3 (by simp [LOp.active, k2]) ha
    subst this
    exact .inl ⟨g, hm⟩
  · refine .inr ⟨fun o' g hm => hx ⟨o', g, hm⟩, fun e hm => ?_⟩
    have := (inUse_false.1 (closings_unused h2 h _ _ hm)) o op ho rfl
    rw [ha] at this; cases this

/-- **C123** (partial, as above).  An operation that comes to a critical section of its link enters it. -/
theorem C123_enters_partial {P : LinkPolicy} (h1 : P.overlap = false) (h2 : P.closeInUse = false) {evs : List FEv} {s : CtrF} (h : CtrF.Run P {} evs s) {o : Nat} {op : LOp}
    (ho : s.c.ops[o]? = some op) (hsh : op.pc.short = true) :
    ∃ s' op', CtrF.Step P s (.ev (.step o)) s' ∧ s'.c.ops[o]? = some op' ∧ op'.pc ≠ op.pc ∧ op'.pc.short = false := by
  have hact : op.active = true := by
    cases hpc : op.pc <;> simp_all [LOp.active, OpPC.short]
  have hfree : s.free op.link := by
    rcases C123_no_wait_partial h1 h2 h ho hact with ⟨g, hm⟩ | hf
    · obtain ⟨op', l, k1, k2, _⟩ := (finv_run h).att _ _ _ hm
      rw [ho] at k1
      obtain rfl := Option.some.inj k1
      rw [k2] at hsh; cases hsh
    · exact hf
  obtain ⟨l, hl, _⟩ := (closeInv_run (C123_refines h)).op o op ho
  have hl : s.c.links[op.link]? = some l := hl
  have go : ∀ {c1 : Ctr} {pc : OpPC}, c1.ops = s.c.ops → Ctr.Step P s.c (.step o) (c1.setOp o pc) → pc ≠ op.pc → pc.short = false →
      ∃ s' op', CtrF.Step P s (.ev (.step o)) s' ∧ s'.c.ops[o]? = some op' ∧ op'.pc ≠ op.pc ∧ op'.pc.short = false := by
    intro c1 pc h0 hst hne hns
    refine ⟨{ s with c := c1.setOp o pc }, { op with pc := pc }, .short ho hsh hfree hst, ?_, hne, hns⟩
    exact (setOp_get' h0 ho o).trans (if_pos rfl)
  have hcase : op.pc = .start ∨ (∃ g, op.pc = .got g) ∨ ∃ e, op.pc = .clearing e := by
    cases hpc : op.pc <;> simp_all [OpPC.short]
  rcases hcase with hpc | ⟨g, hpc⟩ | ⟨e, hpc⟩
  · cases hc : l.closed with
    | true => exact go rfl (.startClosed ho hpc hl hc) (by rw [hpc]; simp) rfl
    | false =>
      cases hcu : l.curr with
      | none => exact go rfl (.startWait ho hpc hl hc hcu) (by rw [hpc]; simp) rfl
      | some g => exact go rfl (.startHas ho hpc hl hc hcu) (by rw [hpc]; simp) rfl
  · exact go (c1 := s.c.setLink _ _) rfl (.take ho hpc hl) (by rw [hpc]; simp) rfl
  · exact go (c1 := s.c.setLink _ _) rfl (.clear ho hpc hl) (by rw [hpc]; simp) rfl

/-- A step of `Verif/Model/Container.lean` that is not the operation's leaves it at the start. -/
theorem start_stays {P : LinkPolicy} {c c' : Ctr} {ev : CtrEv} (hs : Ctr.Step P c ev c') {o : Nat} {op : LOp} (ho : c.ops[o]? = some op) (hpc : op.pc = .start)
    (hev : ev ≠ .step o) : ∃ op', c'.ops[o]? = some op' ∧ op'.pc = .start ∧ op'.link = op.link ∧ ∀ r, ev ≠ .ret o r := by
  have move : ∀ {o1 : Nat} {op1 : LOp} {pc : OpPC} {s1 : Ctr} {ev : CtrEv}, s1.ops = c.ops → c.ops[o1]? = some op1 → (op1.pc ≠ .start ∨ o1 ≠ o) → (∀ r, ev = .ret o r → o1 = o) →
      ∃ op', (s1.setOp o1 pc).ops[o]? = some op' ∧ op'.pc = .start ∧ op'.link = op.link ∧ ∀ r, ev ≠ .ret o r := by
    intro o1 op1 pc s1 ev h0 h1 h2 h3
    have hne : o1 ≠ o := by
      rcases h2 with h2 | h2
      · rintro rfl
        rw [ho] at h1
        obtain rfl := Option.some.inj h1
        exact h2 hpc
      · exact h2
    exact ⟨op, ((setOp_get' h0 h1 o).trans (if_neg hne)).trans ho, hpc, rfl, fun r hr => hne (h3 r hr)⟩
  cases hs with
  | @call l i k ctx h1 h2 h3 h4 =>
    refine ⟨op, ?_, hpc, rfl, by intro r h; cases h⟩
    show (c.ops ++ [_])[o]? = _
    rw [List.getElem?_append_left (List.getElem?_eq_some_iff.mp ho).1]; exact ho
  | @cancelOp op1 o1 e1 h1 h2 h3 =>
    by_cases e2 : o1 = o
    · subst e2
      rw [ho] at h2
      obtain rfl := Option.some.inj h2
      refine ⟨{ op with ctx := some e1 }, ?_, hpc, rfl, by intro r h; cases h⟩
      show (c.ops.set o1 _)[o1]? = _
      rw [List.getElem?_set, if_pos rfl, if_pos (List.getElem?_eq_some_iff.mp ho).1]
    · refine ⟨op, ?_, hpc, rfl, by intro r h; cases h⟩
      show (c.ops.set o1 _)[o]? = _
      rw [List.getElem?_set, if_neg e2]; exact ho
  | startClosed h1 h2 => exact move rfl h1 (.inr (by rintro rfl; exact hev rfl)) (by intro r h; cases h)
  | startHas h1 h2 => exact move rfl h1 (.inr (by rintro rfl; exact hev rfl)) (by intro r h; cases h)
  | startWait h1 h2 => exact move rfl h1 (.inr (by rintro rfl; exact hev rfl)) (by intro r h; cases h)
  | waited h1 h2 => exact move rfl h1 (.inl (by rw [h2]; simp)) (by intro r h; cases h)
  | park h1 h2 => exact move rfl h1 (.inl (by rw [h2]; simp)) (by intro r h; cases h)
  | wake h1 h2 => exact move rfl h1 (.inl (by rw [h2]; simp)) (by intro r h; cases h)
  | woken h1 h2 => exact move rfl h1 (.inl (by rw [h2]; simp)) (by intro r h; cases h)
  | waitCancelled h1 h2 => exact move rfl h1 (.inl (by rw [h2]; simp)) (by intro r h; cases h)
  | take h1 h2 => exact move (s1 := c.setLink _ _) rfl h1 (.inl (by rw [h2]; simp)) (by intro r h; cases h)
  | reuse h1 h2 => exact move rfl h1 (.inl (by rw [h2]; simp)) (by intro r h; cases h)
  | @attach o1 op1 l g h1 h2 h3 =>
    exact move (s1 := ({ c with eps := c.eps ++ [{ gen := g, link := op1.link, open_ := c.sessionOpen g }] } : Ctr).setLink op1.link
      { l with ep := some c.eps.length, epGen := l.currGen }) rfl h1 (.inl (by rw [h2]; simp)) (by intro r h; cases h)
  | attachFail e1 h1 h2 => exact move rfl h1 (.inl (by rw [h2]; simp)) (by intro r h; cases h)
  | useOk h1 h2 => exact move rfl h1 (.inl (by rw [h2]; simp)) (by intro r h; cases h)
  | useFail e1 h1 h2 => exact move rfl h1 (.inl (by rw [h2]; simp)) (by intro r h; cases h)
  | acceptFail e1 h1 h2 => exact move rfl h1 (.inl (by rw [h2]; simp)) (by intro r h; cases h)
  | benign h1 h2 => exact move rfl h1 (.inl (by rw [h2]; simp)) (by intro r h; cases h)
  | prepare h1 h2 => exact move rfl h1 (.inl (by rw [h2]; simp)) (by intro r h; cases h)
  | report h1 h2 => exact move (s1 := { c with errs := c.errs ++ [(_, _)] }) rfl h1 (.inl (by rw [h2]; simp)) (by intro r h; cases h)
  | clear h1 h2 => exact move (s1 := c.setLink _ _) rfl h1 (.inl (by rw [h2]; simp)) (by intro r h; cases h)
  | nextAgain h1 h2 => exact move rfl h1 (.inl (by rw [h2]; simp)) (by intro r h; cases h)
  | ret h1 h2 => exact move rfl h1 (.inl (by rw [h2]; simp)) (by intro r h; cases h; rfl)
  | _ => exact ⟨op, ho, hpc, rfl, by intro r h; cases h⟩

/-- **C123 (waiting).** An operation that begins while another attaches on the same link waits, whatever happens to its own context, until go-amqp has answered the other; so
does `Close`. -/
theorem C123_waits {P : LinkPolicy} {s s' : CtrF} {evs : List FEv} {i o o' g : Nat} {op : LOp} (hI : FInv s) (h : CtrF.Run P s evs s') (ha : (i, o', g) ∈ s.attaching)
    (ho : s.c.ops[o]? = some op) (hpc : op.pc = .start) (hi : op.link = i) (hn : ∀ g', FEv.ev (.use i g') ∉ evs ∧ FEv.ev (.fail i g') ∉ evs) :
    (∃ op', s'.c.ops[o]? = some op' ∧ op'.pc = .start ∧ op'.link = i) ∧ (i, o', g) ∈ s'.attaching ∧ FEv.ev (.close i) ∉ evs ∧ ∀ r, FEv.ev (.ret o r) ∉ evs := by
  suffices FInv s' ∧ (∃ op', s'.c.ops[o]? = some op' ∧ op'.pc = .start ∧ op'.link = i) ∧ (i, o', g) ∈ s'.attaching ∧ FEv.ev (.close i) ∉ evs ∧ ∀ r, FEv.ev (.ret o r) ∉ evs from this.2
  induction h with
  | nil => exact ⟨hI, ⟨op, ho, hpc, hi⟩, ha, by simp, by simp⟩
  | @snoc s1 s2 evs ev hr hc hs ih =>
    obtain ⟨hI1, ⟨op1, k1, k2, k3⟩, k4, k5, k6⟩ := ih (fun g' => ⟨fun hm => (hn g').1 (List.mem_append_left _ hm), fun hm => (hn g').2 (List.mem_append_left _ hm)⟩)
    have hmem : ev ∈ evs ++ [ev] := by simp
    have hcs := coarse_step hI1 hs
    -- the event is none of those excluded
    have fin : ∀ {e : CtrEv}, ev = .ev e → e ≠ .step o → (e ≠ .close i) → s2.attaching = s1.attaching ∨ (i, o', g) ∈ s2.attaching →
        FInv s2 ∧ (∃ op', s2.c.ops[o]? = some op' ∧ op'.pc = .start ∧ op'.link = i) ∧ (i, o', g) ∈ s2.attaching ∧ FEv.ev (.close i) ∉ evs ++ [ev] ∧
          ∀ r, FEv.ev (.ret o r) ∉ evs ++ [ev] := by
      intro e he h1 h2 h3
      subst he
      obtain ⟨op2, g1, g2, g3, g4⟩ := start_stays (show Ctr.Step P s1.coarse e s2.coarse from hcs) (show s1.coarse.ops[o]? = some op1 from k1) k2 h1
      refine ⟨hI1.step hs, ⟨op2, g1, g2, g3.trans k3⟩, ?_, ?_, ?_⟩
      · rcases h3 with h3 | h3
        · rw [h3]; exact k4
        · exact h3
      · simp only [List.mem_append, List.mem_singleton, FEv.ev.injEq, not_or]
        exact ⟨k5, fun h => h2 h.symm⟩
      · intro r
        simp only [List.mem_append, List.mem_singleton, FEv.ev.injEq, not_or]
        exact ⟨k6 r, fun h => g4 r h.symm⟩
    have quiet : (∀ e, ev ≠ .ev e) → s2.c.ops = s1.c.ops → (i, o', g) ∈ s2.attaching →
        FInv s2 ∧ (∃ op', s2.c.ops[o]? = some op' ∧ op'.pc = .start ∧ op'.link = i) ∧ (i, o', g) ∈ s2.attaching ∧ FEv.ev (.close i) ∉ evs ++ [ev] ∧
          ∀ r, FEv.ev (.ret o r) ∉ evs ++ [ev] := by
      intro h1 h2 h3
      refine ⟨hI1.step hs, ⟨op1, by rw [h2]; exact k1, k2, k3⟩, h3, ?_, ?_⟩
      · simp only [List.mem_append, List.mem_singleton, not_or]
        exact ⟨k5, fun h => h1 _ h.symm⟩
      · intro r
        simp only [List.mem_append, List.mem_singleton, not_or]
        exact ⟨k6 r, fun h => h1 _ h.symm⟩
    have busy : ∀ {j : Nat}, s1.free j → j ≠ i := by
      rintro j hf rfl
      exact hf.1 _ _ k4
    cases hs with
    | caller h1 h2 => exact fin rfl (by rintro rfl; simp [CtrEv.ofCaller] at h1) (by rintro rfl; simp [CtrEv.ofCaller] at h1) (.inl rfl)
    | loop h1 h2 h3 => exact fin rfl (by rintro rfl; simp [CtrEv.ofLoop] at h1) (by rintro rfl; simp [CtrEv.ofLoop] at h1) (.inl rfl)
    | publish h1 h2 => exact fin rfl (by simp) (by simp) (.inl rfl)
    | ended h1 h2 => exact fin rfl (by simp) (by simp) (.inl rfl)
    | tornDown h1 => exact quiet (by simp) rfl k4
    | call h1 h2 => exact fin rfl (by simp) (by simp) (.inl rfl)
    | op h1 h2 =>
      refine fin rfl ?_ (by rintro rfl; simp [CtrF.opEvent] at h1) (.inl rfl)
      rintro rfl
      have := h1 op1 k1
      rw [k2] at this; cases this
    | useFail e h1 h2 h3 h4 h5 => exact fin rfl (by simp) (by simp) (.inl rfl)
    | @short o2 op2 c' h1 h2 h3 h4 =>
      refine fin rfl ?_ (by simp) (.inl rfl)
      intro he
      cases he
      rw [k1] at h1
      obtain rfl := Option.some.inj h1
      exact busy h3 k3
    | reuse h1 h2 h3 h4 h5 h6 h7 => exact fin rfl (by simp) (by simp) (.inl rfl)
    | noSession h1 h2 h3 h4 h5 h6 => exact fin rfl (by simp) (by simp) (.inl rfl)
    | attaching h1 h2 h3 h4 h5 h6 => exact quiet (by simp) rfl (List.mem_append_left _ k4)
    | @attached j o2 g2 l h1 h2 =>
      have hj : i ≠ j := by
        rintro rfl
        exact (hn g2).1 hmem
      exact fin rfl (by simp) (by simp) (.inr (List.mem_filter.2 ⟨k4, by simpa using hj⟩))
    | @attachFail j o2 g2 e h1 h2 =>
      have hj : i ≠ j := by
        rintro rfl
        exact (hn g2).2 hmem
      exact fin rfl (by simp) (by simp) (.inr (List.mem_filter.2 ⟨k4, by simpa using hj⟩))
    | close j h1 h2 h3 h4 => exact fin rfl (by simp) (by simpa using busy h2) (.inl rfl)
    | closing j h1 h2 h3 h4 h5 => exact fin rfl (by simp) (by simpa using busy h2) (.inl rfl)
    | closed h1 => exact quiet (by simp) rfl k4

/-- The run of the examples below: a sender's first operation asks for a link, and a second operation with a context that has ended begins. -/
def blockedRun : List FEv :=
  [.ev .start, .ev .dialOk, .ev (.session 1), .tornDown 0, .ev (.newLink 0), .ev (.call 0 0), .ev (.step 0), .attaching 0, .ev (.call 0 1)]

def blockedState : CtrF where
  c := { loop := .serving, gen := 1, conns := [{ gen := some 1 }], links := [{ sender := true, currGen := 1, curr := some 1 }],
         ops := [{ link := 0, kind := .send, ctx := none, pc := .ready }, { link := 0, kind := .send, ctx := some .canceled }] }
  attaching := [(0, 0, 1)]

theorem blocked_reached : CtrF.Run anyUse {} blockedRun blockedState := by
  have r := (CtrF.Run.nil (P := anyUse) (s := {})).snoc rfl (.loop (ev := .start) rfl rfl (.start rfl))
  have r := r.snoc rfl (.loop (ev := .dialOk) rfl rfl (.dialOk rfl))
  have r := r.snoc rfl (.publish (k := 0) rfl rfl)
  have r := r.snoc rfl (.tornDown (g := 0) rfl)
  have r := r.snoc rfl (.caller (ev := .newLink 0) rfl (.newLink true rfl))
  have r := r.snoc rfl (.call (i := 0) (o := 0) (by intro h; cases h) (.call 0 .send none rfl rfl (by intro e h; cases h) (by intro h; cases h)))
  have r := r.snoc rfl (.short (o := 0) rfl rfl ⟨by simp, by simp⟩ (.startHas rfl rfl rfl rfl rfl))
  have r := r.snoc rfl (.attaching (o := 0) (g := 1) rfl rfl ⟨by simp, by simp⟩ rfl (by simp) rfl)
  have r := r.snoc rfl (.call (i := 0) (o := 1) (by intro h; cases h) (.call 0 .send (some .canceled) rfl rfl (by rintro e ⟨⟩; exact .inl rfl) (by intro h; cases h)))
  exact r

/-- **C123 (counterexample).** Used by two operations at once, a link makes one wait for the other's network: an operation whose context has ended before it began does not
return before go-amqp has answered the other, and neither does `Close` happen. -/
theorem C123_counterexample : ∃ s : CtrF, CtrF.Run anyUse {} blockedRun s ∧ (s.c.ops[1]?.bind LOp.ctx) = some .canceled ∧
    ∀ evs s', CtrF.Run anyUse s evs s' → (∀ g, FEv.ev (.use 0 g) ∉ evs ∧ FEv.ev (.fail 0 g) ∉ evs) → FEv.ev (.close 0) ∉ evs ∧ ∀ r, FEv.ev (.ret 1 r) ∉ evs :=
  ⟨blockedState, blocked_reached, rfl, fun _ _ h hn => (C123_waits (o := 1) (o' := 0) (g := 1) (finv_run blocked_reached) h (by decide) rfl rfl rfl hn).2.2⟩

/-- It does return once go-amqp has answered: what it gets is the error of its own context, through go-amqp. -/
example : ∃ s, CtrF.Run anyUse {} (blockedRun ++ [.ev (.use 0 1), .ev (.step 1)]) s ∧ s.free 0 := by
  have r := blocked_reached.snoc rfl (.attached (i := 0) (o := 0) (g := 1) (by decide) rfl)
  have r := r.snoc rfl (.short (o := 1) rfl rfl ⟨by simp [blockedState], by simp [blockedState]⟩ (.startHas rfl rfl rfl rfl rfl))
  exact ⟨_, by simpa [List.append_assoc] using r, by simp [CtrF.free, blockedState]⟩

/-- `C123_no_wait_partial` and `C123_enters_partial` speak of operations: one at a time, the first of the run above comes to its own critical section. -/
example : ∃ evs s, CtrF.Run exclusive {} evs s ∧ s.c.ops[0]? = some { link := 0, kind := .send, ctx := none, pc := .got 1 } ∧ s.free 0 := by
  have r := (CtrF.Run.nil (P := exclusive) (s := {})).snoc rfl (.caller (ev := .newLink 0) rfl (.newLink true rfl))
  have r := r.snoc rfl (.loop (ev := .start) rfl rfl (.start rfl))
  have r := r.snoc rfl (.loop (ev := .dialOk) rfl rfl (.dialOk rfl))
  have r := r.snoc rfl (.publish (k := 0) rfl rfl)
  have r := r.snoc rfl (.call (i := 0) (o := 0) (by simp) (.call 0 .send none rfl rfl (by intro e h; cases h) (fun _ => rfl)))
  have r := r.snoc rfl (.short (o := 0) rfl rfl ⟨by simp, by simp⟩ (.startWait rfl rfl rfl rfl rfl))
  have r := r.snoc rfl (.op (ev := .step 0) (by rintro op h; cases h; rfl) (.waited rfl rfl rfl (by decide)))
  exact ⟨_, _, r, rfl, by simp [CtrF.free]⟩

/-- `C123_connections`: while the previous connection is being closed there are two. -/
example : ∃ evs s, CtrF.Run exclusive {} evs s ∧ s.closing = some 1 ∧ s.c.conns.map Conn.open_ = [true, true] := by
  have r := (CtrF.Run.nil (P := exclusive) (s := {})).snoc rfl (.loop (ev := .start) rfl rfl (.start rfl))
  have r := r.snoc rfl (.loop (ev := .dialOk) rfl rfl (.dialOk rfl))
  have r := r.snoc rfl (.publish (k := 0) rfl rfl)
  have r := r.snoc rfl (.tornDown (g := 0) rfl)
  have r := r.snoc rfl (.caller (ev := .newLink 0) rfl (.newLink true rfl))
  have r := r.snoc rfl (.call (i := 0) (o := 0) (by simp) (.call 0 .send none rfl rfl (by intro e h; cases h) (fun _ => rfl)))
  have r := r.snoc rfl (.short (o := 0) rfl rfl ⟨by simp, by simp⟩ (.startHas rfl rfl rfl rfl rfl))
  have r := r.snoc rfl (.attaching (o := 0) (g := 1) rfl rfl ⟨by simp, by simp⟩ rfl (by simp) rfl)
  have r := r.snoc rfl (.attachFail (i := 0) (o := 0) (g := 1) (.other "detached") (by decide) rfl)
  have r := r.snoc rfl (.op (ev := .step 0) (by rintro op h; cases h; rfl) (.prepare rfl rfl rfl rfl rfl))
  have r := r.snoc rfl (.op (ev := .reported 0 1) trivial (.report (o := 0) (g := 1)
    (op := { link := 0, kind := .send, ctx := none, pc := .reporting 1 (.wrap "create error" (.other "detached")) }) rfl rfl (by decide)))
  have r := r.snoc rfl (.loop (ev := .restart 1) rfl rfl (.restart "session error" rfl rfl))
  have r := r.snoc rfl (.loop (ev := .retry) rfl rfl (.retry rfl rfl))
  have r := r.snoc rfl (.loop (ev := .again) rfl rfl (.notified rfl))
  have r := r.snoc rfl (.loop (ev := .again) rfl rfl (.again rfl))
  have r := r.snoc rfl (.loop (ev := .dialOk) rfl rfl (.dialOk rfl))
  have r := r.snoc rfl (.publish (k := 1) rfl rfl)
  exact ⟨_, _, r, rfl, by decide⟩

end Verif.Props
