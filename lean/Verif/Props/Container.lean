import Verif.Proofs.Container
import Verif.Spec.Container

/-!
# The session container (C54–C61)
-/
namespace Verif.Props
open Verif Verif.Model Verif.Spec Verif.Proofs

/-- All uses of links. -/
def anyUse : LinkPolicy := { overlap := true, closeInUse := true }

/-- One operation at a time on a link; `Close` may come at any time. -/
def oneAtATime : LinkPolicy := { overlap := false, closeInUse := true }

/-- One operation at a time on a link, `Close` included. -/
def exclusive : LinkPolicy := { overlap := false, closeInUse := false }

/-! ## C54 -/

/-- **C54** (partial: the operations on a link do not overlap).  The generations a link uses never decrease. -/
theorem C54_order_partial {P : LinkPolicy} (hP : P.overlap = false) {a b : List CtrEv} {s : Ctr} {i g g' : Nat} {ev ev' : CtrEv}
    (h : Ctr.Run P {} (a ++ ev' :: b) s) (hev : Touches i g ev) (hmem : ev ∈ a) (hev' : Touches i g' ev') : g ≤ g' := by
  obtain ⟨s1, s2, r1, _, st, _⟩ := ctr_split h
  have hI := seqInv_run hP r1
  have hin : CtrEv.use i g ∈ a ∨ CtrEv.fail i g ∈ a := by
    rcases hev with rfl | rfl
    · exact Or.inl hmem
    · exact Or.inr hmem
  rcases hev' with rfl | rfl
  · cases st with
    | @reuse o op l ep x h1 h2 h3 h4 h5 h6 =>
      obtain ⟨k1, k2⟩ := hI.link _ l h3
      obtain ⟨_, x', hx', hxg⟩ := k1.ep ep h4
      rw [h6] at hx'
      obtain rfl := Option.some.inj hx'
      rw [hxg, h5]
      exact k2.use g hin
    | @attach o op l g h1 h2 h3 h4 h5 =>
      obtain ⟨k1, k2⟩ := hI.link _ l h3
      rw [k1.curr _ h5]
      exact k2.use g hin
  · cases st with
    | @attachFail o op l g e h1 h2 h3 h4 h5 =>
      obtain ⟨k1, k2⟩ := hI.link _ l h3
      rw [k1.curr _ h5]
      exact k2.use g hin
    | @useFail o op ep x e h1 h2 h3 h4 =>
      obtain ⟨l, hl, hm⟩ := hI.op o op h1
      rw [h2] at hm
      obtain ⟨⟨x', hx', hxg⟩, _⟩ := hm
      rw [h4] at hx'
      obtain rfl := Option.some.inj hx'
      rw [hxg]
      exact (hI.link _ l hl).2.use g hin

/-- **C54** (partial: the operations on a link do not overlap).  After an operation on a link has failed with a session error, which it reports, the link is used with later
generations only: whatever is called next for the link is called on a session of a later generation, and so is everything after it. -/
theorem C54_later_partial {P : LinkPolicy} (hP : P.overlap = false) {a b : List CtrEv} {s : Ctr} {i g g' : Nat} {ev' : CtrEv}
    (h : Ctr.Run P {} (a ++ ev' :: b) s) (hmem : CtrEv.reported i g ∈ a) (hev' : Touches i g' ev') : g < g' := by
  obtain ⟨s1, s2, r1, _, st, _⟩ := ctr_split h
  have hI := seqInv_run hP r1
  rcases hev' with rfl | rfl
  · cases st with
    | @reuse o op l ep x h1 h2 h3 h4 h5 h6 =>
      obtain ⟨k1, k2⟩ := hI.link _ l h3
      obtain ⟨hc, x', hx', hxg⟩ := k1.ep ep h4
      rw [h6] at hx'
      obtain rfl := Option.some.inj hx'
      rw [hxg, h5]
      exact hI.reported_lt h1 (active_of_pc h2 (by simp)) h3 hc (by rw [h2]; simp) hmem
    | @attach o op l g h1 h2 h3 h4 h5 =>
      obtain ⟨k1, k2⟩ := hI.link _ l h3
      rw [k1.curr _ h5]
      exact hI.reported_lt h1 (active_of_pc h2 (by simp)) h3 (by rw [h5]; simp) (by rw [h2]; simp) hmem
  · cases st with
    | @attachFail o op l g e h1 h2 h3 h4 h5 =>
      obtain ⟨k1, k2⟩ := hI.link _ l h3
      rw [k1.curr _ h5]
      exact hI.reported_lt h1 (active_of_pc h2 (by simp)) h3 (by rw [h5]; simp) (by rw [h2]; simp) hmem
    | @useFail o op ep x e h1 h2 h3 h4 =>
      obtain ⟨l, hl, hm⟩ := hI.op o op h1
      rw [h2] at hm
      obtain ⟨⟨x', hx', hxg⟩, hlt⟩ := hm
      rw [h4] at hx'
      obtain rfl := Option.some.inj hx'
      rw [hxg]
      exact hlt g hmem

/-- Two operations on one link, which has lost its session: the first finds the session of generation 2 and is delayed, the second gets generation 3 and uses it, and then the
first goes on with generation 2. -/
theorem C54_counterexample_order : ∃ (evs mid : List CtrEv) (s : Ctr), Ctr.Run anyUse {} (evs ++ [.use 0 3] ++ mid ++ [.use 0 2]) s := by
  -- two operations wait for the first session; the first of them gets generation 2
  have r1 := (Ctr.Run.nil (P := anyUse) (s := {})).snoc rfl (.newLink true rfl)
  have r2 := r1.snoc rfl (.call 0 .send none rfl rfl (by simp) (by simp [anyUse]))
  have r3 := r2.snoc rfl (.call 0 .send none rfl rfl (by simp) (by simp [anyUse]))
  have r4 := r3.snoc rfl (.startWait (o := 0) rfl rfl rfl rfl rfl)
  have r5 := r4.snoc rfl (.startWait (o := 1) rfl rfl rfl rfl rfl)
  have r6 := r5.snoc rfl (.start rfl)
  have r7 := r6.snoc rfl (.dialOk rfl)
  have r8 := r7.snoc rfl (.session rfl)
  -- another link loses generation 1
  have r9 := r8.snoc rfl (.newLink true rfl)
  have r10 := r9.snoc rfl (.call 1 .send none rfl rfl (by simp) (by simp [anyUse]))
  have r11 := r10.snoc rfl (.startHas (o := 2) rfl rfl rfl rfl rfl)
  have r12 := r11.snoc rfl (.attachFail (.other "x") (o := 2) rfl rfl rfl (by simp) rfl rfl)
  have r13 := r12.snoc rfl (.prepare (o := 2) rfl rfl (by decide) (by decide) rfl)
  have r14 := r13.snoc rfl (.report (o := 2) rfl rfl (by decide))
  have r15 := r14.snoc rfl (.restart "x" rfl rfl)
  have r16 := r15.snoc rfl (.retry rfl rfl)
  have r17 := r16.snoc rfl (.notified rfl)
  have r18 := r17.snoc rfl (.again rfl)
  have r19 := r18.snoc rfl (.dialOk rfl)
  have r20 := r19.snoc rfl (.session rfl)
  have r21 := r20.snoc rfl (.waited (o := 0) rfl rfl rfl (by decide))
  -- and generation 2
  have r22 := r21.snoc rfl (.clear (o := 2) rfl rfl rfl)
  have r23 := r22.snoc rfl (.ret (o := 2) rfl rfl (by intro h; cases h))
  have r24 := r23.snoc rfl (.call 1 .send none rfl rfl (by simp) (by simp [anyUse]))
  have r25 := r24.snoc rfl (.startWait (o := 3) rfl rfl rfl rfl rfl)
  have r26 := r25.snoc rfl (.waited (o := 3) rfl rfl rfl (by decide))
  have r27 := r26.snoc rfl (.take (o := 3) rfl rfl rfl)
  have r28 := r27.snoc rfl (.attachFail (.other "x") (o := 3) rfl rfl rfl (by simp) rfl rfl)
  have r29 := r28.snoc rfl (.prepare (o := 3) rfl rfl (by decide) (by decide) rfl)
  have r30 := r29.snoc rfl (.report (o := 3) rfl rfl (by decide))
  have r31 := r30.snoc rfl (.restart "x" rfl rfl)
  have r32 := r31.snoc rfl (.retry rfl rfl)
  have r33 := r32.snoc rfl (.notified rfl)
  have r34 := r33.snoc rfl (.again rfl)
  have r35 := r34.snoc rfl (.dialOk rfl)
  have r36 := r35.snoc rfl (.session rfl)
  -- the second operation uses generation 3, the first goes on with generation 2
  have r37 := r36.snoc rfl (.waited (o := 1) rfl rfl rfl (by decide))
  have r38 := r37.snoc rfl (.take (o := 1) rfl rfl rfl)
  have r39 := r38.snoc rfl (.attach (o := 1) rfl rfl rfl (by simp) rfl)
  have r40 := r39.snoc rfl (.take (o := 0) rfl rfl rfl)
  have r41 := r40.snoc rfl (.attach (o := 0) rfl rfl rfl (by decide) rfl)
  exact ⟨_, [_], _, r41⟩

/-- Two operations on one link: one of them fails and reports generation 1, the other one uses the same session after that. -/
theorem C54_counterexample_reuse : ∃ (evs : List CtrEv) (s : Ctr), Ctr.Run anyUse {} (evs ++ [.reported 0 1] ++ [.use 0 1]) s := by
  have r1 := (Ctr.Run.nil (P := anyUse) (s := {})).snoc rfl (.start rfl)
  have r2 := r1.snoc rfl (.dialOk rfl)
  have r3 := r2.snoc rfl (.session rfl)
  have r4 := r3.snoc rfl (.newLink true rfl)
  have r5 := r4.snoc rfl (.call 0 .send none rfl rfl (by simp) (by simp [anyUse]))
  have r6 := r5.snoc rfl (.call 0 .send none rfl rfl (by simp) (by simp [anyUse]))
  have r7 := r6.snoc rfl (.startHas (o := 0) rfl rfl rfl rfl rfl)
  have r8 := r7.snoc rfl (.startHas (o := 1) rfl rfl rfl rfl rfl)
  have r9 := r8.snoc rfl (.attach (o := 0) rfl rfl rfl (by simp) rfl)
  have r10 := r9.snoc rfl (.useFail (.other "x") (o := 0) rfl rfl (by decide) rfl rfl)
  have r11 := r10.snoc rfl (.prepare (o := 0) rfl rfl (by decide) (by decide) rfl)
  have r12 := r11.snoc rfl (.report (o := 0) rfl rfl (by decide))
  have r13 := r12.snoc rfl (.reuse (o := 1) rfl rfl rfl rfl rfl rfl)
  exact ⟨_, _, r13⟩

/-- A link that fails with generation 1 and goes on with generation 2, used by one operation at a time. -/
theorem C54_instance : ∃ (evs : List CtrEv) (s : Ctr), Ctr.Run exclusive {} evs s ∧ CtrEv.reported 0 1 ∈ evs ∧ CtrEv.use 0 1 ∈ evs ∧ CtrEv.use 0 2 ∈ evs := by
  have r1 := (Ctr.Run.nil (P := exclusive) (s := {})).snoc rfl (.start rfl)
  have r2 := r1.snoc rfl (.dialOk rfl)
  have r3 := r2.snoc rfl (.session rfl)
  have r4 := r3.snoc rfl (.newLink false rfl)
  have r5 := r4.snoc rfl (.call 0 .next none rfl rfl (by simp) (by intro _; rfl))
  have r6 := r5.snoc rfl (.startHas (o := 0) rfl rfl rfl rfl rfl)
  have r7 := r6.snoc rfl (.attach (o := 0) rfl rfl rfl (by simp) rfl)
  have r8 := r7.snoc rfl (.useFail (.other "x") (o := 0) rfl rfl (by decide) rfl rfl)
  have r9 := r8.snoc rfl (.prepare (o := 0) rfl rfl (by decide) (by decide) rfl)
  have r10 := r9.snoc rfl (.report (o := 0) rfl rfl (by decide))
  have r11 := r10.snoc rfl (.clear (o := 0) rfl rfl rfl)
  have r12 := r11.snoc rfl (.nextAgain (o := 0) rfl rfl rfl rfl)
  have r13 := r12.snoc rfl (.startWait (o := 0) rfl rfl rfl rfl rfl)
  have r14 := r13.snoc rfl (.restart "x" rfl rfl)
  have r15 := r14.snoc rfl (.retry rfl rfl)
  have r16 := r15.snoc rfl (.notified rfl)
  have r17 := r16.snoc rfl (.again rfl)
  have r18 := r17.snoc rfl (.dialOk rfl)
  have r19 := r18.snoc rfl (.session rfl)
  have r20 := r19.snoc rfl (.waited (o := 0) rfl rfl rfl (by decide))
  have r21 := r20.snoc rfl (.take (o := 0) rfl rfl rfl)
  have r22 := r21.snoc rfl (.attach (o := 0) rfl rfl rfl (by simp) rfl)
  exact ⟨[.start, .dialOk, .session 1, .newLink 0, .call 0 0, .step 0, .use 0 1, .fail 0 1, .step 0, .reported 0 1, .step 0, .retryNext 0, .step 0, .restart 1, .retry,
    .again, .again, .dialOk, .session 2, .step 0, .step 0, .use 0 2], _, r22, by decide, by decide, by decide⟩

/-! ## C55 -/

/-- **C55**, the container's part: whatever is done with the links, a session is given up only while it is the newest one, for an error that was reported with its
generation, and only once. -/
theorem C55_current {P : LinkPolicy} {a b : List CtrEv} {s : Ctr} {g : Nat} (h : Ctr.Run P {} (a ++ .restart g :: b) s) :
    CtrEv.session g ∈ a ∧ (∀ g', CtrEv.session g' ∈ a → g' ≤ g) ∧ (∃ i, CtrEv.reported i g ∈ a) ∧ CtrEv.restart g ∉ a ∧ CtrEv.restart g ∉ b := by
  have first : ∀ {a b : List CtrEv} {s : Ctr}, Ctr.Run P {} (a ++ .restart g :: b) s →
      CtrEv.session g ∈ a ∧ (∀ g', CtrEv.session g' ∈ a → g' ≤ g) ∧ (∃ i, CtrEv.reported i g ∈ a) ∧ CtrEv.restart g ∉ a := by
    intro a b s h
    obtain ⟨s1, s2, r1, _, st, _⟩ := ctr_split h
    have hI := genInv_run r1
    cases st with
    | @restart e rest msg h1 h2 =>
      refine ⟨(hI.sess _).mpr ⟨hI.serving h1, Nat.le_refl _⟩, fun g' hg' => ((hI.sess g').mp hg').2, hI.errs _ e (by rw [h2]; simp), fun hr => ?_⟩
      rcases hI.restart _ hr with h3 | ⟨_, h3⟩
      · omega
      · exact h3 h1
  obtain ⟨h1, h2, h3, h4⟩ := first h
  refine ⟨h1, h2, h3, h4, fun hb => ?_⟩
  obtain ⟨b1, b2, rfl⟩ := List.append_of_mem hb
  have h' : Ctr.Run P {} ((a ++ .restart g :: b1) ++ .restart g :: b2) s := by simpa using h
  exact (first h').2.2.2 (by simp)

/-- **C55** (partial: the operations on a link do not overlap).  A session is given up only if the AMQP library has failed an operation on that very session. -/
theorem C55_cause_partial {P : LinkPolicy} (hP : P.overlap = false) {a b : List CtrEv} {s : Ctr} {g : Nat} (h : Ctr.Run P {} (a ++ .restart g :: b) s) :
    ∃ i, CtrEv.fail i g ∈ a := by
  obtain ⟨i, hi⟩ := (C55_current h).2.2.1
  obtain ⟨s1, s2, r1, _, st, _⟩ := ctr_split h
  have hI := seqInv_run hP r1
  have hd := hI.dom i g (Or.inr (Or.inr hi))
  obtain ⟨l, hl⟩ : ∃ l, s1.links[i]? = some l := ⟨_, List.getElem?_eq_getElem hd⟩
  exact ⟨i, ((hI.link i l hl).2.reported g hi).1⟩

/-- **C55** (partial: `Close` waits for the operations on the link).  The AMQP library is not called for a link after it was closed, so that closing links never gives
up a session. -/
theorem C55_closed_partial {P : LinkPolicy} (hP : P.closeInUse = false) {a b : List CtrEv} {s : Ctr} {i g : Nat} {ev : CtrEv} (hev : Touches i g ev)
    (h : Ctr.Run P {} (a ++ ev :: b) s) : CtrEv.close i ∉ a := by
  obtain ⟨s1, s2, r1, _, st, _⟩ := ctr_split h
  have hI := closeInv_run r1
  have key : ∀ {o : Nat} {op : LOp}, s1.ops[o]? = some op → op.link = i → (op.pc = .ready ∨ ∃ ep, op.pc = .inCall ep) → CtrEv.close i ∉ a := by
    intro o op ho hi hpc hc
    obtain ⟨l, hl, hp⟩ := hI.op o op ho
    have hcl : l.closed = false := by
      have := (hp hP).1
      rcases hpc with hpc | ⟨ep, hpc⟩ <;> (rw [hpc] at this; exact this)
    rw [← hi] at hc
    rw [(hI.closed _ l hl).mpr hc] at hcl
    cases hcl
  rcases hev with rfl | rfl
  · cases st with
    | @reuse o op l ep x h1 h2 h3 h4 h5 h6 => exact key h1 rfl (Or.inl h2)
    | @attach o op l g h1 h2 h3 h4 h5 => exact key h1 rfl (Or.inl h2)
  · cases st with
    | @attachFail o op l g e h1 h2 h3 h4 h5 => exact key h1 rfl (Or.inl h2)
    | @useFail o op ep x e h1 h2 h3 h4 => exact key h1 rfl (Or.inr ⟨ep, h2⟩)

/-- **C55**: an operation that fails with the error of its context or because its link is closed does not report anything: nothing changes but that it is about to return. -/
theorem C55_benign {P : LinkPolicy} {s s' : Ctr} {ev : CtrEv} {o : Nat} {op op' : LOp} {e : GoErr} (hs : Ctr.Step P s ev s') (ho : s.ops[o]? = some op)
    (hpc : op.pc = .failing e) (he : errorsIs (some e) op.ctx = true ∨ errorsIs (some e) (some .linkClosed) = true) (ho' : s'.ops[o]? = some op')
    (hne : op'.pc ≠ op.pc) : s' = s.setOp o (.leaving (some e)) := by
  have other : ∀ {o1 : Nat} {op1 : LOp} {pc : OpPC} {s1 : Ctr}, s1.ops = s.ops → s.ops[o1]? = some op1 → s' = s1.setOp o1 pc → op1.pc ≠ .failing e → False := by
    intro o1 op1 pc s1 h0 h1 h2 h3
    subst h2
    rw [setOp_get' h0 h1] at ho'
    by_cases e1 : o1 = o
    · subst e1
      rw [ho] at h1
      obtain rfl := Option.some.inj h1
      exact h3 hpc
    · rw [if_neg e1, ho] at ho'
      obtain rfl := Option.some.inj ho'
      exact hne rfl
  have same : s'.ops = s.ops → False := by
    intro h0
    rw [h0, ho] at ho'
    obtain rfl := Option.some.inj ho'
    exact hne rfl
  cases hs with
  | @benign o1 op1 e1 h1 h2 h3 =>
    rw [setOp_get' rfl h1] at ho'
    by_cases e2 : o1 = o
    · subst e2
      rw [ho] at h1
      obtain rfl := Option.some.inj h1
      rw [hpc] at h2
      cases h2
      rfl
    · rw [if_neg e2, ho] at ho'
      obtain rfl := Option.some.inj ho'
      exact absurd rfl hne
  | @prepare o1 op1 l e1 h1 h2 h3 h4 h5 =>
    rw [setOp_get' rfl h1] at ho'
    by_cases e2 : o1 = o
    · subst e2
      rw [ho] at h1
      obtain rfl := Option.some.inj h1
      rw [hpc] at h2
      cases h2
      rw [h3, h4] at he
      simp at he
    · rw [if_neg e2, ho] at ho'
      obtain rfl := Option.some.inj ho'
      exact absurd rfl hne
  | @call l i k ctx h1 h2 h3 h4 =>
    have h5 : (s.ops ++ [_])[o]? = some op' := ho'
    rw [List.getElem?_append_left (List.getElem?_eq_some_iff.mp ho).1, ho] at h5
    obtain rfl := Option.some.inj h5
    exact absurd rfl hne
  | @cancelOp op1 o1 e1 h1 h2 h3 =>
    have h5 : (s.ops.set o1 { op1 with ctx := some e1 })[o]? = some op' := ho'
    rw [List.getElem?_set] at h5
    by_cases e2 : o1 = o
    · subst e2
      rw [if_pos rfl, if_pos (List.getElem?_eq_some_iff.mp h2).1] at h5
      rw [ho] at h2
      obtain rfl := Option.some.inj h2
      obtain rfl := Option.some.inj h5
      exact absurd rfl hne
    · rw [if_neg e2, ho] at h5
      obtain rfl := Option.some.inj h5
      exact absurd rfl hne
  | startClosed h1 h2 => exact (other rfl h1 rfl (by rw [h2]; simp)).elim
  | startHas h1 h2 => exact (other rfl h1 rfl (by rw [h2]; simp)).elim
  | startWait h1 h2 => exact (other rfl h1 rfl (by rw [h2]; simp)).elim
  | waited h1 h2 => exact (other rfl h1 rfl (by rw [h2]; simp)).elim
  | park h1 h2 => exact (other rfl h1 rfl (by rw [h2]; simp)).elim
  | wake h1 h2 => exact (other rfl h1 rfl (by rw [h2]; simp)).elim
  | woken h1 h2 => exact (other rfl h1 rfl (by rw [h2]; simp)).elim
  | waitCancelled h1 h2 => exact (other rfl h1 rfl (by rw [h2]; simp)).elim
  | take h1 h2 h3 => exact (other (s1 := s.setLink _ _) rfl h1 rfl (by rw [h2]; simp)).elim
  | reuse h1 h2 => exact (other rfl h1 rfl (by rw [h2]; simp)).elim
  | @attach o1 op1 l g h1 h2 h3 =>
    exact (other (s1 := ({ s with eps := s.eps ++ [{ gen := g, link := op1.link, open_ := s.sessionOpen g }] } : Ctr).setLink op1.link
      { l with ep := some s.eps.length, epGen := l.currGen }) rfl h1 rfl (by rw [h2]; simp)).elim
  | attachFail e1 h1 h2 => exact (other rfl h1 rfl (by rw [h2]; simp)).elim
  | useOk h1 h2 => exact (other rfl h1 rfl (by rw [h2]; simp)).elim
  | useFail e1 h1 h2 => exact (other rfl h1 rfl (by rw [h2]; simp)).elim
  | acceptFail e1 h1 h2 => exact (other rfl h1 rfl (by rw [h2]; simp)).elim
  | report h1 h2 => exact (other (s1 := { s with errs := s.errs ++ [(_, _)] }) rfl h1 rfl (by rw [h2]; simp)).elim
  | clear h1 h2 h3 => exact (other (s1 := s.setLink _ _) rfl h1 rfl (by rw [h2]; simp)).elim
  | nextAgain h1 h2 => exact (other rfl h1 rfl (by rw [h2]; simp)).elim
  | ret h1 h2 => exact (other rfl h1 rfl (by rw [h2]; simp)).elim
  | _ => exact (same rfl).elim

/-- Two operations on one link fail with the session of generation 1, the second one late: it reports generation 2, which is given up although nothing failed on it. -/
theorem C55_counterexample_late : ∃ (evs : List CtrEv) (s : Ctr), Ctr.Run anyUse {} (evs ++ [.restart 2]) s ∧ ∀ i, CtrEv.fail i 2 ∉ evs := by
  have r1 := (Ctr.Run.nil (P := anyUse) (s := {})).snoc rfl (.start rfl)
  have r2 := r1.snoc rfl (.dialOk rfl)
  have r3 := r2.snoc rfl (.session rfl)
  have r4 := r3.snoc rfl (.newLink true rfl)
  have r5 := r4.snoc rfl (.call 0 .send none rfl rfl (by simp) (by simp [anyUse]))
  have r6 := r5.snoc rfl (.call 0 .send none rfl rfl (by simp) (by simp [anyUse]))
  have r7 := r6.snoc rfl (.startHas (o := 0) rfl rfl rfl rfl rfl)
  have r8 := r7.snoc rfl (.startHas (o := 1) rfl rfl rfl rfl rfl)
  have r9 := r8.snoc rfl (.attach (o := 0) rfl rfl rfl (by simp) rfl)
  have r10 := r9.snoc rfl (.reuse (o := 1) rfl rfl rfl rfl rfl rfl)
  have r11 := r10.snoc rfl (.useFail (.other "x") (o := 0) rfl rfl (by decide) rfl rfl)
  have r12 := r11.snoc rfl (.useFail (.other "x") (o := 1) rfl rfl (by decide) rfl rfl)
  have r13 := r12.snoc rfl (.prepare (o := 0) rfl rfl (by decide) (by decide) rfl)
  have r14 := r13.snoc rfl (.report (o := 0) rfl rfl (by decide))
  have r15 := r14.snoc rfl (.clear (o := 0) rfl rfl rfl)
  have r16 := r15.snoc rfl (.ret (o := 0) rfl rfl (by intro h; cases h))
  have r17 := r16.snoc rfl (.restart "x" rfl rfl)
  have r18 := r17.snoc rfl (.retry rfl rfl)
  have r19 := r18.snoc rfl (.notified rfl)
  have r20 := r19.snoc rfl (.again rfl)
  have r21 := r20.snoc rfl (.dialOk rfl)
  have r22 := r21.snoc rfl (.session rfl)
  -- a third operation takes the new session, before the second one has handled its error
  have r23 := r22.snoc rfl (.call 0 .send none rfl rfl (by simp) (by simp [anyUse]))
  have r24 := r23.snoc rfl (.startWait (o := 2) rfl rfl rfl rfl rfl)
  have r25 := r24.snoc rfl (.waited (o := 2) rfl rfl rfl (by decide))
  have r26 := r25.snoc rfl (.take (o := 2) rfl rfl rfl)
  have r27 := r26.snoc rfl (.prepare (o := 1) rfl rfl (by decide) (by decide) rfl)
  have r28 := r27.snoc rfl (.report (o := 1) rfl rfl (by decide))
  have r29 := r28.snoc rfl (.restart "x" rfl rfl)
  exact ⟨[_, _, _, _, _, _, _, _, _, _, _, _, _, _, _, _, _, _, _, _, _, _, _, _, _, _, _, _], _, r29, by simp⟩

/-- `Close` while `Next` is receiving: the AMQP library ends the call with an error of its own, and the whole session is given up. -/
theorem C55_counterexample_close : ∃ (a b : List CtrEv) (s : Ctr), Ctr.Run oneAtATime {} (a ++ [.close 0] ++ b ++ [.restart 1]) s ∧ (∀ i g, CtrEv.fail i g ∉ a) ∧
    ∀ i g, CtrEv.fail i g ∈ b → i = 0 := by
  have r1 := (Ctr.Run.nil (P := oneAtATime) (s := {})).snoc rfl (.start rfl)
  have r2 := r1.snoc rfl (.dialOk rfl)
  have r3 := r2.snoc rfl (.session rfl)
  have r4 := r3.snoc rfl (.newLink false rfl)
  have r5 := r4.snoc rfl (.call 0 .next none rfl rfl (by simp) (by intro _; rfl))
  have r6 := r5.snoc rfl (.startHas (o := 0) rfl rfl rfl rfl rfl)
  have r7 := r6.snoc rfl (.attach (o := 0) rfl rfl rfl (by simp) rfl)
  have r8 := r7.snoc rfl (.close 0 rfl (by simp [oneAtATime]))
  have r9 := r8.snoc rfl (.useFail (.other "amqp: link closed") (o := 0) rfl rfl (by decide) rfl rfl)
  have r10 := r9.snoc rfl (.prepare (o := 0) rfl rfl (by decide) (by decide) rfl)
  have r11 := r10.snoc rfl (.report (o := 0) rfl rfl (by decide))
  have r12 := r11.snoc rfl (.restart "x" rfl rfl)
  exact ⟨[_, _, _, _, _, _, _], [_, _, _], _, r12, by simp, by simp⟩

/-! ## C57 -/

/-- **C57** is false: a positive credit is ignored; the AMQP library gets 0 and uses its default. -/
theorem C57_ignored {n : Int} (hn : 0 < n) : attachCredit n = 0 := by
  unfold attachCredit receiverCredit
  rw [if_neg (by omega)]
  decide

theorem C57_counterexample : ∃ n : Int, 0 < n ∧ n < 2147483648 ∧ attachCredit n ≠ n := ⟨256, by decide⟩

/-- **C57** (partial: only credits that are not positive, which ask for the default of the container).  A credit of an int32 that is not positive is passed on as it is: no
default is set, and a negative one makes go-amqp wait for credits that the code never issues. -/
theorem C57_nonpositive_partial {n : Int} (hn : n ≤ 0) (hlo : -2147483648 ≤ n) : attachCredit n = n := by
  unfold attachCredit receiverCredit toInt32
  rw [if_pos hn]
  omega

/-! ## C59 -/

/-- **C59** (partial: `Close` waits for the operation on the link, and operations on one link do not overlap).  No operation panics. -/
theorem C59_exclusive_partial {evs : List CtrEv} {s : Ctr} (h : Ctr.Run exclusive {} evs s) : s.crashed = false ∧ CtrEv.panic ∉ evs := by
  generalize hs0 : ({} : Ctr) = s0 at h
  induction h with
  | nil => subst hs0; exact ⟨rfl, by simp⟩
  | @snoc s s' evs ev hr hc hs ih =>
    subst hs0
    have hI := closeInv_run hr
    obtain ⟨_, h2⟩ := ih
    have ev_ne : ev ≠ .panic ∧ s'.crashed = s.crashed := by
      cases hs with
      | @noSession o op l h1 h2 h3 h4 h5 =>
        obtain ⟨l0, hl, hp⟩ := hI.op o op h1
        rw [h3] at hl
        obtain rfl := Option.some.inj hl
        exact absurd h5 ((hp rfl).2 rfl h2)
      | _ => exact ⟨by simp, rfl⟩
    refine ⟨by rw [ev_ne.2]; exact hc, fun hm => ?_⟩
    rw [List.mem_append, List.mem_singleton] at hm
    rcases hm with hm | hm
    · exact h2 hm
    · exact ev_ne.1 hm.symm

/-- `Close` between the wait for a session and the attach: a nil session is used. -/
theorem C59_counterexample_close : ∃ (evs : List CtrEv) (s : Ctr), Ctr.Run oneAtATime {} (evs ++ [.close 0] ++ [.panic]) s ∧ s.crashed = true := by
  have r1 := (Ctr.Run.nil (P := oneAtATime) (s := {})).snoc rfl (.start rfl)
  have r2 := r1.snoc rfl (.dialOk rfl)
  have r3 := r2.snoc rfl (.session rfl)
  have r4 := r3.snoc rfl (.newLink false rfl)
  have r5 := r4.snoc rfl (.call 0 .next none rfl rfl (by simp) (by intro _; rfl))
  have r6 := r5.snoc rfl (.startHas (o := 0) rfl rfl rfl rfl rfl)
  have r7 := r6.snoc rfl (.close 0 rfl (by simp [oneAtATime]))
  have r8 := r7.snoc rfl (.noSession (o := 0) rfl rfl rfl (by simp) rfl)
  exact ⟨_, _, r8, rfl⟩

/-- Without any `Close`: an operation on the link drops the session that another one has waited for. -/
theorem C59_counterexample_overlap : ∃ (evs : List CtrEv) (s : Ctr), Ctr.Run { overlap := true, closeInUse := false } {} (evs ++ [.panic]) s ∧ s.crashed = true ∧
    ∀ i, CtrEv.close i ∉ evs := by
  have r1 := (Ctr.Run.nil (P := { overlap := true, closeInUse := false }) (s := {})).snoc rfl (.start rfl)
  have r2 := r1.snoc rfl (.dialOk rfl)
  have r3 := r2.snoc rfl (.session rfl)
  have r4 := r3.snoc rfl (.newLink true rfl)
  have r5 := r4.snoc rfl (.call 0 .send none rfl rfl (by simp) (by simp))
  have r6 := r5.snoc rfl (.call 0 .send none rfl rfl (by simp) (by simp))
  have r7 := r6.snoc rfl (.startHas (o := 0) rfl rfl rfl rfl rfl)
  have r8 := r7.snoc rfl (.startHas (o := 1) rfl rfl rfl rfl rfl)
  have r9 := r8.snoc rfl (.attachFail (.other "x") (o := 0) rfl rfl rfl (by simp) rfl rfl)
  have r10 := r9.snoc rfl (.prepare (o := 0) rfl rfl (by decide) (by decide) rfl)
  have r11 := r10.snoc rfl (.report (o := 0) rfl rfl (by decide))
  have r12 := r11.snoc rfl (.clear (o := 0) rfl rfl rfl)
  have r13 := r12.snoc rfl (.noSession (o := 1) rfl rfl rfl (by simp) rfl)
  exact ⟨[_, _, _, _, _, _, _, _, _, _, _, _], _, r13, rfl, by simp⟩

/-! ## C56 -/

/-- The error of an operation on a closed link. -/
def closedError : GoErr := .wrap "session await error" .linkClosed

/-- An operation that was started on a link after it was closed. -/
def OnClosed (s : Ctr) (o : Nat) (k : OpKind) (op : LOp) : Prop :=
  s.ops[o]? = some op ∧ op.kind = k ∧ (∃ l, s.links[op.link]? = some l ∧ l.closed = true) ∧
    (op.pc = .start ∨ op.pc = .failing closedError ∨ op.pc = .leaving (some closedError) ∨ op.pc = .done (some closedError))

theorem onClosed_step {P : LinkPolicy} {s s' : Ctr} {ev : CtrEv} {o : Nat} {k : OpKind} {op : LOp} (h : OnClosed s o k op) (hs : Ctr.Step P s ev s') :
    ∃ op', OnClosed s' o k op' ∧ (op' = op ∨ (∃ e, ev = .cancelOp o e ∧ op'.pc = op.pc) ∨
      (op'.ctx = op.ctx ∧ (opRank op'.pc < opRank op.pc ∨ (op.kind = .next ∧ op.ctx = none)) ∧
        (op.kind = .next → op.ctx = none → ∀ r, op'.pc ≠ .done r))) ∧
      ((∃ r, ev = .ret o r) → (op.kind = .next → op.ctx ≠ none) ∧ ev = .ret o (some closedError)) := by
  obtain ⟨h1, h2, ⟨l, hl, hc⟩, h3⟩ := h
  obtain ⟨op', g1, g2, g3, g4⟩ := op_view hs h1
  obtain ⟨l', hl', _, hc'⟩ := link_view hs hl
  have base : (∃ l, s'.links[op'.link]? = some l ∧ l.closed = true) := ⟨l', by rw [g2]; exact hl', hc' hc⟩
  rcases g4 with ⟨rfl, hr⟩ | ⟨e, rfl, hn, rfl⟩ | ⟨hctx, hpc, hr⟩
  · exact ⟨op', ⟨g1, by rw [g3, h2], base, h3⟩, Or.inl rfl, fun ⟨r, h⟩ => absurd h (hr r)⟩
  · exact ⟨_, ⟨g1, by rw [g3, h2], base, h3⟩, Or.inr (Or.inl ⟨e, rfl, rfl⟩), fun ⟨r, h⟩ => by cases h⟩
  · have hdone : ∀ r, op.pc ≠ .done r := by
      intro r hd
      generalize op'.pc = pc at hpc
      cases hpc <;> rename_i hx <;> simp_all
    refine ⟨op', ⟨g1, by rw [g3, h2], base, ?_⟩, Or.inr (Or.inr ⟨hctx, ?_, ?_⟩), ?_⟩
    · generalize op'.pc = pc at hpc hr
      rcases h3 with h3 | h3 | h3 | h3
      · cases hpc <;> simp_all [closedError]
      · cases hpc <;> simp_all [closedError, errorsIs, GoErr.is]
      · cases hpc <;> simp_all [closedError]
      · exact absurd h3 (hdone _)
    · generalize op'.pc = pc at hpc hr
      rcases h3 with h3 | h3 | h3 | h3
      · cases hpc <;> simp_all [opRank]
      · cases hpc <;> simp_all [opRank]
      · cases hpc <;> simp_all [opRank]
      · exact absurd h3 (hdone _)
    · intro hk hn r hd
      rw [hd] at hpc
      cases hpc with
      | ret h5 h6 =>
        rcases h6 hk with h7 | h7
        · subst h7
          rcases h3 with h3 | h3 | h3 | h3 <;> simp_all
        · exact h7 hn
    · rintro ⟨r, rfl⟩
      have hd := hr r rfl
      rw [hd] at hpc
      cases hpc with
      | ret h5 h6 =>
        have : r = some closedError := by rcases h3 with h3 | h3 | h3 | h3 <;> simp_all
        subst this
        exact ⟨fun hk => (h6 hk).resolve_left (by simp), rfl⟩

/-- **C56** is false for `Next`: on a closed link, with a context that does not end, it never returns, in no execution. -/
theorem C56_next_never {P : LinkPolicy} {s s' : Ctr} {evs : List CtrEv} {o : Nat} {op : LOp} {l : Lnk} (h : Ctr.Run P s evs s') (ho : s.ops[o]? = some op)
    (hk : op.kind = .next) (hctx : op.ctx = none) (hpc : op.pc = .start) (hl : s.links[op.link]? = some l) (hc : l.closed = true)
    (hn : ∀ e, CtrEv.cancelOp o e ∉ evs) : (∀ r, CtrEv.ret o r ∉ evs) ∧ ∃ op', s'.ops[o]? = some op' ∧ op'.active = true := by
  suffices hsuf : (∀ r, CtrEv.ret o r ∉ evs) ∧ ∃ op', OnClosed s' o .next op' ∧ op'.ctx = none ∧ op'.active = true by
    obtain ⟨h1, op', h2, _, h3⟩ := hsuf
    exact ⟨h1, op', h2.1, h3⟩
  induction h with
  | nil => exact ⟨by simp, op, ⟨ho, hk, ⟨l, hl, hc⟩, Or.inl hpc⟩, hctx, active_of_pc hpc (by simp)⟩
  | @snoc s1 s2 evs ev hr hcr hs ih =>
    obtain ⟨i1, op1, i2, i3, i4⟩ := ih (fun e he => hn e (List.mem_append_left _ he))
    obtain ⟨op2, j1, j2, j3⟩ := onClosed_step i2 hs
    have hk1 : op1.kind = .next := i2.2.1
    refine ⟨?_, op2, j1, ?_, ?_⟩
    · intro r hm
      rw [List.mem_append, List.mem_singleton] at hm
      rcases hm with hm | rfl
      · exact i1 r hm
      · exact (j3 ⟨r, rfl⟩).1 hk1 i3
    · rcases j2 with rfl | ⟨e, rfl, _⟩ | ⟨h1, _, _⟩
      · exact i3
      · exact absurd (by simp) (hn e)
      · rw [h1, i3]
    · rcases j2 with rfl | ⟨e, rfl, h1⟩ | ⟨_, _, h1⟩
      · exact i4
      · exact absurd (by simp) (hn e)
      · cases hp : op2.pc with
        | done r => exact absurd hp (h1 hk1 i3 r)
        | _ => exact active_of_pc hp (by simp)

/-- And it does not rest: it calls itself without end, which in Go ends with the stack exhausted. -/
theorem C56_next_loops {P : LinkPolicy} {s : Ctr} {o : Nat} {op : LOp} {l : Lnk} (ho : s.ops[o]? = some op) (hk : op.kind = .next) (hctx : op.ctx = none)
    (hpc : op.pc = .start) (hl : s.links[op.link]? = some l) (hc : l.closed = true) (hcr : s.crashed = false) (n : Nat) :
    ∃ s', Ctr.Run P s ((List.replicate n [CtrEv.step o, .step o, .retryNext o]).flatten) s' ∧ s'.ops[o]? = some op ∧ s'.links = s.links ∧ s'.crashed = false := by
  induction n with
  | zero => exact ⟨s, .nil, ho, rfl, hcr⟩
  | succ n ih =>
    obtain ⟨s1, r1, h1, h2, h3⟩ := ih
    have o1 : (s1.setOp o (.failing closedError)).ops[o]? = some { op with pc := .failing closedError } := (setOp_get' rfl h1 o).trans (if_pos rfl)
    have o2 : ((s1.setOp o (.failing closedError)).setOp o (.leaving (some closedError))).ops[o]? = some { op with pc := .leaving (some closedError) } :=
      (setOp_get' rfl o1 o).trans (if_pos rfl)
    have o3 : (((s1.setOp o (.failing closedError)).setOp o (.leaving (some closedError))).setOp o .start).ops[o]? = some { op with pc := .start } :=
      (setOp_get' rfl o2 o).trans (if_pos rfl)
    have s3 := ((Ctr.Run.nil (P := P)).snoc h3 (.startClosed h1 hpc (by rw [h2]; exact hl) hc)).snoc h3 (.benign o1 rfl (Or.inr (by decide)))
    have s4 := s3.snoc h3 (.nextAgain o2 rfl hk hctx)
    refine ⟨_, ?_, o3.trans (by rw [← hpc]), h2, h3⟩
    rw [List.replicate_succ', List.flatten_append]
    have r5 := ctr_trans r1 s4
    simp only [List.flatten_cons, List.flatten_nil, List.append_nil, List.nil_append, List.cons_append] at r5 ⊢
    exact r5

theorem C56_counterexample : ∃ (evs : List CtrEv) (s : Ctr), Ctr.Run exclusive {} (evs ++ [.close 0, .call 0 0]) s ∧
    ∀ (evs' : List CtrEv) (s' : Ctr), Ctr.Run exclusive s evs' s' → (∀ e, CtrEv.cancelOp 0 e ∉ evs') → ∀ r, CtrEv.ret 0 r ∉ evs' := by
  have r1 := (Ctr.Run.nil (P := exclusive) (s := {})).snoc rfl (.start rfl)
  have r2 := r1.snoc rfl (.dialOk rfl)
  have r3 := r2.snoc rfl (.session rfl)
  have r4 := r3.snoc rfl (.newLink false rfl)
  have r5 := r4.snoc rfl (.close 0 rfl (by intro _; rfl))
  have r6 := r5.snoc rfl (.call 0 .next none rfl rfl (by simp) (by intro _; rfl))
  exact ⟨[_, _, _, _], _, r6, fun evs' s' h hn => (C56_next_never h rfl rfl rfl rfl rfl rfl hn).1⟩

/-- **C56** (partial: `Accept` and `Send`, or a context that has ended).  An operation on a closed link has at most three steps to go, can always take the next one by itself,
and returns errLinkClosed. -/
theorem C56_prompt_partial {P : LinkPolicy} {s : Ctr} {o : Nat} {op : LOp} {k : OpKind} (h : OnClosed s o k op) (hk : k ≠ .next ∨ op.ctx ≠ none) :
    (opRank op.pc ≠ 0 → ∃ ev s', isOwnStep o ev = true ∧ Ctr.Step P s ev s' ∧ ∃ op', OnClosed s' o k op' ∧ opRank op'.pc < opRank op.pc) ∧
    (∀ ev s', Ctr.Step P s ev s' → ∃ op', OnClosed s' o k op' ∧ (k ≠ .next ∨ op'.ctx ≠ none) ∧ (op'.pc = op.pc ∨ opRank op'.pc < opRank op.pc) ∧
      ∀ r, ev = .ret o r → r = some closedError) := by
  obtain ⟨h1, h2, ⟨l, hl, hc⟩, h3⟩ := h
  have h0 : OnClosed s o k op := ⟨h1, h2, ⟨l, hl, hc⟩, h3⟩
  refine ⟨fun hr => ?_, fun ev s' hs => ?_⟩
  · have go : ∀ {pc : OpPC} {ev : CtrEv}, isOwnStep o ev = true → Ctr.Step P s ev (s.setOp o pc) → opRank pc < opRank op.pc →
        (pc = .failing closedError ∨ pc = .leaving (some closedError) ∨ pc = .done (some closedError)) →
        ∃ ev s', isOwnStep o ev = true ∧ Ctr.Step P s ev s' ∧ ∃ op', OnClosed s' o k op' ∧ opRank op'.pc < opRank op.pc := by
      intro pc ev e1 e2 e3 e4
      refine ⟨ev, _, e1, e2, { op with pc := pc }, ⟨(setOp_get' rfl h1 o).trans (if_pos rfl), h2, ⟨l, hl, hc⟩, Or.inr e4⟩, e3⟩
    rcases h3 with h3 | h3 | h3 | h3
    · exact go (by simp [isOwnStep]) (.startClosed h1 h3 hl hc) (by rw [h3]; decide) (Or.inl rfl)
    · exact go (by simp [isOwnStep]) (.benign h1 h3 (Or.inr (by decide))) (by rw [h3]; decide) (Or.inr (Or.inl rfl))
    · refine go (by simp [isOwnStep]) (.ret h1 h3 ?_) (by rw [h3]; decide) (Or.inr (Or.inr rfl))
      intro hn
      rcases hk with hk | hk
      · exact absurd (h2.symm.trans hn) hk
      · exact Or.inr hk
    · rw [h3] at hr
      exact absurd rfl hr
  · obtain ⟨op', j1, j2, j3⟩ := onClosed_step h0 hs
    refine ⟨op', j1, ?_, ?_, fun r hr => ?_⟩
    · rcases hk with hk | hk
      · exact Or.inl hk
      · right
        rcases j2 with rfl | ⟨e, rfl, _⟩ | ⟨h4, _, _⟩
        · exact hk
        · cases hs with
          | cancelOp _ _ g1 g2 g3 =>
            rw [h1] at g2
            obtain rfl := Option.some.inj g2
            exact absurd g3 hk
        · rw [h4]; exact hk
    · rcases j2 with rfl | ⟨e, _, h4⟩ | ⟨_, h4, _⟩
      · exact Or.inl rfl
      · exact Or.inl h4
      · refine Or.inr (h4.resolve_right fun h5 => ?_)
        rcases hk with hk | hk
        · exact hk (h2.symm.trans h5.1)
        · exact hk h5.2
    · have := (j3 ⟨r, hr⟩).2
      rw [hr] at this
      cases this
      rfl

/-- The error an operation carries. -/
def opError : OpPC → Option GoErr
  | .failing e | .reporting _ e | .clearing e => some e
  | .leaving r | .done r => r
  | _ => none

/-- **C56 (no other).** An operation returns `errLinkClosed` only if its link has been closed: the failure of a session is never reported as a closed link. -/
theorem C56_only_closed {P : LinkPolicy} {evs : List CtrEv} {s : Ctr} (h : Ctr.Run P {} evs s) {o : Nat} {op : LOp} {e : GoErr} (ho : s.ops[o]? = some op)
    (hr : op.pc = .done (some e)) (he : errorsIs (some e) (some .linkClosed) = true) : ∃ l, s.links[op.link]? = some l ∧ l.closed = true := by
  have inv : ∀ (o : Nat) (op : LOp), s.ops[o]? = some op → (∀ e, op.ctx = some e → e.IsCtx) ∧
      ∀ e, opError op.pc = some e → errorsIs (some e) (some .linkClosed) = true → ∃ l, s.links[op.link]? = some l ∧ l.closed = true := by
    clear ho hr he
    generalize hs0 : ({} : Ctr) = s0 at h
    induction h with
    | nil => subst hs0; intro o op ho; simp at ho
    | @snoc s1 s2 evs ev hrun hc hs ih =>
      intro o op' ho'
      by_cases hlt : o < s1.ops.length
      · obtain ⟨op2, g1, g2, g3, g4⟩ := op_view hs (List.getElem?_eq_getElem hlt)
        rw [ho'] at g1
        obtain rfl := Option.some.inj g1
        obtain ⟨i1, i2⟩ := ih o _ (List.getElem?_eq_getElem hlt)
        have keep : ∀ {l : Lnk}, s1.links[(s1.ops[o]).link]? = some l → l.closed = true → ∃ l, s2.links[op'.link]? = some l ∧ l.closed = true := by
          intro l h1 h2
          obtain ⟨l', k1, _, k2⟩ := link_view hs h1
          exact ⟨l', by rw [g2]; exact k1, k2 h2⟩
        have keep' : ∀ e, opError (s1.ops[o]).pc = some e → errorsIs (some e) (some .linkClosed) = true → ∃ l, s2.links[op'.link]? = some l ∧ l.closed = true :=
          fun e h1 h2 => let ⟨l, k1, k2⟩ := i2 e h1 h2; keep k1 k2
        rcases g4 with ⟨rfl, _⟩ | ⟨e, rfl, h1, rfl⟩ | ⟨h1, hpc, _⟩
        · exact ⟨i1, keep'⟩
        · refine ⟨fun e' he' => ?_, keep'⟩
          cases he'
          cases hs with
          | cancelOp _ _ k1 => exact k1
        · refine ⟨fun e' he' => i1 e' (by rw [← h1]; exact he'), ?_⟩
          intro e he hcl
          generalize op'.pc = pc at hpc he
          cases hpc with
          | startClosed q1 q2 q3 => exact keep q2 q3
          | @waitCancelled prev e1 q1 q2 =>
            cases he
            rcases i1 e1 q2 with rfl | rfl <;> simp [errorsIs, GoErr.is] at hcl
          | attachFail q1 q2 => cases he; rw [q2] at hcl; cases hcl
          | useFail q1 q2 q3 => cases he; rw [q3] at hcl; cases hcl
          | acceptFail q1 q2 q3 => cases he; rw [q3] at hcl; cases hcl
          | benign q1 q2 => exact keep' e (by rw [q1]; exact he) hcl
          | prepare q1 q2 q3 => exact keep' e (by rw [q1]; exact he) hcl
          | report q1 q2 => exact keep' e (by rw [q1]; exact he) hcl
          | clear q1 => exact keep' e (by rw [q1]; exact he) hcl
          | ret q1 q2 => exact keep' e (by rw [q1]; exact he) hcl
          | _ => cases he
      · -- a call was made
        have hnew : s1.ops.length ≤ o := Nat.le_of_not_lt hlt
        cases hs with
        | @call l i k ctx h1 h2 h3 h4 =>
          have : (s1.ops ++ [{ link := i, kind := k, ctx := ctx }])[o]? = some op' := ho'
          rw [List.getElem?_append_right hnew, List.getElem?_singleton] at this
          split at this
          · cases this
            exact ⟨h3, fun e he => by cases he⟩
          · cases this
        | _ =>
          exfalso
          have hl := (List.getElem?_eq_some_iff.mp ho').1
          first
            | (simp [Ctr.setOp, Ctr.setLink, Ctr.teardown] at hl; omega)
            | omega
  exact (inv o op ho).2 e (by rw [hr]; rfl) he

/-- `Send` on a closed link. -/
theorem C56_instance : ∃ (evs : List CtrEv) (s : Ctr), Ctr.Run exclusive {} (evs ++ [.close 0, .call 0 0, .step 0, .step 0, .ret 0 (some closedError)]) s := by
  have r1 := (Ctr.Run.nil (P := exclusive) (s := {})).snoc rfl (.start rfl)
  have r2 := r1.snoc rfl (.dialOk rfl)
  have r3 := r2.snoc rfl (.session rfl)
  have r4 := r3.snoc rfl (.newLink true rfl)
  have r5 := r4.snoc rfl (.close 0 rfl (by intro _; rfl))
  have r6 := r5.snoc rfl (.call 0 .send none rfl rfl (by simp) (by intro _; rfl))
  have r7 := r6.snoc rfl (.startClosed (o := 0) rfl rfl rfl rfl)
  have r8 := r7.snoc rfl (.benign (o := 0) rfl rfl (by decide))
  have r9 := r8.snoc rfl (.ret (o := 0) rfl rfl (by intro h; cases h))
  exact ⟨[_, _, _, _], _, r9⟩

/-! ## C58 -/

/-- **C58**: once its context has ended, every step of an operation takes it nearer to its end: it has at most eleven to go. -/
theorem C58_decreases {P : LinkPolicy} {s s' : Ctr} {ev : CtrEv} {o : Nat} {op : LOp} (hs : Ctr.Step P s ev s') (ho : s.ops[o]? = some op) (hctx : op.ctx ≠ none) :
    ∃ op', s'.ops[o]? = some op' ∧ op'.ctx = op.ctx ∧ (op' = op ∨ opRank op'.pc < opRank op.pc) := by
  obtain ⟨op', g1, g2, g3, g4⟩ := op_view hs ho
  refine ⟨op', g1, ?_⟩
  rcases g4 with ⟨rfl, _⟩ | ⟨e, _, h, _⟩ | ⟨h, hpc, _⟩
  · exact ⟨rfl, Or.inl rfl⟩
  · exact absurd h hctx
  · refine ⟨h, Or.inr ?_⟩
    generalize op'.pc = pc at hpc
    cases hpc <;> rename_i hx <;> first
      | (rw [hx]; simp [opRank]; done)
      | simp_all [opRank]

/-- **C58** (partial: the channel of session errors has room when the operation reports, and the goroutine of Start is not calling handlers).  An operation whose context has
ended can go on, by a step of its own. -/
theorem C58_enabled_partial {P : LinkPolicy} {evs : List CtrEv} {s : Ctr} {o : Nat} {op : LOp} {e : GoErr} (h : Ctr.Run P {} evs s) (ho : s.ops[o]? = some op)
    (hctx : op.ctx = some e) (hact : op.active = true) (hroom : s.errs.length < sessionErrorsCap) (hmu : s.muHeld = false) :
    ∃ ev s', Ctr.Step P s ev s' ∧ (s'.crashed = true ∨ ∃ op', s'.ops[o]? = some op' ∧ opRank op'.pc < opRank op.pc) := by
  obtain ⟨l, hl, _⟩ := (closeInv_run h).op o op ho
  have hR := resInv_run h
  have go : ∀ {pc : OpPC} {ev : CtrEv} {s1 : Ctr}, s1.ops = s.ops → Ctr.Step P s ev (s1.setOp o pc) → opRank pc < opRank op.pc →
      ∃ ev s', Ctr.Step P s ev s' ∧ (s'.crashed = true ∨ ∃ op', s'.ops[o]? = some op' ∧ opRank op'.pc < opRank op.pc) :=
    fun h0 h1 h2 => ⟨_, _, h1, Or.inr ⟨_, (setOp_get' h0 ho o).trans (if_pos rfl), h2⟩⟩
  cases hpc : op.pc with
  | start =>
    cases hc : l.closed with
    | true => rw [← hpc]; exact go rfl (.startClosed ho hpc hl hc) (by rw [hpc]; decide)
    | false =>
      cases hcur : l.curr with
      | some g => rw [← hpc]; exact go rfl (.startHas ho hpc hl hc hcur) (by rw [hpc]; decide)
      | none => rw [← hpc]; exact go rfl (.startWait ho hpc hl hc hcur) (by rw [hpc]; simp [opRank])
  | waiting prev =>
    rw [← hpc]
    by_cases hg : s.gen = prev
    · exact go rfl (.park ho hpc hmu hg) (by rw [hpc]; simp [opRank])
    · exact go rfl (.waited ho hpc hmu hg) (by rw [hpc]; simp [opRank])
  | parked prev => rw [← hpc]; exact go rfl (.waitCancelled ho hpc hctx) (by rw [hpc]; simp [opRank])
  | waking prev =>
    rw [← hpc]
    exact go rfl (.woken ho hpc hmu (by have := (waking_lt h o op prev ho).2 hpc; omega)) (by rw [hpc]; simp [opRank])
  | got g => rw [← hpc]; exact go (s1 := s.setLink _ _) rfl (.take ho hpc hl) (by rw [hpc]; simp [opRank])
  | ready =>
    by_cases hep : l.ep.isSome = true ∧ l.epGen = l.currGen
    · obtain ⟨ep, he⟩ := Option.isSome_iff_exists.mp hep.1
      have hlt := hR.link _ l hl ep he
      rw [← hpc]
      exact go rfl (.reuse ho hpc hl he hep.2 (List.getElem?_eq_getElem hlt)) (by rw [hpc]; simp [opRank])
    · cases hcur : l.curr with
      | some g => rw [← hpc]; exact go rfl (.attachFail .canceled ho hpc hl hep hcur rfl) (by rw [hpc]; simp [opRank])
      | none => exact ⟨_, _, .noSession ho hpc hl hep hcur, Or.inl rfl⟩
  | inCall ep => rw [← hpc]; exact go rfl (.useOk ho hpc) (by rw [hpc]; simp [opRank])
  | failing er =>
    rw [← hpc]
    cases h1 : errorsIs (some er) op.ctx with
    | true => exact go rfl (.benign ho hpc (Or.inl h1)) (by rw [hpc]; simp [opRank])
    | false =>
      cases h2 : errorsIs (some er) (some .linkClosed) with
      | true => exact go rfl (.benign ho hpc (Or.inr h2)) (by rw [hpc]; simp [opRank])
      | false => exact go rfl (.prepare ho hpc h1 h2 hl) (by rw [hpc]; simp [opRank])
  | reporting g er => rw [← hpc]; exact go (s1 := { s with errs := s.errs ++ [(g, er)] }) rfl (.report ho hpc hroom) (by rw [hpc]; simp [opRank])
  | clearing er => rw [← hpc]; exact go (s1 := s.setLink _ _) rfl (.clear ho hpc hl) (by rw [hpc]; simp [opRank])
  | leaving r => rw [← hpc]; exact go rfl (.ret ho hpc (fun _ => Or.inr (by rw [hctx]; simp))) (by rw [hpc]; simp [opRank])
  | done r => simp [LOp.active, hpc] at hact

/-- **C58** is false: when the container has ended and the channel is full, an operation that reports an error never returns, whatever its context does. -/
theorem C58_blocked_forever {P : LinkPolicy} {s s' : Ctr} {evs : List CtrEv} {o g : Nat} {op : LOp} {e : GoErr} (h : Ctr.Run P s evs s') (ho : s.ops[o]? = some op)
    (hpc : op.pc = .reporting g e) (hfull : sessionErrorsCap ≤ s.errs.length) (hend : s.loop = .ended) :
    ∃ op', s'.ops[o]? = some op' ∧ op'.pc = .reporting g e ∧ sessionErrorsCap ≤ s'.errs.length ∧ s'.loop = .ended := by
  induction h with
  | nil => exact ⟨op, ho, hpc, hfull, hend⟩
  | @snoc s1 s2 evs ev hr hc hs ih =>
    obtain ⟨op1, i1, i2, i3, i4⟩ := ih
    obtain ⟨op2, g1, g2, g3, g4⟩ := op_view hs i1
    have hloop : s2.loop = .ended ∧ s1.errs.length ≤ s2.errs.length := by
      cases hs with
      | report h1 h2 h3 => exact ⟨i4, by show _ ≤ (s1.errs ++ [_]).length; simp⟩
      | _ => first | exact ⟨i4, Nat.le_refl _⟩ | simp_all
    refine ⟨op2, g1, ?_, Nat.le_trans i3 hloop.2, hloop.1⟩
    rcases g4 with ⟨rfl, _⟩ | ⟨e, _, h, rfl⟩ | ⟨h, hpc', _⟩
    · exact i2
    · exact i2
    · exfalso
      generalize op2.pc = pc at hpc'
      cases hpc' <;> rename_i hx <;> simp_all
      omega

/-- One more link fails after the container has ended: an operation on it is about to report. -/
theorem one_failure {evs0 : List CtrEv} {s : Ctr} (h0 : Ctr.Run exclusive {} evs0 s) (hend : s.loop = .ended) (hg : s.gen ≠ 0) (hc : s.crashed = false) :
    ∃ evs s', Ctr.Run exclusive s evs s' ∧ s'.loop = .ended ∧ s'.gen = s.gen ∧ s'.crashed = false ∧ s'.errs = s.errs ∧
      ∃ op e, s'.ops[s.ops.length]? = some op ∧ op.ctx = none ∧ op.pc = .reporting s.gen e ∧ op.kind = .send := by
  have hmu : s.muHeld = false := by unfold Ctr.muHeld; rw [hend]
  let l : Lnk := { sender := true, currGen := s.gen, curr := if s.gen = 0 then none else some s.gen }
  have hcur : l.curr = some s.gen := if_neg hg
  let s1 : Ctr := { s with links := s.links ++ [l] }
  have r1 : Ctr.Run exclusive s ([] ++ [.newLink s.links.length]) s1 := (Ctr.Run.nil (P := exclusive) (s := s)).snoc hc (.newLink true hmu)
  have hl : s1.links[s.links.length]? = some l := by
    show (s.links ++ [l])[s.links.length]? = some l
    rw [List.getElem?_append_right (Nat.le_refl _)]; simp
  have hfree : s1.inUse s.links.length = false := by
    refine inUse_false.mpr fun o op ho hi => ?_
    obtain ⟨l', hl', _⟩ := (closeInv_run h0).op o op ho
    have := (List.getElem?_eq_some_iff.mp hl').1
    omega
  let op : LOp := { link := s.links.length, kind := .send }
  let s2 : Ctr := { s1 with ops := s.ops ++ [op] }
  have r2 : Ctr.Run exclusive s ([] ++ [.newLink s.links.length] ++ [.call s.links.length s.ops.length]) s2 :=
    r1.snoc hc (.call s.links.length .send none hl rfl (by simp) (fun _ => hfree))
  have o2 : s2.ops[s.ops.length]? = some op := by
    show (s.ops ++ [op])[s.ops.length]? = some op
    rw [List.getElem?_append_right (Nat.le_refl _)]; simp
  have r3 := r2.snoc hc (.startHas (l := l) o2 rfl hl rfl hcur)
  have o3 : (s2.setOp s.ops.length .ready).ops[s.ops.length]? = some { op with pc := .ready } := (setOp_get' rfl o2 _).trans (if_pos rfl)
  have r4 := r3.snoc hc (.attachFail (.other "x") o3 rfl hl (by simp [l]) hcur rfl)
  have o4 := (setOp_get' (s1 := s2.setOp s.ops.length .ready) (pc := .failing (.wrap "create error" (.other "x"))) rfl o3 s.ops.length).trans (if_pos rfl)
  have r5 := r4.snoc hc (.prepare o4 rfl rfl (by decide) hl)
  have o5 := (setOp_get' (s1 := (s2.setOp s.ops.length .ready).setOp s.ops.length (.failing (.wrap "create error" (.other "x"))))
    (pc := .reporting s.gen (.wrap "create error" (.other "x"))) rfl o4 s.ops.length).trans (if_pos rfl)
  exact ⟨_, _, r5, hend, rfl, hc, rfl, _, _, o5, rfl, rfl, rfl⟩

theorem fill {evs0 : List CtrEv} {s : Ctr} (h0 : Ctr.Run exclusive {} evs0 s) (hend : s.loop = .ended) (hg : s.gen ≠ 0) (hc : s.crashed = false)
    (n : Nat) (hn : s.errs.length + n = sessionErrorsCap) :
    ∃ evs s', Ctr.Run exclusive s evs s' ∧ s'.loop = .ended ∧ s'.gen = s.gen ∧ s'.crashed = false ∧ s'.errs.length = sessionErrorsCap := by
  induction n generalizing s evs0 with
  | zero => exact ⟨[], s, .nil, hend, rfl, hc, hn⟩
  | succ n ih =>
    obtain ⟨evs1, s1, r1, e1, g1, c1, q1, op, e, o1, hx, hp, hk⟩ := one_failure h0 hend hg hc
    have r2 := r1.snoc c1 (.report o1 hp (by rw [q1]; omega))
    obtain ⟨evs3, s3, r3, e3, g3, c3, q3⟩ := ih (ctr_trans h0 r2) e1 (by show s1.gen ≠ 0; rw [g1]; exact hg) c1
      (by show (s1.errs ++ [_]).length + n = _; rw [q1]; simp only [List.length_append, List.length_singleton]; omega)
    exact ⟨_, _, ctr_trans r2 r3, e3, g3.trans g1, c3, q3⟩

/-- 33 links fail after the end of the container: the last one stays although its context has ended. -/
theorem C58_counterexample : ∃ (evs : List CtrEv) (s : Ctr) (o : Nat) (op : LOp), Ctr.Run exclusive {} evs s ∧ s.ops[o]? = some op ∧ op.ctx = some .canceled ∧
    op.active = true ∧ ∀ (evs' : List CtrEv) (s' : Ctr), Ctr.Run exclusive s evs' s' → ∃ op', s'.ops[o]? = some op' ∧ op'.active = true := by
  have r1 := (Ctr.Run.nil (P := exclusive) (s := {})).snoc rfl (.start rfl)
  have r2 := r1.snoc rfl (.dialOk rfl)
  have r3 := r2.snoc rfl (.session rfl)
  have r4 := r3.snoc rfl (.cancel .canceled (by decide) rfl)
  have r5 := r4.snoc rfl (.interrupted rfl rfl)
  have r6 := r5.snoc rfl (.stopFailed rfl rfl)
  obtain ⟨evs7, s7, r7, e7, g7, c7, q7⟩ := fill r6 rfl (by simp) rfl 32 (by simp [sessionErrorsCap])
  have r7' := ctr_trans r6 r7
  obtain ⟨evs8, s8, r8, e8, g8, c8, q8, op, e, o8, hx, hp, hk⟩ := one_failure r7' e7 (by rw [g7]; simp) c7
  have r9 := r8.snoc c8 (.cancelOp s7.ops.length .canceled (by decide) o8 hx)
  have o9 : (s8.ops.set s7.ops.length { op with ctx := some .canceled })[s7.ops.length]? = some { op with ctx := some .canceled } := by
    rw [List.getElem?_set, if_pos rfl, if_pos (List.getElem?_eq_some_iff.mp o8).1]
  refine ⟨_, _, s7.ops.length, { op with ctx := some .canceled }, ctr_trans r7' r9, o9, rfl, active_of_pc hp (by simp), fun evs' s' h => ?_⟩
  obtain ⟨op', k1, k2, _⟩ := C58_blocked_forever h o9 hp (by show _ ≤ s8.errs.length; rw [q8, q7]; exact Nat.le_refl _) e8
  exact ⟨op', k1, active_of_pc k2 (by simp)⟩

/-! ## C69 -/

/-- **C69** is false: when the container has ended, an operation that waits for a session never returns unless its own context ends. -/
theorem C69_hangs {P : LinkPolicy} {s s' : Ctr} {evs : List CtrEv} {o : Nat} {op : LOp} (h : Ctr.Run P s evs s') (ho : s.ops[o]? = some op)
    (hpc : op.pc = .waiting s.gen ∨ op.pc = .parked s.gen) (hctx : op.ctx = none) (hend : s.loop = .ended) (hn : ∀ e, CtrEv.cancelOp o e ∉ evs) :
    ∃ op', s'.ops[o]? = some op' ∧ (op'.pc = .waiting s.gen ∨ op'.pc = .parked s.gen) ∧ op'.ctx = none ∧ s'.loop = .ended ∧ s'.gen = s.gen := by
  induction h with
  | nil => exact ⟨op, ho, hpc, hctx, hend, rfl⟩
  | @snoc s1 s2 evs ev hr hc hs ih =>
    obtain ⟨op1, i1, i2, i3, i4, i5⟩ := ih (fun e he => hn e (List.mem_append_left _ he))
    obtain ⟨op2, g1, g2, g3, g4⟩ := op_view hs i1
    have hloop : s2.loop = .ended ∧ s2.gen = s1.gen := by
      cases hs with
      | _ => first | exact ⟨i4, rfl⟩ | simp_all
    refine ⟨op2, g1, ?_, ?_, hloop.1, hloop.2.trans i5⟩
    · rcases g4 with ⟨rfl, _⟩ | ⟨e, rfl, _, _⟩ | ⟨h, hpc', _⟩
      · exact i2
      · exact absurd (by simp) (hn e)
      · generalize op2.pc = pc at hpc' ⊢
        cases hpc' <;> rename_i hx <;> simp_all
    · rcases g4 with ⟨rfl, _⟩ | ⟨e, rfl, _, _⟩ | ⟨h, hpc', _⟩
      · exact i3
      · exact absurd (by simp) (hn e)
      · rw [h, i3]

/-- **C69** (partial: the context of the operation ends).  When the container has ended, an operation that waits for a session and whose own context ends gets to its
return by its own steps alone, and returns the error of its context.  (`C58_decreases`: in no schedule does it have more than eleven steps to go.)  Missing: that it
returns when its context does not end (false, `C69_counterexample`). -/
theorem C69_context_partial {P : LinkPolicy} {s : Ctr} {o : Nat} {op : LOp} {e : GoErr} (ho : s.ops[o]? = some op)
    (hpc : op.pc = .waiting s.gen ∨ op.pc = .parked s.gen) (hctx : op.ctx = some e) (he : e.IsCtx) (hend : s.loop = .ended) (hc : s.crashed = false) :
    ∃ (evs : List CtrEv) (s' : Ctr), Ctr.Run P s (evs ++ [.ret o (some (.wrap "session await error" e))]) s' ∧ ∀ ev ∈ evs, ev = .step o := by
  have parked : ∀ {s1 : Ctr} {evs : List CtrEv} {op1 : LOp}, Ctr.Run P s evs s1 → (∀ ev ∈ evs, ev = .step o) → s1.crashed = false → s1.ops[o]? = some op1 →
      op1.pc = .parked s.gen → op1.ctx = some e →
      ∃ (evs : List CtrEv) (s' : Ctr), Ctr.Run P s (evs ++ [.ret o (some (.wrap "session await error" e))]) s' ∧ ∀ ev ∈ evs, ev = .step o := by
    intro s1 evs op1 h1 hev hc1 o1 hp hx
    have r2 := h1.snoc hc1 (.waitCancelled o1 hp hx)
    have o2 := (setOp_get' (s1 := s1) (pc := .failing (.wrap "session await error" e)) rfl o1 o).trans (if_pos rfl)
    have r3 := r2.snoc hc1 (.benign o2 rfl (Or.inl (by show errorsIs _ op1.ctx = true; rw [hx]; rcases he with rfl | rfl <;> decide)))
    have o3 := (setOp_get' (pc := .leaving (some (.wrap "session await error" e))) rfl o2 o).trans (if_pos rfl)
    have r4 := r3.snoc hc1 (.ret o3 rfl (fun _ => Or.inr (by show op1.ctx ≠ none; rw [hx]; simp)))
    refine ⟨_, _, r4, fun ev h => ?_⟩
    simp only [List.mem_append, List.mem_singleton] at h
    rcases h with (h | h) | h
    · exact hev ev h
    · exact h
    · exact h
  rcases hpc with hpc | hpc
  · have hmu : s.muHeld = false := by unfold Ctr.muHeld; rw [hend]
    have r1 := (Ctr.Run.nil (P := P) (s := s)).snoc hc (.park ho hpc hmu rfl)
    exact parked r1 (by simp) hc ((setOp_get' (s1 := s) (pc := .parked s.gen) rfl ho o).trans (if_pos rfl)) rfl hctx
  · exact parked .nil (by simp) hc ho hpc hctx

/-- The container gives up after one failed dial; a Send started before waits for ever. -/
theorem C69_counterexample : ∃ (evs : List CtrEv) (s : Ctr), Ctr.Run exclusive {} evs s ∧ CtrEv.giveUp ∈ evs ∧
    ∀ (evs' : List CtrEv) (s' : Ctr), Ctr.Run exclusive s evs' s' → (∀ e, CtrEv.cancelOp 0 e ∉ evs') → ∃ op', s'.ops[0]? = some op' ∧ op'.active = true := by
  have r1 := (Ctr.Run.nil (P := exclusive) (s := {})).snoc rfl (.start rfl)
  have r2 := r1.snoc rfl (.newLink true rfl)
  have r3 := r2.snoc rfl (.call 0 .send none rfl rfl (by simp) (by intro _; rfl))
  have r4 := r3.snoc rfl (.startWait (o := 0) rfl rfl rfl rfl rfl)
  have r4' := r4.snoc rfl (.park (o := 0) rfl rfl rfl rfl)
  have r5 := r4'.snoc rfl (.dialFail "no route to host" rfl)
  have r6 := r5.snoc rfl (.giveUp rfl rfl)
  have r7 := r6.snoc rfl (.finish rfl rfl)
  have r8 := r7.snoc rfl (.finished rfl)
  refine ⟨[.start, .newLink 0, .call 0 0, .step 0, .step 0, .dialFail, .giveUp, .finishing, .ended], _, r8, by decide, fun evs' s' h hn => ?_⟩
  obtain ⟨op', k1, k2, _⟩ := C69_hangs (o := 0) h rfl (Or.inr rfl) rfl rfl hn
  exact ⟨op', k1, k2.elim (fun k => active_of_pc k (by simp)) (fun k => active_of_pc k (by simp))⟩

/-- Instance of `C69_context_partial`: a Send that waits, the container has ended, and the context of the Send ends after it. -/
example : ∃ (evs : List CtrEv) (s : Ctr) (op : LOp), Ctr.Run exclusive {} evs s ∧ s.ops[0]? = some op ∧ op.pc = .parked s.gen ∧ op.ctx = some .canceled ∧
    s.loop = .ended ∧ s.crashed = false := by
  have r1 := (Ctr.Run.nil (P := exclusive) (s := {})).snoc rfl (.start rfl)
  have r2 := r1.snoc rfl (.newLink true rfl)
  have r3 := r2.snoc rfl (.call 0 .send none rfl rfl (by simp) (by intro _; rfl))
  have r4 := r3.snoc rfl (.startWait (o := 0) rfl rfl rfl rfl rfl)
  have r4' := r4.snoc rfl (.park (o := 0) rfl rfl rfl rfl)
  have r5 := r4'.snoc rfl (.dialFail "no route to host" rfl)
  have r6 := r5.snoc rfl (.giveUp rfl rfl)
  have r7 := r6.snoc rfl (.finish rfl rfl)
  have r8 := r7.snoc rfl (.finished rfl)
  have r9 := r8.snoc rfl (.cancelOp 0 .canceled (by decide) rfl rfl)
  exact ⟨_, _, _, r9, rfl, rfl, rfl, rfl, rfl⟩

/-! ## C60 -/

/-- **C60** (partial: connections on which a session was opened).  Such a connection is closed once it is replaced and when the container ends. -/
theorem C60_connections_partial {P : LinkPolicy} {evs : List CtrEv} {s : Ctr} (h : Ctr.Run P {} evs s) {c : Conn} (hc : c ∈ s.conns) {g : Nat} (hg : c.gen = some g)
    (ho : c.open_ = true) : g = s.gen ∧ s.loop ≠ .ended := (resInv_run h).conn c hc ho g hg

/-- **C60**: senders and receivers do not outlive their session: an open one belongs to the newest session of a container that has not ended. -/
theorem C60_replaced {P : LinkPolicy} {evs : List CtrEv} {s : Ctr} (h : Ctr.Run P {} evs s) {x : Ep} (hx : x ∈ s.eps) (ho : x.open_ = true) :
    x.gen = s.gen ∧ s.loop ≠ .ended := (resInv_run h).ep x hx ho

/-- **C60** (partial: receivers).  Closing a link closes the receiver it holds. -/
theorem C60_receiver_partial {P : LinkPolicy} {s s' : Ctr} {i ep : Nat} {l : Lnk} (hs : Ctr.Step P s (.close i) s') (hl : s.links[i]? = some l) (hr : l.sender = false)
    (he : l.ep = some ep) {x : Ep} (hx : s'.eps[ep]? = some x) : x.open_ = false := by
  cases hs with
  | @close l' i h1 h2 =>
    rw [hl] at h1
    obtain rfl := Option.some.inj h1
    rw [he, hr] at hx
    have hx' : (s.eps.modify ep fun x => { x with open_ := false })[ep]? = some x := hx
    rw [List.getElem?_modify] at hx'
    cases h5 : s.eps[ep]? with
    | none => simp [h5] at hx'
    | some y =>
      simp only [h5, if_true, Option.map_eq_map, Option.map_some, Option.some.injEq] at hx'
      rw [← hx']

/-- A session cannot be opened on a new connection: the connection is still open when the container has ended. -/
theorem C60_counterexample_connection : ∃ (evs : List CtrEv) (s : Ctr), Ctr.Run exclusive {} evs s ∧ s.loop = .ended ∧ ∃ c ∈ s.conns, c.open_ = true := by
  have r1 := (Ctr.Run.nil (P := exclusive) (s := {})).snoc rfl (.start rfl)
  have r2 := r1.snoc rfl (.dialOk rfl)
  have r3 := r2.snoc rfl (.sessionFail "not allowed" rfl)
  have r4 := r3.snoc rfl (.cancel .canceled (by decide) rfl)
  have r5 := r4.snoc rfl (.stopFailed rfl rfl)
  exact ⟨_, _, r5, rfl, {}, by decide, rfl⟩

/-- The sender of a link is still open after the link was closed. -/
theorem C60_counterexample_sender : ∃ (evs : List CtrEv) (s : Ctr), Ctr.Run exclusive {} (evs ++ [.close 0]) s ∧ ∃ x ∈ s.eps, x.link = 0 ∧ x.open_ = true := by
  have r1 := (Ctr.Run.nil (P := exclusive) (s := {})).snoc rfl (.start rfl)
  have r2 := r1.snoc rfl (.dialOk rfl)
  have r3 := r2.snoc rfl (.session rfl)
  have r4 := r3.snoc rfl (.newLink true rfl)
  have r5 := r4.snoc rfl (.call 0 .send none rfl rfl (by simp) (by intro _; rfl))
  have r6 := r5.snoc rfl (.startHas (o := 0) rfl rfl rfl rfl rfl)
  have r7 := r6.snoc rfl (.attach (o := 0) rfl rfl rfl (by simp) rfl)
  have r8 := r7.snoc rfl (.useOk (o := 0) rfl rfl)
  have r9 := r8.snoc rfl (.ret (o := 0) rfl rfl (by intro h; cases h))
  have r10 := r9.snoc rfl (.close 0 rfl (by intro _; rfl))
  exact ⟨_, _, r10, { gen := 1, link := 0 }, by decide, rfl, rfl⟩

/-- A receiver attached after its link was closed, by a Next that was waiting for a session when `Close` was called: nothing closes it. -/
theorem C60_counterexample_late : ∃ (a b : List CtrEv) (s : Ctr), Ctr.Run oneAtATime {} (a ++ [.close 0] ++ b) s ∧ CtrEv.use 0 1 ∈ b ∧
    ∃ x ∈ s.eps, x.link = 0 ∧ x.open_ = true := by
  have r1 := (Ctr.Run.nil (P := oneAtATime) (s := {})).snoc rfl (.start rfl)
  have r2 := r1.snoc rfl (.newLink false rfl)
  have r3 := r2.snoc rfl (.call 0 .next none rfl rfl (by simp) (by intro _; rfl))
  have r4 := r3.snoc rfl (.startWait (o := 0) rfl rfl rfl rfl rfl)
  have r5 := r4.snoc rfl (.close 0 rfl (by simp [oneAtATime]))
  have r6 := r5.snoc rfl (.dialOk rfl)
  have r7 := r6.snoc rfl (.session rfl)
  have r8 := r7.snoc rfl (.waited (o := 0) rfl rfl rfl (by decide))
  have r9 := r8.snoc rfl (.take (o := 0) rfl rfl rfl)
  have r10 := r9.snoc rfl (.attach (o := 0) rfl rfl rfl (by simp) rfl)
  exact ⟨[_, _, _, _], [.dialOk, .session 1, .step 0, .step 0, .use 0 1], _, r10, by decide, { gen := 1, link := 0 }, by decide, rfl, rfl⟩

/-- **C60** (partial: the operations on a link do not overlap).  A link attaches at most one endpoint in a session: no two endpoints are of the same link and the same generation,
however often the link is used, fails or is closed. -/
theorem C60_one_endpoint_partial {P : LinkPolicy} (hP : P.overlap = false) {evs : List CtrEv} {s : Ctr} (h : Ctr.Run P {} evs s) {e1 e2 : Nat} {x1 x2 : Ep}
    (h1 : s.eps[e1]? = some x1) (h2 : s.eps[e2]? = some x2) (hl : x1.link = x2.link) (hg : x1.gen = x2.gen) : e1 = e2 := (epInv_run hP h).one e1 e2 x1 x2 h1 h2 hl hg

/-- Two Sends on one link wait for the first session and both get it; the first attaches a sender, fails and takes the session from the link, the second puts it back and attaches
another one: two open senders of one link in one session. -/
theorem C60_counterexample_two : ∃ (evs : List CtrEv) (s : Ctr) (x y : Ep), Ctr.Run anyUse {} evs s ∧ s.eps = [x, y] ∧ x.link = y.link ∧ x.gen = y.gen ∧ x.open_ = true ∧
    y.open_ = true := by
  have r1 := (Ctr.Run.nil (P := anyUse) (s := {})).snoc rfl (.start rfl)
  have r2 := r1.snoc rfl (.newLink true rfl)
  have r3 := r2.snoc rfl (.call 0 .send none rfl rfl (by simp) (by simp [anyUse]))
  have r4 := r3.snoc rfl (.call 0 .send none rfl rfl (by simp) (by simp [anyUse]))
  have r5 := r4.snoc rfl (.startWait (o := 0) rfl rfl rfl rfl rfl)
  have r6 := r5.snoc rfl (.startWait (o := 1) rfl rfl rfl rfl rfl)
  have r7 := r6.snoc rfl (.dialOk rfl)
  have r8 := r7.snoc rfl (.session rfl)
  have r9 := r8.snoc rfl (.waited (o := 0) rfl rfl rfl (by decide))
  have r10 := r9.snoc rfl (.waited (o := 1) rfl rfl rfl (by decide))
  have r11 := r10.snoc rfl (.take (o := 0) rfl rfl rfl)
  have r12 := r11.snoc rfl (.attach (o := 0) rfl rfl rfl (by simp) rfl)
  have r13 := r12.snoc rfl (.useFail (.other "x") (o := 0) rfl rfl (by decide) rfl rfl)
  have r14 := r13.snoc rfl (.prepare (o := 0) rfl rfl (by decide) (by decide) rfl)
  have r15 := r14.snoc rfl (.report (o := 0) rfl rfl (by decide))
  have r16 := r15.snoc rfl (.clear (o := 0) rfl rfl rfl)
  have r17 := r16.snoc rfl (.take (o := 1) rfl rfl rfl)
  have r18 := r17.snoc rfl (.attach (o := 1) rfl rfl rfl (by simp) rfl)
  exact ⟨_, _, { gen := 1, link := 0 }, { gen := 1, link := 0 }, r18, by decide, rfl, rfl, rfl, rfl⟩

/-! ## C61 -/

theorem countEv_snoc {p : CtrEv → Bool} {evs : List CtrEv} {ev : CtrEv} : countEv p (evs ++ [ev]) = countEv p evs + if p ev then 1 else 0 := by
  unfold countEv
  rw [List.filter_append]
  cases h : p ev <;> simp [h]

theorem countEv_reverse {p : CtrEv → Bool} {evs : List CtrEv} : countEv p evs.reverse = countEv p evs := by
  unfold countEv
  rw [List.filter_reverse, List.length_reverse]

theorem dueCalls_snoc {h : Nat} {p : CtrEv → Bool} {evs : List CtrEv} {ev : CtrEv} :
    dueCalls h p (evs ++ [ev]) = dueCalls h p evs + if p ev then countEv (isRegistration h) evs else 0 := by
  unfold dueCalls
  rw [List.reverse_append]
  show (if p ev then countEv (isRegistration h) evs.reverse else 0) + dueRev h p evs.reverse = _
  rw [countEv_reverse]
  omega

/-- The handlers that are still to be called in this round. -/
def pending (h : Nat) (retryable : Bool) (s : Ctr) : Nat :=
  match s.loop, retryable with
  | .notifying _ left, true => left.count h
  | .finishing _ left, false => left.count h
  | _, _ => 0

structure HandlerInv (h : Nat) (evs : List CtrEv) (s : Ctr) : Prop where
  regs : s.handlers.count h = countEv (isRegistration h) evs
  retry : s.loop ≠ .selfLocked → countEv (isHandler h true) evs + pending h true s = dueCalls h isRetry evs
  final : countEv (isHandler h false) evs + pending h false s = dueCalls h isFinishing evs

theorem handlerInv_run {P : LinkPolicy} {h : Nat} {evs : List CtrEv} {s : Ctr} (hr : Ctr.Run P {} evs s) : HandlerInv h evs s := by
  generalize hs0 : ({} : Ctr) = s0 at hr
  induction hr with
  | nil => subst hs0; exact ⟨rfl, fun _ => rfl, rfl⟩
  | @snoc s s' evs ev hr hc hs ih =>
    have frame : ∀ {s' : Ctr} {ev : CtrEv}, s'.handlers = s.handlers → (s'.loop ≠ .selfLocked → s.loop ≠ .selfLocked) → (∀ b, pending h b s' = pending h b s) →
        isRegistration h ev = false → isRetry ev = false → isFinishing ev = false → (∀ b, isHandler h b ev = false) → HandlerInv h (evs ++ [ev]) s' := by
      intro s' ev h1 h2 h3 h4 h5 h6 h7
      refine ⟨?_, ?_, ?_⟩
      · rw [h1, ih.regs, countEv_snoc, h4]; rfl
      · intro h8
        rw [countEv_snoc, h7, dueCalls_snoc, h5, h3]
        simpa using ih.retry (h2 h8)
      · rw [countEv_snoc, h7, dueCalls_snoc, h6, h3]
        simpa using ih.final
    have quiet : ∀ {s' : Ctr} {ev : CtrEv}, s'.handlers = s.handlers → s'.loop = s.loop →
        isRegistration h ev = false → isRetry ev = false → isFinishing ev = false → (∀ b, isHandler h b ev = false) → HandlerInv h (evs ++ [ev]) s' := by
      intro s' ev h1 h2 h3 h4 h5 h6
      exact frame h1 (by rw [h2]; exact fun h => h) (fun b => by unfold pending; rw [h2]) h3 h4 h5 h6
    have move : ∀ {s' : Ctr} {ev : CtrEv}, s'.handlers = s.handlers → s.loop ≠ .selfLocked → (∀ b, pending h b s = 0) → (∀ b, pending h b s' = 0) →
        isRegistration h ev = false → isRetry ev = false → isFinishing ev = false → (∀ b, isHandler h b ev = false) → HandlerInv h (evs ++ [ev]) s' := by
      intro s' ev h1 h2 h3 h4 h5 h6 h7 h8
      exact frame h1 (fun _ => h2) (fun b => by rw [h3, h4]) h5 h6 h7 h8
    cases hs with
    | onError hd h1 =>
      refine ⟨?_, ?_, ?_⟩
      · show (s.handlers ++ [hd]).count h = _
        rw [List.count_append, ih.regs, countEv_snoc]
        by_cases e : h = hd
        · subst e; simp [isRegistration]
        · have e' : ¬ hd = h := fun h => e h.symm
          simp [isRegistration, e, e']
      · intro h8
        rw [countEv_snoc, dueCalls_snoc]
        exact ih.retry h8
      · rw [countEv_snoc, dueCalls_snoc]
        exact ih.final
    | @retry err h1 h2 =>
      refine ⟨?_, ?_, ?_⟩
      · rw [countEv_snoc]; exact ih.regs
      · intro _
        rw [countEv_snoc, dueCalls_snoc]
        have h3 := ih.retry (by rw [h1]; simp)
        have h4 : pending h true s = 0 := by unfold pending; rw [h1]
        rw [h4] at h3
        show _ + 0 + s.handlers.count h = _ + countEv (isRegistration h) evs
        rw [ih.regs]
        omega
      · rw [countEv_snoc, dueCalls_snoc]
        have h4 : pending h false s = 0 := by unfold pending; rw [h1]
        have h3 := ih.final
        rw [h4] at h3
        exact h3
    | @notify err hd left h1 =>
      refine ⟨?_, ?_, ?_⟩
      · rw [countEv_snoc]; exact ih.regs
      · intro _
        rw [countEv_snoc, dueCalls_snoc]
        have h3 := ih.retry (by rw [h1]; simp)
        have h4 : pending h true s = (hd :: left).count h := by unfold pending; rw [h1]
        rw [h4, List.count_cons] at h3
        show countEv (isHandler h true) evs + (if isHandler h true (.handler hd true) = true then 1 else 0) + left.count h = dueCalls h isRetry evs + 0
        by_cases e : h = hd
        · subst e
          simp only [isHandler, beq_self_eq_true, Bool.and_self, if_true] at h3 ⊢
          omega
        · have e' : ¬ hd = h := fun h => e h.symm
          simp [isHandler, e, e'] at h3 ⊢
          omega
      · rw [countEv_snoc, dueCalls_snoc]
        have h4 : pending h false s = 0 := by unfold pending; rw [h1]
        have h3 := ih.final
        rw [h4] at h3
        simpa [isHandler, isFinishing, pending] using h3
    | @finish err h1 h2 =>
      refine ⟨?_, ?_, ?_⟩
      · rw [countEv_snoc]; exact ih.regs
      · intro _
        rw [countEv_snoc, dueCalls_snoc]
        have h3 := ih.retry (by rw [h1]; simp)
        have h4 : pending h true s = 0 := by unfold pending; rw [h1]
        rw [h4] at h3
        exact h3
      · rw [countEv_snoc, dueCalls_snoc]
        have h4 : pending h false s = 0 := by unfold pending; rw [h1]
        have h3 := ih.final
        rw [h4] at h3
        show _ + 0 + s.handlers.count h = _ + countEv (isRegistration h) evs
        rw [ih.regs]
        omega
    | @final err hd left h1 =>
      refine ⟨?_, ?_, ?_⟩
      · rw [countEv_snoc]; exact ih.regs
      · intro _
        rw [countEv_snoc, dueCalls_snoc]
        have h4 : pending h true s = 0 := by unfold pending; rw [h1]
        have h3 := ih.retry (by rw [h1]; simp)
        rw [h4] at h3
        simpa [isHandler, isRetry, pending] using h3
      · rw [countEv_snoc, dueCalls_snoc]
        have h3 := ih.final
        have h4 : pending h false s = (hd :: left).count h := by unfold pending; rw [h1]
        rw [h4, List.count_cons] at h3
        show countEv (isHandler h false) evs + (if isHandler h false (.handler hd false) = true then 1 else 0) + left.count h = dueCalls h isFinishing evs + 0
        by_cases e : h = hd
        · subst e
          simp only [isHandler, beq_self_eq_true, Bool.and_self, if_true] at h3 ⊢
          omega
        · have e' : ¬ hd = h := fun h => e h.symm
          simp [isHandler, e, e'] at h3 ⊢
          omega
    | @reenter err left h1 =>
      refine ⟨?_, fun h => absurd rfl h, ?_⟩
      · rw [countEv_snoc]; exact ih.regs
      · rw [countEv_snoc, dueCalls_snoc]
        have h4 : pending h false s = 0 := by unfold pending; rw [h1]
        have h3 := ih.final
        rw [h4] at h3
        exact h3
    | @notified err h1 => exact frame rfl (fun _ => by rw [h1]; simp) (fun b => by unfold pending; rw [h1]; cases b <;> rfl) rfl rfl rfl (fun _ => rfl)
    | @finished err h1 => exact frame rfl (fun _ => by rw [h1]; simp) (fun b => by unfold pending; rw [teardown_loop, h1]; cases b <;> rfl) rfl rfl rfl (fun _ => rfl)
    | start h1 => exact move rfl (by rw [h1]; simp) (fun b => by unfold pending; rw [h1]) (fun b => rfl) rfl rfl rfl (fun _ => rfl)
    | dialFail msg h1 => exact move rfl (by rw [h1]; simp) (fun b => by unfold pending; rw [h1]) (fun b => rfl) rfl rfl rfl (fun _ => rfl)
    | dialOk h1 => exact move rfl (by rw [h1]; simp) (fun b => by unfold pending; rw [h1]) (fun b => rfl) rfl rfl rfl (fun _ => rfl)
    | sessionFail msg h1 => exact move rfl (by rw [h1]; simp) (fun b => by unfold pending; rw [h1]) (fun b => rfl) rfl rfl rfl (fun _ => rfl)
    | session h1 => exact move rfl (by rw [h1]; simp) (fun b => by unfold pending; rw [h1]) (fun b => rfl) rfl rfl rfl (fun _ => rfl)
    | restart msg h1 => exact move rfl (by rw [h1]; simp) (fun b => by unfold pending; rw [h1]) (fun b => rfl) rfl rfl rfl (fun _ => rfl)
    | interrupted h1 => exact move rfl (by rw [h1]; simp) (fun b => by unfold pending; rw [h1]) (fun b => rfl) rfl rfl rfl (fun _ => rfl)
    | stopFailed h1 => exact move rfl (by rw [h1]; simp) (fun b => by unfold pending; rw [h1]) (fun b => rfl) rfl rfl rfl (fun _ => rfl)
    | giveUp h1 => exact move rfl (by rw [h1]; simp) (fun b => by unfold pending; rw [h1]) (fun b => rfl) rfl rfl rfl (fun _ => rfl)
    | again h1 => exact move rfl (by rw [h1]; simp) (fun b => by unfold pending; rw [h1]) (fun b => rfl) rfl rfl rfl (fun _ => rfl)
    | stopWaiting h1 => exact move rfl (by rw [h1]; simp) (fun b => by unfold pending; rw [h1]) (fun b => rfl) rfl rfl rfl (fun _ => rfl)
    | stopGaveUp h1 => exact move rfl (by rw [h1]; simp) (fun b => by unfold pending; rw [h1]) (fun b => rfl) rfl rfl rfl (fun _ => rfl)
    | _ => exact quiet rfl rfl rfl rfl rfl (fun _ => rfl)

/-- **C61**: a handler is called with a retryable error exactly once for each retry after its registration, as soon as the round is over (and unless a handler has blocked
the container, C68). -/
theorem C61_retryable {P : LinkPolicy} {evs : List CtrEv} {s : Ctr} (hr : Ctr.Run P {} evs s) (h : Nat) (hl : s.loop ≠ .selfLocked) (hn : ∀ e left, s.loop ≠ .notifying e left) :
    countEv (isHandler h true) evs = dueCalls h isRetry evs := by
  have h1 := (handlerInv_run (h := h) hr).retry hl
  have h2 : pending h true s = 0 := by
    unfold pending
    cases h3 : s.loop <;> first | rfl | exact absurd h3 (hn _ _)
  omega

/-- **C61**: and exactly once with an error that is not retryable when the container gives up. -/
theorem C61_final {P : LinkPolicy} {evs : List CtrEv} {s : Ctr} (hr : Ctr.Run P {} evs s) (h : Nat) (hn : ∀ e left, s.loop ≠ .finishing e left) :
    countEv (isHandler h false) evs = dueCalls h isFinishing evs := by
  have h1 := (handlerInv_run (h := h) hr).final
  have h2 : pending h false s = 0 := by
    unfold pending
    cases h3 : s.loop <;> first | rfl | exact absurd h3 (hn _ _)
  omega

/-- Where the goroutine of Start is, in terms of what has happened. -/
structure RetryInv (evs : List CtrEv) (s : Ctr) : Prop where
  count : s.ctx = none → countEv isFailure evs = countEv isRetry evs + countEv isGiveUp evs + (match s.loop with | .failed _ => 1 | _ => 0)
  over : match s.loop with
    | .gaveUp e => countEv isGiveUp evs = 1 ∧ countEv isFinishing evs = 0 ∧ ∃ msg, e = .other msg
    | .finishing _ _ => countEv isGiveUp evs = 1 ∧ countEv isFinishing evs = 1
    | .ended => countEv isGiveUp evs ≤ 1 ∧ countEv isFinishing evs ≤ countEv isGiveUp evs ∧ (s.ctx = none → countEv isFinishing evs = countEv isGiveUp evs)
    | _ => countEv isGiveUp evs = 0 ∧ countEv isFinishing evs = 0
  err : ∀ e, s.loop = .failed e → s.ctx = none → ∃ msg, e = .other msg

theorem ctx_isCtx {P : LinkPolicy} {evs : List CtrEv} {s : Ctr} (hr : Ctr.Run P {} evs s) : ∀ e, s.ctx = some e → e.IsCtx := by
  generalize hs0 : ({} : Ctr) = s0 at hr
  induction hr with
  | nil => subst hs0; exact fun e h => by cases h
  | snoc hr hc hs ih =>
    cases hs with
    | cancel e h1 h2 => intro e' he; cases he; exact h1
    | _ => exact ih

theorem retryInv_run {P : LinkPolicy} {evs : List CtrEv} {s : Ctr} (hr : Ctr.Run P {} evs s) : RetryInv evs s := by
  generalize hs0 : ({} : Ctr) = s0 at hr
  induction hr with
  | nil => subst hs0; exact ⟨fun _ => rfl, ⟨rfl, rfl⟩, fun e h => by cases h⟩
  | @snoc s s' evs ev hr hc hs ih =>
    have quiet : ∀ {s' : Ctr} {ev : CtrEv}, s'.ctx = s.ctx → s'.loop = s.loop → isFailure ev = false → isRetry ev = false → isGiveUp ev = false → isFinishing ev = false →
        RetryInv (evs ++ [ev]) s' := by
      intro s' ev h1 h2 h3 h4 h5 h6
      refine ⟨?_, ?_, ?_⟩
      · intro hn
        rw [h1] at hn
        rw [countEv_snoc, countEv_snoc, countEv_snoc, h3, h4, h5, h2]
        simpa using ih.count hn
      · rw [h1, h2, countEv_snoc, countEv_snoc, h5, h6]
        simpa using ih.over
      · intro e he hn
        rw [h2] at he
        rw [h1] at hn
        exact ih.err e he hn
    obtain ⟨i1, i2, i3⟩ := ih
    cases hs with
    | cancel e h1 h2 =>
      refine ⟨fun h => (by cases h), ?_, fun e he hn => (by cases hn)⟩
      rw [countEv_snoc, countEv_snoc]
      cases hl : s.loop with
      | ended => rw [hl] at i2; exact ⟨i2.1, i2.2.1, fun h => by cases h⟩
      | _ => rw [hl] at i2; exact i2
    | start h1 =>
      rw [h1] at i1 i2
      exact ⟨fun hn => by rw [countEv_snoc, countEv_snoc, countEv_snoc]; exact i1 hn, by rw [countEv_snoc, countEv_snoc]; exact i2, fun e he => by cases he⟩
    | dialFail msg h1 =>
      rw [h1] at i1 i2
      refine ⟨fun hn => ?_, by rw [countEv_snoc, countEv_snoc]; exact i2, fun e he _ => by cases he; exact ⟨_, rfl⟩⟩
      rw [countEv_snoc, countEv_snoc, countEv_snoc]
      exact congrArg (· + 1) (i1 hn)
    | dialOk h1 =>
      rw [h1] at i1 i2
      exact ⟨fun hn => by rw [countEv_snoc, countEv_snoc, countEv_snoc]; exact i1 hn, by rw [countEv_snoc, countEv_snoc]; exact i2, fun e he => by cases he⟩
    | sessionFail msg h1 =>
      rw [h1] at i1 i2
      refine ⟨fun hn => ?_, by rw [countEv_snoc, countEv_snoc]; exact i2, fun e he _ => by cases he; exact ⟨_, rfl⟩⟩
      rw [countEv_snoc, countEv_snoc, countEv_snoc]
      exact congrArg (· + 1) (i1 hn)
    | session h1 =>
      rw [h1] at i1 i2
      exact ⟨fun hn => by rw [countEv_snoc, countEv_snoc, countEv_snoc]; exact i1 hn, by rw [countEv_snoc, countEv_snoc]; exact i2, fun e he => by cases he⟩
    | restart msg h1 h2 =>
      rw [h1] at i1 i2
      refine ⟨fun hn => ?_, by rw [countEv_snoc, countEv_snoc]; exact i2, fun e he _ => by cases he; exact ⟨_, rfl⟩⟩
      rw [countEv_snoc, countEv_snoc, countEv_snoc]
      exact congrArg (· + 1) (i1 hn)
    | interrupted h1 h2 =>
      rw [h1] at i1 i2
      refine ⟨fun hn => ?_, by rw [countEv_snoc, countEv_snoc]; exact i2, fun e he hn => ?_⟩
      · have hn' : s.ctx = none := hn
        rw [h2] at hn'; cases hn'
      · have hn' : s.ctx = none := hn
        rw [h2] at hn'; cases hn'
    | stopFailed h1 h2 =>
      rw [h1] at i1 i2
      refine ⟨fun hn => ?_, ?_, fun e he => by cases he⟩
      · have hn' : s.ctx = none := hn
        rw [h2] at hn'; cases hn'
      · rw [countEv_snoc, countEv_snoc]
        exact ⟨by rw [i2.1]; decide, by rw [i2.1, i2.2]; decide, fun _ => by rw [i2.1, i2.2]; rfl⟩
    | retry h1 h2 =>
      rw [h1] at i1 i2
      refine ⟨fun hn => ?_, by rw [countEv_snoc, countEv_snoc]; exact i2, fun e he => by cases he⟩
      rw [countEv_snoc, countEv_snoc, countEv_snoc]
      have := i1 hn
      simp only [isFailure, isRetry, isGiveUp, if_true] at this ⊢
      simp only [Bool.false_eq_true, if_false]
      omega
    | @giveUp err h1 h2 =>
      have hm := i3 err h1 h2
      rw [h1] at i1 i2
      refine ⟨fun hn => ?_, ?_, fun e he => by cases he⟩
      · rw [countEv_snoc, countEv_snoc, countEv_snoc]
        have := i1 hn
        simp only [isFailure, isRetry, isGiveUp, if_true] at this ⊢
        simp only [Bool.false_eq_true, if_false]
        omega
      · rw [countEv_snoc, countEv_snoc]
        exact ⟨by rw [i2.1]; rfl, by rw [i2.2]; rfl, hm⟩
    | notify h1 =>
      rw [h1] at i1 i2
      exact ⟨fun hn => by rw [countEv_snoc, countEv_snoc, countEv_snoc]; exact i1 hn, by rw [countEv_snoc, countEv_snoc]; exact i2, fun e he => by cases he⟩
    | reenter h1 =>
      rw [h1] at i1 i2
      exact ⟨fun hn => by rw [countEv_snoc, countEv_snoc, countEv_snoc]; exact i1 hn, by rw [countEv_snoc, countEv_snoc]; exact i2, fun e he => by cases he⟩
    | notified h1 =>
      rw [h1] at i1 i2
      exact ⟨fun hn => by rw [countEv_snoc, countEv_snoc, countEv_snoc]; exact i1 hn, by rw [countEv_snoc, countEv_snoc]; exact i2, fun e he => by cases he⟩
    | again h1 =>
      rw [h1] at i1 i2
      exact ⟨fun hn => by rw [countEv_snoc, countEv_snoc, countEv_snoc]; exact i1 hn, by rw [countEv_snoc, countEv_snoc]; exact i2, fun e he => by cases he⟩
    | stopWaiting h1 h2 =>
      rw [h1] at i1 i2
      refine ⟨fun hn => ?_, ?_, fun e he => by cases he⟩
      · have hn' : s.ctx = none := hn
        rw [h2] at hn'; cases hn'
      · rw [countEv_snoc, countEv_snoc]
        exact ⟨by rw [i2.1]; decide, by rw [i2.1, i2.2]; decide, fun _ => by rw [i2.1, i2.2]; rfl⟩
    | @stopGaveUp e err h1 h2 =>
      rw [h1] at i1 i2
      refine ⟨fun hn => ?_, ?_, fun e he => by cases he⟩
      · have hn' : s.ctx = none := hn
        rw [h2] at hn'; cases hn'
      · rw [countEv_snoc, countEv_snoc]
        refine ⟨by rw [i2.1]; decide, by rw [i2.1, i2.2.1]; decide, fun hn => ?_⟩
        have hn' : s.ctx = none := hn
        rw [h2] at hn'; cases hn'
    | finish h1 h2 =>
      rw [h1] at i1 i2
      refine ⟨fun hn => by rw [countEv_snoc, countEv_snoc, countEv_snoc]; exact i1 hn, ?_, fun e he => by cases he⟩
      rw [countEv_snoc, countEv_snoc]
      exact ⟨i2.1, by rw [i2.2.1]; rfl⟩
    | final h1 =>
      rw [h1] at i1 i2
      exact ⟨fun hn => by rw [countEv_snoc, countEv_snoc, countEv_snoc]; exact i1 hn, by rw [countEv_snoc, countEv_snoc]; exact i2, fun e he => by cases he⟩
    | finished h1 =>
      rw [h1] at i1 i2
      refine ⟨fun hn => by rw [countEv_snoc, countEv_snoc, countEv_snoc]; exact i1 hn, ?_, fun e he => by cases he⟩
      rw [countEv_snoc, countEv_snoc]
      exact ⟨Nat.le_of_eq i2.1, by rw [i2.1, i2.2]; decide, fun _ => by rw [i2.1, i2.2]; rfl⟩
    | _ => exact quiet rfl rfl rfl rfl rfl rfl

/-- **C61**: while the context lives, each failed attempt and each lost session leads to one retry, or to the container giving up. -/
theorem C61_each {P : LinkPolicy} {evs : List CtrEv} {s : Ctr} (hr : Ctr.Run P {} evs s) (hctx : s.ctx = none) (hl : ∀ e, s.loop ≠ .failed e) :
    countEv isFailure evs = countEv isRetry evs + countEv isGiveUp evs := by
  have h := (retryInv_run hr).count hctx
  cases h3 : s.loop with
  | failed e => exact absurd h3 (hl e)
  | _ => rw [h3] at h; simpa using h

/-- **C61**: the container gives up at most once, and the handlers are told if it does: when it has ended and its context has not, there was one final round for
giving up and none otherwise. -/
theorem C61_gives_up {P : LinkPolicy} {evs : List CtrEv} {s : Ctr} (hr : Ctr.Run P {} evs s) :
    countEv isFinishing evs ≤ countEv isGiveUp evs ∧ countEv isGiveUp evs ≤ 1 ∧ (s.loop = .ended → s.ctx = none → countEv isFinishing evs = countEv isGiveUp evs) := by
  have h := (retryInv_run hr).over
  cases h3 : s.loop with
  | ended => rw [h3] at h; exact ⟨h.2.1, h.1, fun _ hn => h.2.2 hn⟩
  | _ => rw [h3] at h; simp only [reduceCtorEq, false_implies, and_true]; omega

theorem ctx_stays {P : LinkPolicy} {s s' : Ctr} {evs : List CtrEv} (h : Ctr.Run P s evs s') (hc : s.ctx ≠ none) : s'.ctx ≠ none := by
  induction h with
  | nil => exact hc
  | snoc hr _ hs ih =>
    cases hs with
    | cancel e h1 h2 => simp
    | _ => exact ih

/-- **C61**: after the context of Start has ended there are no more retries, and the container does not give up: no round of handler calls starts because of that. -/
theorem C61_cancelled {P : LinkPolicy} {a b : List CtrEv} {s : Ctr} {e : GoErr} (hr : Ctr.Run P {} (a ++ .cancel e :: b) s) : CtrEv.retry ∉ b ∧ CtrEv.giveUp ∉ b := by
  obtain ⟨s1, s2, r1, _, st, r2⟩ := ctr_split hr
  have hc : s2.ctx ≠ none := by
    cases st with
    | cancel _ h1 h2 => simp
  constructor
  · intro hm
    obtain ⟨b1, b2, rfl⟩ := List.append_of_mem hm
    obtain ⟨t1, t2, q1, _, qt, _⟩ := ctr_split r2
    cases qt with
    | retry h1 h2 => exact ctx_stays q1 hc h2
  · intro hm
    obtain ⟨b1, b2, rfl⟩ := List.append_of_mem hm
    obtain ⟨t1, t2, q1, _, qt, _⟩ := ctr_split r2
    cases qt with
    | giveUp h1 h2 => exact ctx_stays q1 hc h2

/-- **C61**: when the context ends while a session is up, no handler is called any more. -/
theorem C61_interrupted {P : LinkPolicy} {a b : List CtrEv} {s : Ctr} (hr : Ctr.Run P {} (a ++ .interrupted :: b) s) (h : Nat) (r : Bool) : CtrEv.handler h r ∉ b := by
  obtain ⟨s1, s2, r1, _, st, r2⟩ := ctr_split hr
  have h0 : s2.ctx ≠ none ∧ ((∃ e, s2.loop = .failed e) ∨ s2.loop = .ended) := by
    cases st with
    | interrupted h1 h2 => exact ⟨by show s1.ctx ≠ none; rw [h2]; simp, Or.inl ⟨_, rfl⟩⟩
  have key : ∀ {evs : List CtrEv} {s3 : Ctr}, Ctr.Run P s2 evs s3 → s3.ctx ≠ none ∧ ((∃ e, s3.loop = .failed e) ∨ s3.loop = .ended) := by
    intro evs s3 h3
    induction h3 with
    | nil => exact h0
    | @snoc s3 s4 _ _ hr' hc' hs ih =>
      obtain ⟨i1, i2⟩ := ih
      have i3 : s3.loop ≠ .dialing ∧ s3.loop ≠ .notStarted ∧ s3.loop ≠ .serving ∧ s3.loop ≠ .waiting := by
        rcases i2 with ⟨e, i2⟩ | i2 <;> simp [i2]
      cases hs with
      | _ => first
        | exact ⟨i1, i2⟩
        | exact ⟨i1, Or.inr rfl⟩
        | simp_all
  intro hm
  obtain ⟨b1, b2, rfl⟩ := List.append_of_mem hm
  obtain ⟨t1, t2, q1, _, qt, _⟩ := ctr_split r2
  obtain ⟨_, k | k⟩ := key q1
  · obtain ⟨e, k⟩ := k
    cases qt with
    | notify h1 => rw [k] at h1; cases h1
    | final h1 => rw [k] at h1; cases h1
  · cases qt with
    | notify h1 => rw [k] at h1; cases h1
    | final h1 => rw [k] at h1; cases h1

/-- Two handlers: a failed dial, a retry, and the container gives up after the second failure. -/
theorem C61_instance : ∃ (evs : List CtrEv) (s : Ctr), Ctr.Run exclusive {} evs s ∧ s.loop = .ended ∧ countEv (isHandler 7 true) evs = 1 ∧ countEv (isHandler 7 false) evs = 1 ∧
    countEv (isHandler 8 true) evs = 0 ∧ countEv (isHandler 8 false) evs = 1 := by
  have r1 := (Ctr.Run.nil (P := exclusive) (s := {})).snoc rfl (.onError 7 rfl)
  have r2 := r1.snoc rfl (.start rfl)
  have r3 := r2.snoc rfl (.dialFail "refused" rfl)
  have r4 := r3.snoc rfl (.retry rfl rfl)
  have r5 := r4.snoc rfl (.notify rfl)
  have r6 := r5.snoc rfl (.notified rfl)
  have r7 := r6.snoc rfl (.onError 8 rfl)
  have r8 := r7.snoc rfl (.again rfl)
  have r9 := r8.snoc rfl (.dialFail "refused" rfl)
  have r10 := r9.snoc rfl (.giveUp rfl rfl)
  have r11 := r10.snoc rfl (.finish rfl rfl)
  have r12 := r11.snoc rfl (.final rfl)
  have r13 := r12.snoc rfl (.final rfl)
  have r14 := r13.snoc rfl (.finished rfl)
  exact ⟨[.onError 7, .start, .dialFail, .retry, .handler 7 true, .again, .onError 8, .again, .dialFail, .giveUp, .finishing, .handler 7 false, .handler 8 false, .ended], _,
    r14, rfl, by decide, by decide, by decide, by decide⟩

/-! ## C68 -/

/-- **C68** is false: a handler that calls a method of the container never gets an answer, and neither does anyone else: the container stays as it is, no session is
established, no link is created, no handler registered, and no operation that has to look for a session returns, whatever its context does. -/
theorem C68_deadlock {P : LinkPolicy} {s s' : Ctr} {evs : List CtrEv} (h : Ctr.Run P s evs s') (hl : s.loop = .selfLocked) :
    s'.loop = .selfLocked ∧ s'.gen = s.gen ∧ s'.handlers = s.handlers ∧ s'.links.length = s.links.length ∧
      ∀ (o : Nat) (op : LOp) (prev : Nat), s.ops[o]? = some op → op.pc = .waiting prev ∨ op.pc = .waking prev → ∃ op', s'.ops[o]? = some op' ∧ op'.pc = op.pc := by
  induction h with
  | nil => exact ⟨hl, rfl, rfl, rfl, fun o op prev h1 h2 => ⟨op, h1, rfl⟩⟩
  | @snoc s1 s2 evs ev hr hc hs ih =>
    obtain ⟨i1, i2, i3, i4, i5⟩ := ih
    have hmu : s1.muHeld = true := by unfold Ctr.muHeld; rw [i1]
    have hloop : s2.loop = .selfLocked ∧ s2.gen = s1.gen ∧ s2.handlers = s1.handlers ∧ s2.links.length = s1.links.length := by
      cases hs with
      | newLink _ h1 => rw [hmu] at h1; cases h1
      | _ => first
        | exact ⟨i1, rfl, rfl, rfl⟩
        | exact ⟨i1, rfl, rfl, by simp [Ctr.setLink, Ctr.setOp]⟩
        | simp_all
    refine ⟨hloop.1, hloop.2.1.trans i2, hloop.2.2.1.trans i3, hloop.2.2.2.trans i4, fun o op prev h1 h2 => ?_⟩
    obtain ⟨op1, j1, j2⟩ := i5 o op prev h1 h2
    obtain ⟨op2, g1, g2, g3, g4⟩ := op_view hs j1
    refine ⟨op2, g1, ?_⟩
    rcases g4 with ⟨rfl, _⟩ | ⟨e, rfl, _, rfl⟩ | ⟨h, hpc', _⟩
    · exact j2
    · exact j2
    · exfalso
      rw [← j2] at h2
      clear j2
      generalize op2.pc = pc at hpc'
      rcases h2 with h2 | h2 <;> cases hpc' <;> rename_i hx <;> simp_all

theorem C68_counterexample : ∃ (evs : List CtrEv) (s : Ctr), Ctr.Run exclusive {} (evs ++ [.handlerReenters]) s ∧ s.loop = .selfLocked ∧
    ∀ (evs' : List CtrEv) (s' : Ctr), Ctr.Run exclusive s evs' s' → (∀ g, CtrEv.session g ∉ evs') ∧ ∀ i, CtrEv.newLink i ∉ evs' := by
  have r1 := (Ctr.Run.nil (P := exclusive) (s := {})).snoc rfl (.onError 7 rfl)
  have r2 := r1.snoc rfl (.start rfl)
  have r3 := r2.snoc rfl (.dialFail "refused" rfl)
  have r4 := r3.snoc rfl (.retry rfl rfl)
  have r5 := r4.snoc rfl (.notify rfl)
  have r6 := r5.snoc rfl (.reenter rfl)
  refine ⟨_, _, r6, rfl, fun evs' s' h => ⟨fun g hm => ?_, fun i hm => ?_⟩⟩
  · obtain ⟨b1, b2, rfl⟩ := List.append_of_mem hm
    obtain ⟨t1, t2, q1, _, qt, _⟩ := ctr_split h
    have := (C68_deadlock q1 rfl).1
    cases qt with
    | session h1 => rw [this] at h1; cases h1
  · obtain ⟨b1, b2, rfl⟩ := List.append_of_mem hm
    obtain ⟨t1, t2, q1, _, qt, _⟩ := ctr_split h
    have := (C68_deadlock q1 rfl).1
    cases qt with
    | newLink _ h1 => unfold Ctr.muHeld at h1; rw [this] at h1; cases h1

/-- **C68** (partial: the handlers do not call the container).  A round of handler calls can always be ended, and then the others go on. -/
theorem C68_returns_partial {P : LinkPolicy} {s : Ctr} {e : GoErr} {left : List Nat} (hl : s.loop = .notifying e left) (hc : s.crashed = false) :
    Ctr.Run P s (left.map (CtrEv.handler · true) ++ [.again]) { s with loop := .waiting } := by
  have key : ∀ (left : List Nat) (s : Ctr), s.loop = .notifying e left → s.crashed = false →
      Ctr.Run P s (left.map (CtrEv.handler · true)) { s with loop := .notifying e [] } := by
    intro left
    induction left with
    | nil =>
      intro s hl hc
      have : ({ s with loop := .notifying e [] } : Ctr) = s := by rw [← hl]
      rw [this]
      exact .nil
    | cons h left ih =>
      intro s hl hc
      have r1 := (Ctr.Run.nil (P := P)).snoc hc (.notify hl)
      exact ctr_trans r1 (ih { s with loop := .notifying e left } rfl hc)
  exact (key left s hl hc).snoc hc (.notified rfl)

end Verif.Props
