import Verif.Props.Container

/-!
# A message is accepted on the session it came from (C120)

`Accept` asks its link for a receiver anew (container.go:404-418).  If that were one of a later session, the delivery number of the message would name another message there.
-/
namespace Verif.Props
open Verif Verif.Model Verif.Spec Verif.Proofs

/-- While an operation is calling go-amqp with an endpoint, its link has that endpoint, unless it was closed. -/
def CallInv (s : Ctr) : Prop := ∀ (o : Nat) (op : LOp) (ep : Nat), s.ops[o]? = some op → op.pc = .inCall ep →
  ∃ l, s.links[op.link]? = some l ∧ ((l.closed = true ∧ l.curr = none ∧ l.ep = none) ∨ (l.ep = some ep ∧ l.epGen = l.currGen ∧ l.curr = some l.currGen))

/-- Operations other than `o` on its link are over. -/
theorem only_one {evs : List CtrEv} {s : Ctr} (h : SeqInv evs s) {o1 o2 : Nat} {op1 op2 : LOp} (h1 : s.ops[o1]? = some op1) (h2 : s.ops[o2]? = some op2)
    (hl : op1.link = op2.link) (a1 : op1.active = true) (a2 : op2.active = true) : o1 = o2 ∧ op1 = op2 := by
  have := h.seq o1 o2 op1 op2 h1 h2 hl a1 a2
  subst this
  rw [h1] at h2
  exact ⟨rfl, Option.some.inj h2⟩

theorem callInv_step {P : LinkPolicy} {evs : List CtrEv} {s s' : Ctr} {ev : CtrEv} (h : CallInv s) (hq : SeqInv evs s) (hs : Ctr.Step P s ev s') : CallInv s' := by
  have keep : ∀ {s' : Ctr}, s'.ops = s.ops → s'.links = s.links → CallInv s' := by
    intro s' h1 h2 o op ep ho hp
    rw [h1] at ho
    rw [h2]
    exact h o op ep ho hp
  -- an operation goes to a place that is not in a call
  have move : ∀ {s1 : Ctr} {o1 : Nat} {op1 : LOp} {pc : OpPC}, s1.ops = s.ops → s1.links = s.links → s.ops[o1]? = some op1 → (∀ ep, pc ≠ .inCall ep) →
      CallInv (s1.setOp o1 pc) := by
    intro s1 o1 op1 pc h1 h2 h3 h4 o op ep ho hp
    rw [setOp_get' h1 h3] at ho
    by_cases e : o1 = o
    · subst e; rw [if_pos rfl] at ho; obtain rfl := Option.some.inj ho; exact absurd hp (h4 ep)
    · rw [if_neg e] at ho
      show ∃ l, s1.links[op.link]? = some l ∧ _
      rw [h2]
      exact h o op ep ho hp
  -- and changes its link
  have moveL : ∀ {o1 : Nat} {op1 : LOp} {pc : OpPC} {l1 l2 : Lnk}, s.ops[o1]? = some op1 → op1.active = true → (∀ ep, op1.pc ≠ .inCall ep) →
      s.links[op1.link]? = some l1 → (∀ ep, pc ≠ .inCall ep) → CallInv ((s.setLink op1.link l2).setOp o1 pc) := by
    intro o1 op1 pc l1 l2 h3 hact hnot hl h4 o op ep ho hp
    rw [setOp_get' (s1 := s.setLink op1.link l2) rfl h3] at ho
    by_cases e : o1 = o
    · subst e; rw [if_pos rfl] at ho; obtain rfl := Option.some.inj ho; exact absurd hp (h4 ep)
    · rw [if_neg e] at ho
      show ∃ l, (s.setLink op1.link l2).links[op.link]? = some l ∧ _
      rw [setLink_get hl]
      by_cases e2 : op1.link = op.link
      · exact absurd (only_one hq h3 ho e2 hact (active_of_pc hp (by simp))).1 e
      · rw [if_neg e2]; exact h o op ep ho hp
  cases hs with
  | newLink sender h1 =>
    intro o op ep ho hp
    obtain ⟨l, hl, hc⟩ := h o op ep ho hp
    refine ⟨l, ?_, hc⟩
    show (s.links ++ [_])[_]? = _
    rw [List.getElem?_append_left (List.getElem?_eq_some_iff.mp hl).1]; exact hl
  | @call l i k ctx h1 h2 h3 h4 =>
    intro o op ep ho hp
    have h5 : (s.ops ++ [({ link := i, kind := k, ctx := ctx } : LOp)])[o]? = some op := ho
    rw [List.getElem?_append] at h5
    split at h5
    · exact h o op ep h5 hp
    · obtain ⟨hx1, hx2⟩ := List.getElem?_eq_some_iff.mp h5
      simp at hx1
      simp at hx2
      subst hx2; cases hp
  | @cancelOp op1 o1 e h1 h2 h3 =>
    intro o op ep ho hp
    have h5 : (s.ops.set o1 { op1 with ctx := some e })[o]? = some op := ho
    rw [List.getElem?_set] at h5
    by_cases e2 : o1 = o
    · subst e2
      rw [if_pos rfl, if_pos (List.getElem?_eq_some_iff.mp h2).1] at h5
      obtain rfl := Option.some.inj h5
      exact h o1 op1 ep h2 hp
    · rw [if_neg e2] at h5
      exact h o op ep h5 hp
  | @close l i h1 h2 =>
    intro o op ep ho hp
    obtain ⟨l', hl', hc⟩ := h o op ep ho hp
    show ∃ l, (s.setLink i _).links[op.link]? = some l ∧ _
    rw [setLink_get h1]
    by_cases e : i = op.link
    · rw [if_pos e]; exact ⟨_, rfl, Or.inl ⟨rfl, rfl, rfl⟩⟩
    · rw [if_neg e]; exact ⟨l', hl', hc⟩
  | startClosed h1 h2 => exact move rfl rfl h1 (by simp)
  | startHas h1 h2 => exact move rfl rfl h1 (by simp)
  | startWait h1 h2 => exact move rfl rfl h1 (by simp)
  | waited h1 h2 => exact move rfl rfl h1 (by simp)
  | park h1 h2 => exact move rfl rfl h1 (by simp)
  | wake h1 h2 => exact move rfl rfl h1 (by simp)
  | woken h1 h2 => exact move rfl rfl h1 (by simp)
  | waitCancelled h1 h2 => exact move rfl rfl h1 (by simp)
  | take h1 h2 h3 => exact moveL h1 (active_of_pc h2 (by simp)) (by rw [h2]; simp) h3 (by simp)
  | @reuse o1 op1 l ep1 x h1 h2 h3 h4 h5 h6 =>
    intro o op ep ho hp
    rw [setOp_get' rfl h1] at ho
    by_cases e : o1 = o
    · subst e; rw [if_pos rfl] at ho; obtain rfl := Option.some.inj ho
      cases hp
      refine ⟨l, h3, Or.inr ⟨h4, h5, ?_⟩⟩
      have hk := (hq.link _ l h3).1
      cases hcur : l.curr with
      | none => exact absurd hcur (hk.ep _ h4).1
      | some g => rw [hk.curr g hcur]
    · rw [if_neg e] at ho
      exact h o op ep ho hp
  | @attach o1 op1 l g h1 h2 h3 h4 h5 =>
    intro o op ep ho hp
    rw [setOp_get' (s1 := ({ s with eps := s.eps ++ [{ gen := g, link := op1.link, open_ := s.sessionOpen g }] } : Ctr).setLink op1.link
      { l with ep := some s.eps.length, epGen := l.currGen }) rfl h1] at ho
    show ∃ l', (s.setLink op1.link { l with ep := some s.eps.length, epGen := l.currGen }).links[op.link]? = some l' ∧ _
    rw [setLink_get h3]
    by_cases e : o1 = o
    · subst e; rw [if_pos rfl] at ho; obtain rfl := Option.some.inj ho
      cases hp
      refine ⟨{ l with ep := some s.eps.length, epGen := l.currGen }, if_pos rfl, Or.inr ⟨rfl, rfl, ?_⟩⟩
      show l.curr = some l.currGen
      rw [h5, (hq.link _ l h3).1.curr g h5]
    · rw [if_neg e] at ho
      by_cases e2 : op1.link = op.link
      · exact absurd (only_one hq h1 ho e2 (active_of_pc h2 (by simp)) (active_of_pc hp (by simp))).1 e
      · rw [if_neg e2]; exact h o op ep ho hp
  | attachFail e h1 h2 => exact move rfl rfl h1 (by simp)
  | useOk h1 h2 => exact move rfl rfl h1 (by simp)
  | useFail e h1 h2 => exact move rfl rfl h1 (by simp)
  | acceptFail e h1 h2 => exact move rfl rfl h1 (by simp)
  | benign h1 h2 => exact move rfl rfl h1 (by simp)
  | prepare h1 h2 => exact move rfl rfl h1 (by simp)
  | report h1 h2 => exact move (s1 := { s with errs := s.errs ++ [(_, _)] }) rfl rfl h1 (by simp)
  | clear h1 h2 h3 => exact moveL h1 (active_of_pc h2 (by simp)) (by rw [h2]; simp) h3 (by simp)
  | nextAgain h1 h2 => exact move rfl rfl h1 (by simp)
  | ret h1 h2 => exact move rfl rfl h1 (by simp)
  | _ => exact keep rfl rfl

theorem callInv_run {P : LinkPolicy} (hP : P.overlap = false) {evs : List CtrEv} {s : Ctr} (h : Ctr.Run P {} evs s) : CallInv s := by
  generalize h0 : ({} : Ctr) = s0 at h
  induction h with
  | nil => subst h0; intro o op ep ho; simp at ho
  | snoc hr hc hs ih => subst h0; exact callInv_step ih (seqInv_run hP hr) hs

/-- Where the operations on a link can be while the message it has received last is being accepted: the `Next` that got it has nothing to do but return, `Accept` is on its way. -/
def AcceptPC (op : LOp) : Prop := op.pc = .leaving none ∨ (∃ r, op.pc = .done r) ∨
  (op.kind = .accept ∧ (op.pc = .start ∨ op.pc = .ready ∨ (∃ ep, op.pc = .inCall ep) ∨ (∃ r, op.pc = .leaving r) ∨ op.pc = .failing closedError))

/-- Link `i` has received a message with the session of generation `g`, and is not used but to accept messages. -/
structure Holding (i g : Nat) (s : Ctr) : Prop where
  link : ∃ l, s.links[i]? = some l ∧ ((l.closed = true ∧ l.curr = none ∧ l.ep = none) ∨
    (l.curr = some g ∧ l.currGen = g ∧ l.epGen = g ∧ ∃ ep x, l.ep = some ep ∧ s.eps[ep]? = some x ∧ x.gen = g))
  ops : ∀ (o : Nat) (op : LOp), s.ops[o]? = some op → op.link = i → AcceptPC op

/-- An event with which link `i` has to do with a session. -/
def OfLink (i : Nat) (ev : CtrEv) : Prop := ∃ g, ev = .use i g ∨ ev = .fail i g ∨ ev = .reported i g

theorem holding_step {P : LinkPolicy} {i g : Nat} {s s' : Ctr} {ev : CtrEv} (h : Holding i g s) (hs : Ctr.Step P s ev s') (hc : s'.crashed = false)
    (hk : ∀ (o : Nat) (op : LOp), s'.ops[o]? = some op → s.ops[o]? = none → op.link = i → op.kind = .accept) :
    Holding i g s' ∧ (OfLink i ev → ev = .use i g) := by
  obtain ⟨l, hl, hd⟩ := h.link
  have keep : ∀ {s' : Ctr}, s'.ops = s.ops → s'.links = s.links → EpsKeep s s' → Holding i g s' := by
    intro s' h1 h2 h3
    refine ⟨⟨l, by rw [h2]; exact hl, ?_⟩, by rw [h1]; exact h.ops⟩
    rcases hd with hd | ⟨d2, d3, d4, ep, x, d5, d6, d7⟩
    · exact Or.inl hd
    · obtain ⟨x', e1, e2⟩ := h3 ep x d6
      exact Or.inr ⟨d2, d3, d4, ep, x', d5, e1, e2.trans d7⟩
  have opsMove : ∀ {s1 : Ctr} {o1 : Nat} {op1 : LOp} {pc : OpPC}, s1.ops = s.ops → s.ops[o1]? = some op1 → (op1.link = i → AcceptPC { op1 with pc := pc }) →
      ∀ (o : Nat) (op : LOp), (s1.setOp o1 pc).ops[o]? = some op → op.link = i → AcceptPC op := by
    intro s1 o1 op1 pc h1 h3 h4 o op ho hi
    rw [setOp_get' h1 h3] at ho
    by_cases e : o1 = o
    · subst e; rw [if_pos rfl] at ho; obtain rfl := Option.some.inj ho; exact h4 hi
    · rw [if_neg e] at ho; exact h.ops o op ho hi
  have move : ∀ {s1 : Ctr} {o1 : Nat} {op1 : LOp} {pc : OpPC}, s1.ops = s.ops → s1.links = s.links → EpsKeep s s1 → s.ops[o1]? = some op1 →
      (op1.link = i → AcceptPC { op1 with pc := pc }) → Holding i g (s1.setOp o1 pc) := by
    intro s1 o1 op1 pc h1 h2 h3 h4 h5
    refine ⟨⟨l, by rw [setOp_links, h2]; exact hl, ?_⟩, opsMove h1 h4 h5⟩
    rcases hd with hd | ⟨d2, d3, d4, ep, x, d5, d6, d7⟩
    · exact Or.inl hd
    · obtain ⟨x', e1, e2⟩ := h3 ep x d6
      exact Or.inr ⟨d2, d3, d4, ep, x', d5, e1, e2.trans d7⟩
  have tear : ∀ g (x : Ep), (if x.gen = g then { x with open_ := false } else x).gen = x.gen := by
    intro g x; split <;> rfl
  have nope : ∀ {o1 : Nat} {op1 : LOp} {pc : OpPC}, s.ops[o1]? = some op1 → op1.pc = pc → pc ≠ .start → pc ≠ .ready → (∀ ep, pc ≠ .inCall ep) → (∀ r, pc ≠ .leaving r) →
      (∀ r, pc ≠ .done r) → pc ≠ .failing closedError → op1.link ≠ i := by
    intro o1 op1 pc h1 h2 h3 h4 h5 h6 h7 h8 hi
    rcases h.ops o1 op1 h1 hi with k | ⟨r, k⟩ | ⟨-, k | k | ⟨ep, k⟩ | ⟨r, k⟩ | k⟩ <;> rw [h2] at k <;> first
      | exact h3 k
      | exact h4 k
      | exact h5 _ k
      | exact h6 _ k
      | exact h7 _ k
      | exact h8 k
  -- the link of an operation that is not on `i`
  have linkOther : ∀ {s1 : Ctr} {j : Nat} {lj l1 : Lnk}, s1.links = s.links → s.links[j]? = some lj → j ≠ i → (s1.setLink j l1).links[i]? = some l := by
    intro s1 j lj l1 h1 h2 h3
    rw [setLink_get (x := lj) (by rw [h1]; exact h2), if_neg h3, h1]; exact hl
  have acc : ∀ {o1 : Nat} {op1 : LOp}, s.ops[o1]? = some op1 → op1.link = i → op1.pc = .start ∨ op1.pc = .ready ∨ (∃ ep, op1.pc = .inCall ep) ∨ op1.pc = .failing closedError →
      op1.kind = .accept := by
    intro o1 op1 h1 hi hp
    rcases h.ops o1 op1 h1 hi with k | ⟨r, k⟩ | ⟨k, -⟩
    · rw [k] at hp; simp at hp
    · rw [k] at hp; simp at hp
    · exact k
  cases hs with
  | session h1 => exact ⟨keep rfl rfl (epsKeep_map (tear s.gen) rfl), by simp [OfLink]⟩
  | stopFailed h1 h2 => exact ⟨keep rfl rfl (epsKeep_map (tear s.gen) rfl), by simp [OfLink]⟩
  | stopWaiting h1 h2 => exact ⟨keep rfl rfl (epsKeep_map (tear s.gen) rfl), by simp [OfLink]⟩
  | stopGaveUp h1 h2 => exact ⟨keep rfl rfl (epsKeep_map (tear s.gen) rfl), by simp [OfLink]⟩
  | finished h1 => exact ⟨keep rfl rfl (epsKeep_map (tear s.gen) rfl), by simp [OfLink]⟩
  | newLink sender h1 =>
    refine ⟨⟨⟨l, ?_, hd⟩, h.ops⟩, by simp [OfLink]⟩
    show (s.links ++ [_])[_]? = _
    rw [List.getElem?_append_left (List.getElem?_eq_some_iff.mp hl).1]; exact hl
  | @call lj j k ctx h1 h2 h3 h4 =>
    refine ⟨⟨⟨l, hl, hd⟩, ?_⟩, by simp [OfLink]⟩
    intro o op ho hi
    cases h0 : s.ops[o]? with
    | none =>
      have hkk := hk o op ho h0 hi
      have h5 : (s.ops ++ [({ link := j, kind := k, ctx := ctx } : LOp)])[o]? = some op := ho
      rw [List.getElem?_append_right (List.getElem?_eq_none_iff.mp h0)] at h5
      obtain ⟨hx1, hx2⟩ := List.getElem?_eq_some_iff.mp h5
      simp at hx2
      subst hx2
      exact Or.inr (Or.inr ⟨hkk, Or.inl rfl⟩)
    | some op0 =>
      have h5 : (s.ops ++ [({ link := j, kind := k, ctx := ctx } : LOp)])[o]? = some op := ho
      rw [List.getElem?_append_left (List.getElem?_eq_some_iff.mp h0).1] at h5
      exact h.ops o op h5 hi
  | @cancelOp op1 o1 e h1 h2 h3 =>
    refine ⟨⟨⟨l, hl, hd⟩, ?_⟩, by simp [OfLink]⟩
    intro o op ho hi
    have h5 : (s.ops.set o1 { op1 with ctx := some e })[o]? = some op := ho
    rw [List.getElem?_set] at h5
    by_cases e2 : o1 = o
    · subst e2
      rw [if_pos rfl, if_pos (List.getElem?_eq_some_iff.mp h2).1] at h5
      obtain rfl := Option.some.inj h5
      exact h.ops o1 op1 h2 hi
    · rw [if_neg e2] at h5
      exact h.ops o op h5 hi
  | @close lj j h1 h2 =>
    refine ⟨⟨?_, h.ops⟩, by simp [OfLink]⟩
    show ∃ l, (s.setLink j _).links[i]? = some l ∧ _
    by_cases e : j = i
    · subst e
      exact ⟨_, by rw [setLink_get h1, if_pos rfl], Or.inl ⟨rfl, rfl, rfl⟩⟩
    · refine ⟨l, by rw [setLink_get h1, if_neg e]; exact hl, ?_⟩
      rcases hd with hd | ⟨d2, d3, d4, ep, x, d5, d6, d7⟩
      · exact Or.inl hd
      · refine Or.inr ⟨d2, d3, d4, ep, ?_⟩
        show ∃ x, l.ep = some ep ∧ (match lj.ep, lj.sender with | some e, false => s.eps.modify e fun x => { x with open_ := false } | _, _ => s.eps)[ep]? = some x ∧ _
        split
        · rw [List.getElem?_modify, d6]
          split
          · exact ⟨_, d5, rfl, d7⟩
          · exact ⟨x, d5, rfl, d7⟩
        · exact ⟨x, d5, d6, d7⟩
  | startClosed h1 h2 h3 h4 =>
    exact ⟨move rfl rfl (EpsKeep.refl s) h1 (fun hi => Or.inr (Or.inr ⟨(acc h1 hi (Or.inl h2) :), Or.inr (Or.inr (Or.inr (Or.inr rfl)))⟩)), by simp [OfLink]⟩
  | startHas h1 h2 h3 h4 h5 => exact ⟨move rfl rfl (EpsKeep.refl s) h1 (fun hi => Or.inr (Or.inr ⟨(acc h1 hi (Or.inl h2) :), Or.inr (Or.inl rfl)⟩)), by simp [OfLink]⟩
  | @startWait o1 op1 l1 h1 h2 h3 h4 h5 =>
    refine ⟨move rfl rfl (EpsKeep.refl s) h1 (fun hi => ?_), by simp [OfLink]⟩
    rw [hi, hl] at h3
    obtain rfl := Option.some.inj h3
    rcases hd with ⟨d1, -⟩ | ⟨d2, -⟩
    · rw [d1] at h4; cases h4
    · rw [d2] at h5; cases h5
  | waited h1 h2 => exact ⟨move rfl rfl (EpsKeep.refl s) h1 (fun hi => absurd hi (nope h1 h2 (by simp) (by simp) (by simp) (by simp) (by simp) (by simp))), by simp [OfLink]⟩
  | park h1 h2 => exact ⟨move rfl rfl (EpsKeep.refl s) h1 (fun hi => absurd hi (nope h1 h2 (by simp) (by simp) (by simp) (by simp) (by simp) (by simp))), by simp [OfLink]⟩
  | wake h1 h2 => exact ⟨move rfl rfl (EpsKeep.refl s) h1 (fun hi => absurd hi (nope h1 h2 (by simp) (by simp) (by simp) (by simp) (by simp) (by simp))), by simp [OfLink]⟩
  | woken h1 h2 => exact ⟨move rfl rfl (EpsKeep.refl s) h1 (fun hi => absurd hi (nope h1 h2 (by simp) (by simp) (by simp) (by simp) (by simp) (by simp))), by simp [OfLink]⟩
  | waitCancelled h1 h2 =>
    exact ⟨move rfl rfl (EpsKeep.refl s) h1 (fun hi => absurd hi (nope h1 h2 (by simp) (by simp) (by simp) (by simp) (by simp) (by simp))), by simp [OfLink]⟩
  | take h1 h2 h3 =>
    have hn := nope h1 h2 (by simp) (by simp) (by simp) (by simp) (by simp) (by simp)
    exact ⟨⟨⟨l, linkOther rfl h3 hn, hd⟩, opsMove (s1 := s.setLink _ _) rfl h1 (fun hi => absurd hi hn)⟩, by simp [OfLink]⟩
  | @reuse o1 op1 l1 ep1 x1 h1 h2 h3 h4 h5 h6 =>
    refine ⟨move rfl rfl (EpsKeep.refl s) h1 (fun hi => Or.inr (Or.inr ⟨(acc h1 hi (Or.inr (Or.inl h2)) :), Or.inr (Or.inr (Or.inl ⟨_, rfl⟩))⟩)), ?_⟩
    rintro ⟨g', hev | hev | hev⟩
    · injection hev with hi hg
      rw [hi, hl] at h3
      obtain rfl := Option.some.inj h3
      rcases hd with ⟨-, -, d3⟩ | ⟨-, -, -, ep, x, d5, d6, d7⟩
      · rw [d3] at h4; cases h4
      · rw [d5] at h4; obtain rfl := Option.some.inj h4
        rw [d6] at h6; obtain rfl := Option.some.inj h6
        rw [hi, d7]
    · cases hev
    · cases hev
  | noSession => cases hc
  | @attach o1 op1 l1 g1 h1 h2 h3 h4 h5 =>
    have hn : op1.link ≠ i := by
      intro hi
      rw [hi, hl] at h3
      obtain rfl := Option.some.inj h3
      rcases hd with ⟨-, d2, -⟩ | ⟨-, d3, d4, ep, x, d5, d6, d7⟩
      · rw [d2] at h5; cases h5
      · exact h4 ⟨by rw [d5]; rfl, by rw [d3, d4]⟩
    refine ⟨⟨⟨l, linkOther (s1 := { s with eps := _ }) rfl h3 hn, ?_⟩, opsMove (s1 := Ctr.setLink { s with eps := _ } _ _) rfl h1 (fun hi => absurd hi hn)⟩, ?_⟩
    · rcases hd with hd | ⟨d2, d3, d4, ep, x, d5, d6, d7⟩
      · exact Or.inl hd
      · refine Or.inr ⟨d2, d3, d4, ep, x, d5, ?_, d7⟩
        show (s.eps ++ [_])[ep]? = some x
        rw [List.getElem?_append_left (List.getElem?_eq_some_iff.mp d6).1]; exact d6
    · rintro ⟨g', hev | hev | hev⟩
      · injection hev with hi hg; exact absurd hi hn
      · cases hev
      · cases hev
  | @attachFail o1 op1 l1 g1 e h1 h2 h3 h4 h5 =>
    have hn : op1.link ≠ i := by
      intro hi
      rw [hi, hl] at h3
      obtain rfl := Option.some.inj h3
      rcases hd with ⟨-, d2, -⟩ | ⟨-, d3, d4, ep, x, d5, d6, d7⟩
      · rw [d2] at h5; cases h5
      · exact h4 ⟨by rw [d5]; rfl, by rw [d3, d4]⟩
    refine ⟨move rfl rfl (EpsKeep.refl s) h1 (fun hi => absurd hi hn), ?_⟩
    rintro ⟨g', hev | hev | hev⟩
    · cases hev
    · injection hev with hi hg; exact absurd hi hn
    · cases hev
  | useOk h1 h2 => exact ⟨move rfl rfl (EpsKeep.refl s) h1 (fun hi => Or.inl rfl), by simp [OfLink]⟩
  | @useFail o1 op1 ep x e h1 h2 h3 h4 h5 =>
    have hn : op1.link ≠ i := fun hi => h3 (acc h1 hi (Or.inr (Or.inr (Or.inl ⟨_, h2⟩))))
    refine ⟨move rfl rfl (EpsKeep.refl s) h1 (fun hi => absurd hi hn), ?_⟩
    rintro ⟨g', hev | hev | hev⟩
    · cases hev
    · injection hev with hi hg; exact absurd hi hn
    · cases hev
  | acceptFail e h1 h2 h3 h4 =>
    exact ⟨move rfl rfl (EpsKeep.refl s) h1 (fun hi => Or.inr (Or.inr ⟨h3, Or.inr (Or.inr (Or.inr (Or.inl ⟨_, rfl⟩)))⟩)), by simp [OfLink]⟩
  | @benign o1 op1 e h1 h2 h3 =>
    refine ⟨move rfl rfl (EpsKeep.refl s) h1 (fun hi => ?_), by simp [OfLink]⟩
    rcases h.ops _ _ h1 hi with k | ⟨r, k⟩ | ⟨k, -⟩
    · rw [h2] at k; cases k
    · rw [h2] at k; cases k
    · exact Or.inr (Or.inr ⟨k, Or.inr (Or.inr (Or.inr (Or.inl ⟨_, rfl⟩)))⟩)
  | @prepare o1 op1 l1 e h1 h2 h3 h4 h5 =>
    refine ⟨move rfl rfl (EpsKeep.refl s) h1 (fun hi => ?_), by simp [OfLink]⟩
    rcases h.ops _ _ h1 hi with k | ⟨r, k⟩ | ⟨-, k | k | ⟨ep, k⟩ | ⟨r, k⟩ | k⟩ <;> rw [h2] at k <;> cases k
    exact absurd h4 (by decide)
  | @report o1 op1 g1 e h1 h2 h3 =>
    have hn := nope h1 h2 (by simp) (by simp) (by simp) (by simp) (by simp) (by simp)
    refine ⟨move (s1 := { s with errs := s.errs ++ [(_, _)] }) rfl rfl (EpsKeep.of_eq rfl) h1 (fun hi => absurd hi hn), ?_⟩
    rintro ⟨g', hev | hev | hev⟩
    · cases hev
    · cases hev
    · injection hev with hi hg; exact absurd hi hn
  | clear h1 h2 h3 =>
    have hn := nope h1 h2 (by simp) (by simp) (by simp) (by simp) (by simp) (by simp)
    exact ⟨⟨⟨l, linkOther rfl h3 hn, hd⟩, opsMove (s1 := s.setLink _ _) rfl h1 (fun hi => absurd hi hn)⟩, by simp [OfLink]⟩
  | @nextAgain o1 op1 e h1 h2 h3 h4 =>
    refine ⟨move rfl rfl (EpsKeep.refl s) h1 (fun hi => ?_), by simp [OfLink]⟩
    rcases h.ops _ _ h1 hi with k | ⟨r, k⟩ | ⟨k, -⟩
    · rw [h2] at k; cases k
    · rw [h2] at k; cases k
    · rw [k] at h3; cases h3
  | ret h1 h2 => exact ⟨move rfl rfl (EpsKeep.refl s) h1 (fun hi => Or.inr (Or.inl ⟨_, rfl⟩)), by simp [OfLink]⟩
  | _ => exact ⟨keep rfl rfl (EpsKeep.of_eq rfl), by simp [OfLink]⟩

/-- The operations there are stay, with their links and kinds. -/
theorem ops_keep {P : LinkPolicy} {s s' : Ctr} {evs : List CtrEv} (h : Ctr.Run P s evs s') {o : Nat} {op : LOp} (ho : s.ops[o]? = some op) :
    ∃ op', s'.ops[o]? = some op' ∧ op'.link = op.link ∧ op'.kind = op.kind := by
  induction h with
  | nil => exact ⟨op, ho, rfl, rfl⟩
  | snoc hr hc hs ih =>
    obtain ⟨op1, h1, h2, h3⟩ := ih
    obtain ⟨op2, k1, k2, k3, -⟩ := op_view hs h1
    exact ⟨op2, k1, k2.trans h2, k3.trans h3⟩

/-- **C120.** A link that is used by one goroutine receives a message with a session; for as long as it is then used for nothing but accepting, whatever happens to the session
and to other links, it does not use another session, does not attach to one again and reports nothing: an acceptance is sent on the session the message came from, or not
at all. -/
theorem C120_same_session {P : LinkPolicy} (hP : P.overlap = false) {a b : List CtrEv} {s s2 : Ctr} {o ep : Nat} {op : LOp} {x : Ep}
    (h0 : Ctr.Run P {} a s) (hc : s.crashed = false) (ho : s.ops[o]? = some op) (_ : op.kind = .next) (hpc : op.pc = .inCall ep) (hx : s.eps[ep]? = some x)
    (h : Ctr.Run P (s.setOp o (.leaving none)) b s2) (hc2 : s2.crashed = false)
    (hacc : ∀ (o' : Nat) (op' : LOp), s2.ops[o']? = some op' → s.ops[o']? = none → op'.link = op.link → op'.kind = .accept) :
    ∀ ev ∈ b, OfLink op.link ev → ev = .use op.link x.gen := by
  have h1 := h0.snoc hc (Ctr.Step.useOk (P := P) ho hpc)
  have hq := seqInv_run hP h0
  have start : Holding op.link x.gen (s.setOp o (.leaving none)) := by
    obtain ⟨l, hl, hd⟩ := callInv_run hP h0 o op ep ho hpc
    obtain ⟨l', hl', ⟨x', hx', hxg⟩, -⟩ : ∃ l, s.links[op.link]? = some l ∧ (∃ x, s.eps[ep]? = some x ∧ x.gen = l.currGen) ∧ _ := by
      have := hq.op o op ho
      unfold OpOK at this
      rw [hpc] at this
      exact this
    rw [hl] at hl'; obtain rfl := Option.some.inj hl'
    rw [hx] at hx'; obtain rfl := Option.some.inj hx'
    refine ⟨⟨l, hl, ?_⟩, ?_⟩
    · rcases hd with hd | ⟨d1, d2, d3⟩
      · exact Or.inl hd
      · exact Or.inr ⟨by rw [d3, hxg], hxg.symm, by rw [d2, hxg], ep, x, d1, hx, rfl⟩
    · intro o' op' ho' hi
      rw [setOp_get' rfl ho] at ho'
      by_cases e : o = o'
      · subst e; rw [if_pos rfl] at ho'; obtain rfl := Option.some.inj ho'; exact Or.inl rfl
      · rw [if_neg e] at ho'
        cases hact : op'.active with
        | true => exact absurd (only_one hq ho ho' hi.symm (active_of_pc hpc (by simp)) hact).1 e
        | false =>
          refine Or.inr (Or.inl ?_)
          unfold LOp.active at hact
          split at hact
          · exact ⟨_, ‹_›⟩
          · cases hact
  -- step by step
  generalize hs1 : s.setOp o (.leaving none) = s1 at h start
  have key : Holding op.link x.gen s2 ∧ ∀ ev ∈ b, OfLink op.link ev → ev = .use op.link x.gen := by
    clear h1 hq
    induction h with
    | nil => exact ⟨start, by simp⟩
    | @snoc s3 s4 evs ev hr hcr hs ih =>
      obtain ⟨i1, i2⟩ := ih hcr (by
        intro o' op' ho' hn hi
        obtain ⟨op4, k1, k2, k3, -⟩ := op_view hs ho'
        rw [← k3]
        exact hacc o' op4 k1 hn (k2.trans hi))
      obtain ⟨j1, j2⟩ := holding_step i1 hs hc2 (by
        intro o' op' ho' hn hi
        refine hacc o' op' ho' ?_ hi
        cases h3 : s.ops[o']? with
        | none => rfl
        | some op3 =>
          exfalso
          have : ∃ y, s1.ops[o']? = some y := by
            rw [← hs1, setOp_get, h3]; split <;> exact ⟨_, rfl⟩
          obtain ⟨y, hy⟩ := this
          obtain ⟨z, hz, -, -⟩ := ops_keep hr hy
          rw [hn] at hz; cases hz)
      refine ⟨j1, fun ev' hm => ?_⟩
      rcases List.mem_append.mp hm with hm | hm
      · exact i2 ev' hm
      · simp at hm; subst hm; exact j2
  exact key.2

/-- A container with a receiver, whose `Next` is waiting for a message on the session of generation 1, and a sender. -/
def exReceiving : Ctr :=
  { gen := 1, loop := .serving
    links := [{ sender := false, currGen := 1, curr := some 1, epGen := 1, ep := some 0 }, { sender := true, currGen := 1, curr := some 1 }]
    ops := [{ link := 0, kind := .next, pc := .inCall 0 }], eps := [{ gen := 1, link := 0 }], conns := [{ gen := some 1 }] }

/-- A container with a receiver, and two calls of `Next` that are waiting for messages on the session of generation 1. -/
def exReceivingTwice : Ctr :=
  { gen := 1, loop := .serving, links := [{ sender := false, currGen := 1, curr := some 1, epGen := 1, ep := some 0 }]
    ops := [{ link := 0, kind := .next, pc := .inCall 0 }, { link := 0, kind := .next, pc := .inCall 0 }], eps := [{ gen := 1, link := 0 }], conns := [{ gen := some 1 }] }

/-- Instance: a message is received with generation 1; the session is given up because of another link, and a new one is there; the message is then accepted with generation 1. -/
theorem C120_instance : ∃ (a b : List CtrEv) (s : Ctr) (op : LOp), Ctr.Run exclusive {} a s ∧ s.crashed = false ∧ s.ops[0]? = some op ∧ op.kind = .next ∧ op.link = 0 ∧
    op.pc = .inCall 0 ∧ s.eps[0]? = some { gen := 1, link := 0 } ∧ ∃ s2, Ctr.Run exclusive (s.setOp 0 (.leaving none)) b s2 ∧ CtrEv.session 2 ∈ b ∧
      CtrEv.call 0 2 ∈ b ∧ CtrEv.use 0 1 ∈ b := by
  have r1 := (Ctr.Run.nil (P := exclusive) (s := {})).snoc rfl (.start rfl)
  have r2 := r1.snoc rfl (.dialOk rfl)
  have r3 := r2.snoc rfl (.session rfl)
  have r4 := r3.snoc rfl (.newLink false rfl)
  have r5 := r4.snoc rfl (.newLink true rfl)
  have r6 := r5.snoc rfl (.call 0 .next none rfl rfl (by simp) (by intro _; rfl))
  have r7 := r6.snoc rfl (.startHas (o := 0) rfl rfl rfl rfl rfl)
  have r8 := r7.snoc rfl (.attach (o := 0) rfl rfl rfl (by simp) rfl)
  have q1 := (Ctr.Run.nil (P := exclusive) (s := exReceiving.setOp 0 (.leaving none))).snoc rfl (.ret (o := 0) rfl rfl (by simp))
  have q2 := q1.snoc rfl (.call 1 .send none rfl rfl (by simp) (by intro _; rfl))
  have q3 := q2.snoc rfl (.startHas (o := 1) rfl rfl rfl rfl rfl)
  have q4 := q3.snoc rfl (.attachFail (.other "x") (o := 1) rfl rfl rfl (by simp) rfl rfl)
  have q5 := q4.snoc rfl (.prepare (o := 1) rfl rfl (by decide) (by decide) rfl)
  have q6 := q5.snoc rfl (.report (o := 1) rfl rfl (by decide))
  have q7 := q6.snoc rfl (.restart "x" rfl rfl)
  have q8 := q7.snoc rfl (.retry rfl rfl)
  have q9 := q8.snoc rfl (.notified rfl)
  have q10 := q9.snoc rfl (.again rfl)
  have q11 := q10.snoc rfl (.dialOk rfl)
  have q12 := q11.snoc rfl (.session rfl)
  have q13 := q12.snoc rfl (.call 0 .accept none rfl rfl (by simp) (by intro _; rfl))
  have q14 := q13.snoc rfl (.startHas (o := 2) rfl rfl rfl rfl rfl)
  have q15 := q14.snoc rfl (.reuse (o := 2) rfl rfl rfl rfl rfl rfl)
  exact ⟨[.start, .dialOk, .session 1, .newLink 0, .newLink 1, .call 0 0, .step 0, .use 0 1],
    [.ret 0 none, .call 1 1, .step 1, .fail 1 1, .step 1, .reported 1 1, .restart 1, .retry, .again, .again, .dialOk, .session 2, .call 0 2, .step 2, .use 0 1],
    exReceiving, _, r8, rfl, rfl, rfl, rfl, rfl, rfl, _, q15, by decide, by decide, by decide⟩

/-- That operations on the link do not overlap is needed: of two goroutines that receive from one link, one gets a message with generation 1 and, since the other has met the
end of that session, accepts it with generation 2. -/
theorem C120_overlap : ∃ (a b : List CtrEv) (s : Ctr) (op : LOp), Ctr.Run anyUse {} a s ∧ s.ops[0]? = some op ∧ op.kind = .next ∧ op.link = 0 ∧ op.pc = .inCall 0 ∧
    s.eps[0]? = some { gen := 1, link := 0 } ∧ ∃ s2 op', Ctr.Run anyUse (s.setOp 0 (.leaving none)) (b ++ [.use 0 2]) s2 ∧ s2.ops[2]? = some op' ∧ op'.link = 0 ∧
      op'.kind = .accept ∧ op'.pc = .inCall 1 := by
  have r1 := (Ctr.Run.nil (P := anyUse) (s := {})).snoc rfl (.start rfl)
  have r2 := r1.snoc rfl (.dialOk rfl)
  have r3 := r2.snoc rfl (.session rfl)
  have r4 := r3.snoc rfl (.newLink false rfl)
  have r5 := r4.snoc rfl (.call 0 .next none rfl rfl (by simp) (by simp [anyUse]))
  have r6 := r5.snoc rfl (.call 0 .next none rfl rfl (by simp) (by simp [anyUse]))
  have r7 := r6.snoc rfl (.startHas (o := 0) rfl rfl rfl rfl rfl)
  have r8 := r7.snoc rfl (.startHas (o := 1) rfl rfl rfl rfl rfl)
  have r9 := r8.snoc rfl (.attach (o := 0) rfl rfl rfl (by simp) rfl)
  have r10 := r9.snoc rfl (.reuse (o := 1) rfl rfl rfl rfl rfl rfl)
  have q1 := (Ctr.Run.nil (P := anyUse) (s := exReceivingTwice.setOp 0 (.leaving none))).snoc rfl (.ret (o := 0) rfl rfl (by simp))
  have q2 := q1.snoc rfl (.useFail (.other "x") (o := 1) rfl rfl (by decide) rfl rfl)
  have q3 := q2.snoc rfl (.prepare (o := 1) rfl rfl (by decide) (by decide) rfl)
  have q4 := q3.snoc rfl (.report (o := 1) rfl rfl (by decide))
  have q5 := q4.snoc rfl (.clear (o := 1) rfl rfl rfl)
  have q6 := q5.snoc rfl (.restart "x" rfl rfl)
  have q7 := q6.snoc rfl (.retry rfl rfl)
  have q8 := q7.snoc rfl (.notified rfl)
  have q9 := q8.snoc rfl (.again rfl)
  have q10 := q9.snoc rfl (.dialOk rfl)
  have q11 := q10.snoc rfl (.session rfl)
  have q12 := q11.snoc rfl (.call 0 .accept none rfl rfl (by simp) (by simp [anyUse]))
  have q13 := q12.snoc rfl (.startWait (o := 2) rfl rfl rfl rfl rfl)
  have q14 := q13.snoc rfl (.waited (o := 2) rfl rfl rfl (by decide))
  have q15 := q14.snoc rfl (.take (o := 2) rfl rfl rfl)
  have q16 := q15.snoc rfl (.attach (o := 2) rfl rfl rfl (by simp) rfl)
  exact ⟨[.start, .dialOk, .session 1, .newLink 0, .call 0 0, .call 0 1, .step 0, .step 1, .use 0 1, .use 0 1],
    [.ret 0 none, .fail 0 1, .step 1, .reported 0 1, .step 1, .restart 1, .retry, .again, .again, .dialOk, .session 2, .call 0 2, .step 2, .step 2, .step 2],
    exReceivingTwice, _, r10, rfl, rfl, rfl, rfl, rfl, _, _, q16, rfl, rfl, rfl, rfl⟩

end Verif.Props
