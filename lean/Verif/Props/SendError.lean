import Verif.Props.Container
import Verif.Props.Wire

/-!
# A message that cannot be sent (C119)

`Send` of a link reports whatever error go-amqp returns to the container (container.go:333-356, 428-437), which gives the session up for it — also if the session is fine and
it is the message that go-amqp has refused.
-/
namespace Verif.Props
open Verif Verif.Model Verif.Spec Verif.Proofs

/-- An operation gets from reporting to the next line only by reporting. -/
theorem report_event {P : LinkPolicy} {s s' : Ctr} {ev : CtrEv} {o g : Nat} {op op' : LOp} {e : GoErr} (hs : Ctr.Step P s ev s') (ho : s.ops[o]? = some op)
    (hpc : op.pc = .reporting g e) (ho' : s'.ops[o]? = some op') (hne : op'.pc ≠ op.pc) : s'.errs = s.errs ++ [(g, e)] ∧ s'.loop = s.loop ∧ s'.gen = s.gen ∧
      ∀ r, ev ≠ .ret o r := by
  have other : ∀ {o1 : Nat} {op1 : LOp} {pc : OpPC} {s1 : Ctr}, s1.ops = s.ops → s.ops[o1]? = some op1 → s' = s1.setOp o1 pc → op1.pc ≠ .reporting g e → False := by
    intro o1 op1 pc s1 h0 h1 h2 h3
    subst h2
    rw [setOp_get' h0 h1] at ho'
    by_cases e1 : o1 = o
    · subst e1
      rw [ho] at h1
      obtain rfl := Option.some.inj h1
      exact h3 hpc
    · rw [if_neg e1, ho] at ho'
      obtain rfl := Option.some.inj ho'
      exact hne rfl
  have same : s'.ops = s.ops → False := by
    intro h0
    rw [h0, ho] at ho'
    obtain rfl := Option.some.inj ho'
    exact hne rfl
  cases hs with
  | @report o1 op1 g1 e1 h1 h2 h3 =>
    rw [setOp_get' (s1 := { s with errs := s.errs ++ [(g1, e1)] }) rfl h1] at ho'
    by_cases e2 : o1 = o
    · subst e2
      rw [ho] at h1
      obtain rfl := Option.some.inj h1
      rw [hpc] at h2
      cases h2
      exact ⟨rfl, rfl, rfl, by simp⟩
    · rw [if_neg e2, ho] at ho'
      obtain rfl := Option.some.inj ho'
      exact absurd rfl hne
  | @call l i k ctx h1 h2 h3 h4 =>
    have h5 : (s.ops ++ [_])[o]? = some op' := ho'
    rw [List.getElem?_append_left (List.getElem?_eq_some_iff.mp ho).1, ho] at h5
    obtain rfl := Option.some.inj h5
    exact absurd rfl hne
  | @cancelOp op1 o1 e1 h1 h2 h3 =>
    have h5 : (s.ops.set o1 { op1 with ctx := some e1 })[o]? = some op' := ho'
    rw [List.getElem?_set] at h5
    by_cases e2 : o1 = o
    · subst e2
      rw [if_pos rfl, if_pos (List.getElem?_eq_some_iff.mp h2).1] at h5
      rw [ho] at h2
      obtain rfl := Option.some.inj h2
      obtain rfl := Option.some.inj h5
      exact absurd rfl hne
    · rw [if_neg e2, ho] at h5
      obtain rfl := Option.some.inj h5
      exact absurd rfl hne
  | startClosed h1 h2 => exact (other rfl h1 rfl (by rw [h2]; simp)).elim
  | startHas h1 h2 => exact (other rfl h1 rfl (by rw [h2]; simp)).elim
  | startWait h1 h2 => exact (other rfl h1 rfl (by rw [h2]; simp)).elim
  | waited h1 h2 => exact (other rfl h1 rfl (by rw [h2]; simp)).elim
  | park h1 h2 => exact (other rfl h1 rfl (by rw [h2]; simp)).elim
  | wake h1 h2 => exact (other rfl h1 rfl (by rw [h2]; simp)).elim
  | woken h1 h2 => exact (other rfl h1 rfl (by rw [h2]; simp)).elim
  | waitCancelled h1 h2 => exact (other rfl h1 rfl (by rw [h2]; simp)).elim
  | take h1 h2 h3 => exact (other (s1 := s.setLink _ _) rfl h1 rfl (by rw [h2]; simp)).elim
  | reuse h1 h2 => exact (other rfl h1 rfl (by rw [h2]; simp)).elim
  | @attach o1 op1 l g h1 h2 h3 =>
    exact (other (s1 := ({ s with eps := s.eps ++ [{ gen := g, link := op1.link, open_ := s.sessionOpen g }] } : Ctr).setLink op1.link
      { l with ep := some s.eps.length, epGen := l.currGen }) rfl h1 rfl (by rw [h2]; simp)).elim
  | attachFail e1 h1 h2 => exact (other rfl h1 rfl (by rw [h2]; simp)).elim
  | useOk h1 h2 => exact (other rfl h1 rfl (by rw [h2]; simp)).elim
  | useFail e1 h1 h2 => exact (other rfl h1 rfl (by rw [h2]; simp)).elim
  | acceptFail e1 h1 h2 => exact (other rfl h1 rfl (by rw [h2]; simp)).elim
  | benign h1 h2 => exact (other rfl h1 rfl (by rw [h2]; simp)).elim
  | prepare h1 h2 => exact (other rfl h1 rfl (by rw [h2]; simp)).elim
  | clear h1 h2 h3 => exact (other (s1 := s.setLink _ _) rfl h1 rfl (by rw [h2]; simp)).elim
  | nextAgain h1 h2 => exact (other rfl h1 rfl (by rw [h2]; simp)).elim
  | ret h1 h2 => exact (other rfl h1 rfl (by rw [h2]; simp)).elim
  | _ => exact (same rfl).elim

/-- A session stays the one that is served until an error of its generation is read, or the context ends. -/
theorem serving_step {P : LinkPolicy} {s s' : Ctr} {ev : CtrEv} (hs : Ctr.Step P s ev s') (hl : s.loop = .serving) :
    (s'.loop = .serving ∧ s'.gen = s.gen) ∨ ev = .restart s.gen ∨ ev = .interrupted := by
  cases hs with
  | restart => exact Or.inr (Or.inl rfl)
  | interrupted => exact Or.inr (Or.inr rfl)
  | _ => first
    | exact Or.inl ⟨hl, rfl⟩
    | simp_all

/-- An error of the generation that is served is not taken out of the channel but by giving the session up. -/
theorem errs_step {P : LinkPolicy} {s s' : Ctr} {ev : CtrEv} {e : GoErr} (hs : Ctr.Step P s ev s') (hm : (s.gen, e) ∈ s.errs) :
    (s.gen, e) ∈ s'.errs ∨ ev = .restart s.gen := by
  cases hs with
  | dropped h1 h2 h3 =>
    rw [h2] at hm
    rcases List.mem_cons.mp hm with h | h
    · cases h; exact absurd rfl h3
    · exact Or.inl h
  | restart => exact Or.inr rfl
  | report h1 h2 h3 => exact Or.inl (List.mem_append_left _ hm)
  | _ => exact Or.inl hm

/-- The generation of a link changes only when an operation on it takes a new session. -/
theorem currGen_step {P : LinkPolicy} {s s' : Ctr} {ev : CtrEv} {i : Nat} {l : Lnk} (hs : Ctr.Step P s ev s') (hl : s.links[i]? = some l) :
    ∃ l', s'.links[i]? = some l' ∧ (l'.currGen = l.currGen ∨ ∃ (o : Nat) (op : LOp) (g : Nat), s.ops[o]? = some op ∧ op.pc = .got g ∧ op.link = i) := by
  have set : ∀ {s1 : Ctr} {j : Nat} {lj l1 : Lnk}, s.links[j]? = some lj → s1.links = s.links →
      (l1.currGen = lj.currGen ∨ ∃ (o : Nat) (op : LOp) (g : Nat), s.ops[o]? = some op ∧ op.pc = .got g ∧ op.link = j) →
      ∃ l', (s1.setLink j l1).links[i]? = some l' ∧
        (l'.currGen = l.currGen ∨ ∃ (o : Nat) (op : LOp) (g : Nat), s.ops[o]? = some op ∧ op.pc = .got g ∧ op.link = i) := by
    intro s1 j lj l1 h1 h2 h3
    have hg := setLink_get (s := s1) (i := j) (j := i) (l := l1) (x := lj) (by rw [h2]; exact h1)
    by_cases e : j = i
    · subst e
      rw [hl] at h1
      obtain rfl := Option.some.inj h1
      exact ⟨l1, hg.trans (if_pos rfl), h3⟩
    · exact ⟨l, (hg.trans (if_neg e)).trans (by rw [h2]; exact hl), Or.inl rfl⟩
  cases hs with
  | @newLink sender h1 =>
    refine ⟨l, ?_, Or.inl rfl⟩
    show (s.links ++ [_])[i]? = _
    rw [List.getElem?_append_left (List.getElem?_eq_some_iff.mp hl).1]; exact hl
  | close j h1 h2 => exact set h1 rfl (Or.inl rfl)
  | take h1 h2 h3 => exact set h3 rfl (Or.inr ⟨_, _, _, h1, h2, rfl⟩)
  | attach h1 h2 h3 => exact set (s1 := { s with eps := _ }) h3 rfl (Or.inl rfl)
  | clear h1 h2 h3 => exact set h3 rfl (Or.inl rfl)
  | _ => exact ⟨l, hl, Or.inl rfl⟩

/-- The error of the library, as `Send` wraps it, is neither the end of a context nor a closed link. -/
theorem other_not {t m : String} {c : Option GoErr} (hc : ∀ e, c = some e → e.IsCtx) : errorsIs (some (.wrap m (.other t))) c = false := by
  cases c with
  | none => rfl
  | some e => rcases hc e rfl with rfl | rfl <;> rfl

theorem opCtx_run {P : LinkPolicy} {evs : List CtrEv} {s : Ctr} (hr : Ctr.Run P {} evs s) : ∀ (o : Nat) (op : LOp), s.ops[o]? = some op → ∀ e, op.ctx = some e → e.IsCtx := by
  generalize hs0 : ({} : Ctr) = s0 at hr
  induction hr with
  | nil => subst hs0; intro o op h; simp at h
  | @snoc s1 s2 evs ev hr _ hs ih =>
    intro o op ho e he
    cases h0 : s1.ops[o]? with
    | some op0 =>
      obtain ⟨op', h1, -, -, h2⟩ := op_view hs h0
      rw [ho] at h1
      obtain rfl := Option.some.inj h1
      rcases h2 with ⟨rfl, -⟩ | ⟨e', rfl, h3, rfl⟩ | ⟨h3, -, -⟩
      · exact ih o _ h0 e he
      · cases he
        cases hs with
        | cancelOp _ _ h => exact h
      · exact ih o _ h0 e (h3 ▸ he)
    | none =>
      cases hs with
      | @call l i k ctx h1 h2 h3 h4 =>
        have h5 : (s1.ops ++ [{ link := i, kind := k, ctx := ctx }])[o]? = some op := ho
        have hlt := List.getElem?_eq_none_iff.mp h0
        rw [List.getElem?_append_right hlt] at h5
        cases hk : o - s1.ops.length with
        | zero => rw [hk] at h5; simp at h5; subst h5; exact h3 e he
        | succ n => rw [hk] at h5; simp at h5
      | cancelOp =>
        have : (s1.ops.set _ _)[o]? = some op := ho
        rw [List.getElem?_set] at this
        split at this
        · rename_i heq; subst heq; split at this
          · rename_i hlt; rw [List.getElem?_eq_none_iff] at h0; omega
          · cases this
        · rw [h0] at this; cases this
      | _ => first
        | (rw [show _ = s1.ops[o]? from rfl, h0] at ho; cases ho)
        | (simp [Ctr.setOp, List.getElem?_modify, h0] at ho)
        | (simp [Ctr.setOp, Ctr.setLink, Ctr.teardown, List.getElem?_modify, h0] at ho)

/-- **C119** is false: whatever go-amqp refuses a message for, `Send` does not return before the container has been told that the session has failed: it gives up the session
all links use, or still has the error before it, unless its context has ended. -/
theorem C119_costs_all {P : LinkPolicy} (hP : P.overlap = false) {a b : List CtrEv} {s s2 : Ctr} {o ep : Nat} {op : LOp} {x : Ep} {t : String} {r : Option GoErr}
    (h0 : Ctr.Run P {} a s) (hc : s.crashed = false) (hl : s.loop = .serving) (ho : s.ops[o]? = some op) (hpc : op.pc = .inCall ep) (hk : op.kind = .send)
    (hx : s.eps[ep]? = some x) (hg : x.gen = s.gen) (h : Ctr.Run P (s.setOp o (.failing (.wrap "error" (.other t)))) b s2) (hret : CtrEv.ret o r ∈ b) :
    CtrEv.restart s.gen ∈ b ∨ CtrEv.interrupted ∈ b ∨
      (s2.loop = .serving ∧ s2.gen = s.gen ∧ (s.gen, .wrap "error" (.other t)) ∈ s2.errs) := by
  have hstep : Ctr.Step P s (.fail op.link x.gen) (s.setOp o (.failing (.wrap "error" (.other t)))) :=
    .useFail (.other t) ho hpc (by rw [hk]; simp) hx rfl
  have h1 := h0.snoc hc hstep
  obtain ⟨l, hlk, ⟨x', hx', hxg⟩, -⟩ : ∃ l, s.links[op.link]? = some l ∧ (∃ x, s.eps[ep]? = some x ∧ x.gen = l.currGen) ∧ _ := by
    have := (seqInv_run hP h0).op o op ho
    unfold OpOK at this
    rw [hpc] at this
    exact this
  rw [hx] at hx'
  obtain rfl := Option.some.inj hx'
  have key : ∀ {b : List CtrEv} {s2 : Ctr}, Ctr.Run P (s.setOp o (.failing (.wrap "error" (.other t)))) b s2 →
      CtrEv.restart s.gen ∈ b ∨ CtrEv.interrupted ∈ b ∨ (s2.loop = .serving ∧ s2.gen = s.gen ∧
        ((s.gen, .wrap "error" (.other t)) ∈ s2.errs ∨ ((∀ r, CtrEv.ret o r ∉ b) ∧ ∃ op', s2.ops[o]? = some op' ∧ op'.link = op.link ∧
          ((op'.pc = .failing (.wrap "error" (.other t)) ∧ ∃ l', s2.links[op.link]? = some l' ∧ l'.currGen = s.gen) ∨
            op'.pc = .reporting s.gen (.wrap "error" (.other t)))))) := by
    intro b s2 h
    generalize hs1 : s.setOp o (.failing (.wrap "error" (.other t))) = s1 at h
    induction h with
    | nil =>
      subst hs1
      exact Or.inr (Or.inr ⟨hl, rfl, Or.inr ⟨by simp, { op with pc := .failing (.wrap "error" (.other t)) }, by rw [setOp_get, if_pos rfl, ho]; rfl, rfl,
        Or.inl ⟨rfl, l, hlk, by rw [← hxg, hg]⟩⟩⟩)
    | @snoc s3 s4 evs ev hr hcr hs ih =>
      rcases ih with ih | ih | ⟨hl3, hg3, ih⟩
      · exact Or.inl (List.mem_append_left _ ih)
      · exact Or.inr (Or.inl (List.mem_append_left _ ih))
      rcases serving_step hs hl3 with ⟨hl4, hg4⟩ | rfl | rfl
      rotate_left
      · rw [hg3]; exact Or.inl (by simp)
      · exact Or.inr (Or.inl (by simp))
      rcases ih with hm | ⟨hno, op3, ho3, hol, hpc3⟩
      · rw [← hg3] at hm
        rcases errs_step hs hm with hm' | rfl
        · exact Or.inr (Or.inr ⟨hl4, hg4.trans hg3, Or.inl (hg3 ▸ hm')⟩)
        · rw [hg3]; exact Or.inl (by simp)
      have hreach : Ctr.Run P {} ((a ++ [.fail op.link x.gen]) ++ evs) s3 := ctr_trans h1 (hs1 ▸ hr)
      have hctx := opCtx_run hreach o op3 ho3
      obtain ⟨op4, ho4, hol4, -, hview⟩ := op_view hs ho3
      have stay : op4.pc = op3.pc → (∀ r, ev ≠ .ret o r) → CtrEv.restart s.gen ∈ evs ++ [ev] ∨ CtrEv.interrupted ∈ evs ++ [ev] ∨ (s4.loop = .serving ∧ s4.gen = s.gen ∧
          ((s.gen, .wrap "error" (.other t)) ∈ s4.errs ∨ ((∀ r, CtrEv.ret o r ∉ evs ++ [ev]) ∧ ∃ op', s4.ops[o]? = some op' ∧ op'.link = op.link ∧
            ((op'.pc = .failing (.wrap "error" (.other t)) ∧ ∃ l', s4.links[op.link]? = some l' ∧ l'.currGen = s.gen) ∨
              op'.pc = .reporting s.gen (.wrap "error" (.other t)))))) := by
        intro hp hn
        refine Or.inr (Or.inr ⟨hl4, hg4.trans hg3, Or.inr ⟨?_, op4, ho4, hol4.trans hol, ?_⟩⟩)
        · intro r hr
          rcases List.mem_append.mp hr with h | h
          · exact hno r h
          · simp at h; exact hn r h.symm
        · rcases hpc3 with ⟨hp3, l3, hl3', hc3⟩ | hp3
          · obtain ⟨l4, hl4', hcg⟩ := currGen_step hs hl3'
            rcases hcg with hcg | ⟨o1, op1, g1, k1, k2, k3⟩
            · exact Or.inl ⟨hp.trans hp3, l4, hl4', hcg.trans hc3⟩
            · have := (seqInv_run hP hreach).seq o1 o op1 op3 k1 ho3 (k3.trans hol.symm) (active_of_pc k2 (by simp)) (active_of_pc hp3 (by simp))
              subst this
              rw [ho3] at k1
              obtain rfl := Option.some.inj k1
              rw [hp3] at k2; cases k2
          · exact Or.inr (hp.trans hp3)
      rcases hview with ⟨rfl, hn⟩ | ⟨e, rfl, -, rfl⟩ | ⟨hcx, hpcs, hret'⟩
      · exact stay rfl hn
      · exact stay rfl (by simp)
      · rcases hpc3 with ⟨hp3, l3, hl3', hc3⟩ | hp3
        · have hnr : ∀ r, ev ≠ .ret o r := by
            intro r hr
            have := hret' r hr
            rw [this] at hpcs
            cases hpcs with
            | ret h => rw [hp3] at h; cases h
          generalize hq : op4.pc = q at hpcs
          cases hpcs with
          | benign h h' =>
            rw [hp3] at h; cases h
            rcases h' with h' | h'
            · rw [other_not hctx] at h'; cases h'
            · cases h'
          | @prepare e g' h h' h'' =>
            rw [hp3] at h; cases h
            -- the generation it reports is that of the link
            have hrep := (seqInv_run hP (hreach.snoc hcr hs)).op o op4 ho4
            unfold OpOK at hrep
            rw [hq] at hrep
            obtain ⟨l4, hl4', hge, -⟩ := hrep
            obtain ⟨l4', hl4'', hcg⟩ := currGen_step hs hl3'
            rw [hol4, hol, hl4''] at hl4'
            obtain rfl := Option.some.inj hl4'
            have hcg : l4'.currGen = s.gen := by
              rcases hcg with hcg | ⟨o1, op1, g1, k1, k2, k3⟩
              · exact hcg.trans hc3
              · have := (seqInv_run hP hreach).seq o1 o op1 op3 k1 ho3 (k3.trans hol.symm) (active_of_pc k2 (by simp)) (active_of_pc hp3 (by simp))
                subst this
                rw [ho3] at k1
                obtain rfl := Option.some.inj k1
                rw [hp3] at k2; cases k2
            refine Or.inr (Or.inr ⟨hl4, hg4.trans hg3, Or.inr ⟨?_, op4, ho4, hol4.trans hol, Or.inr (by rw [hq, hge, hcg])⟩⟩)
            intro r hr
            rcases List.mem_append.mp hr with h | h
            · exact hno r h
            · simp at h; exact hnr r h.symm
          | _ => simp_all
        · have hne : op4.pc ≠ op3.pc := by
            rw [hp3]
            generalize hq : op4.pc = q at hpcs
            cases hpcs <;> simp_all
          obtain ⟨he, -, -, -⟩ := report_event hs ho3 hp3 ho4 hne
          exact Or.inr (Or.inr ⟨hl4, hg4.trans hg3, Or.inl (by rw [he]; simp)⟩)
  rcases key h with h | h | ⟨k1, k2, k3⟩
  · exact Or.inl h
  · exact Or.inr (Or.inl h)
  · rcases k3 with k3 | ⟨hno, -⟩
    · exact Or.inr (Or.inr ⟨k1, k2, k3⟩)
    · exact absurd hret (hno r)

/-- A link with which messages are received is not concerned by what another link sends, and loses its receiver all the same: go-amqp refuses a message on link 0 with whatever
error, and nothing else fails. -/
theorem C119_counterexample (t : String) : ∃ (evs : List CtrEv) (s : Ctr), Ctr.Run exclusive {} evs s ∧ CtrEv.use 1 1 ∈ evs ∧ CtrEv.restart 1 ∈ evs ∧ CtrEv.session 2 ∈ evs ∧
    (∀ i g, CtrEv.fail i g ∈ evs → i = 0 ∧ g = 1) ∧ CtrEv.dialFail ∉ evs ∧ CtrEv.sessionFail ∉ evs ∧ (∀ e, CtrEv.cancel e ∉ evs) ∧ (∀ o e, CtrEv.cancelOp o e ∉ evs) ∧
    (∀ i, CtrEv.close i ∉ evs) ∧ (∃ op, s.ops[1]? = some op ∧ op.link = 1 ∧ op.pc = .inCall 1) ∧ s.eps[1]? = some { gen := 1, link := 1, open_ := false } := by
  have r1 := (Ctr.Run.nil (P := exclusive) (s := {})).snoc rfl (.start rfl)
  have r2 := r1.snoc rfl (.dialOk rfl)
  have r3 := r2.snoc rfl (.session rfl)
  have r4 := r3.snoc rfl (.newLink true rfl)
  have r5 := r4.snoc rfl (.newLink false rfl)
  have r6 := r5.snoc rfl (.call 0 .send none rfl rfl (by simp) (by intro _; rfl))
  have r7 := r6.snoc rfl (.call 1 .next none rfl rfl (by simp) (by intro _; rfl))
  have r8 := r7.snoc rfl (.startHas (o := 0) rfl rfl rfl rfl rfl)
  have r9 := r8.snoc rfl (.startHas (o := 1) rfl rfl rfl rfl rfl)
  have r10 := r9.snoc rfl (.attach (o := 0) rfl rfl rfl (by simp) rfl)
  have r11 := r10.snoc rfl (.attach (o := 1) rfl rfl rfl (by simp) rfl)
  have r12 := r11.snoc rfl (.useFail (.other t) (o := 0) rfl rfl (by decide) rfl rfl)
  have r13 := r12.snoc rfl (.prepare (o := 0) rfl rfl rfl rfl rfl)
  have r14 := r13.snoc rfl (.report (o := 0) rfl rfl (show 0 < 32 by decide))
  have r15 := r14.snoc rfl (.restart "x" rfl rfl)
  have r16 := r15.snoc rfl (.retry rfl rfl)
  have r17 := r16.snoc rfl (.notified rfl)
  have r18 := r17.snoc rfl (.again rfl)
  have r19 := r18.snoc rfl (.dialOk rfl)
  have r20 := r19.snoc rfl (.session rfl)
  refine ⟨[.start, .dialOk, .session 1, .newLink 0, .newLink 1, .call 0 0, .call 1 1, .step 0, .step 1, .use 0 1, .use 1 1, .fail 0 1, .step 0, .reported 0 1, .restart 1,
    .retry, .again, .again, .dialOk, .session 2], _, r20, by decide, by decide, by decide, ?_, by decide, by decide, ?_, ?_, ?_, ⟨_, rfl, rfl, rfl⟩, rfl⟩ <;> simp

/-- **C119** (partial: accepting a message).  Whatever go-amqp says to the disposition of one message, only `Accept` gets to know: the container is told nothing. -/
theorem C119_accept_partial {P : LinkPolicy} {s s' : Ctr} {ev : CtrEv} {o ep : Nat} {op op' : LOp} (hs : Ctr.Step P s ev s') (ho : s.ops[o]? = some op)
    (hk : op.kind = .accept) (hpc : op.pc = .inCall ep) (ho' : s'.ops[o]? = some op') (hne : op'.pc ≠ op.pc) : ∃ r, s' = s.setOp o (.leaving r) := by
  have other : ∀ {o1 : Nat} {op1 : LOp} {pc : OpPC} {s1 : Ctr}, s1.ops = s.ops → s.ops[o1]? = some op1 → s' = s1.setOp o1 pc → op1.pc ≠ .inCall ep → False := by
    intro o1 op1 pc s1 h0 h1 h2 h3
    subst h2
    rw [setOp_get' h0 h1] at ho'
    by_cases e1 : o1 = o
    · subst e1
      rw [ho] at h1
      obtain rfl := Option.some.inj h1
      exact h3 hpc
    · rw [if_neg e1, ho] at ho'
      obtain rfl := Option.some.inj ho'
      exact hne rfl
  have mine : ∀ {o1 : Nat} {op1 : LOp} {pc : OpPC}, s.ops[o1]? = some op1 → s' = s.setOp o1 pc → o1 = o := by
    intro o1 op1 pc h1 h2
    subst h2
    rw [setOp_get' rfl h1] at ho'
    by_cases e1 : o1 = o
    · exact e1
    · rw [if_neg e1, ho] at ho'
      obtain rfl := Option.some.inj ho'
      exact absurd rfl hne
  have same : s'.ops = s.ops → False := by
    intro h0
    rw [h0, ho] at ho'
    obtain rfl := Option.some.inj ho'
    exact hne rfl
  cases hs with
  | useOk h1 h2 => exact ⟨none, by rw [mine h1 rfl]⟩
  | acceptFail e h1 h2 h3 h4 => exact ⟨some e, by rw [mine h1 rfl]⟩
  | useFail e h1 h2 h3 h4 h5 =>
    have := mine h1 rfl
    subst this
    rw [ho] at h1
    obtain rfl := Option.some.inj h1
    exact absurd hk h3
  | @call l i k ctx h1 h2 h3 h4 =>
    have h5 : (s.ops ++ [_])[o]? = some op' := ho'
    rw [List.getElem?_append_left (List.getElem?_eq_some_iff.mp ho).1, ho] at h5
    obtain rfl := Option.some.inj h5
    exact absurd rfl hne
  | @cancelOp op1 o1 e1 h1 h2 h3 =>
    have h5 : (s.ops.set o1 { op1 with ctx := some e1 })[o]? = some op' := ho'
    rw [List.getElem?_set] at h5
    by_cases e2 : o1 = o
    · subst e2
      rw [if_pos rfl, if_pos (List.getElem?_eq_some_iff.mp h2).1] at h5
      rw [ho] at h2
      obtain rfl := Option.some.inj h2
      obtain rfl := Option.some.inj h5
      exact absurd rfl hne
    · rw [if_neg e2, ho] at h5
      obtain rfl := Option.some.inj h5
      exact absurd rfl hne
  | startClosed h1 h2 => exact (other rfl h1 rfl (by rw [h2]; simp)).elim
  | startHas h1 h2 => exact (other rfl h1 rfl (by rw [h2]; simp)).elim
  | startWait h1 h2 => exact (other rfl h1 rfl (by rw [h2]; simp)).elim
  | waited h1 h2 => exact (other rfl h1 rfl (by rw [h2]; simp)).elim
  | park h1 h2 => exact (other rfl h1 rfl (by rw [h2]; simp)).elim
  | wake h1 h2 => exact (other rfl h1 rfl (by rw [h2]; simp)).elim
  | woken h1 h2 => exact (other rfl h1 rfl (by rw [h2]; simp)).elim
  | waitCancelled h1 h2 => exact (other rfl h1 rfl (by rw [h2]; simp)).elim
  | take h1 h2 h3 => exact (other (s1 := s.setLink _ _) rfl h1 rfl (by rw [h2]; simp)).elim
  | reuse h1 h2 => exact (other rfl h1 rfl (by rw [h2]; simp)).elim
  | @attach o1 op1 l g h1 h2 h3 =>
    exact (other (s1 := ({ s with eps := s.eps ++ [{ gen := g, link := op1.link, open_ := s.sessionOpen g }] } : Ctr).setLink op1.link
      { l with ep := some s.eps.length, epGen := l.currGen }) rfl h1 rfl (by rw [h2]; simp)).elim
  | attachFail e1 h1 h2 => exact (other rfl h1 rfl (by rw [h2]; simp)).elim
  | benign h1 h2 => exact (other rfl h1 rfl (by rw [h2]; simp)).elim
  | prepare h1 h2 => exact (other rfl h1 rfl (by rw [h2]; simp)).elim
  | report h1 h2 => exact (other (s1 := { s with errs := s.errs ++ [(_, _)] }) rfl h1 rfl (by rw [h2]; simp)).elim
  | clear h1 h2 h3 => exact (other (s1 := s.setLink _ _) rfl h1 rfl (by rw [h2]; simp)).elim
  | nextAgain h1 h2 => exact (other rfl h1 rfl (by rw [h2]; simp)).elim
  | ret h1 h2 => exact (other rfl h1 rfl (by rw [h2]; simp)).elim
  | _ => exact (same rfl).elim

/-- **C119** (partial: messages that vanflow's encoders return, with strings of UTF-8, that are not longer than the peer allows).  Such a message is not refused, in whatever
order the entries of its maps are written. -/
theorem C119_encoded_partial {msg m' : Msg} (hp : Produced msg) (hs : SameEntries msg m') {max : Nat} (hm : ∀ bs, marshalMsg m' = some bs → max = 0 ∨ bs.length ≤ max) :
    ∃ bs, sendOctets max m' = .ok bs := by
  obtain ⟨bs, hb⟩ := C118_writable hp hs
  refine ⟨bs, ?_⟩
  rw [sendOctets, hb]
  refine if_neg fun h => ?_
  rcases hm bs hb with h' | h'
  · exact h.1 h'
  · exact absurd h.2 (Nat.not_lt.mpr h')

/-- And only its length can be what it is refused for. -/
theorem C119_refused {msg m' : Msg} (hp : Produced msg) (hs : SameEntries msg m') {max : Nat} {t : String} (h : sendOctets max m' = .error t) :
    max ≠ 0 ∧ ∃ bs, marshalMsg m' = some bs ∧ max < bs.length := by
  obtain ⟨bs, hb⟩ := C118_writable hp hs
  rw [sendOctets, hb] at h
  by_cases hc : max ≠ 0 ∧ max < bs.length
  · exact ⟨hc.1, bs, hb, hc.2⟩
  · simp only [if_neg hc] at h; cases h

/-- Instance: a flush is sent to a peer that allows 64 octets, and refused for one that allows 16. -/
example : (∃ bs, sendOctets 64 (Flush.encode { hdr := { to := "sfe.r1", replyTo := "me" } }) = .ok bs) ∧
    sendOctets 16 (Flush.encode { hdr := { to := "sfe.r1", replyTo := "me" } }) = .error "encoded message size exceeds max" :=
  ⟨⟨[0x00, 0x53, 0x73, 0xd0, 0, 0, 0, 0x19, 0, 0, 0, 5, 0x40, 0x40, 0xa1, 6, 0x73, 0x66, 0x65, 0x2e, 0x72, 0x31,
      0xa1, 5, 0x46, 0x4c, 0x55, 0x53, 0x48, 0xa1, 2, 0x6d, 0x65], by rfl⟩, by rfl⟩

end Verif.Props
