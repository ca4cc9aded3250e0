import Verif.Model.ContainerMu
import Verif.Proofs.Container

/-! # Lemmas about the container with steps that take time -/
namespace Verif.Proofs
open Verif Verif.Model

/-- Steps that do not look at endpoints. -/
def plainEv : CtrEv → Bool
  | .call .. | .step _ | .reported .. | .retryNext _ | .ret .. => true
  | ev => ev.ofCaller || ev.ofLoop

/-- A plain step can be taken whatever is open. -/
theorem plain_step {P : LinkPolicy} {c c' : Ctr} {ev : CtrEv} (hs : Ctr.Step P c ev c') (hev : plainEv ev = true) :
    c'.eps = c.eps ∧ c'.gen = c.gen ∧ (c.loop = .ended → c'.loop = .ended) ∧ (c'.loop = .ended → c.loop = .ended) ∧ ∀ (E : List Ep) (C : List Conn), C.length = c.conns.length →
      ∃ C', Ctr.Step P { c with eps := E, conns := C } ev { c' with eps := E, conns := C' } ∧
        ((c'.conns = c.conns ∧ C' = C) ∨ (c'.conns = c.conns ++ [({ gen := none } : Conn)] ∧ C' = C ++ [({ gen := none } : Conn)])) := by
  cases hs with
  | start h => exact ⟨rfl, rfl, by simp [h], by simp, fun E C hC => ⟨C, .start h, .inl ⟨rfl, rfl⟩⟩⟩
  | cancel e h1 h2 => exact ⟨rfl, rfl, id, id, fun E C hC => ⟨C, .cancel e h1 h2, .inl ⟨rfl, rfl⟩⟩⟩
  | onError h h1 => exact ⟨rfl, rfl, id, id, fun E C hC => ⟨C, .onError h h1, .inl ⟨rfl, rfl⟩⟩⟩
  | dialFail m h => exact ⟨rfl, rfl, by simp [h], by simp, fun E C hC => ⟨C, .dialFail m h, .inl ⟨rfl, rfl⟩⟩⟩
  | dialOk h => exact ⟨rfl, rfl, by simp [h], by simp, fun E C hC => ⟨C ++ [({ gen := none } : Conn)], by
      have := Ctr.Step.dialOk (P := P) (s := { c with eps := E, conns := C }) h
      simp only [hC] at this
      exact this, .inr ⟨rfl, rfl⟩⟩⟩
  | sessionFail m h => exact ⟨rfl, rfl, by simp [h], by simp, fun E C hC => ⟨C, .sessionFail m h, .inl ⟨rfl, rfl⟩⟩⟩
  | dropped h1 h2 h3 => exact ⟨rfl, rfl, id, id, fun E C hC => ⟨C, .dropped h1 h2 h3, .inl ⟨rfl, rfl⟩⟩⟩
  | restart m h1 h2 => exact ⟨rfl, rfl, by simp [h1], by simp, fun E C hC => ⟨C, .restart (s := { c with eps := E, conns := C }) m h1 h2, .inl ⟨rfl, rfl⟩⟩⟩
  | interrupted h1 h2 => exact ⟨rfl, rfl, by simp [h1], by simp, fun E C hC => ⟨C, .interrupted h1 h2, .inl ⟨rfl, rfl⟩⟩⟩
  | retry h1 h2 => exact ⟨rfl, rfl, by simp [h1], by simp, fun E C hC => ⟨C, .retry h1 h2, .inl ⟨rfl, rfl⟩⟩⟩
  | giveUp h1 h2 => exact ⟨rfl, rfl, by simp [h1], by simp, fun E C hC => ⟨C, .giveUp h1 h2, .inl ⟨rfl, rfl⟩⟩⟩
  | notify h1 => exact ⟨rfl, rfl, by simp [h1], by simp, fun E C hC => ⟨C, .notify h1, .inl ⟨rfl, rfl⟩⟩⟩
  | reenter h1 => exact ⟨rfl, rfl, by simp [h1], by simp, fun E C hC => ⟨C, .reenter h1, .inl ⟨rfl, rfl⟩⟩⟩
  | notified h1 => exact ⟨rfl, rfl, by simp [h1], by simp, fun E C hC => ⟨C, .notified h1, .inl ⟨rfl, rfl⟩⟩⟩
  | again h1 => exact ⟨rfl, rfl, by simp [h1], by simp, fun E C hC => ⟨C, .again h1, .inl ⟨rfl, rfl⟩⟩⟩
  | finish h1 h2 => exact ⟨rfl, rfl, by simp [h1], by simp, fun E C hC => ⟨C, .finish h1 h2, .inl ⟨rfl, rfl⟩⟩⟩
  | final h1 => exact ⟨rfl, rfl, by simp [h1], by simp, fun E C hC => ⟨C, .final h1, .inl ⟨rfl, rfl⟩⟩⟩
  | newLink b h1 => exact ⟨rfl, rfl, id, id, fun E C hC => ⟨C, .newLink (s := { c with eps := E, conns := C }) b h1, .inl ⟨rfl, rfl⟩⟩⟩
  | call i k x h1 h2 h3 h4 => exact ⟨rfl, rfl, id, id, fun E C hC => ⟨C, .call (s := { c with eps := E, conns := C }) i k x h1 h2 h3 h4, .inl ⟨rfl, rfl⟩⟩⟩
  | cancelOp o e h1 h2 h3 => exact ⟨rfl, rfl, id, id, fun E C hC => ⟨C, .cancelOp o e h1 h2 h3, .inl ⟨rfl, rfl⟩⟩⟩
  | startClosed h1 h2 h3 h4 => exact ⟨rfl, rfl, id, id, fun E C hC => ⟨C, .startClosed (s := { c with eps := E, conns := C }) h1 h2 h3 h4, .inl ⟨rfl, rfl⟩⟩⟩
  | startHas h1 h2 h3 h4 h5 => exact ⟨rfl, rfl, id, id, fun E C hC => ⟨C, .startHas (s := { c with eps := E, conns := C }) h1 h2 h3 h4 h5, .inl ⟨rfl, rfl⟩⟩⟩
  | startWait h1 h2 h3 h4 h5 => exact ⟨rfl, rfl, id, id, fun E C hC => ⟨C, .startWait (s := { c with eps := E, conns := C }) h1 h2 h3 h4 h5, .inl ⟨rfl, rfl⟩⟩⟩
  | waited h1 h2 h3 h4 => exact ⟨rfl, rfl, id, id, fun E C hC => ⟨C, .waited (s := { c with eps := E, conns := C }) h1 h2 h3 h4, .inl ⟨rfl, rfl⟩⟩⟩
  | park h1 h2 h3 h4 => exact ⟨rfl, rfl, id, id, fun E C hC => ⟨C, .park (s := { c with eps := E, conns := C }) h1 h2 h3 h4, .inl ⟨rfl, rfl⟩⟩⟩
  | wake h1 h2 h3 => exact ⟨rfl, rfl, id, id, fun E C hC => ⟨C, .wake (s := { c with eps := E, conns := C }) h1 h2 h3, .inl ⟨rfl, rfl⟩⟩⟩
  | woken h1 h2 h3 h4 => exact ⟨rfl, rfl, id, id, fun E C hC => ⟨C, .woken (s := { c with eps := E, conns := C }) h1 h2 h3 h4, .inl ⟨rfl, rfl⟩⟩⟩
  | waitCancelled h1 h2 h3 => exact ⟨rfl, rfl, id, id, fun E C hC => ⟨C, .waitCancelled (s := { c with eps := E, conns := C }) h1 h2 h3, .inl ⟨rfl, rfl⟩⟩⟩
  | take h1 h2 h3 => exact ⟨rfl, rfl, id, id, fun E C hC => ⟨C, .take (s := { c with eps := E, conns := C }) h1 h2 h3, .inl ⟨rfl, rfl⟩⟩⟩
  | useOk h1 h2 => exact ⟨rfl, rfl, id, id, fun E C hC => ⟨C, .useOk (s := { c with eps := E, conns := C }) h1 h2, .inl ⟨rfl, rfl⟩⟩⟩
  | acceptFail e h1 h2 h3 h4 => exact ⟨rfl, rfl, id, id, fun E C hC => ⟨C, .acceptFail (s := { c with eps := E, conns := C }) e h1 h2 h3 h4, .inl ⟨rfl, rfl⟩⟩⟩
  | benign h1 h2 h3 => exact ⟨rfl, rfl, id, id, fun E C hC => ⟨C, .benign (s := { c with eps := E, conns := C }) h1 h2 h3, .inl ⟨rfl, rfl⟩⟩⟩
  | prepare h1 h2 h3 h4 h5 => exact ⟨rfl, rfl, id, id, fun E C hC => ⟨C, .prepare (s := { c with eps := E, conns := C }) h1 h2 h3 h4 h5, .inl ⟨rfl, rfl⟩⟩⟩
  | report h1 h2 h3 => exact ⟨rfl, rfl, id, id, fun E C hC => ⟨C, .report (s := { c with eps := E, conns := C }) h1 h2 h3, .inl ⟨rfl, rfl⟩⟩⟩
  | clear h1 h2 h3 => exact ⟨rfl, rfl, id, id, fun E C hC => ⟨C, .clear (s := { c with eps := E, conns := C }) h1 h2 h3, .inl ⟨rfl, rfl⟩⟩⟩
  | nextAgain h1 h2 h3 h4 => exact ⟨rfl, rfl, id, id, fun E C hC => ⟨C, .nextAgain (s := { c with eps := E, conns := C }) h1 h2 h3 h4, .inl ⟨rfl, rfl⟩⟩⟩
  | ret h1 h2 h3 => exact ⟨rfl, rfl, id, id, fun E C hC => ⟨C, .ret (s := { c with eps := E, conns := C }) h1 h2 h3, .inl ⟨rfl, rfl⟩⟩⟩
  | _ => simp [plainEv, CtrEv.ofCaller, CtrEv.ofLoop] at hev

/-- The endpoints as if what is being closed were closed. -/
def _root_.Verif.Model.CtrF.epsDone (s : CtrF) : List Ep :=
  s.c.eps.mapIdx fun k x => { x with open_ := x.open_ && !decide (s.closing = some x.gen) && !(s.closings.any fun a => a.2 == k) }

/-- The connections as if what is being closed were closed. -/
def _root_.Verif.Model.CtrF.connsDone (s : CtrF) : List Conn :=
  s.c.conns.map fun x => { x with open_ := x.open_ && !(s.closing.isSome && decide (x.gen = s.closing)) }

/-- The state of `Verif/Model/Container.lean` that is meant. -/
def _root_.Verif.Model.CtrF.coarse (s : CtrF) : Ctr := { s.c with eps := s.epsDone, conns := s.connsDone }

/-- What is held, is held by those who wait for go-amqp. -/
structure FInv (s : CtrF) : Prop where
  att : ∀ i o g, (i, o, g) ∈ s.attaching → ∃ op l, s.c.ops[o]? = some op ∧ op.pc = .ready ∧ op.link = i ∧ s.c.links[i]? = some l ∧
    ¬ (l.ep.isSome = true ∧ l.epGen = l.currGen) ∧ l.curr = some g
  uniq : ∀ i o g o' g', (i, o, g) ∈ s.attaching → (i, o', g') ∈ s.attaching → o = o' ∧ g = g'
  ep : ∀ (i : Nat) (l : Lnk) (e : Nat), s.c.links[i]? = some l → l.ep = some e → e < s.c.eps.length
  cl : ∀ i e, (i, e) ∈ s.closings → e < s.c.eps.length
  gen : ∀ g, s.closing = some g → g ≠ s.c.gen ∨ s.c.loop = .ended

theorem connsDone_length (s : CtrF) : s.connsDone.length = s.c.conns.length := by simp [CtrF.connsDone]

/-- A plain step, seen coarsely. -/
theorem coarse_plain {P : LinkPolicy} {s : CtrF} {ev : CtrEv} {c' : Ctr} (hs : Ctr.Step P s.c ev c') (hev : plainEv ev = true) :
    Ctr.Step P s.coarse ev ({ s with c := c' } : CtrF).coarse := by
  obtain ⟨h1, _, _, _, h2⟩ := plain_step hs hev
  obtain ⟨C', hst, hc⟩ := h2 s.epsDone s.connsDone (connsDone_length s)
  have e1 : ({ s with c := c' } : CtrF).epsDone = s.epsDone := by simp [CtrF.epsDone, h1]
  have e2 : ({ s with c := c' } : CtrF).connsDone = C' := by
    rcases hc with ⟨a, rfl⟩ | ⟨a, rfl⟩
    · simp [CtrF.connsDone, a]
    · simp only [CtrF.connsDone, a, List.map_append, List.map_cons, List.map_nil]
      cases s.closing <;> simp
  unfold CtrF.coarse
  rw [e1, e2]
  exact hst

theorem epsDone_get (s : CtrF) (k : Nat) : s.epsDone[k]? = (s.c.eps[k]?).map fun x =>
    { x with open_ := x.open_ && !decide (s.closing = some x.gen) && !(s.closings.any fun a => a.2 == k) } := by
  simp [CtrF.epsDone]

theorem connsDone_get (s : CtrF) (k : Nat) : s.connsDone[k]? = (s.c.conns[k]?).map fun x =>
    { x with open_ := x.open_ && !(s.closing.isSome && decide (x.gen = s.closing)) } := by
  simp [CtrF.connsDone]

theorem epsDone_length (s : CtrF) : s.epsDone.length = s.c.eps.length := by simp [CtrF.epsDone]

/-- Ending, seen coarsely. -/
theorem coarse_ended {P : LinkPolicy} {s : CtrF} {c' : Ctr} (hc : s.closing = none) (hs : Ctr.Step P s.c .ended c') :
    Ctr.Step P s.coarse .ended ({ s with c := { s.c with loop := .ended }, closing := some s.c.gen } : CtrF).coarse := by
  have e : ({ s with c := { s.c with loop := .ended }, closing := some s.c.gen } : CtrF).coarse =
      ({ s.coarse with loop := .ended } : Ctr).teardown s.coarse.gen := by
    have e1 : ({ s with c := { s.c with loop := .ended }, closing := some s.c.gen } : CtrF).epsDone =
        (({ s.coarse with loop := .ended } : Ctr).teardown s.coarse.gen).eps := by
      apply List.ext_getElem?
      intro k
      simp only [epsDone_get, Ctr.teardown, CtrF.coarse, List.getElem?_map, hc, Option.map_map]
      cases s.c.eps[k]? with
      | none => rfl
      | some x => by_cases hx : x.gen = s.c.gen <;> simp [hx, eq_comm]
    have e2 : ({ s with c := { s.c with loop := .ended }, closing := some s.c.gen } : CtrF).connsDone =
        (({ s.coarse with loop := .ended } : Ctr).teardown s.coarse.gen).conns := by
      apply List.ext_getElem?
      intro k
      simp only [connsDone_get, Ctr.teardown, CtrF.coarse, List.getElem?_map, hc, Option.map_map]
      cases s.c.conns[k]? with
      | none => rfl
      | some x => by_cases hx : x.gen = some s.c.gen <;> simp [hx]
    show ({ s.c with loop := .ended, eps := _, conns := _ } : Ctr) = _
    rw [e1, e2]
    rfl
  rw [e]
  cases hs with
  | stopFailed h1 h2 => exact .stopFailed h1 h2
  | stopWaiting h1 h2 => exact .stopWaiting h1 h2
  | stopGaveUp h1 h2 => exact .stopGaveUp h1 h2
  | finished h1 => exact .finished h1

/-- Publishing, seen coarsely. -/
theorem coarse_publish {P : LinkPolicy} {s : CtrF} {k : Nat} (hl : s.c.loop = .opening k) (hc : s.closing = none) :
    Ctr.Step P s.coarse (.session (s.c.gen + 1)) ({ s with
      c := { s.c with conns := s.c.conns.modify k fun x => { x with gen := some (s.c.gen + 1) }, gen := s.c.gen + 1, loop := .serving }, closing := some s.c.gen } : CtrF).coarse := by
  have st := Ctr.Step.session (P := P) (s := s.coarse) (c := k) hl
  have e1 : ({ s with c := { s.c with conns := s.c.conns.modify k fun x => { x with gen := some (s.c.gen + 1) }, gen := s.c.gen + 1, loop := .serving }, closing := some s.c.gen } : CtrF).epsDone =
      (({ s.coarse with conns := s.coarse.conns.modify k fun x => { x with gen := some (s.coarse.gen + 1) } } : Ctr).teardown s.coarse.gen).eps := by
    apply List.ext_getElem?
    intro j
    simp only [epsDone_get, Ctr.teardown, CtrF.coarse, List.getElem?_map, hc, Option.map_map]
    cases s.c.eps[j]? with
    | none => rfl
    | some x => by_cases hx : x.gen = s.c.gen <;> simp [hx, eq_comm]
  have e2 : ({ s with c := { s.c with conns := s.c.conns.modify k fun x => { x with gen := some (s.c.gen + 1) }, gen := s.c.gen + 1, loop := .serving }, closing := some s.c.gen } : CtrF).connsDone =
      (({ s.coarse with conns := s.coarse.conns.modify k fun x => { x with gen := some (s.coarse.gen + 1) } } : Ctr).teardown s.coarse.gen).conns := by
    apply List.ext_getElem?
    intro j
    simp only [connsDone_get, Ctr.teardown, CtrF.coarse, List.getElem?_map, List.getElem?_modify, hc]
    cases s.c.conns[j]? with
    | none => rfl
    | some x =>
      by_cases hj : k = j
      · simp [hj]
      · by_cases hx : x.gen = some s.c.gen <;> simp [hx, hj]
  show Ctr.Step P s.coarse _ ({ s.c with gen := s.c.gen + 1, loop := .serving, eps := _, conns := _ } : Ctr)
  rw [e1, e2]
  exact st

theorem opEvent_plain {s : CtrF} {ev : CtrEv} (h : s.opEvent ev) : plainEv ev = true := by
  cases ev <;> simp [CtrF.opEvent] at h <;> rfl

/-- A step is a step of `Verif/Model/Container.lean`, or cannot be seen there. -/
theorem coarse_step {P : LinkPolicy} {s s' : CtrF} {ev : FEv} (hI : FInv s) (hs : CtrF.Step P s ev s') :
    match ev with
    | .ev e => Ctr.Step P s.coarse e s'.coarse
    | _ => s'.coarse = s.coarse := by
  cases hs with
  | caller h1 h2 => exact coarse_plain h2 (by cases ‹CtrEv› <;> simp [CtrEv.ofCaller] at h1 <;> rfl)
  | loop h1 h2 h3 => exact coarse_plain h3 (by cases ‹CtrEv› <;> simp [CtrEv.ofLoop] at h1 <;> rfl)
  | publish h1 h2 => exact coarse_publish h1 h2
  | ended h1 h2 => exact coarse_ended h1 h2
  | @tornDown g h1 =>
    show CtrF.coarse _ = s.coarse
    have e1 : ({ s with c := s.c.teardown g, closing := none } : CtrF).epsDone = s.epsDone := by
      apply List.ext_getElem?
      intro k
      simp only [epsDone_get, Ctr.teardown, List.getElem?_map, h1, Option.map_map]
      cases s.c.eps[k]? with
      | none => rfl
      | some x =>
        by_cases hx : x.gen = g
        · simp [hx]
        · have hx' : ¬ g = x.gen := fun h => hx h.symm
          simp [hx, hx']
    have e2 : ({ s with c := s.c.teardown g, closing := none } : CtrF).connsDone = s.connsDone := by
      apply List.ext_getElem?
      intro k
      simp only [connsDone_get, Ctr.teardown, List.getElem?_map, h1, Option.map_map]
      cases s.c.conns[k]? with
      | none => rfl
      | some x => by_cases hx : x.gen = some g <;> simp [hx]
    unfold CtrF.coarse
    rw [e1, e2]
    rfl
  | call h1 h2 => exact coarse_plain h2 rfl
  | op h1 h2 => exact coarse_plain h2 (opEvent_plain h1)
  | @useFail o op ep x e h1 h2 h3 h4 h5 =>
    have hx : s.coarse.eps[ep]? = some _ := (epsDone_get s ep).trans (by rw [h4]; rfl)
    have st := Ctr.Step.useFail (P := P) (s := s.coarse) e h1 h2 h3 hx h5
    exact st
  | short h1 h2 h3 h4 => exact coarse_plain h4 rfl
  | @reuse o op l ep x h1 h2 h3 h4 h5 h6 h7 =>
    have hx : s.coarse.eps[ep]? = some _ := (epsDone_get s ep).trans (by rw [h7]; rfl)
    have st := Ctr.Step.reuse (P := P) (s := s.coarse) h1 h2 h4 h5 h6 hx
    exact st
  | noSession h1 h2 h3 h4 h5 h6 => exact Ctr.Step.noSession (s := s.coarse) h1 h2 h4 h5 h6
  | attaching h1 h2 h3 h4 h5 h6 => exact rfl
  | @attached i o g l h1 h2 =>
    obtain ⟨op, l', ho, hpc, hlk, hl, hne, hcur⟩ := hI.att i o g h1
    rw [h2] at hl
    obtain rfl := Option.some.inj hl
    subst hlk
    have st := Ctr.Step.attach (P := P) (s := s.coarse) ho hpc h2 hne hcur
    have hlen : s.coarse.eps.length = s.c.eps.length := epsDone_length s
    have hany : (s.closings.any fun a => a.2 == s.c.eps.length) = false := by
      rw [List.any_eq_false]
      intro a ha
      have := hI.cl a.1 a.2 ha
      simp
      omega
    have hop : ((s.c.sessionOpen g || decide (s.closing = some g)) && !decide (s.closing = some g) && !false) = s.coarse.sessionOpen g := by
      show _ = s.c.sessionOpen g
      by_cases hcl : s.closing = some g
      · rcases hI.gen g hcl with hg | hg <;> simp [hcl, Ctr.sessionOpen, hg]
      · simp [hcl]
    show Ctr.Step P s.coarse (.use op.link g) _
    rw [hlen] at st
    have e1 : ({ s with
        c := (({ s.c with eps := s.c.eps ++ [{ gen := g, link := op.link, open_ := s.c.sessionOpen g || decide (s.closing = some g) }] } : Ctr).setLink op.link
          { l with ep := some s.c.eps.length, epGen := l.currGen } |>.setOp o (.inCall s.c.eps.length))
        attaching := s.attaching.filter fun a => a.1 != op.link } : CtrF).epsDone =
        s.coarse.eps ++ [{ gen := g, link := op.link, open_ := s.coarse.sessionOpen g }] := by
      simp only [CtrF.epsDone, setOp_eps, setLink_eps, List.mapIdx_append, CtrF.coarse]
      congr 1
      simp only [List.mapIdx_cons, List.mapIdx_nil, Nat.zero_add, hany]
      rw [hop]
      rfl
    unfold CtrF.coarse at st ⊢
    rw [e1]
    exact st
  | @attachFail i o g e h1 h2 =>
    obtain ⟨op, l, ho, hpc, hlk, hl, hne, hcur⟩ := hI.att i o g h1
    subst hlk
    exact Ctr.Step.attachFail (s := s.coarse) e ho hpc hl hne hcur h2
  | @close l i h1 h2 h3 h4 =>
    have st := Ctr.Step.close (P := P) (s := s.coarse) i h1 h3
    obtain ⟨sender, cl, currGen, curr, epGen, ep⟩ := l
    rcases h4 with h4 | h4
    · cases h4
      exact st
    · cases h4
      cases ep <;> exact st
  | @closing l e i h1 h2 h3 h4 h5 =>
    have st := Ctr.Step.close (P := P) (s := s.coarse) i h1 h3
    obtain ⟨sender, cl, currGen, curr, epGen, ep⟩ := l
    cases h4
    cases h5
    have e1 : ({ s with c := s.c.setLink i { sender := false, closed := true, currGen := currGen, curr := none, epGen := epGen, ep := none }, closings := s.closings ++ [(i, e)] } : CtrF).epsDone =
        s.coarse.eps.modify e fun x => { x with open_ := false } := by
      apply List.ext_getElem?
      intro k
      simp only [epsDone_get, CtrF.coarse, List.getElem?_modify, setLink_eps]
      cases s.c.eps[k]? with
      | none => rfl
      | some x =>
        by_cases hx : e = k
        · simp [hx]
        · have hx' : (e == k) = false := by simp [hx]
          simp [hx, hx']
    show Ctr.Step P s.coarse (.close i) _
    unfold CtrF.coarse at st ⊢
    rw [e1]
    exact st
  | @closed i e h1 =>
    show CtrF.coarse _ = s.coarse
    have e1 : ({ s with c := { s.c with eps := s.c.eps.modify e fun x => { x with open_ := false } }, closings := s.closings.filter fun a => a != (i, e) } : CtrF).epsDone = s.epsDone := by
      apply List.ext_getElem?
      intro k
      simp only [epsDone_get, List.getElem?_modify]
      cases s.c.eps[k]? with
      | none => rfl
      | some x =>
        by_cases hx : e = k
        · subst hx
          have : (s.closings.any fun a => a.2 == e) = true := List.any_eq_true.2 ⟨(i, e), h1, by simp⟩
          simp [this]
        · have : ((s.closings.filter fun a => a != (i, e)).any fun a => a.2 == k) = (s.closings.any fun a => a.2 == k) := by
            rw [Bool.eq_iff_iff, List.any_eq_true, List.any_eq_true]
            constructor
            · rintro ⟨a, ha, h⟩
              exact ⟨a, (List.mem_filter.1 ha).1, h⟩
            · rintro ⟨a, ha, h⟩
              refine ⟨a, List.mem_filter.2 ⟨ha, ?_⟩, h⟩
              have : a.2 = k := by simpa using h
              simp
              rintro rfl
              exact hx this
          simp [hx, this]
    unfold CtrF.coarse
    rw [e1]
    rfl

/-- A plain step leaves operations alone that are about to attach. -/
theorem plain_ready {P : LinkPolicy} {c c' : Ctr} {ev : CtrEv} (hs : Ctr.Step P c ev c') (hev : plainEv ev = true) {o : Nat} {op : LOp} (ho : c.ops[o]? = some op)
    (hpc : op.pc = .ready) : ∃ op', c'.ops[o]? = some op' ∧ op'.pc = .ready ∧ op'.link = op.link := by
  have move : ∀ {o1 : Nat} {op1 : LOp} {pc : OpPC} {s1 : Ctr}, s1.ops = c.ops → c.ops[o1]? = some op1 → op1.pc ≠ .ready →
      ∃ op', (s1.setOp o1 pc).ops[o]? = some op' ∧ op'.pc = .ready ∧ op'.link = op.link := by
    intro o1 op1 pc s1 h0 h1 h2
    have hne : o1 ≠ o := by
      rintro rfl
      rw [ho] at h1
      obtain rfl := Option.some.inj h1
      exact h2 hpc
    exact ⟨op, ((setOp_get' h0 h1 o).trans (if_neg hne)).trans ho, hpc, rfl⟩
  cases hs with
  | @call l i k ctx h1 h2 h3 h4 =>
    refine ⟨op, ?_, hpc, rfl⟩
    show (c.ops ++ [_])[o]? = _
    rw [List.getElem?_append_left (List.getElem?_eq_some_iff.mp ho).1]; exact ho
  | @cancelOp op1 o1 e1 h1 h2 h3 =>
    by_cases e2 : o1 = o
    · subst e2
      rw [ho] at h2
      obtain rfl := Option.some.inj h2
      refine ⟨{ op with ctx := some e1 }, ?_, hpc, rfl⟩
      show (c.ops.set o1 _)[o1]? = _
      rw [List.getElem?_set, if_pos rfl, if_pos (List.getElem?_eq_some_iff.mp ho).1]
    · refine ⟨op, ?_, hpc, rfl⟩
      show (c.ops.set o1 _)[o]? = _
      rw [List.getElem?_set, if_neg e2]; exact ho
  | startClosed h1 h2 => exact move rfl h1 (by rw [h2]; simp)
  | startHas h1 h2 => exact move rfl h1 (by rw [h2]; simp)
  | startWait h1 h2 => exact move rfl h1 (by rw [h2]; simp)
  | waited h1 h2 => exact move rfl h1 (by rw [h2]; simp)
  | park h1 h2 => exact move rfl h1 (by rw [h2]; simp)
  | wake h1 h2 => exact move rfl h1 (by rw [h2]; simp)
  | woken h1 h2 => exact move rfl h1 (by rw [h2]; simp)
  | waitCancelled h1 h2 => exact move rfl h1 (by rw [h2]; simp)
  | take h1 h2 => exact move (s1 := c.setLink _ _) rfl h1 (by rw [h2]; simp)
  | useOk h1 h2 => exact move rfl h1 (by rw [h2]; simp)
  | acceptFail e1 h1 h2 => exact move rfl h1 (by rw [h2]; simp)
  | benign h1 h2 => exact move rfl h1 (by rw [h2]; simp)
  | prepare h1 h2 => exact move rfl h1 (by rw [h2]; simp)
  | report h1 h2 => exact move (s1 := { c with errs := c.errs ++ [(_, _)] }) rfl h1 (by rw [h2]; simp)
  | clear h1 h2 => exact move (s1 := c.setLink _ _) rfl h1 (by rw [h2]; simp)
  | nextAgain h1 h2 => exact move rfl h1 (by rw [h2]; simp)
  | ret h1 h2 => exact move rfl h1 (by rw [h2]; simp)
  | reuse | attach | attachFail | useFail => simp [plainEv, CtrEv.ofCaller, CtrEv.ofLoop] at hev
  | _ => exact ⟨op, ho, hpc, rfl⟩

/-- What a plain step does to a link: nothing, make it, or a short critical section. -/
theorem plain_link {P : LinkPolicy} {c c' : Ctr} {ev : CtrEv} (hs : Ctr.Step P c ev c') (hev : plainEv ev = true) (i : Nat) :
    c'.links[i]? = c.links[i]? ∨ (c.links[i]? = none ∧ ∃ l', c'.links[i]? = some l' ∧ l'.ep = none) ∨
      ∃ o op l l', ev = .step o ∧ c.ops[o]? = some op ∧ op.pc.short = true ∧ op.link = i ∧ c.links[i]? = some l ∧ c'.links[i]? = some l' ∧ (l'.ep = l.ep ∨ l'.ep = none) := by
  cases hs with
  | @newLink b h1 =>
    show (c.links ++ [_])[i]? = c.links[i]? ∨ _
    rcases Nat.lt_trichotomy i c.links.length with h | h | h
    · exact .inl (List.getElem?_append_left h)
    · refine .inr (.inl ⟨List.getElem?_eq_none (by omega), { sender := b, currGen := c.gen, curr := if c.gen = 0 then none else some c.gen }, ?_, rfl⟩)
      show (c.links ++ [_])[i]? = _
      rw [List.getElem?_append_right (by omega), h, Nat.sub_self]
      rfl
    · refine .inl ?_
      rw [List.getElem?_eq_none (by simp; omega), List.getElem?_eq_none (by omega)]
  | @take o op l g h1 h2 h3 =>
    by_cases hi : op.link = i
    · subst hi
      exact .inr (.inr ⟨o, op, l, _, rfl, h1, by rw [h2]; rfl, rfl, h3, (setLink_get h3).trans (if_pos rfl), .inl rfl⟩)
    · exact .inl ((setLink_get h3).trans (if_neg hi))
  | @clear o op l e h1 h2 h3 =>
    by_cases hi : op.link = i
    · subst hi
      exact .inr (.inr ⟨o, op, l, _, rfl, h1, by rw [h2]; rfl, rfl, h3, (setLink_get h3).trans (if_pos rfl), .inr rfl⟩)
    · exact .inl ((setLink_get h3).trans (if_neg hi))
  | reuse | attach | attachFail | useFail | close => simp [plainEv, CtrEv.ofCaller, CtrEv.ofLoop] at hev
  | _ => exact .inl rfl

/-- The invariant after a plain step, if a short critical section finds `r.mu` free. -/
theorem FInv.plain {P : LinkPolicy} {s : CtrF} {ev : CtrEv} {c' : Ctr} (hI : FInv s) (hs : Ctr.Step P s.c ev c') (hev : plainEv ev = true)
    (hfree : ∀ o op, ev = .step o → s.c.ops[o]? = some op → op.pc.short = true → s.free op.link) : FInv { s with c := c' } := by
  obtain ⟨he, hg, hl1, hl2, _⟩ := plain_step hs hev
  constructor
  · intro i o g h
    obtain ⟨op, l, h1, h2, h3, h4, h5, h6⟩ := hI.att i o g h
    obtain ⟨op', g1, g2, g3⟩ := plain_ready hs hev h1 h2
    refine ⟨op', l, g1, g2, g3.trans h3, ?_, h5, h6⟩
    rcases plain_link hs hev i with hk | ⟨hk, _⟩ | ⟨o1, op1, l1, l1', k1, k2, k3, k4, _⟩
    · exact hk.trans h4
    · rw [hk] at h4; cases h4
    · exact absurd h (by subst k4; exact (hfree o1 op1 k1 k2 k3).1 o g)
  · exact hI.uniq
  · intro i l e hl hep
    show e < c'.eps.length
    rw [he]
    rcases plain_link hs hev i with hk | ⟨_, l', hk, hn⟩ | ⟨o1, op1, l1, l1', k1, k2, k3, k4, k5, k6, k7⟩
    · exact hI.ep i l e (hk.symm.trans hl) hep
    · have : l' = l := Option.some.inj (hk.symm.trans hl)
      subst this
      rw [hn] at hep; cases hep
    · have : l1' = l := Option.some.inj (k6.symm.trans hl)
      subst this
      rcases k7 with k7 | k7
      · exact hI.ep i l1 e k5 (k7.symm.trans hep)
      · rw [k7] at hep; cases hep
  · intro i e h
    show e < c'.eps.length
    rw [he]
    exact hI.cl i e h
  · intro g h
    rcases hI.gen g h with h1 | h1
    · exact .inl (by show g ≠ c'.gen; rw [hg]; exact h1)
    · exact .inr (hl1 h1)

theorem FInv.init : FInv {} where
  att := by intro _ _ _ h; exact absurd h List.not_mem_nil
  uniq := by intro _ _ _ _ _ h; exact absurd h List.not_mem_nil
  ep := by intro _ _ _ h; cases h
  cl := by intro _ _ h; exact absurd h List.not_mem_nil
  gen := by intro _ h; cases h

theorem FInv.setOp {s : CtrF} (hI : FInv s) {o : Nat} {op : LOp} {pc : OpPC} (ho : s.c.ops[o]? = some op) (hn : ∀ i g, (i, o, g) ∉ s.attaching) :
    FInv { s with c := s.c.setOp o pc } := by
  refine ⟨?_, hI.uniq, hI.ep, hI.cl, hI.gen⟩
  intro i o' g h
  obtain ⟨op', l, h1, h2, h3, h4⟩ := hI.att i o' g h
  have hne : o ≠ o' := by
    rintro rfl
    exact hn i g h
  exact ⟨op', l, ((setOp_get' rfl ho o').trans (if_neg hne)).trans h1, h2, h3, h4⟩

/-- The invariant is kept. -/
theorem FInv.step {P : LinkPolicy} {s s' : CtrF} {ev : FEv} (hI : FInv s) (hs : CtrF.Step P s ev s') : FInv s' := by
  cases hs with
  | caller h1 h2 =>
    refine hI.plain h2 (by cases ‹CtrEv› <;> simp [CtrEv.ofCaller] at h1 <;> rfl) ?_
    rintro o op rfl
    simp [CtrEv.ofCaller] at h1
  | loop h1 h2 h3 =>
    refine hI.plain h3 (by cases ‹CtrEv› <;> simp [CtrEv.ofLoop] at h1 <;> rfl) ?_
    rintro o op rfl
    simp [CtrEv.ofLoop] at h1
  | publish h1 h2 =>
    refine ⟨hI.att, hI.uniq, hI.ep, hI.cl, ?_⟩
    intro g hg
    obtain rfl := Option.some.inj hg
    exact .inl (by show s.c.gen ≠ s.c.gen + 1; omega)
  | ended h1 h2 => exact ⟨hI.att, hI.uniq, hI.ep, hI.cl, fun g _ => .inr rfl⟩
  | @tornDown g h1 =>
    refine ⟨hI.att, hI.uniq, ?_, ?_, by intro g h; cases h⟩
    · intro i l e hl he
      show e < (s.c.eps.map _).length
      rw [List.length_map]; exact hI.ep i l e hl he
    · intro i e h
      show e < (s.c.eps.map _).length
      rw [List.length_map]; exact hI.cl i e h
  | call h1 h2 => exact hI.plain h2 rfl (by intro o op h; cases h)
  | op h1 h2 =>
    refine hI.plain h2 (opEvent_plain h1) ?_
    rintro o op rfl ho hsh
    rw [h1 op ho] at hsh
    cases hsh
  | @useFail o op ep x e h1 h2 h3 h4 h5 =>
    refine hI.setOp h1 ?_
    intro i g h
    obtain ⟨op', l, k1, k2, _⟩ := hI.att i o g h
    rw [h1] at k1
    obtain rfl := Option.some.inj k1
    rw [h2] at k2; cases k2
  | @short o op c' h1 h2 h3 h4 =>
    refine hI.plain h4 rfl ?_
    intro o' op' he ho' _
    cases he
    rw [h1] at ho'
    obtain rfl := Option.some.inj ho'
    exact h3
  | @reuse o op l ep x h1 h2 h3 h4 h5 h6 h7 =>
    refine hI.setOp h1 ?_
    intro i g h
    obtain ⟨op', l', k1, _, k3, _⟩ := hI.att i o g h
    rw [h1] at k1
    obtain rfl := Option.some.inj k1
    subst k3
    exact h3.1 o g h
  | noSession h1 h2 h3 h4 h5 h6 => exact ⟨hI.att, hI.uniq, hI.ep, hI.cl, hI.gen⟩
  | @attaching o op l g h1 h2 h3 h4 h5 h6 =>
    refine ⟨?_, ?_, hI.ep, hI.cl, hI.gen⟩
    · intro i o' g' h
      rcases List.mem_append.1 h with h | h
      · exact hI.att i o' g' h
      · simp only [List.mem_singleton, Prod.mk.injEq] at h
        obtain ⟨rfl, rfl, rfl⟩ := h
        exact ⟨op, l, h1, h2, rfl, h4, h5, h6⟩
    · intro i o1 g1 o2 g2 k1 k2
      replace k1 := List.mem_append.1 k1
      replace k2 := List.mem_append.1 k2
      rcases k1 with k1 | k1 <;> rcases k2 with k2 | k2
      · exact hI.uniq i o1 g1 o2 g2 k1 k2
      · simp only [List.mem_singleton, Prod.mk.injEq] at k2
        obtain ⟨rfl, rfl, rfl⟩ := k2
        exact absurd k1 (h3.1 _ _)
      · simp only [List.mem_singleton, Prod.mk.injEq] at k1
        obtain ⟨rfl, rfl, rfl⟩ := k1
        exact absurd k2 (h3.1 _ _)
      · simp only [List.mem_singleton, Prod.mk.injEq] at k1 k2
        exact ⟨k1.2.1.trans k2.2.1.symm, k1.2.2.trans k2.2.2.symm⟩
  | @attached i o g l h1 h2 =>
    obtain ⟨op, l', ho, hpc, hlk, hl, hne, hcur⟩ := hI.att i o g h1
    have len : s.c.eps.length < (s.c.eps ++ [({ gen := g, link := i, open_ := s.c.sessionOpen g || decide (s.closing = some g) } : Ep)]).length := by simp
    refine ⟨?_, ?_, ?_, ?_, hI.gen⟩
    · intro i' o' g' h
      obtain ⟨k1, k2⟩ := List.mem_filter.1 h
      obtain ⟨op1, l1, p1, p2, p3, p4, p5⟩ := hI.att i' o' g' k1
      have hi : i ≠ i' := by
        rintro rfl
        simp at k2
      have ho' : o ≠ o' := by
        rintro rfl
        rw [ho] at p1
        obtain rfl := Option.some.inj p1
        exact hi (hlk.symm.trans p3)
      refine ⟨op1, l1, ?_, p2, p3, ?_, p5⟩
      · exact ((setOp_get' (s := s.c) rfl ho o').trans (if_neg ho')).trans p1
      · exact ((setLink_get (s := { s.c with eps := _ }) h2).trans (if_neg hi)).trans p4
    · intro i' o1 g1 o2 g2 k1 k2
      exact hI.uniq i' o1 g1 o2 g2 (List.mem_filter.1 k1).1 (List.mem_filter.1 k2).1
    · intro j lj e hj he
      by_cases hi : i = j
      · subst hi
        have : some _ = some lj := ((setLink_get (s := { s.c with eps := _ }) h2).trans (if_pos rfl)).symm.trans hj
        obtain rfl := Option.some.inj this
        obtain rfl := Option.some.inj he
        exact len
      · have := ((setLink_get (s := { s.c with eps := s.c.eps ++ [_] }) (l := { l with ep := some s.c.eps.length, epGen := l.currGen }) h2).trans (if_neg hi)).symm.trans hj
        exact Nat.lt_trans (hI.ep j lj e this he) len
    · intro j e h
      exact Nat.lt_trans (hI.cl j e h) len
  | @attachFail i o g e h1 h2 =>
    obtain ⟨op, l', ho, hpc, hlk, hl, hne, hcur⟩ := hI.att i o g h1
    refine ⟨?_, ?_, hI.ep, hI.cl, hI.gen⟩
    · intro i' o' g' h
      obtain ⟨k1, k2⟩ := List.mem_filter.1 h
      obtain ⟨op1, l1, p1, p2, p3, p4, p5⟩ := hI.att i' o' g' k1
      have hi : i ≠ i' := by
        rintro rfl
        simp at k2
      have ho' : o ≠ o' := by
        rintro rfl
        rw [ho] at p1
        obtain rfl := Option.some.inj p1
        exact hi (hlk.symm.trans p3)
      exact ⟨op1, l1, ((setOp_get' (s := s.c) rfl ho o').trans (if_neg ho')).trans p1, p2, p3, p4, p5⟩
    · intro i' o1 g1 o2 g2 k1 k2
      exact hI.uniq i' o1 g1 o2 g2 (List.mem_filter.1 k1).1 (List.mem_filter.1 k2).1
  | @close l i h1 h2 h3 h4 =>
    refine ⟨?_, hI.uniq, ?_, hI.cl, hI.gen⟩
    · intro i' o' g' h
      obtain ⟨op1, l1, p1, p2, p3, p4, p5⟩ := hI.att i' o' g' h
      have hi : i ≠ i' := by
        rintro rfl
        exact h2.1 _ _ h
      exact ⟨op1, l1, p1, p2, p3, ((setLink_get h1).trans (if_neg hi)).trans p4, p5⟩
    · intro j lj e hj he
      by_cases hi : i = j
      · subst hi
        have : some _ = some lj := ((setLink_get h1).trans (if_pos rfl)).symm.trans hj
        obtain rfl := Option.some.inj this
        cases he
      · exact hI.ep j lj e (((setLink_get h1).trans (if_neg hi)).symm.trans hj) he
  | @closing l e i h1 h2 h3 h4 h5 =>
    refine ⟨?_, hI.uniq, ?_, ?_, hI.gen⟩
    · intro i' o' g' h
      obtain ⟨op1, l1, p1, p2, p3, p4, p5⟩ := hI.att i' o' g' h
      have hi : i ≠ i' := by
        rintro rfl
        exact h2.1 _ _ h
      exact ⟨op1, l1, p1, p2, p3, ((setLink_get h1).trans (if_neg hi)).trans p4, p5⟩
    · intro j lj e hj he
      by_cases hi : i = j
      · subst hi
        have : some _ = some lj := ((setLink_get h1).trans (if_pos rfl)).symm.trans hj
        obtain rfl := Option.some.inj this
        cases he
      · exact hI.ep j lj e (((setLink_get h1).trans (if_neg hi)).symm.trans hj) he
    · intro j e' h
      rcases List.mem_append.1 h with h | h
      · exact hI.cl j e' h
      · simp only [List.mem_singleton, Prod.mk.injEq] at h
        obtain ⟨rfl, rfl⟩ := h
        exact hI.ep _ l _ h1 h4
  | @closed i e h1 =>
    refine ⟨hI.att, hI.uniq, ?_, ?_, hI.gen⟩
    · intro j lj e' hj he
      show e' < (s.c.eps.modify _ _).length
      rw [List.length_modify]; exact hI.ep j lj e' hj he
    · intro j e' h
      show e' < (s.c.eps.modify _ _).length
      rw [List.length_modify]; exact hI.cl j e' (List.mem_filter.1 h).1

theorem finv_run {P : LinkPolicy} {evs : List FEv} {s : CtrF} (h : CtrF.Run P {} evs s) : FInv s := by
  generalize hs0 : ({} : CtrF) = s0 at h
  induction h with
  | nil => subst hs0; exact FInv.init
  | snoc hr hc hs ih => exact ih.step hs

end Verif.Proofs
