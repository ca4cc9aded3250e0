import Verif.Props.Mock

/-!
# What the mock router says it has sent has a receiver (C126)

A Send that finds no receiver waits for one.  A receiver that is closed stays in the list of its address (`multicast.receivers`), so a Send that finds only closed receivers returns nil at once.
-/
namespace Verif.Props
open Verif Verif.Model Verif.Proofs Verif.Spec

/-- A message is sent only after a receiver of its address has subscribed. -/
theorem C126_someone {pre post : List MockEv} {s : Mock} {o m : Nat} {a : String} (h : Mock.Run {} (pre ++ .accepted o a m :: post) s) :
    ∃ r, MockEv.newReceiver r a ∈ pre ∧ MockEv.subscribed r ∈ pre := by
  obtain ⟨b, b', r1, st, _⟩ := mock_split h
  have hT := topInv_run r1
  have hD := delInv_run r1
  cases st with
  | @lock _ t op mc h1 h2 h3 h4 h5 =>
    obtain ⟨r, hr⟩ := List.exists_mem_of_ne_nil _ h5
    obtain ⟨x, g1, g2, g3⟩ := hT.mem t mc r h3 hr
    have g4 := hT.op o op t h1 (by rw [h2]; rfl)
    have g5 := hT.inj _ _ _ g3 g4
    exact ⟨r, (hD.new r _).mpr ⟨x, g1, g5⟩, (hD.sub r x g1).mp g2⟩

/-- When Send returns nil, every receiver that subscribed before the message was sent, and has not been closed, has got everything sent since then, this message too.  Missing for the property: that there
is such a receiver (`C126_counterexample`). -/
theorem C126_given_partial {pre post : List MockEv} {s s' : Mock} {o m r : Nat} {a : String} {x : MRcv} (h : Mock.Run {} (pre ++ .accepted o a m :: post) s) (hs : Mock.Step s (.ret o none) s')
    (hx : s.rcvs[r]? = some x) (ha : x.addr = a) (hsub : MockEv.subscribed r ∈ pre) (hop : MockEv.closeReceiver r ∉ pre ++ .accepted o a m :: post) :
    sentAfter r a (pre ++ .accepted o a m :: post) = received r (pre ++ .accepted o a m :: post) ++ x.chan ∧ m ∈ received r (pre ++ .accepted o a m :: post) ++ x.chan := by
  have hT := topInv_run h
  have hD := delInv_run h
  have hC := callInv_run h
  have hdone : x.sub = .done := (hD.sub r x hx).mpr (List.mem_append_left _ hsub)
  have hcl : x.closed = false := by
    cases hc : x.closed with
    | false => rfl
    | true => exact absurd ((hD.closed r x hx).mp hc) hop
  have key : sentAfter r a (pre ++ .accepted o a m :: post) = received r (pre ++ .accepted o a m :: post) ++ x.chan := by
    obtain ⟨tail, g1, g2⟩ := hD.del r x hx hdone
    rw [ha] at g1
    rw [g1, (g2.2 hcl).2, List.append_nil]
    intro o' op' ho' hr'
    generalize hev : MockEv.ret o none = ev at hs
    cases hs with
    | @finish o1 t op h1 h2 =>
      injection hev with he _
      subst he
      obtain ⟨mc, k1, k2, _⟩ := hT.held t o op h1 (by rw [h2]; rfl)
      have k3 := hT.op o op t h1 (by rw [h2]; rfl)
      obtain ⟨op2, q1, q2, _⟩ := hC.acc o a m (by simp)
      rw [h1] at q1
      obtain rfl := Option.some.inj q1
      have hh : ∃ t', holds op'.pc = some t' := by
        cases hp : op'.pc <;> rw [hp] at hr' <;> first | exact ⟨_, rfl⟩ | cases hr'
      obtain ⟨t', ht'⟩ := hh
      obtain ⟨mc', j1, j2, _, j4⟩ := hT.held t' o' op' ho' ht'
      obtain ⟨y, i1, _, i3⟩ := hT.mem t' mc' r j1 (j4 r hr')
      rw [hx] at i1
      obtain rfl := Option.some.inj i1
      rw [ha, ← q2, k3] at i3
      obtain rfl := Option.some.inj i3
      rw [k1] at j1
      obtain rfl := Option.some.inj j1
      rw [k2] at j2
      obtain rfl := Option.some.inj j2
      rw [h1] at ho'
      obtain rfl := Option.some.inj ho'
      rw [h2] at hr'
      cases hr'
    | _ => cases hev
  refine ⟨key, ?_⟩
  rw [← key, sentAfter_append hsub]
  simp [sentTo]

/-- Where all receivers of a list are closed, a Send that has begun on the list returns nil and gives its message to nobody. -/
theorem skips_all : ∀ (left : List Nat) {s : Mock} {o t : Nat} {op : MSend}, s.ops[o]? = some op → op.pc = .sending t left → (∀ r ∈ left, ∃ x, s.rcvs[r]? = some x ∧ x.closed = true) →
    ∃ evs s', Mock.Run s (evs ++ [.ret o none]) s' ∧ s'.rcvs = s.rcvs ∧ ∀ ev ∈ evs, ev = .step o := by
  intro left
  induction left with
  | nil =>
    intro s o t op ho hp _
    exact ⟨[], _, Mock.Run.nil.snoc (.finish ho hp), rfl, by simp⟩
  | cons r left ih =>
    intro s o t op ho hp hc
    obtain ⟨x, hx, hx'⟩ := hc r (List.mem_cons_self ..)
    have r1 := (Mock.Run.nil (s0 := s)).snoc (.skip ho hp hx hx')
    have ho' : (s.setOp o (.sending t left)).ops[o]? = some { op with pc := .sending t left } := modify_some.mpr ⟨op, ho, by rw [if_pos rfl]⟩
    obtain ⟨evs, s', g1, g2, g3⟩ := ih (s := s.setOp o (.sending t left)) (o := o) (t := t) ho' rfl fun r' hr' => hc r' (List.mem_cons_of_mem _ hr')
    refine ⟨.step o :: evs, s', by simpa using mock_trans r1 g1, g2, ?_⟩
    intro ev hev
    rcases List.mem_cons.mp hev with rfl | hev
    · rfl
    · exact g3 ev hev

/-- Whenever all receivers of the address are closed, a Send whose turn it is returns nil at once, and the message is lost. -/
theorem C126_lost {s : Mock} {o t : Nat} {op : MSend} {mc : MCast} (ho : s.ops[o]? = some op) (hp : op.pc = .locking t) (hm : s.mcs[t]? = some mc) (hh : mc.holder = none)
    (hne : mc.receivers ≠ []) (hc : ∀ r ∈ mc.receivers, ∃ x, s.rcvs[r]? = some x ∧ x.closed = true) :
    ∃ evs s', Mock.Run s (.accepted o op.addr op.msg :: evs ++ [.ret o none]) s' ∧ s'.rcvs = s.rcvs ∧ ∀ ev ∈ evs, ev = .step o := by
  have r1 := (Mock.Run.nil (s0 := s)).snoc (.lock ho hp hm hh hne)
  have ho' : ((s.setMC t fun y => { y with holder := some o }).setOp o (.sending t mc.receivers)).ops[o]? = some { op with pc := .sending t mc.receivers } :=
    modify_some.mpr ⟨op, ho, by rw [if_pos rfl]⟩
  obtain ⟨evs, s', g1, g2, g3⟩ := skips_all mc.receivers ho' rfl hc
  exact ⟨evs, s', by simpa using mock_trans r1 g1, g2, g3⟩

/-- The property: when Send returns nil, some receiver has got the message. -/
def Reached : Prop := ∀ (evs : List MockEv) (s s' : Mock) (o m : Nat) (a : String), Mock.Run {} evs s → Mock.Step s (.ret o none) s' → MockEv.accepted o a m ∈ evs →
  ∃ r x, s.rcvs[r]? = some x ∧ m ∈ received r evs ++ x.chan

/-- The only receiver of an address is closed; a message sent then is reported as sent, and nobody gets it. -/
theorem C126_counterexample : ¬ Reached := by
  intro H
  have r1 := (Mock.Run.nil (s0 := {})).snoc (.newReceiver "a" 1)
  have r2 := r1.snoc (.subGet (r := 0) rfl rfl)
  have r3 := r2.snoc (.subscribe (r := 0) rfl rfl rfl rfl)
  have r4 := r3.snoc (.closeReceiver (r := 0) rfl rfl)
  have r5 := r4.snoc (.newSender "a")
  have r6 := r5.snoc (.call (i := 0) 5 none rfl)
  have r7 := r6.snoc (.startGo (o := 0) rfl rfl rfl rfl rfl)
  have r8 := r7.snoc (.get (o := 0) rfl rfl)
  have r9 := r8.snoc (.lock (o := 0) rfl rfl rfl rfl (by decide))
  have r10 := r9.snoc (.skip (o := 0) rfl rfl rfl rfl)
  obtain ⟨r, x, hx, hm⟩ := H _ _ _ 0 5 "a" r10 (.finish (o := 0) rfl rfl) (by decide)
  match r, hx with
  | 0, hx =>
    obtain rfl := Option.some.inj hx
    revert hm
    decide
  | r + 1, hx => cases hx

/-- Receivers that are closed are never forgotten: the list of an address only grows, and every Send goes through all of it. -/
theorem C126_kept {s s' : Mock} {evs : List MockEv} (h : Mock.Run s evs s') {t : Nat} {mc : MCast} (hm : s.mcs[t]? = some mc) : ∃ mc', s'.mcs[t]? = some mc' ∧ mc.receivers <+: mc'.receivers := by
  induction h with
  | nil => exact ⟨mc, hm, List.prefix_refl _⟩
  | @snoc s1 s2 evs ev hr hs ih =>
    obtain ⟨m1, h1, h2⟩ := ih
    have same : s2.mcs = s1.mcs → ∃ mc', s2.mcs[t]? = some mc' ∧ mc.receivers <+: mc'.receivers := fun e => ⟨m1, by rw [e]; exact h1, h2⟩
    have got : ∀ a : String, (s1.get a).2.mcs[t]? = some m1 := by
      intro a
      unfold Mock.get
      split
      · exact h1
      · show (s1.mcs ++ [({} : MCast)])[t]? = _
        rw [List.getElem?_append_left (List.getElem?_eq_some_iff.mp h1).1]
        exact h1
    have modified : ∀ (t' : Nat) (f : MCast → MCast), (∀ y, y.receivers <+: (f y).receivers) → ∃ mc', (s1.mcs.modify t' f)[t]? = some mc' ∧ mc.receivers <+: mc'.receivers := by
      intro t' f hf
      refine ⟨_, modify_some.mpr ⟨m1, h1, rfl⟩, ?_⟩
      split
      · exact h2.trans (hf m1)
      · exact h2
    cases hs with
    | subGet => exact ⟨m1, got _, h2⟩
    | get => exact ⟨m1, got _, h2⟩
    | subscribe => exact modified _ _ fun y => ⟨_, rfl⟩
    | lock => exact modified _ _ fun y => List.prefix_refl _
    | finish => exact modified _ _ fun y => List.prefix_refl _
    | _ => exact same rfl

/-- A receiver on which C126_given_partial can be used: open, with the message in its channel. -/
example : ∃ evs s s' x, Mock.Run {} ([.newReceiver 0 "a", .step 0, .subscribed 0, .newSender 0 "a", .call 0 0 "a" 5, .step 0, .step 0] ++ .accepted 0 "a" 5 :: evs) s ∧
    Mock.Step s (.ret 0 none) s' ∧ s.rcvs[0]? = some x ∧ x.addr = "a" ∧ x.chan = [5] ∧ x.closed = false := by
  have r1 := (Mock.Run.nil (s0 := {})).snoc (.newReceiver "a" 1)
  have r2 := r1.snoc (.subGet (r := 0) rfl rfl)
  have r3 := r2.snoc (.subscribe (r := 0) rfl rfl rfl rfl)
  have r4 := r3.snoc (.newSender "a")
  have r5 := r4.snoc (.call (i := 0) 5 none rfl)
  have r6 := r5.snoc (.startGo (o := 0) rfl rfl rfl rfl rfl)
  have r7 := r6.snoc (.get (o := 0) rfl rfl)
  have r8 := r7.snoc (.lock (o := 0) rfl rfl rfl rfl (by decide))
  have r9 := r8.snoc (.offer (o := 0) rfl rfl rfl rfl)
  have r10 := r9.snoc (.put (o := 0) rfl rfl rfl (by decide))
  exact ⟨[.step 0, .step 0], _, _, _, r10, .finish (o := 0) rfl rfl, rfl, rfl, rfl, rfl⟩

end Verif.Props
