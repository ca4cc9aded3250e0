import Verif.Model.Container

/-!
# Invariants of the container and its links
-/
namespace Verif.Proofs
open Verif Verif.Model

theorem ctr_trans {P : LinkPolicy} {s s' s'' : Ctr} {evs evs' : List CtrEv} (h : Ctr.Run P s evs s') (h' : Ctr.Run P s' evs' s'') :
    Ctr.Run P s (evs ++ evs') s'' := by
  induction h' with
  | nil => simpa using h
  | snoc _ hc hs ih => rw [← List.append_assoc]; exact ih.snoc hc hs

/-- A run can be cut at any event. -/
theorem ctr_split {P : LinkPolicy} {s s' : Ctr} {a b : List CtrEv} {ev : CtrEv} (h : Ctr.Run P s (a ++ ev :: b) s') :
    ∃ s1 s2, Ctr.Run P s a s1 ∧ s1.crashed = false ∧ Ctr.Step P s1 ev s2 ∧ Ctr.Run P s2 b s' := by
  generalize he : a ++ ev :: b = evs at h
  induction h generalizing b with
  | nil => simp at he
  | @snoc s1 s2 evs' ev' hr hc hs ih =>
    rcases List.eq_nil_or_concat b with rfl | ⟨b', x, rfl⟩
    · have h2 : a ++ [ev] = evs' ++ [ev'] := he
      obtain ⟨rfl, hx⟩ := List.append_inj' h2 rfl
      obtain rfl : ev = ev' := by simpa using hx
      exact ⟨_, _, hr, hc, hs, .nil⟩
    · have h2 : (a ++ ev :: b') ++ [x] = evs' ++ [ev'] := by simpa using he
      obtain ⟨h3, hx⟩ := List.append_inj' h2 rfl
      obtain rfl : x = ev' := by simpa using hx
      obtain ⟨t1, t2, r1, c1, st, r2⟩ := ih h3
      exact ⟨t1, t2, r1, c1, st, by simpa using r2.snoc hc hs⟩

theorem ctr_prefix {P : LinkPolicy} {s s' : Ctr} {a b : List CtrEv} (h : Ctr.Run P s (a ++ b) s') : ∃ s1, Ctr.Run P s a s1 ∧ Ctr.Run P s1 b s' := by
  cases b with
  | nil => exact ⟨s', by simpa using h, .nil⟩
  | cons ev b =>
    obtain ⟨s1, s2, r1, c1, st, r2⟩ := ctr_split h
    exact ⟨s1, r1, by simpa using ctr_trans (Ctr.Run.nil.snoc c1 st) r2⟩

@[simp] theorem setOp_gen {s : Ctr} {o pc} : (s.setOp o pc).gen = s.gen := rfl
@[simp] theorem setOp_links {s : Ctr} {o pc} : (s.setOp o pc).links = s.links := rfl
@[simp] theorem setOp_eps {s : Ctr} {o pc} : (s.setOp o pc).eps = s.eps := rfl
@[simp] theorem setOp_conns {s : Ctr} {o pc} : (s.setOp o pc).conns = s.conns := rfl
@[simp] theorem setOp_errs {s : Ctr} {o pc} : (s.setOp o pc).errs = s.errs := rfl
@[simp] theorem setOp_loop {s : Ctr} {o pc} : (s.setOp o pc).loop = s.loop := rfl
@[simp] theorem setOp_handlers {s : Ctr} {o pc} : (s.setOp o pc).handlers = s.handlers := rfl
@[simp] theorem setOp_ctx {s : Ctr} {o pc} : (s.setOp o pc).ctx = s.ctx := rfl
@[simp] theorem setOp_crashed {s : Ctr} {o pc} : (s.setOp o pc).crashed = s.crashed := rfl
@[simp] theorem setLink_gen {s : Ctr} {o pc} : (s.setLink o pc).gen = s.gen := rfl
@[simp] theorem setLink_ops {s : Ctr} {o pc} : (s.setLink o pc).ops = s.ops := rfl
@[simp] theorem setLink_eps {s : Ctr} {o pc} : (s.setLink o pc).eps = s.eps := rfl
@[simp] theorem setLink_conns {s : Ctr} {o pc} : (s.setLink o pc).conns = s.conns := rfl
@[simp] theorem setLink_errs {s : Ctr} {o pc} : (s.setLink o pc).errs = s.errs := rfl
@[simp] theorem setLink_loop {s : Ctr} {o pc} : (s.setLink o pc).loop = s.loop := rfl
@[simp] theorem setLink_handlers {s : Ctr} {o pc} : (s.setLink o pc).handlers = s.handlers := rfl
@[simp] theorem setLink_ctx {s : Ctr} {o pc} : (s.setLink o pc).ctx = s.ctx := rfl
@[simp] theorem setLink_crashed {s : Ctr} {o pc} : (s.setLink o pc).crashed = s.crashed := rfl
@[simp] theorem teardown_gen {s : Ctr} {g} : (s.teardown g).gen = s.gen := rfl
@[simp] theorem teardown_ops {s : Ctr} {g} : (s.teardown g).ops = s.ops := rfl
@[simp] theorem teardown_links {s : Ctr} {g} : (s.teardown g).links = s.links := rfl
@[simp] theorem teardown_errs {s : Ctr} {g} : (s.teardown g).errs = s.errs := rfl
@[simp] theorem teardown_loop {s : Ctr} {g} : (s.teardown g).loop = s.loop := rfl
@[simp] theorem teardown_handlers {s : Ctr} {g} : (s.teardown g).handlers = s.handlers := rfl
@[simp] theorem teardown_ctx {s : Ctr} {g} : (s.teardown g).ctx = s.ctx := rfl
@[simp] theorem teardown_crashed {s : Ctr} {g} : (s.teardown g).crashed = s.crashed := rfl

theorem setOp_get {s : Ctr} {o o' : Nat} {pc : OpPC} : (s.setOp o pc).ops[o']? = if o = o' then (s.ops[o']?).map (fun x => { x with pc := pc }) else s.ops[o']? := by
  unfold Ctr.setOp
  simp only [List.getElem?_modify]
  split <;> simp

theorem setLink_get {s : Ctr} {i j : Nat} {l x : Lnk} (h : s.links[i]? = some x) : (s.setLink i l).links[j]? = if i = j then some l else s.links[j]? := by
  unfold Ctr.setLink
  have hlt : i < s.links.length := (List.getElem?_eq_some_iff.mp h).1
  simp only [List.getElem?_set, hlt, if_true]

theorem inUse_false {s : Ctr} {i : Nat} : s.inUse i = false ↔ ∀ (o : Nat) (op : LOp), s.ops[o]? = some op → op.link = i → op.active = false := by
  unfold Ctr.inUse
  rw [List.any_eq_false]
  constructor
  · intro h o op ho hi
    have := h op (List.mem_of_getElem? ho)
    simpa [hi] using this
  · intro h op hm
    obtain ⟨o, ho⟩ := List.getElem?_of_mem hm
    by_cases hi : op.link = i
    · simp [hi, h o op ho hi]
    · simp [hi]

/-! ## Operations that do not overlap -/

/-- What is known of an operation in a run without overlapping operations. -/
def OpOK (evs : List CtrEv) (s : Ctr) (op : LOp) : Prop :=
  ∃ l, s.links[op.link]? = some l ∧
    match op.pc with
    | .waiting prev | .parked prev | .waking prev => prev = l.currGen ∧ l.curr = none
    | .got g => l.currGen < g ∧ g ≤ s.gen ∧ l.curr = none
    | .inCall ep => (∃ x, s.eps[ep]? = some x ∧ x.gen = l.currGen) ∧ ∀ g, CtrEv.reported op.link g ∈ evs → g < l.currGen
    | .failing e => errorsIs (some e) op.ctx = true ∨ errorsIs (some e) (some .linkClosed) = true ∨ CtrEv.fail op.link l.currGen ∈ evs
    | .reporting g _ => g = l.currGen ∧ CtrEv.fail op.link g ∈ evs
    | _ => True

/-- What is known of a link. -/
structure LinkOK (s : Ctr) (l : Lnk) : Prop where
  le : l.currGen ≤ s.gen
  curr : ∀ g, l.curr = some g → g = l.currGen
  ep : ∀ e, l.ep = some e → l.curr ≠ none ∧ ∃ x, s.eps[e]? = some x ∧ x.gen = l.epGen

/-- What the events say about a link. -/
structure EvOK (evs : List CtrEv) (s : Ctr) (i : Nat) (l : Lnk) : Prop where
  use : ∀ g, CtrEv.use i g ∈ evs ∨ CtrEv.fail i g ∈ evs → g ≤ l.currGen
  reported : ∀ g, CtrEv.reported i g ∈ evs → CtrEv.fail i g ∈ evs ∧
    (g < l.currGen ∨ (g = l.currGen ∧ (l.curr = none ∨ ∃ (o : Nat) (op : LOp) (e : GoErr), s.ops[o]? = some op ∧ op.link = i ∧ op.pc = .clearing e)))

structure SeqInv (evs : List CtrEv) (s : Ctr) : Prop where
  seq : ∀ (o1 o2 : Nat) (op1 op2 : LOp), s.ops[o1]? = some op1 → s.ops[o2]? = some op2 → op1.link = op2.link → op1.active = true → op2.active = true → o1 = o2
  op : ∀ (o : Nat) (op : LOp), s.ops[o]? = some op → OpOK evs s op
  link : ∀ (i : Nat) (l : Lnk), s.links[i]? = some l → LinkOK s l ∧ EvOK evs s i l
  dom : ∀ i g, CtrEv.use i g ∈ evs ∨ CtrEv.fail i g ∈ evs ∨ CtrEv.reported i g ∈ evs → i < s.links.length
  errs : ∀ g e, (g, e) ∈ s.errs → ∃ i, CtrEv.reported i g ∈ evs

/-- The endpoints stay, with their generations. -/
def EpsKeep (s s' : Ctr) : Prop := ∀ (e : Nat) (x : Ep), s.eps[e]? = some x → ∃ x', s'.eps[e]? = some x' ∧ x'.gen = x.gen

theorem EpsKeep.refl (s : Ctr) : EpsKeep s s := fun _ x h => ⟨x, h, rfl⟩

theorem EpsKeep.of_eq {s s' : Ctr} (h : s'.eps = s.eps) : EpsKeep s s' := fun _ x hx => ⟨x, by rw [h]; exact hx, rfl⟩

theorem epsKeep_map {s s' : Ctr} {f : Ep → Ep} (hf : ∀ x, (f x).gen = x.gen) (h : s'.eps = s.eps.map f) : EpsKeep s s' := by
  intro e x hx
  exact ⟨f x, by rw [h, List.getElem?_map, hx]; rfl, hf x⟩

/-- Events that say nothing about links. -/
def Quiet : CtrEv → Prop
  | .use _ _ | .fail _ _ | .reported _ _ => False
  | _ => True

theorem Quiet.use {ev : CtrEv} (h : Quiet ev) {evs : List CtrEv} {i g : Nat} : CtrEv.use i g ∈ evs ++ [ev] ↔ CtrEv.use i g ∈ evs := by
  rw [List.mem_append, List.mem_singleton]
  constructor
  · rintro (h1 | rfl)
    · exact h1
    · exact h.elim
  · exact Or.inl

theorem Quiet.fail {ev : CtrEv} (h : Quiet ev) {evs : List CtrEv} {i g : Nat} : CtrEv.fail i g ∈ evs ++ [ev] ↔ CtrEv.fail i g ∈ evs := by
  rw [List.mem_append, List.mem_singleton]
  constructor
  · rintro (h1 | rfl)
    · exact h1
    · exact h.elim
  · exact Or.inl

theorem Quiet.reported {ev : CtrEv} (h : Quiet ev) {evs : List CtrEv} {i g : Nat} : CtrEv.reported i g ∈ evs ++ [ev] ↔ CtrEv.reported i g ∈ evs := by
  rw [List.mem_append, List.mem_singleton]
  constructor
  · rintro (h1 | rfl)
    · exact h1
    · exact h.elim
  · exact Or.inl

theorem OpOK.mono {evs evs' : List CtrEv} {s s' : Ctr} {op : LOp} (h : OpOK evs s op) (hl : s'.links[op.link]? = s.links[op.link]?) (he : EpsKeep s s')
    (hg : s.gen ≤ s'.gen) (hev : ∀ i g, CtrEv.fail i g ∈ evs → CtrEv.fail i g ∈ evs')
    (hrep : ∀ g, CtrEv.reported op.link g ∈ evs' → CtrEv.reported op.link g ∈ evs) : OpOK evs' s' op := by
  obtain ⟨l, hl0, hm⟩ := h
  refine ⟨l, by rw [hl]; exact hl0, ?_⟩
  cases hpc : op.pc with
  | waiting prev => rw [hpc] at hm; exact hm
  | parked prev => rw [hpc] at hm; exact hm
  | waking prev => rw [hpc] at hm; exact hm
  | got g => rw [hpc] at hm; exact ⟨hm.1, Nat.le_trans hm.2.1 hg, hm.2.2⟩
  | inCall ep =>
    rw [hpc] at hm
    obtain ⟨⟨x, hx, hxg⟩, hlt⟩ := hm
    obtain ⟨x', hx', hx'g⟩ := he ep x hx
    exact ⟨⟨x', hx', by rw [hx'g, hxg]⟩, fun g hg => hlt g (hrep g hg)⟩
  | failing e => rw [hpc] at hm; exact hm.imp_right fun h => h.imp_right fun h => hev _ _ h
  | reporting g e => rw [hpc] at hm; exact ⟨hm.1, hev _ _ hm.2⟩
  | start => trivial
  | ready => trivial
  | clearing e => trivial
  | leaving r => trivial
  | done r => trivial

theorem LinkOK.mono {s s' : Ctr} {l : Lnk} (h : LinkOK s l) (he : EpsKeep s s') (hg : s.gen ≤ s'.gen) : LinkOK s' l :=
  ⟨Nat.le_trans h.le hg, h.curr, fun e h1 => by
    obtain ⟨hc, x, hx, hxg⟩ := h.ep e h1
    obtain ⟨x', hx', hx'g⟩ := he e x hx
    exact ⟨hc, x', hx', by rw [hx'g, hxg]⟩⟩

/-- Steps of the goroutine of Start. -/
theorem SeqInv.loop {evs : List CtrEv} {s s' : Ctr} {ev : CtrEv} (h : SeqInv evs s) (hq : Quiet ev) (hl : s'.links = s.links) (ho : s'.ops = s.ops)
    (he : EpsKeep s s') (hg : s.gen ≤ s'.gen) (hr : ∀ x, x ∈ s'.errs → x ∈ s.errs) : SeqInv (evs ++ [ev]) s' := by
  refine ⟨?_, ?_, ?_, ?_, ?_⟩
  · rw [ho]; exact h.seq
  · intro o op h1
    rw [ho] at h1
    exact (h.op o op h1).mono (by rw [hl]) he hg (fun i g h => List.mem_append_left _ h) (fun g hh => hq.reported.mp hh)
  · intro i l h1
    rw [hl] at h1
    obtain ⟨h2, h3⟩ := h.link i l h1
    refine ⟨h2.mono he hg, ?_, ?_⟩
    · intro g hh
      rw [hq.use, hq.fail] at hh
      exact h3.use g hh
    · intro g hh
      rw [hq.reported] at hh
      rw [hq.fail, ho]
      exact h3.reported g hh
  · intro i g hh
    rw [hq.use, hq.fail, hq.reported] at hh
    rw [hl]
    exact h.dom i g hh
  · intro g e hh
    obtain ⟨i, hi⟩ := h.errs g e (hr _ hh)
    exact ⟨i, List.mem_append_left _ hi⟩

/-- Steps of an operation. -/
theorem SeqInv.ofOp {evs : List CtrEv} {s s' : Ctr} {ev : CtrEv} {o : Nat} {op : LOp} {pc : OpPC} {l l' : Lnk} (h : SeqInv evs s)
    (hop : s.ops[o]? = some op) (hact : op.active = true) (hl : s.links[op.link]? = some l)
    (ho' : ∀ o' : Nat, s'.ops[o']? = if o = o' then some { op with pc := pc } else s.ops[o']?)
    (hl' : ∀ j : Nat, s'.links[j]? = if op.link = j then some l' else s.links[j]?)
    (he : EpsKeep s s') (hg : s'.gen = s.gen) (hlen : s'.links.length = s.links.length)
    (herr : ∀ g e, (g, e) ∈ s'.errs → (g, e) ∈ s.errs ∨ ev = .reported op.link g)
    (hev : Quiet ev ∨ ∃ g, ev = .use op.link g ∨ ev = .fail op.link g ∨ ev = .reported op.link g)
    (hnew : OpOK (evs ++ [ev]) s' { op with pc := pc }) (hlnew : LinkOK s' l') (hevnew : EvOK (evs ++ [ev]) s' op.link l') : SeqInv (evs ++ [ev]) s' := by
  have hcur := hl
  refine ⟨?_, ?_, ?_, ?_, ?_⟩
  · intro o1 o2 op1 op2 h1 h2 hll ha1 ha2
    rw [ho'] at h1 h2
    by_cases e1 : o = o1 <;> by_cases e2 : o = o2
    · exact e1.symm.trans e2
    · rw [if_pos e1] at h1
      rw [if_neg e2] at h2
      obtain rfl := Option.some.inj h1
      have := h.seq o o2 op op2 hop h2 hll hact ha2
      exact absurd this e2
    · rw [if_neg e1] at h1
      rw [if_pos e2] at h2
      obtain rfl := Option.some.inj h2
      have := h.seq o o1 op op1 hop h1 hll.symm hact ha1
      exact absurd this e1
    · rw [if_neg e1] at h1
      rw [if_neg e2] at h2
      exact h.seq o1 o2 op1 op2 h1 h2 hll ha1 ha2
  · intro o' op' h1
    rw [ho'] at h1
    by_cases e1 : o = o'
    · rw [if_pos e1] at h1
      obtain rfl := Option.some.inj h1
      exact hnew
    · rw [if_neg e1] at h1
      by_cases e2 : op.link = op'.link
      · -- the other operation on the same link has returned
        have hin : op'.active = false := by
          cases ha : op'.active with
          | false => rfl
          | true => exact absurd (h.seq o o' op op' hop h1 e2 hact ha) e1
        refine ⟨l', by rw [hl', if_pos e2], ?_⟩
        cases hpc : op'.pc <;> simp [LOp.active, hpc] at hin
        trivial
      · refine (h.op o' op' h1).mono (by rw [hl', if_neg e2]) he (Nat.le_of_eq hg.symm) (fun i g h => List.mem_append_left _ h) (fun g hh => ?_)
        rcases hev with hq | ⟨g', rfl | rfl | rfl⟩
        · exact hq.reported.mp hh
        · simpa using hh
        · simpa using hh
        · simp only [List.mem_append, List.mem_singleton, CtrEv.reported.injEq] at hh
          rcases hh with h | h
          · exact h
          · exact absurd h.1.symm e2
  · intro j lj h1
    rw [hl'] at h1
    by_cases e1 : op.link = j
    · rw [if_pos e1] at h1
      obtain rfl := Option.some.inj h1
      subst e1
      exact ⟨hlnew, hevnew⟩
    · rw [if_neg e1] at h1
      obtain ⟨h2, h3⟩ := h.link j lj h1
      refine ⟨h2.mono he (Nat.le_of_eq hg.symm), ?_, ?_⟩
      · intro g hh
        refine h3.use g ?_
        rcases hev with hq | ⟨g', rfl | rfl | rfl⟩
        · rwa [hq.use, hq.fail] at hh
        · simp only [List.mem_append, List.mem_singleton, CtrEv.use.injEq, reduceCtorEq, or_false] at hh
          rcases hh with (h | h) | h
          · exact Or.inl h
          · exact absurd h.1.symm e1
          · exact Or.inr h
        · simp only [List.mem_append, List.mem_singleton, CtrEv.fail.injEq, reduceCtorEq, or_false] at hh
          rcases hh with h | h | h
          · exact Or.inl h
          · exact Or.inr h
          · exact absurd h.1.symm e1
        · simpa using hh
      · intro g hh
        have hh' : CtrEv.reported j g ∈ evs := by
          rcases hev with hq | ⟨g', rfl | rfl | rfl⟩
          · rwa [hq.reported] at hh
          · simpa using hh
          · simpa using hh
          · simp only [List.mem_append, List.mem_singleton, CtrEv.reported.injEq] at hh
            rcases hh with h | h
            · exact h
            · exact absurd h.1.symm e1
        obtain ⟨hf, hd⟩ := h3.reported g hh'
        refine ⟨List.mem_append_left _ hf, hd.imp_right fun hd => ⟨hd.1, hd.2.imp_right fun ⟨o1, op1, e, g1, g2, g3⟩ => ⟨o1, op1, e, ?_, g2, g3⟩⟩⟩
        rw [ho', if_neg]
        · exact g1
        · rintro rfl
          rw [hop] at g1
          obtain rfl := Option.some.inj g1
          exact e1 g2
  · intro j g hh
    rw [hlen]
    have hlt : op.link < s.links.length := (List.getElem?_eq_some_iff.mp hl).1
    rcases hev with hq | ⟨g', rfl | rfl | rfl⟩
    · rw [hq.use, hq.fail, hq.reported] at hh
      exact h.dom j g hh
    · simp only [List.mem_append, List.mem_singleton, CtrEv.use.injEq, reduceCtorEq, or_false] at hh
      rcases hh with (h1 | h1) | h1 | h1
      · exact h.dom j g (Or.inl h1)
      · rw [h1.1]; exact hlt
      · exact h.dom j g (Or.inr (Or.inl h1))
      · exact h.dom j g (Or.inr (Or.inr h1))
    · simp only [List.mem_append, List.mem_singleton, CtrEv.fail.injEq, reduceCtorEq, or_false] at hh
      rcases hh with h1 | (h1 | h1) | h1
      · exact h.dom j g (Or.inl h1)
      · exact h.dom j g (Or.inr (Or.inl h1))
      · rw [h1.1]; exact hlt
      · exact h.dom j g (Or.inr (Or.inr h1))
    · simp only [List.mem_append, List.mem_singleton, CtrEv.reported.injEq, reduceCtorEq, or_false] at hh
      rcases hh with h1 | h1 | h1 | h1
      · exact h.dom j g (Or.inl h1)
      · exact h.dom j g (Or.inr (Or.inl h1))
      · exact h.dom j g (Or.inr (Or.inr h1))
      · rw [h1.1]; exact hlt
  · intro g e hh
    rcases herr g e hh with h1 | rfl
    · obtain ⟨i, hi⟩ := h.errs g e h1
      exact ⟨i, List.mem_append_left _ hi⟩
    · exact ⟨op.link, by simp⟩

/-- Steps that only move an operation on. -/
theorem SeqInv.ofPC {evs : List CtrEv} {s : Ctr} {ev : CtrEv} {o : Nat} {op : LOp} {l : Lnk} (pc : OpPC) (h : SeqInv evs s)
    (hop : s.ops[o]? = some op) (hact : op.active = true) (hl : s.links[op.link]? = some l) (hq : Quiet ev) (hc : ∀ e, op.pc ≠ .clearing e)
    (hnew : OpOK (evs ++ [ev]) (s.setOp o pc) { op with pc := pc }) : SeqInv (evs ++ [ev]) (s.setOp o pc) := by
  obtain ⟨h1, h2⟩ := h.link op.link l hl
  refine h.ofOp (l' := l) hop hact hl (pc := pc) ?_ ?_ (EpsKeep.refl s) rfl rfl (fun g e h => Or.inl h) (Or.inl hq) hnew (h1.mono (EpsKeep.refl s) (Nat.le_refl _)) ?_
  · intro o'
    rw [setOp_get]
    by_cases e1 : o = o'
    · subst e1; simp [hop]
    · simp [e1]
  · intro j
    by_cases e1 : op.link = j
    · subst e1; simp [hl]
    · simp [e1]
  · refine ⟨?_, ?_⟩
    · intro g hh
      rw [hq.use, hq.fail] at hh
      exact h2.use g hh
    · intro g hh
      rw [hq.reported] at hh
      obtain ⟨hf, hd⟩ := h2.reported g hh
      refine ⟨List.mem_append_left _ hf, hd.imp_right fun hd => ⟨hd.1, hd.2.imp_right fun ⟨o1, op1, e, g1, g2, g3⟩ => ⟨o1, op1, e, ?_, g2, g3⟩⟩⟩
      rw [setOp_get, if_neg]
      · exact g1
      · rintro rfl
        rw [hop] at g1
        obtain rfl := Option.some.inj g1
        exact hc e g3

theorem active_of_pc {op : LOp} {pc : OpPC} (h : op.pc = pc) (hd : ∀ r, pc ≠ .done r) : op.active = true := by
  unfold LOp.active
  rw [h]
  cases pc <;> first | rfl | exact absurd rfl (hd _)

theorem setOp_get' {s s1 : Ctr} {o : Nat} {op : LOp} {pc : OpPC} (hs : s1.ops = s.ops) (h : s.ops[o]? = some op) (o' : Nat) :
    (s1.setOp o pc).ops[o']? = if o = o' then some { op with pc := pc } else s.ops[o']? := by
  rw [setOp_get, hs]
  by_cases e : o = o'
  · subst e; simp [h]
  · simp [e]

theorem links_same {s : Ctr} {i : Nat} {l : Lnk} (h : s.links[i]? = some l) (j : Nat) : s.links[j]? = if i = j then some l else s.links[j]? := by
  by_cases e : i = j
  · subst e; simp [h]
  · simp [e]

/-- The link of an operation that is past its session wait, when operations do not overlap: no operation on it is about to drop its session. -/
theorem SeqInv.reported_lt {evs : List CtrEv} {s : Ctr} {o : Nat} {op : LOp} {l : Lnk} (h : SeqInv evs s) (hop : s.ops[o]? = some op) (hact : op.active = true)
    (hl : s.links[op.link]? = some l) (hc : l.curr ≠ none) (hpc : ∀ e, op.pc ≠ .clearing e) {g : Nat} (hr : CtrEv.reported op.link g ∈ evs) : g < l.currGen := by
  obtain ⟨_, h1 | ⟨_, h2 | ⟨o1, op1, e, g1, g2, g3⟩⟩⟩ := (h.link _ l hl).2.reported g hr
  · exact h1
  · exact absurd h2 hc
  · have := h.seq o o1 op op1 hop g1 g2.symm hact (active_of_pc g3 (by simp))
    subst this
    rw [hop] at g1
    obtain rfl := Option.some.inj g1
    exact absurd g3 (hpc e)

theorem SeqInv.step {P : LinkPolicy} (hP : P.overlap = false) {evs : List CtrEv} {s s' : Ctr} {ev : CtrEv} (h : SeqInv evs s) (hs : Ctr.Step P s ev s') :
    SeqInv (evs ++ [ev]) s' := by
  have loop : ∀ {s' : Ctr} {ev : CtrEv}, Quiet ev → s'.links = s.links → s'.ops = s.ops → s'.eps = s.eps → s'.gen = s.gen → s'.errs = s.errs →
      SeqInv (evs ++ [ev]) s' := fun hq h1 h2 h3 h4 h5 =>
    h.loop hq h1 h2 (EpsKeep.of_eq h3) (Nat.le_of_eq h4.symm) (fun x hx => by rw [h5] at hx; exact hx)
  cases hs with
  | start h1 => exact loop trivial rfl rfl rfl rfl rfl
  | cancel e h1 h2 => exact loop trivial rfl rfl rfl rfl rfl
  | onError hd h1 => exact loop trivial rfl rfl rfl rfl rfl
  | dialFail msg h1 => exact loop trivial rfl rfl rfl rfl rfl
  | dialOk h1 => exact loop trivial rfl rfl rfl rfl rfl
  | sessionFail msg h1 => exact loop trivial rfl rfl rfl rfl rfl
  | session h1 =>
    refine h.loop trivial rfl rfl ?_ (Nat.le_succ _) (fun x hx => hx)
    exact epsKeep_map (f := fun e => if e.gen = s.gen then { e with open_ := false } else e) (fun x => by split <;> rfl) rfl
  | dropped h1 h2 h3 =>
    refine h.loop trivial rfl rfl (EpsKeep.refl s) (Nat.le_refl _) (fun x hx => ?_)
    rw [h2]; exact List.mem_cons_of_mem _ hx
  | restart msg h1 h2 =>
    refine h.loop trivial rfl rfl (EpsKeep.refl s) (Nat.le_refl _) (fun x hx => ?_)
    rw [h2]; exact List.mem_cons_of_mem _ hx
  | interrupted h1 h2 => exact loop trivial rfl rfl rfl rfl rfl
  | stopFailed h1 h2 =>
    refine h.loop trivial rfl rfl ?_ (Nat.le_refl _) (fun x hx => hx)
    exact epsKeep_map (f := fun e => if e.gen = s.gen then { e with open_ := false } else e) (fun x => by split <;> rfl) rfl
  | retry h1 h2 => exact loop trivial rfl rfl rfl rfl rfl
  | giveUp h1 h2 => exact loop trivial rfl rfl rfl rfl rfl
  | notify h1 => exact loop trivial rfl rfl rfl rfl rfl
  | reenter h1 => exact loop trivial rfl rfl rfl rfl rfl
  | notified h1 => exact loop trivial rfl rfl rfl rfl rfl
  | again h1 => exact loop trivial rfl rfl rfl rfl rfl
  | stopWaiting h1 h2 =>
    refine h.loop trivial rfl rfl ?_ (Nat.le_refl _) (fun x hx => hx)
    exact epsKeep_map (f := fun e => if e.gen = s.gen then { e with open_ := false } else e) (fun x => by split <;> rfl) rfl
  | stopGaveUp h1 h2 =>
    refine h.loop trivial rfl rfl ?_ (Nat.le_refl _) (fun x hx => hx)
    exact epsKeep_map (f := fun e => if e.gen = s.gen then { e with open_ := false } else e) (fun x => by split <;> rfl) rfl
  | finish h1 h2 => exact loop trivial rfl rfl rfl rfl rfl
  | final h1 => exact loop trivial rfl rfl rfl rfl rfl
  | finished h1 =>
    refine h.loop trivial rfl rfl ?_ (Nat.le_refl _) (fun x hx => hx)
    exact epsKeep_map (f := fun e => if e.gen = s.gen then { e with open_ := false } else e) (fun x => by split <;> rfl) rfl
  | newLink sender h1 =>
    have hget : ∀ (j : Nat) (l : Lnk), s.links[j]? = some l →
        (s.links ++ [({ sender := sender, currGen := s.gen, curr := if s.gen = 0 then none else some s.gen } : Lnk)])[j]? = some l := by
      intro j l hj
      rw [List.getElem?_append_left (List.getElem?_eq_some_iff.mp hj).1]; exact hj
    have hq : Quiet (.newLink s.links.length) := trivial
    refine ⟨h.seq, ?_, ?_, ?_, ?_⟩
    · intro o op ho
      obtain ⟨l, hl, hm⟩ := h.op o op ho
      refine OpOK.mono (s := s) ⟨l, hl, hm⟩ ?_ (EpsKeep.refl s) (Nat.le_refl _) (fun i g h => List.mem_append_left _ h) (fun g hh => hq.reported.mp hh)
      rw [hl]; exact hget _ _ hl
    · intro j l hj
      by_cases e : j < s.links.length
      · have hj' : s.links[j]? = some l := by
          have h3 : (s.links ++ [_])[j]? = some l := hj
          rwa [List.getElem?_append_left e] at h3
        obtain ⟨g1, g2⟩ := h.link j l hj'
        refine ⟨g1.mono (EpsKeep.refl s) (Nat.le_refl _), ?_, ?_⟩
        · intro g hh
          rw [hq.use, hq.fail] at hh
          exact g2.use g hh
        · intro g hh
          rw [hq.reported] at hh
          rw [hq.fail]
          exact g2.reported g hh
      · have hj' : j = s.links.length := by
          have := (List.getElem?_eq_some_iff.mp hj).1
          simp only [List.length_append, List.length_singleton] at this
          omega
        subst hj'
        have h3 : (s.links ++ [_])[s.links.length]? = some l := hj
        rw [List.getElem?_append_right (Nat.le_refl _)] at h3
        simp only [Nat.sub_self, List.getElem?_cons_zero, Option.some.injEq] at h3
        subst h3
        refine ⟨⟨Nat.le_refl _, ?_, ?_⟩, ?_, ?_⟩
        · intro g hg
          by_cases hz : s.gen = 0 <;> simp [hz] at hg
          exact hg.symm
        · intro e' h'
          cases h'
        · intro g hh
          rw [hq.use, hq.fail] at hh
          exact absurd (h.dom _ g (hh.imp_right Or.inl)) (by omega)
        · intro g hh
          rw [hq.reported] at hh
          exact absurd (h.dom _ g (Or.inr (Or.inr hh))) (by omega)
    · intro i g hh
      rw [hq.use, hq.fail, hq.reported] at hh
      have := h.dom i g hh
      show i < (s.links ++ [_]).length
      simp only [List.length_append, List.length_singleton]; omega
    · intro g e hh
      obtain ⟨i, hi⟩ := h.errs g e hh
      exact ⟨i, List.mem_append_left _ hi⟩
  | @call l i k ctx h1 h2 h3 h4 =>
    have hq : Quiet (.call i s.ops.length) := trivial
    have hfree := inUse_false.mp (h4 hP)
    have hold : ∀ (o : Nat) (op : LOp), (s.ops ++ [({ link := i, kind := k, ctx := ctx } : LOp)])[o]? = some op →
        s.ops[o]? = some op ∨ (o = s.ops.length ∧ op = { link := i, kind := k, ctx := ctx }) := by
      intro o op ho
      by_cases e : o < s.ops.length
      · rw [List.getElem?_append_left e] at ho; exact Or.inl ho
      · have hlt := (List.getElem?_eq_some_iff.mp ho).1
        simp only [List.length_append, List.length_singleton] at hlt
        have : o = s.ops.length := by omega
        subst this
        rw [List.getElem?_append_right (Nat.le_refl _)] at ho
        simp only [Nat.sub_self, List.getElem?_cons_zero, Option.some.injEq] at ho
        exact Or.inr ⟨rfl, ho.symm⟩
    refine ⟨?_, ?_, ?_, ?_, ?_⟩
    · intro o1 o2 op1 op2 g1 g2 hll ha1 ha2
      rcases hold o1 op1 g1 with e1 | ⟨e1, rfl⟩ <;> rcases hold o2 op2 g2 with e2 | ⟨e2, rfl⟩
      · exact h.seq o1 o2 op1 op2 e1 e2 hll ha1 ha2
      · rw [hfree o1 op1 e1 hll] at ha1; cases ha1
      · rw [hfree o2 op2 e2 hll.symm] at ha2; cases ha2
      · rw [e1, e2]
    · intro o op ho
      rcases hold o op ho with e1 | ⟨e1, rfl⟩
      · exact (h.op o op e1).mono rfl (EpsKeep.refl s) (Nat.le_refl _) (fun i g h => List.mem_append_left _ h) (fun g hh => hq.reported.mp hh)
      · exact ⟨l, h1, trivial⟩
    · intro j lj hj
      obtain ⟨g1, g2⟩ := h.link j lj hj
      refine ⟨g1.mono (EpsKeep.refl s) (Nat.le_refl _), ?_, ?_⟩
      · intro g hh
        rw [hq.use, hq.fail] at hh
        exact g2.use g hh
      · intro g hh
        rw [hq.reported] at hh
        rw [hq.fail]
        obtain ⟨hf, hd⟩ := g2.reported g hh
        refine ⟨hf, hd.imp_right fun hd => ⟨hd.1, hd.2.imp_right fun ⟨o1, op1, e, f1, f2, f3⟩ => ⟨o1, op1, e, ?_, f2, f3⟩⟩⟩
        show (s.ops ++ [_])[o1]? = _
        rw [List.getElem?_append_left (List.getElem?_eq_some_iff.mp f1).1]; exact f1
    · intro j g hh
      rw [hq.use, hq.fail, hq.reported] at hh
      exact h.dom j g hh
    · intro g e hh
      obtain ⟨j, hj⟩ := h.errs g e hh
      exact ⟨j, List.mem_append_left _ hj⟩
  | @cancelOp op o e h1 h2 h3 =>
    have hq : Quiet (.cancelOp o e) := trivial
    have hlt : o < s.ops.length := (List.getElem?_eq_some_iff.mp h2).1
    have hget : ∀ o' : Nat, (s.ops.set o { op with ctx := some e })[o']? = if o = o' then some { op with ctx := some e } else s.ops[o']? := by
      intro o'; simp only [List.getElem?_set, hlt, if_true]
    -- the operation at an index, up to its context
    have hold : ∀ (o' : Nat) (op' : LOp), (s.ops.set o { op with ctx := some e })[o']? = some op' →
        ∃ op0, s.ops[o']? = some op0 ∧ op'.link = op0.link ∧ op'.pc = op0.pc ∧ (op'.ctx = op0.ctx ∨ op0.ctx = none) := by
      intro o' op' ho
      rw [hget] at ho
      by_cases e1 : o = o'
      · rw [if_pos e1] at ho
        obtain rfl := Option.some.inj ho
        exact ⟨op, e1 ▸ h2, rfl, rfl, Or.inr h3⟩
      · rw [if_neg e1] at ho
        exact ⟨op', ho, rfl, rfl, Or.inl rfl⟩
    have hact : ∀ {a b : LOp}, a.pc = b.pc → a.active = b.active := fun hab => by unfold LOp.active; rw [hab]
    refine ⟨?_, ?_, ?_, ?_, ?_⟩
    · intro o1 o2 op1 op2 g1 g2 hll ha1 ha2
      obtain ⟨a, a1, a2, a3, _⟩ := hold o1 op1 g1
      obtain ⟨b, b1, b2, b3, _⟩ := hold o2 op2 g2
      exact h.seq o1 o2 a b a1 b1 (by rw [← a2, ← b2, hll]) (by rw [← hact a3]; exact ha1) (by rw [← hact b3]; exact ha2)
    · intro o' op' ho
      obtain ⟨a, a1, a2, a3, a4⟩ := hold o' op' ho
      obtain ⟨l, hl, hm⟩ := (h.op o' a a1).mono (s' := s) (evs' := evs ++ [.cancelOp o e]) rfl (EpsKeep.refl s) (Nat.le_refl _) (fun i g h => List.mem_append_left _ h) (fun g hh => hq.reported.mp hh)
      refine ⟨l, by rw [a2]; exact hl, ?_⟩
      rw [a3, a2]
      cases hpc : a.pc with
      | failing er =>
        rw [hpc] at hm
        rcases hm with hm | hm | hm
        · rcases a4 with a4 | a4
          · rw [a4]; exact Or.inl hm
          · rw [a4] at hm; cases hm
        · exact Or.inr (Or.inl hm)
        · exact Or.inr (Or.inr hm)
      | waiting prev => rw [hpc] at hm; exact hm
      | parked prev => rw [hpc] at hm; exact hm
      | waking prev => rw [hpc] at hm; exact hm
      | got g => rw [hpc] at hm; exact hm
      | inCall ep => rw [hpc] at hm; exact hm
      | reporting g er => rw [hpc] at hm; exact hm
      | start => trivial
      | ready => trivial
      | clearing er => trivial
      | leaving r => trivial
      | done r => trivial
    · intro j lj hj
      obtain ⟨g1, g2⟩ := h.link j lj hj
      refine ⟨g1.mono (EpsKeep.refl s) (Nat.le_refl _), ?_, ?_⟩
      · intro g hh
        rw [hq.use, hq.fail] at hh
        exact g2.use g hh
      · intro g hh
        rw [hq.reported] at hh
        rw [hq.fail]
        obtain ⟨hf, hd⟩ := g2.reported g hh
        refine ⟨hf, hd.imp_right fun hd => ⟨hd.1, hd.2.imp_right fun ⟨o1, op1, er, f1, f2, f3⟩ => ?_⟩⟩
        by_cases e1 : o = o1
        · subst e1
          rw [h2] at f1
          obtain rfl := Option.some.inj f1
          exact ⟨o, { op with ctx := some e }, er, by rw [hget, if_pos rfl], f2, f3⟩
        · exact ⟨o1, op1, er, by rw [hget, if_neg e1]; exact f1, f2, f3⟩
    · intro j g hh
      rw [hq.use, hq.fail, hq.reported] at hh
      exact h.dom j g hh
    · intro g er hh
      obtain ⟨j, hj⟩ := h.errs g er hh
      exact ⟨j, List.mem_append_left _ hj⟩
  | @close l i h1 h2 =>
    have hq : Quiet (.close i) := trivial
    have hget : ∀ j : Nat, (s.setLink i { l with closed := true, curr := none, ep := none }).links[j]? =
        if i = j then some { l with closed := true, curr := none, ep := none } else s.links[j]? := fun j => setLink_get h1
    have hkeep : ∀ eps' : List Ep, (eps' = s.eps ∨ ∃ e, eps' = s.eps.modify e fun x => { x with open_ := false }) →
        ∀ (e : Nat) (x : Ep), s.eps[e]? = some x → ∃ x', eps'[e]? = some x' ∧ x'.gen = x.gen := by
      rintro eps' (rfl | ⟨e, rfl⟩) e' x hx
      · exact ⟨x, hx, rfl⟩
      · rw [List.getElem?_modify, hx]
        by_cases he : e = e'
        · exact ⟨{ x with open_ := false }, by simp [he], rfl⟩
        · exact ⟨x, by simp [he], rfl⟩
    have hk : EpsKeep s { s.setLink i { l with closed := true, curr := none, ep := none } with
            eps := match l.ep, l.sender with
              | some e, false => s.eps.modify e fun x => { x with open_ := false }
              | _, _ => s.eps } := by
      refine hkeep _ ?_
      cases l.ep with
      | none => exact Or.inl rfl
      | some e =>
        cases l.sender with
        | true => exact Or.inl rfl
        | false => exact Or.inr ⟨e, rfl⟩
    refine ⟨h.seq, ?_, ?_, ?_, ?_⟩
    · intro o op ho
      obtain ⟨l0, hl0, hm⟩ := (h.op o op ho).mono (s' := s) (evs' := evs ++ [.close i]) rfl (EpsKeep.refl s) (Nat.le_refl _) (fun i g h => List.mem_append_left _ h) (fun g hh => hq.reported.mp hh)
      by_cases e1 : i = op.link
      · rw [← e1] at hl0
        rw [h1] at hl0
        obtain rfl := Option.some.inj hl0
        refine ⟨{ l with closed := true, curr := none, ep := none }, (hget op.link).trans (if_pos e1), ?_⟩
        cases hpc : op.pc with
        | waiting prev => rw [hpc] at hm; exact ⟨hm.1, rfl⟩
        | parked prev => rw [hpc] at hm; exact ⟨hm.1, rfl⟩
        | waking prev => rw [hpc] at hm; exact ⟨hm.1, rfl⟩
        | got g => rw [hpc] at hm; exact ⟨hm.1, hm.2.1, rfl⟩
        | inCall ep =>
          rw [hpc] at hm
          obtain ⟨⟨x, hx, hxg⟩, hlt⟩ := hm
          obtain ⟨x', hx', hxg'⟩ := hk ep x hx
          exact ⟨⟨x', hx', by rw [hxg', hxg]⟩, hlt⟩
        | failing er => rw [hpc] at hm; exact hm
        | reporting g er => rw [hpc] at hm; exact hm
        | start => trivial
        | ready => trivial
        | clearing er => trivial
        | leaving r => trivial
        | done r => trivial
      · exact OpOK.mono (s := s) ⟨l0, hl0, hm⟩ ((hget op.link).trans (if_neg e1)) hk (Nat.le_refl _) (fun _ _ h => h) (fun _ h => h)
    · intro j lj hj
      have hj' := (hget j).symm.trans hj
      by_cases e1 : i = j
      · rw [if_pos e1] at hj'
        obtain rfl := Option.some.inj hj'
        subst e1
        obtain ⟨g1, g2⟩ := h.link i l h1
        refine ⟨⟨g1.le, fun g hg => (by cases hg), fun e he => (by cases he)⟩, ?_, ?_⟩
        · intro g hh
          rw [hq.use, hq.fail] at hh
          exact g2.use g hh
        · intro g hh
          rw [hq.reported] at hh
          rw [hq.fail]
          obtain ⟨hf, hd⟩ := g2.reported g hh
          exact ⟨hf, hd.imp_right fun hd => ⟨hd.1, Or.inl rfl⟩⟩
      · rw [if_neg e1] at hj'
        obtain ⟨g1, g2⟩ := h.link j lj hj'
        refine ⟨g1.mono hk (Nat.le_refl _), ?_, ?_⟩
        · intro g hh
          rw [hq.use, hq.fail] at hh
          exact g2.use g hh
        · intro g hh
          rw [hq.reported] at hh
          rw [hq.fail]
          exact g2.reported g hh
    · intro j g hh
      rw [hq.use, hq.fail, hq.reported] at hh
      show j < (s.links.set i _).length
      rw [List.length_set]
      exact h.dom j g hh
    · intro g e hh
      obtain ⟨j, hj⟩ := h.errs g e hh
      exact ⟨j, List.mem_append_left _ hj⟩
  | startClosed h1 h2 h3 h4 =>
    refine h.ofPC _ h1 (active_of_pc h2 (by simp)) h3 trivial (by rw [h2]; simp) ⟨_, h3, ?_⟩
    exact Or.inr (Or.inl (by decide))
  | startHas h1 h2 h3 h4 h5 => exact h.ofPC _ h1 (active_of_pc h2 (by simp)) h3 trivial (by rw [h2]; simp) ⟨_, h3, trivial⟩
  | startWait h1 h2 h3 h4 h5 => exact h.ofPC _ h1 (active_of_pc h2 (by simp)) h3 trivial (by rw [h2]; simp) ⟨_, h3, rfl, h5⟩
  | @waited o op prev h1 h2 h3 h4 =>
    obtain ⟨l, hl, hm⟩ := h.op o op h1
    rw [h2] at hm
    have := (h.link _ l hl).1.le
    have h5 : l.currGen < s.gen := by
      rcases Nat.lt_or_ge l.currGen s.gen with h6 | h6
      · exact h6
      · exact absurd (by rw [hm.1]; omega) h4
    exact h.ofPC _ h1 (active_of_pc h2 (by simp)) hl trivial (by rw [h2]; simp) ⟨_, hl, h5, Nat.le_refl _, hm.2⟩
  | @woken o op prev h1 h2 h3 h4 =>
    obtain ⟨l, hl, hm⟩ := h.op o op h1
    rw [h2] at hm
    have := (h.link _ l hl).1.le
    have h5 : l.currGen < s.gen := by
      rcases Nat.lt_or_ge l.currGen s.gen with h6 | h6
      · exact h6
      · exact absurd (by rw [hm.1]; omega) h4
    exact h.ofPC _ h1 (active_of_pc h2 (by simp)) hl trivial (by rw [h2]; simp) ⟨_, hl, h5, Nat.le_refl _, hm.2⟩
  | @park o op prev h1 h2 h3 h4 =>
    obtain ⟨l, hl, hm⟩ := h.op o op h1
    rw [h2] at hm
    exact h.ofPC _ h1 (active_of_pc h2 (by simp)) hl trivial (by rw [h2]; simp) ⟨_, hl, hm⟩
  | @wake o op prev h1 h2 h3 =>
    obtain ⟨l, hl, hm⟩ := h.op o op h1
    rw [h2] at hm
    exact h.ofPC _ h1 (active_of_pc h2 (by simp)) hl trivial (by rw [h2]; simp) ⟨_, hl, hm⟩
  | @waitCancelled o op prev e h1 h2 h4 =>
    obtain ⟨l, hl, hm⟩ := h.op o op h1
    refine h.ofPC _ h1 (active_of_pc h2 (by simp)) hl trivial (by rw [h2]; simp) ⟨_, hl, Or.inl ?_⟩
    show errorsIs _ op.ctx = true
    rw [h4]
    cases e <;> simp [errorsIs, GoErr.is]
  | @take o op l g h1 h2 h3 =>
    obtain ⟨l0, hl, hm⟩ := h.op o op h1
    rw [h3] at hl
    obtain rfl := Option.some.inj hl
    rw [h2] at hm
    obtain ⟨g1, g2⟩ := h.link _ l h3
    have hq : Quiet (.step o) := trivial
    refine h.ofOp (l' := { l with curr := some g, currGen := g }) h1 (active_of_pc h2 (by simp)) h3 (pc := .ready) (setOp_get' rfl h1)
      (fun j => setLink_get h3) (EpsKeep.refl s) rfl (by simp [Ctr.setLink]) (fun _ _ h => Or.inl h) (Or.inl hq) ?_ ?_ ?_
    · exact ⟨_, (setLink_get h3).trans (if_pos rfl), trivial⟩
    · refine ⟨hm.2.1, fun g' hg' => by cases hg'; rfl, fun e he => ?_⟩
      exact absurd hm.2.2 (g1.ep e he).1
    · refine ⟨?_, ?_⟩
      · intro g' hh
        rw [hq.use, hq.fail] at hh
        exact Nat.le_trans (g2.use g' hh) (Nat.le_of_lt hm.1)
      · intro g' hh
        rw [hq.reported] at hh
        rw [hq.fail]
        obtain ⟨hf, hd⟩ := g2.reported g' hh
        refine ⟨hf, Or.inl ?_⟩
        show g' < g
        rcases hd with hd | hd
        · omega
        · omega
  | @reuse o op l ep x h1 h2 h3 h4 h5 h6 =>
    obtain ⟨g1, g2⟩ := h.link _ l h3
    obtain ⟨hc, x', hx', hxg⟩ := g1.ep ep h4
    rw [h6] at hx'
    obtain rfl := Option.some.inj hx'
    have hx : x.gen = l.currGen := by rw [hxg, h5]
    have hact := active_of_pc h2 (by simp)
    have hrl : ∀ g, CtrEv.reported op.link g ∈ evs ++ [.use op.link x.gen] → g < l.currGen := fun g hh =>
      h.reported_lt h1 hact h3 hc (by rw [h2]; simp) (by simpa using hh)
    refine h.ofOp (l' := l) h1 hact h3 (pc := .inCall ep) (setOp_get' rfl h1)
      (links_same h3) (EpsKeep.refl s) rfl rfl (fun _ _ h => Or.inl h) (Or.inr ⟨x.gen, Or.inl rfl⟩) ⟨l, h3, ⟨x, h6, hx⟩, hrl⟩ (g1.mono (EpsKeep.refl s) (Nat.le_refl _)) ?_
    refine ⟨?_, ?_⟩
    · intro g hh
      simp only [List.mem_append, List.mem_singleton, CtrEv.use.injEq, reduceCtorEq, or_false] at hh
      rcases hh with (h | h) | h
      · exact g2.use g (Or.inl h)
      · rw [h.2, hx]; exact Nat.le_refl _
      · exact g2.use g (Or.inr h)
    · intro g hh
      have hh' : CtrEv.reported op.link g ∈ evs := by simpa using hh
      exact ⟨List.mem_append_left _ (g2.reported g hh').1, Or.inl (h.reported_lt h1 hact h3 hc (by rw [h2]; simp) hh')⟩
  | noSession h1 h2 h3 h4 h5 => exact loop trivial rfl rfl rfl rfl rfl
  | @attach o op l g h1 h2 h3 h4 h5 =>
    obtain ⟨g1, g2⟩ := h.link _ l h3
    have hg : g = l.currGen := g1.curr g h5
    have hact := active_of_pc h2 (by simp)
    have hk : EpsKeep s (({ s with eps := s.eps ++ [{ gen := g, link := op.link, open_ := s.sessionOpen g }] } : Ctr).setLink op.link
        { l with ep := some s.eps.length, epGen := l.currGen } |>.setOp o (.inCall s.eps.length)) := by
      intro e x hx
      refine ⟨x, ?_, rfl⟩
      show (s.eps ++ [_])[e]? = _
      rw [List.getElem?_append_left (List.getElem?_eq_some_iff.mp hx).1]; exact hx
    have hnew : (s.eps ++ [({ gen := g, link := op.link, open_ := s.sessionOpen g } : Ep)])[s.eps.length]? = some { gen := g, link := op.link, open_ := s.sessionOpen g } := by
      rw [List.getElem?_append_right (Nat.le_refl _)]; simp
    refine h.ofOp (l' := { l with ep := some s.eps.length, epGen := l.currGen }) h1 hact h3 (pc := .inCall s.eps.length) (setOp_get' rfl h1)
      (fun j => setLink_get (s := { s with eps := _ }) h3) hk rfl (by simp [Ctr.setLink]) (fun _ _ h => Or.inl h) (Or.inr ⟨g, Or.inl rfl⟩) ?_ ?_ ?_
    · refine ⟨_, (setLink_get (s := { s with eps := _ }) h3).trans (if_pos rfl), ⟨_, hnew, hg⟩, fun g' hh => ?_⟩
      exact h.reported_lt h1 hact h3 (by rw [h5]; simp) (by rw [h2]; simp) (by simpa using hh)
    · refine ⟨g1.le, g1.curr, fun e he => ?_⟩
      obtain rfl : s.eps.length = e := Option.some.inj he
      exact ⟨by show l.curr ≠ none; rw [h5]; simp, _, hnew, hg⟩
    · refine ⟨?_, ?_⟩
      · intro g' hh
        simp only [List.mem_append, List.mem_singleton, CtrEv.use.injEq, reduceCtorEq, or_false] at hh
        rcases hh with (h | h) | h
        · exact g2.use g' (Or.inl h)
        · rw [h.2, hg]; exact Nat.le_refl _
        · exact g2.use g' (Or.inr h)
      · intro g' hh
        have hh' : CtrEv.reported op.link g' ∈ evs := by simpa using hh
        exact ⟨List.mem_append_left _ (g2.reported g' hh').1, Or.inl (h.reported_lt h1 hact h3 (by rw [h5]; simp) (by rw [h2]; simp) hh')⟩
  | @attachFail o op l g e h1 h2 h3 h4 h5 =>
    obtain ⟨g1, g2⟩ := h.link _ l h3
    have hg : g = l.currGen := g1.curr g h5
    have hact := active_of_pc h2 (by simp)
    refine h.ofOp (l' := l) h1 hact h3 (pc := .failing (.wrap "create error" e)) (setOp_get' rfl h1)
      (links_same h3) (EpsKeep.refl s) rfl rfl (fun _ _ h => Or.inl h) (Or.inr ⟨g, Or.inr (Or.inl rfl)⟩) ?_ (g1.mono (EpsKeep.refl s) (Nat.le_refl _)) ?_
    · exact ⟨l, h3, Or.inr (Or.inr (by simp [hg]))⟩
    · refine ⟨?_, ?_⟩
      · intro g' hh
        simp only [List.mem_append, List.mem_singleton, CtrEv.fail.injEq, reduceCtorEq, or_false] at hh
        rcases hh with h | h | h
        · exact g2.use g' (Or.inl h)
        · exact g2.use g' (Or.inr h)
        · rw [h.2, hg]; exact Nat.le_refl _
      · intro g' hh
        have hh' : CtrEv.reported op.link g' ∈ evs := by simpa using hh
        exact ⟨List.mem_append_left _ (g2.reported g' hh').1, Or.inl (h.reported_lt h1 hact h3 (by rw [h5]; simp) (by rw [h2]; simp) hh')⟩
  | @useOk o op ep h1 h2 =>
    obtain ⟨l, hl, hm⟩ := h.op o op h1
    exact h.ofPC _ h1 (active_of_pc h2 (by simp)) hl trivial (by rw [h2]; simp) ⟨_, hl, trivial⟩
  | @useFail o op ep x e h1 h2 h3 h4 =>
    obtain ⟨l, hl, hm⟩ := h.op o op h1
    rw [h2] at hm
    obtain ⟨⟨x', hx', hxg⟩, _⟩ := hm
    rw [h4] at hx'
    obtain rfl := Option.some.inj hx'
    obtain ⟨g1, g2⟩ := h.link _ l hl
    have hact := active_of_pc h2 (by simp)
    refine h.ofOp (l' := l) h1 hact hl (pc := .failing (.wrap "error" e)) (setOp_get' rfl h1)
      (links_same hl) (EpsKeep.refl s) rfl rfl (fun _ _ h => Or.inl h) (Or.inr ⟨x.gen, Or.inr (Or.inl rfl)⟩) ?_ (g1.mono (EpsKeep.refl s) (Nat.le_refl _)) ?_
    · exact ⟨l, hl, Or.inr (Or.inr (by simp [hxg]))⟩
    · refine ⟨?_, ?_⟩
      · intro g' hh
        simp only [List.mem_append, List.mem_singleton, CtrEv.fail.injEq, reduceCtorEq, or_false] at hh
        rcases hh with h | h | h
        · exact g2.use g' (Or.inl h)
        · exact g2.use g' (Or.inr h)
        · rw [h.2, hxg]; exact Nat.le_refl _
      · intro g' hh
        have hh' : CtrEv.reported op.link g' ∈ evs := by simpa using hh
        obtain ⟨hf, hd⟩ := g2.reported g' hh'
        refine ⟨List.mem_append_left _ hf, hd.imp_right fun hd => ⟨hd.1, hd.2.imp_right fun ⟨o1, op1, e, f1, f2, f3⟩ => ⟨o1, op1, e, ?_, f2, f3⟩⟩⟩
        rw [setOp_get, if_neg]
        · exact f1
        · rintro rfl
          rw [h1] at f1
          obtain rfl := Option.some.inj f1
          rw [h2] at f3; cases f3
  | @acceptFail o op ep e h1 h2 h3 =>
    obtain ⟨l, hl, hm⟩ := h.op o op h1
    exact h.ofPC _ h1 (active_of_pc h2 (by simp)) hl trivial (by rw [h2]; simp) ⟨_, hl, trivial⟩
  | @benign o op e h1 h2 h3 =>
    obtain ⟨l, hl, hm⟩ := h.op o op h1
    exact h.ofPC _ h1 (active_of_pc h2 (by simp)) hl trivial (by rw [h2]; simp) ⟨_, hl, trivial⟩
  | @prepare o op l e h1 h2 h3 h4 h5 =>
    obtain ⟨l', hl, hm⟩ := h.op o op h1
    rw [h5] at hl
    obtain rfl := Option.some.inj hl
    rw [h2] at hm
    refine h.ofPC _ h1 (active_of_pc h2 (by simp)) h5 trivial (by rw [h2]; simp) ⟨_, h5, rfl, ?_⟩
    rcases hm with hm | hm | hm
    · rw [h3] at hm; cases hm
    · rw [h4] at hm; cases hm
    · exact List.mem_append_left _ hm
  | @report o op g e h1 h2 h3 =>
    obtain ⟨l, hl, hm⟩ := h.op o op h1
    rw [h2] at hm
    obtain ⟨g1, g2⟩ := h.link _ l hl
    have hact := active_of_pc h2 (by simp)
    have hfind : (({ s with errs := s.errs ++ [(g, e)] } : Ctr).setOp o (.clearing e)).ops[o]? = some { op with pc := .clearing e } := by
      exact (setOp_get' (s := s) (s1 := { s with errs := s.errs ++ [(g, e)] }) rfl h1 o).trans (if_pos rfl)
    refine h.ofOp (l' := l) h1 hact hl (pc := .clearing e) (setOp_get' rfl h1)
      (links_same hl) (EpsKeep.refl s) rfl rfl ?_ (Or.inr ⟨g, Or.inr (Or.inr rfl)⟩) ⟨l, hl, trivial⟩ (g1.mono (EpsKeep.refl s) (Nat.le_refl _)) ?_
    · intro g' e' hh
      have hh' : (g', e') ∈ s.errs ++ [(g, e)] := hh
      rw [List.mem_append, List.mem_singleton] at hh'
      rcases hh' with hh' | hh'
      · exact Or.inl hh'
      · cases hh'; exact Or.inr rfl
    · refine ⟨?_, ?_⟩
      · intro g' hh
        exact g2.use g' (by simpa using hh)
      · intro g' hh
        simp only [List.mem_append, List.mem_singleton, CtrEv.reported.injEq, true_and] at hh
        rcases hh with hh | rfl
        · obtain ⟨hf, hd⟩ := g2.reported g' hh
          exact ⟨List.mem_append_left _ hf, hd.imp_right fun hd => ⟨hd.1, Or.inr ⟨o, _, e, hfind, rfl, rfl⟩⟩⟩
        · exact ⟨List.mem_append_left _ hm.2, Or.inr ⟨hm.1, Or.inr ⟨o, _, e, hfind, rfl, rfl⟩⟩⟩
  | @clear o op l e h1 h2 h3 =>
    obtain ⟨g1, g2⟩ := h.link _ l h3
    have hq : Quiet (.step o) := trivial
    refine h.ofOp (l' := { l with curr := none, ep := none }) h1 (active_of_pc h2 (by simp)) h3 (pc := .leaving (some e)) (setOp_get' rfl h1)
      (fun j => setLink_get h3) (EpsKeep.refl s) rfl (by simp [Ctr.setLink]) (fun _ _ h => Or.inl h) (Or.inl hq) ?_ ?_ ?_
    · exact ⟨_, (setLink_get h3).trans (if_pos rfl), trivial⟩
    · exact ⟨g1.le, fun g hg => (by cases hg), fun e he => (by cases he)⟩
    · refine ⟨?_, ?_⟩
      · intro g' hh
        rw [hq.use, hq.fail] at hh
        exact g2.use g' hh
      · intro g' hh
        rw [hq.reported] at hh
        rw [hq.fail]
        obtain ⟨hf, hd⟩ := g2.reported g' hh
        exact ⟨hf, hd.imp_right fun hd => ⟨hd.1, Or.inl rfl⟩⟩
  | @nextAgain o op e h1 h2 h3 h4 =>
    obtain ⟨l, hl, hm⟩ := h.op o op h1
    exact h.ofPC _ h1 (active_of_pc h2 (by simp)) hl trivial (by rw [h2]; simp) ⟨_, hl, trivial⟩
  | @ret o op r h1 h2 h3 =>
    obtain ⟨l, hl, hm⟩ := h.op o op h1
    exact h.ofPC _ h1 (active_of_pc h2 (by simp)) hl trivial (by rw [h2]; simp) ⟨_, hl, trivial⟩

theorem seqInv_init : SeqInv [] {} :=
  ⟨fun o1 _ op1 _ h => by simp at h, fun o op h => by simp at h, fun i l h => by simp at h, fun i g h => by simp at h, fun g e h => by simp at h⟩

theorem seqInv_run {P : LinkPolicy} (hP : P.overlap = false) {evs : List CtrEv} {s : Ctr} (h : Ctr.Run P {} evs s) : SeqInv evs s := by
  generalize hs0 : ({} : Ctr) = s0 at h
  induction h with
  | nil => subst hs0; exact seqInv_init
  | snoc _ _ hs ih => exact SeqInv.step hP ih hs

/-! ## Generations, for all uses of links -/

structure GenInv (evs : List CtrEv) (s : Ctr) : Prop where
  restart : ∀ g, CtrEv.restart g ∈ evs → g < s.gen ∨ (g = s.gen ∧ s.loop ≠ .serving)
  errs : ∀ g e, (g, e) ∈ s.errs → ∃ i, CtrEv.reported i g ∈ evs
  sess : ∀ g, CtrEv.session g ∈ evs ↔ 1 ≤ g ∧ g ≤ s.gen
  serving : s.loop = .serving → 1 ≤ s.gen

theorem genInv_step {P : LinkPolicy} {evs : List CtrEv} {s s' : Ctr} {ev : CtrEv} (h : GenInv evs s) (hs : Ctr.Step P s ev s') : GenInv (evs ++ [ev]) s' := by
  have frame : ∀ {s' : Ctr} {ev : CtrEv}, s'.gen = s.gen → (s'.loop = .serving → s.loop = .serving) →
      (∀ g e, (g, e) ∈ s'.errs → (g, e) ∈ s.errs ∨ ∃ i, ev = .reported i g) → (∀ g, ev ≠ .session g) → (∀ g, ev = .restart g → g = s.gen ∧ s'.loop ≠ .serving) →
      GenInv (evs ++ [ev]) s' := by
    intro s' ev hg hl he h1 h2
    refine ⟨?_, ?_, ?_, ?_⟩
    · intro g hh
      rw [List.mem_append, List.mem_singleton] at hh
      rw [hg]
      rcases hh with hh | rfl
      · rcases h.restart g hh with h3 | ⟨h3, h4⟩
        · exact Or.inl h3
        · exact Or.inr ⟨h3, fun h5 => h4 (hl h5)⟩
      · exact Or.inr (h2 g rfl)
    · intro g e hh
      rcases he g e hh with h3 | ⟨i, rfl⟩
      · obtain ⟨i, hi⟩ := h.errs g e h3
        exact ⟨i, List.mem_append_left _ hi⟩
      · exact ⟨i, by simp⟩
    · intro g
      rw [List.mem_append, List.mem_singleton, hg, h.sess g]
      constructor
      · rintro (h3 | rfl)
        · exact h3
        · exact absurd rfl (h1 g)
      · exact Or.inl
    · intro h3
      rw [hg]
      exact h.serving (hl h3)
  have plain : ∀ {s' : Ctr} {ev : CtrEv}, s'.gen = s.gen → (s'.loop = .serving → s.loop = .serving) → s'.errs = s.errs →
      (∀ g, ev ≠ .session g) → (∀ g, ev ≠ .restart g) → GenInv (evs ++ [ev]) s' := fun h1 h2 h3 h4 h5 =>
    frame h1 h2 (fun g e hh => Or.inl (by rw [h3] at hh; exact hh)) h4 (fun g hg => absurd hg (h5 g))
  cases hs with
  | @session c h1 =>
    refine ⟨?_, ?_, ?_, ?_⟩
    · intro g hh
      rw [List.mem_append, List.mem_singleton] at hh
      rcases hh with hh | hh
      · left
        show g < s.gen + 1
        rcases h.restart g hh with h3 | ⟨h3, _⟩ <;> omega
      · cases hh
    · intro g e hh
      obtain ⟨i, hi⟩ := h.errs g e hh
      exact ⟨i, List.mem_append_left _ hi⟩
    · intro g
      rw [List.mem_append, List.mem_singleton, h.sess g]
      show _ ↔ 1 ≤ g ∧ g ≤ s.gen + 1
      constructor
      · rintro (h3 | h3)
        · omega
        · cases h3; omega
      · intro h3
        by_cases h4 : g = s.gen + 1
        · exact Or.inr (by rw [h4])
        · exact Or.inl (by omega)
    · intro _
      show 1 ≤ s.gen + 1
      omega
  | @dropped g e rest h1 h2 h3 =>
    exact frame rfl (fun h => h) (fun g' e' hh => Or.inl (by rw [h2]; exact List.mem_cons_of_mem _ hh)) (by simp) (by simp)
  | @restart e rest msg h1 h2 =>
    refine frame rfl (fun h => by cases h) (fun g' e' hh => Or.inl (by rw [h2]; exact List.mem_cons_of_mem _ hh)) (by simp) ?_
    intro g hg
    cases hg
    exact ⟨rfl, by simp⟩
  | @report o op g e h1 h2 h3 =>
    refine frame rfl (fun h => h) (fun g' e' hh => ?_) (by simp) (by simp)
    have hh' : (g', e') ∈ s.errs ++ [(g, e)] := hh
    rw [List.mem_append, List.mem_singleton] at hh'
    rcases hh' with hh' | hh'
    · exact Or.inl hh'
    · cases hh'; exact Or.inr ⟨_, rfl⟩
  | _ => first
    | exact plain rfl (fun h => h) rfl (by simp) (by simp)
    | exact plain rfl (fun h => by cases h) rfl (by simp) (by simp)

theorem genInv_run {P : LinkPolicy} {evs : List CtrEv} {s : Ctr} (h : Ctr.Run P {} evs s) : GenInv evs s := by
  generalize hs0 : ({} : Ctr) = s0 at h
  induction h with
  | nil =>
    subst hs0
    exact ⟨fun g h => (by simp at h), fun g e h => (by simp at h), fun g => ⟨fun h => (by simp at h), fun h => (by have := h.1; have := h.2; simp at *; omega)⟩, fun h => (by simp at h)⟩
  | snoc _ _ hs ih => exact genInv_step ih hs

/-! ## Closed links -/

/-- What is known of an operation: the link is open while it works, unless `Close` may come in between; with operations that do not overlap, its session is there. -/
def OpOpen (P : LinkPolicy) (s : Ctr) (op : LOp) : Prop :=
  ∃ l, s.links[op.link]? = some l ∧
    (P.closeInUse = false → (match op.pc with | .waiting _ | .parked _ | .waking _ | .got _ | .ready | .inCall _ => l.closed = false | _ => True) ∧
      (P.overlap = false → op.pc = .ready → l.curr ≠ none))

structure CloseInv (P : LinkPolicy) (evs : List CtrEv) (s : Ctr) : Prop where
  op : ∀ (o : Nat) (op : LOp), s.ops[o]? = some op → OpOpen P s op
  closed : ∀ (i : Nat) (l : Lnk), s.links[i]? = some l → (l.closed = true ↔ CtrEv.close i ∈ evs)
  dom : ∀ i, CtrEv.close i ∈ evs → i < s.links.length

theorem setOp_cases {s : Ctr} {o o' : Nat} {op op' : LOp} {pc : OpPC} (h : s.ops[o]? = some op) (h' : (s.setOp o pc).ops[o']? = some op') :
    (o = o' ∧ op' = { op with pc := pc }) ∨ (o ≠ o' ∧ s.ops[o']? = some op') := by
  rw [setOp_get' rfl h] at h'
  by_cases e : o = o'
  · rw [if_pos e] at h'
    exact Or.inl ⟨e, (Option.some.inj h').symm⟩
  · rw [if_neg e] at h'
    exact Or.inr ⟨e, h'⟩

theorem closeInv_step {P : LinkPolicy} {evs : List CtrEv} {s s' : Ctr} {ev : CtrEv} (h : CloseInv P evs s) (hseq : P.overlap = false → SeqInv evs s)
    (hs : Ctr.Step P s ev s') : CloseInv P (evs ++ [ev]) s' := by
  have loop : ∀ {s' : Ctr} {ev : CtrEv}, s'.links = s.links → s'.ops = s.ops → (∀ i, ev ≠ .close i) → CloseInv P (evs ++ [ev]) s' := by
    intro s' ev h1 h2 h3
    refine ⟨?_, ?_, ?_⟩
    · intro o op ho
      rw [h2] at ho
      unfold OpOpen
      rw [h1]
      exact h.op o op ho
    · intro i l hl
      rw [h1] at hl
      rw [h.closed i l hl, List.mem_append, List.mem_singleton]
      exact ⟨Or.inl, fun hh => hh.resolve_right fun h4 => h3 i h4.symm⟩
    · intro i hh
      rw [List.mem_append, List.mem_singleton] at hh
      rw [h1]
      exact h.dom i (hh.resolve_right fun h4 => h3 i h4.symm)
  have toPC : ∀ {o : Nat} {op : LOp} {pc : OpPC} {ev : CtrEv}, s.ops[o]? = some op → (∀ i, ev ≠ .close i) → OpOpen P s { op with pc := pc } →
      CloseInv P (evs ++ [ev]) (s.setOp o pc) := by
    intro o op pc ev h1 h2 h3
    refine ⟨?_, ?_, ?_⟩
    · intro o' op' ho
      rcases setOp_cases h1 ho with ⟨_, rfl⟩ | ⟨_, h4⟩
      · exact h3
      · exact h.op o' op' h4
    · intro i l hl
      rw [h.closed i l hl, List.mem_append, List.mem_singleton]
      exact ⟨Or.inl, fun hh => hh.resolve_right fun h4 => h2 i h4.symm⟩
    · intro i hh
      rw [List.mem_append, List.mem_singleton] at hh
      exact h.dom i (hh.resolve_right fun h4 => h2 i h4.symm)
  -- an operation also changes its link, but not whether it is closed
  have toLink : ∀ {s' : Ctr} {o : Nat} {op : LOp} {pc : OpPC} {ev : CtrEv} {l l' : Lnk}, s.ops[o]? = some op → op.active = true → s.links[op.link]? = some l →
      (∀ i, ev ≠ .close i) → l'.closed = l.closed → (∀ o' : Nat, s'.ops[o']? = if o = o' then some { op with pc := pc } else s.ops[o']?) →
      (∀ j : Nat, s'.links[j]? = if op.link = j then some l' else s.links[j]?) → s'.links.length = s.links.length →
      (P.closeInUse = false → (match pc with | .waiting _ | .parked _ | .waking _ | .got _ | .ready | .inCall _ => l'.closed = false | _ => True) ∧
        (P.overlap = false → pc = .ready → l'.curr ≠ none)) → CloseInv P (evs ++ [ev]) s' := by
    intro s' o op pc ev l l' h1 hact h2 h3 h4 h5 h6 h7 h8
    refine ⟨?_, ?_, ?_⟩
    · intro o' op' ho
      rw [h5] at ho
      by_cases e : o = o'
      · rw [if_pos e] at ho
        obtain rfl := Option.some.inj ho
        exact ⟨l', by rw [h6]; exact if_pos rfl, h8⟩
      · rw [if_neg e] at ho
        obtain ⟨l0, hl0, hp⟩ := h.op o' op' ho
        by_cases e2 : op.link = op'.link
        · rw [← e2, h2] at hl0
          obtain rfl := Option.some.inj hl0
          refine ⟨l', by rw [h6]; exact if_pos e2, fun hc => ⟨?_, ?_⟩⟩
          · rw [h4]; exact (hp hc).1
          · intro ho2 hpc
            have := (hseq ho2).seq o o' op op' h1 ho e2 hact (active_of_pc hpc (by simp))
            exact absurd this e
        · exact ⟨l0, by rw [h6, if_neg e2]; exact hl0, hp⟩
    · intro i li hl
      rw [h6] at hl
      have hcl : li.closed = true ↔ CtrEv.close i ∈ evs := by
        by_cases e : op.link = i
        · rw [if_pos e] at hl
          obtain rfl := Option.some.inj hl
          rw [h4, ← e]; exact h.closed _ l h2
        · rw [if_neg e] at hl
          exact h.closed i li hl
      rw [hcl, List.mem_append, List.mem_singleton]
      exact ⟨Or.inl, fun hh => hh.resolve_right fun h4 => h3 i h4.symm⟩
    · intro i hh
      rw [List.mem_append, List.mem_singleton] at hh
      rw [h7]
      exact h.dom i (hh.resolve_right fun h4 => h3 i h4.symm)
  cases hs with
  | @newLink sender h1 =>
    refine ⟨?_, ?_, ?_⟩
    · intro o op ho
      obtain ⟨l, hl, hp⟩ := h.op o op ho
      refine ⟨l, ?_, hp⟩
      show (s.links ++ [_])[op.link]? = _
      rw [List.getElem?_append_left (List.getElem?_eq_some_iff.mp hl).1]; exact hl
    · intro i l hl
      have h2 : CtrEv.close i ∈ evs ++ [.newLink s.links.length] ↔ CtrEv.close i ∈ evs := by simp
      rw [h2]
      have hl' : (s.links ++ [_])[i]? = some l := hl
      by_cases e : i < s.links.length
      · rw [List.getElem?_append_left e] at hl'
        exact h.closed i l hl'
      · have hlt := (List.getElem?_eq_some_iff.mp hl').1
        simp only [List.length_append, List.length_singleton] at hlt
        have : i = s.links.length := by omega
        subst this
        rw [List.getElem?_append_right (Nat.le_refl _)] at hl'
        simp only [Nat.sub_self, List.getElem?_cons_zero, Option.some.injEq] at hl'
        subst hl'
        exact ⟨fun h => (by cases h), fun hh => absurd (h.dom _ hh) e⟩
    · intro i hh
      have := h.dom i (by simpa using hh)
      show i < (s.links ++ [_]).length
      simp only [List.length_append, List.length_singleton]; omega
  | @call l i k ctx h1 h2 h3 h4 =>
    refine ⟨?_, ?_, ?_⟩
    · intro o op ho
      have ho' : (s.ops ++ [_])[o]? = some op := ho
      by_cases e : o < s.ops.length
      · rw [List.getElem?_append_left e] at ho'
        exact h.op o op ho'
      · have hlt := (List.getElem?_eq_some_iff.mp ho').1
        simp only [List.length_append, List.length_singleton] at hlt
        have : o = s.ops.length := by omega
        subst this
        rw [List.getElem?_append_right (Nat.le_refl _)] at ho'
        simp only [Nat.sub_self, List.getElem?_cons_zero, Option.some.injEq] at ho'
        subst ho'
        exact ⟨l, h1, fun _ => ⟨trivial, fun _ h => by cases h⟩⟩
    · intro j lj hj
      rw [h.closed j lj hj]
      simp
    · intro j hh
      exact h.dom j (by simpa using hh)
  | @cancelOp op o e h1 h2 h3 =>
    refine ⟨?_, ?_, ?_⟩
    · intro o' op' ho
      have hlt : o < s.ops.length := (List.getElem?_eq_some_iff.mp h2).1
      have ho' : (s.ops.set o { op with ctx := some e })[o']? = some op' := ho
      rw [List.getElem?_set] at ho'
      by_cases e1 : o = o'
      · simp only [e1, if_true] at ho'
        rw [if_pos (e1 ▸ hlt)] at ho'
        obtain rfl := Option.some.inj ho'
        exact h.op o op h2
      · rw [if_neg e1] at ho'
        exact h.op o' op' ho'
    · intro j lj hj
      rw [h.closed j lj hj]
      simp
    · intro j hh
      exact h.dom j (by simpa using hh)
  | @close l i h1 h2 =>
    have hget : ∀ j : Nat, (s.setLink i { l with closed := true, curr := none, ep := none }).links[j]? =
        if i = j then some { l with closed := true, curr := none, ep := none } else s.links[j]? := fun j => setLink_get h1
    refine ⟨?_, ?_, ?_⟩
    · intro o op ho
      obtain ⟨l0, hl0, hp⟩ := h.op o op ho
      by_cases e : i = op.link
      · refine ⟨_, (hget op.link).trans (if_pos e), fun hc => ?_⟩
        have hfree := inUse_false.mp (h2 hc) o op ho e.symm
        cases hpc : op.pc <;> simp [LOp.active, hpc] at hfree
        exact ⟨trivial, fun _ h => by cases h⟩
      · exact ⟨l0, ((hget op.link).trans (if_neg e)).trans hl0, hp⟩
    · intro j lj hj
      have hj' := (hget j).symm.trans hj
      by_cases e : i = j
      · rw [if_pos e] at hj'
        obtain rfl := Option.some.inj hj'
        exact ⟨fun _ => by rw [e]; simp, fun _ => rfl⟩
      · rw [if_neg e] at hj'
        rw [h.closed j lj hj']
        simp only [List.mem_append, List.mem_singleton, CtrEv.close.injEq]
        exact ⟨Or.inl, fun hh => hh.resolve_right fun h4 => e h4.symm⟩
    · intro j hh
      show j < (s.links.set i _).length
      rw [List.length_set]
      simp only [List.mem_append, List.mem_singleton, CtrEv.close.injEq] at hh
      rcases hh with hh | rfl
      · exact h.dom j hh
      · exact (List.getElem?_eq_some_iff.mp h1).1
  | @startClosed o op l h1 h2 h3 h4 => exact toPC h1 (by simp) ⟨l, h3, fun _ => ⟨trivial, fun _ h => by cases h⟩⟩
  | @startHas o op l g h1 h2 h3 h4 h5 => exact toPC h1 (by simp) ⟨l, h3, fun _ => ⟨h4, fun _ _ => by rw [h5]; simp⟩⟩
  | @startWait o op l h1 h2 h3 h4 h5 => exact toPC h1 (by simp) ⟨l, h3, fun _ => ⟨h4, fun _ h => by cases h⟩⟩
  | @waited o op prev h1 h2 h3 h4 =>
    obtain ⟨l, hl, hp⟩ := h.op o op h1
    rw [h2] at hp
    exact toPC h1 (by simp) ⟨l, hl, fun hc => ⟨(hp hc).1, fun _ h => by cases h⟩⟩
  | @woken o op prev h1 h2 h3 h4 =>
    obtain ⟨l, hl, hp⟩ := h.op o op h1
    rw [h2] at hp
    exact toPC h1 (by simp) ⟨l, hl, fun hc => ⟨(hp hc).1, fun _ h => by cases h⟩⟩
  | @park o op prev h1 h2 h3 h4 =>
    obtain ⟨l, hl, hp⟩ := h.op o op h1
    rw [h2] at hp
    exact toPC h1 (by simp) ⟨l, hl, fun hc => ⟨(hp hc).1, fun _ h => by cases h⟩⟩
  | @wake o op prev h1 h2 h3 =>
    obtain ⟨l, hl, hp⟩ := h.op o op h1
    rw [h2] at hp
    exact toPC h1 (by simp) ⟨l, hl, fun hc => ⟨(hp hc).1, fun _ h => by cases h⟩⟩
  | @waitCancelled o op prev e h1 h2 h4 =>
    obtain ⟨l, hl, hp⟩ := h.op o op h1
    exact toPC h1 (by simp) ⟨l, hl, fun hc => ⟨trivial, fun _ h => by cases h⟩⟩
  | @take o op l g h1 h2 h3 =>
    obtain ⟨l0, hl, hp⟩ := h.op o op h1
    rw [h3] at hl
    obtain rfl := Option.some.inj hl
    rw [h2] at hp
    refine toLink (l' := { l with curr := some g, currGen := g }) (pc := .ready) h1 (active_of_pc h2 (by simp)) h3 (by simp) rfl (setOp_get' rfl h1) (fun j => setLink_get h3)
      (by simp [Ctr.setLink]) (fun hc => ⟨(hp hc).1, fun _ _ => by simp⟩)
  | @reuse o op l ep x h1 h2 h3 h4 h5 h6 =>
    obtain ⟨l0, hl, hp⟩ := h.op o op h1
    rw [h2] at hp
    exact toPC h1 (by simp) ⟨l0, hl, fun hc => ⟨(hp hc).1, fun _ h => by cases h⟩⟩
  | @attach o op l g h1 h2 h3 h4 h5 =>
    obtain ⟨l0, hl, hp⟩ := h.op o op h1
    rw [h3] at hl
    obtain rfl := Option.some.inj hl
    rw [h2] at hp
    exact toLink (l' := { l with ep := some s.eps.length, epGen := l.currGen }) (pc := .inCall s.eps.length) h1 (active_of_pc h2 (by simp)) h3 (by simp) rfl
      (setOp_get' rfl h1) (fun j => setLink_get (s := { s with eps := _ }) h3) (by simp [Ctr.setLink]) (fun hc => ⟨(hp hc).1, fun _ h => by cases h⟩)
  | @attachFail o op l g e h1 h2 h3 h4 h5 => exact toPC h1 (by simp) ⟨l, h3, fun _ => ⟨trivial, fun _ h => by cases h⟩⟩
  | @useOk o op ep h1 h2 =>
    obtain ⟨l, hl, hp⟩ := h.op o op h1
    exact toPC h1 (by simp) ⟨l, hl, fun hc => ⟨trivial, fun _ h => by cases h⟩⟩
  | @useFail o op ep x e h1 h2 h3 h4 =>
    obtain ⟨l, hl, hp⟩ := h.op o op h1
    exact toPC h1 (by simp) ⟨l, hl, fun hc => ⟨trivial, fun _ h => by cases h⟩⟩
  | @acceptFail o op ep e h1 h2 h3 =>
    obtain ⟨l, hl, hp⟩ := h.op o op h1
    exact toPC h1 (by simp) ⟨l, hl, fun hc => ⟨trivial, fun _ h => by cases h⟩⟩
  | @benign o op e h1 h2 h3 =>
    obtain ⟨l, hl, hp⟩ := h.op o op h1
    exact toPC h1 (by simp) ⟨l, hl, fun hc => ⟨trivial, fun _ h => by cases h⟩⟩
  | @prepare o op l e h1 h2 h3 h4 h5 => exact toPC h1 (by simp) ⟨l, h5, fun hc => ⟨trivial, fun _ h => by cases h⟩⟩
  | @report o op g e h1 h2 h3 =>
    obtain ⟨l, hl, hp⟩ := h.op o op h1
    exact toLink (l' := l) (pc := .clearing e) h1 (active_of_pc h2 (by simp)) hl (by simp) rfl (setOp_get' rfl h1) (links_same hl) rfl
      (fun hc => ⟨trivial, fun _ h => by cases h⟩)
  | @clear o op l e h1 h2 h3 =>
    exact toLink (l' := { l with curr := none, ep := none }) (pc := .leaving (some e)) h1 (active_of_pc h2 (by simp)) h3 (by simp) rfl (setOp_get' rfl h1)
      (fun j => setLink_get h3) (by simp [Ctr.setLink]) (fun hc => ⟨trivial, fun _ h => by cases h⟩)
  | @nextAgain o op e h1 h2 h3 h4 =>
    obtain ⟨l, hl, hp⟩ := h.op o op h1
    exact toPC h1 (by simp) ⟨l, hl, fun hc => ⟨trivial, fun _ h => by cases h⟩⟩
  | @ret o op r h1 h2 h3 =>
    obtain ⟨l, hl, hp⟩ := h.op o op h1
    exact toPC h1 (by simp) ⟨l, hl, fun hc => ⟨trivial, fun _ h => by cases h⟩⟩
  | _ => exact loop rfl rfl (by simp)

theorem closeInv_run {P : LinkPolicy} {evs : List CtrEv} {s : Ctr} (h : Ctr.Run P {} evs s) : CloseInv P evs s := by
  generalize hs0 : ({} : Ctr) = s0 at h
  induction h with
  | nil =>
    subst hs0
    exact ⟨fun o op h => (by simp at h), fun i l h => (by simp at h), fun i h => (by simp at h)⟩
  | snoc hr _ hs ih => subst hs0; exact closeInv_step ih (fun hP => seqInv_run hP hr) hs

/-! ## One operation -/

/-- How an operation moves on by itself. -/
inductive PcStep (s : Ctr) (op : LOp) : OpPC → Prop where
  | startClosed {l : Lnk} : op.pc = .start → s.links[op.link]? = some l → l.closed = true → PcStep s op (.failing (.wrap "session await error" .linkClosed))
  | startHas {l : Lnk} : op.pc = .start → s.links[op.link]? = some l → l.closed = false → l.curr ≠ none → PcStep s op .ready
  | startWait {l : Lnk} : op.pc = .start → s.links[op.link]? = some l → l.closed = false → l.curr = none → PcStep s op (.waiting l.currGen)
  | waited {prev : Nat} : op.pc = .waiting prev → s.muHeld = false → s.gen ≠ prev → PcStep s op (.got s.gen)
  | park {prev : Nat} : op.pc = .waiting prev → s.muHeld = false → s.gen = prev → PcStep s op (.parked prev)
  | wake {prev : Nat} : op.pc = .parked prev → s.gen ≠ prev → PcStep s op (.waking prev)
  | woken {prev : Nat} : op.pc = .waking prev → s.muHeld = false → s.gen ≠ prev → PcStep s op (.got s.gen)
  | waitCancelled {prev : Nat} {e : GoErr} : op.pc = .parked prev → op.ctx = some e → PcStep s op (.failing (.wrap "session await error" e))
  | take {g : Nat} : op.pc = .got g → PcStep s op .ready
  | call {ep : Nat} : op.pc = .ready → PcStep s op (.inCall ep)
  | attachFail {e : GoErr} : op.pc = .ready → errorsIs (some e) (some .linkClosed) = false → PcStep s op (.failing e)
  | useOk {ep : Nat} : op.pc = .inCall ep → PcStep s op (.leaving none)
  | useFail {ep : Nat} {e : GoErr} : op.pc = .inCall ep → op.kind ≠ .accept → errorsIs (some e) (some .linkClosed) = false → PcStep s op (.failing e)
  | acceptFail {ep : Nat} {e : GoErr} : op.pc = .inCall ep → op.kind = .accept → errorsIs (some e) (some .linkClosed) = false → PcStep s op (.leaving (some e))
  | benign {e : GoErr} : op.pc = .failing e → (errorsIs (some e) op.ctx = true ∨ errorsIs (some e) (some .linkClosed) = true) → PcStep s op (.leaving (some e))
  | prepare {e : GoErr} {g : Nat} : op.pc = .failing e → errorsIs (some e) op.ctx = false → errorsIs (some e) (some .linkClosed) = false → PcStep s op (.reporting g e)
  | report {g : Nat} {e : GoErr} : op.pc = .reporting g e → s.errs.length < sessionErrorsCap → PcStep s op (.clearing e)
  | clear {e : GoErr} : op.pc = .clearing e → PcStep s op (.leaving (some e))
  | nextAgain {e : GoErr} : op.pc = .leaving (some e) → op.kind = .next → op.ctx = none → PcStep s op .start
  | ret {r : Option GoErr} : op.pc = .leaving r → (op.kind = .next → r = none ∨ op.ctx ≠ none) → PcStep s op (.done r)

theorem wrap_closed {e : GoErr} {msg : String} (h : errorsIs (some e) (some .linkClosed) = false) : errorsIs (some (.wrap msg e)) (some .linkClosed) = false := by
  simpa [errorsIs, GoErr.is] using h

/-- What a step can do to an operation. -/
theorem op_view {P : LinkPolicy} {s s' : Ctr} {ev : CtrEv} {o : Nat} {op : LOp} (hs : Ctr.Step P s ev s') (ho : s.ops[o]? = some op) :
    ∃ op', s'.ops[o]? = some op' ∧ op'.link = op.link ∧ op'.kind = op.kind ∧
      ((op' = op ∧ ∀ r, ev ≠ .ret o r) ∨ (∃ e, ev = .cancelOp o e ∧ op.ctx = none ∧ op' = { op with ctx := some e }) ∨
        (op'.ctx = op.ctx ∧ PcStep s op op'.pc ∧ ∀ r, ev = .ret o r → op'.pc = .done r)) := by
  have same : ∀ {s' : Ctr} {ev : CtrEv}, s'.ops = s.ops → (∀ r, ev ≠ .ret o r) → ∃ op', s'.ops[o]? = some op' ∧ op'.link = op.link ∧ op'.kind = op.kind ∧
      ((op' = op ∧ ∀ r, ev ≠ .ret o r) ∨ (∃ e, ev = .cancelOp o e ∧ op.ctx = none ∧ op' = { op with ctx := some e }) ∨
        (op'.ctx = op.ctx ∧ PcStep s op op'.pc ∧ ∀ r, ev = .ret o r → op'.pc = .done r)) :=
    fun h0 h1 => ⟨op, by rw [h0]; exact ho, rfl, rfl, Or.inl ⟨rfl, h1⟩⟩
  have move : ∀ {o1 : Nat} {op1 : LOp} {pc : OpPC} {s1 : Ctr} {ev : CtrEv}, s1.ops = s.ops → s.ops[o1]? = some op1 → PcStep s op1 pc →
      (∀ r, ev = .ret o r → o1 = o ∧ pc = .done r) →
      ∃ op', (s1.setOp o1 pc).ops[o]? = some op' ∧ op'.link = op.link ∧ op'.kind = op.kind ∧
      ((op' = op ∧ ∀ r, ev ≠ .ret o r) ∨ (∃ e, ev = .cancelOp o e ∧ op.ctx = none ∧ op' = { op with ctx := some e }) ∨
        (op'.ctx = op.ctx ∧ PcStep s op op'.pc ∧ ∀ r, ev = .ret o r → op'.pc = .done r)) := by
    intro o1 op1 pc s1 ev h0 h1 h2 h3
    by_cases e1 : o1 = o
    · subst e1
      rw [ho] at h1
      obtain rfl := Option.some.inj h1
      exact ⟨{ op with pc := pc }, (setOp_get' h0 ho o1).trans (if_pos rfl), rfl, rfl, Or.inr (Or.inr ⟨rfl, h2, fun r hr => (h3 r hr).2⟩)⟩
    · exact ⟨op, ((setOp_get' h0 h1 o).trans (if_neg e1)).trans ho, rfl, rfl, Or.inl ⟨rfl, fun r hr => e1 (h3 r hr).1⟩⟩
  cases hs with
  | @call l i k ctx h1 h2 h3 h4 =>
    refine ⟨op, ?_, rfl, rfl, Or.inl ⟨rfl, by simp⟩⟩
    show (s.ops ++ [_])[o]? = _
    rw [List.getElem?_append_left (List.getElem?_eq_some_iff.mp ho).1]; exact ho
  | @cancelOp op1 o1 e1 h1 h2 h3 =>
    by_cases e2 : o1 = o
    · subst e2
      rw [ho] at h2
      obtain rfl := Option.some.inj h2
      refine ⟨{ op with ctx := some e1 }, ?_, rfl, rfl, Or.inr (Or.inl ⟨e1, rfl, h3, rfl⟩)⟩
      show (s.ops.set o1 _)[o1]? = _
      rw [List.getElem?_set, if_pos rfl, if_pos (List.getElem?_eq_some_iff.mp ho).1]
    · refine ⟨op, ?_, rfl, rfl, Or.inl ⟨rfl, by simp⟩⟩
      show (s.ops.set o1 _)[o]? = _
      rw [List.getElem?_set, if_neg e2]; exact ho
  | startClosed h1 h2 h3 h4 => exact move rfl h1 (.startClosed h2 h3 h4) (by simp)
  | startHas h1 h2 h3 h4 h5 => exact move rfl h1 (.startHas h2 h3 h4 (by rw [h5]; simp)) (by simp)
  | startWait h1 h2 h3 h4 h5 => exact move rfl h1 (.startWait h2 h3 h4 h5) (by simp)
  | waited h1 h2 h3 h4 => exact move rfl h1 (.waited h2 h3 h4) (by simp)
  | park h1 h2 h3 h4 => exact move rfl h1 (.park h2 h3 h4) (by simp)
  | wake h1 h2 h3 => exact move rfl h1 (.wake h2 h3) (by simp)
  | woken h1 h2 h3 h4 => exact move rfl h1 (.woken h2 h3 h4) (by simp)
  | waitCancelled h1 h2 h3 => exact move rfl h1 (.waitCancelled h2 h3) (by simp)
  | take h1 h2 h3 => exact move (s1 := s.setLink _ _) rfl h1 (.take h2) (by simp)
  | reuse h1 h2 => exact move rfl h1 (.call h2) (by simp)
  | @attach o1 op1 l g h1 h2 h3 =>
    exact move (s1 := ({ s with eps := s.eps ++ [{ gen := g, link := op1.link, open_ := s.sessionOpen g }] } : Ctr).setLink op1.link
      { l with ep := some s.eps.length, epGen := l.currGen }) rfl h1 (.call h2) (by simp)
  | attachFail e1 h1 h2 h3 h4 h5 h6 => exact move rfl h1 (.attachFail h2 (wrap_closed h6)) (by simp)
  | useOk h1 h2 => exact move rfl h1 (.useOk h2) (by simp)
  | useFail e1 h1 h2 h3 h4 h5 => exact move rfl h1 (.useFail h2 h3 (wrap_closed h5)) (by simp)
  | acceptFail e1 h1 h2 h3 h4 => exact move rfl h1 (.acceptFail h2 h3 h4) (by simp)
  | benign h1 h2 h3 => exact move rfl h1 (.benign h2 h3) (by simp)
  | prepare h1 h2 h3 h4 h5 => exact move rfl h1 (.prepare h2 h3 h4) (by simp)
  | report h1 h2 h3 => exact move (s1 := { s with errs := s.errs ++ [(_, _)] }) rfl h1 (.report h2 h3) (by simp)
  | clear h1 h2 h3 => exact move (s1 := s.setLink _ _) rfl h1 (.clear h2) (by simp)
  | nextAgain h1 h2 h3 h4 => exact move rfl h1 (.nextAgain h2 h3 h4) (by simp)
  | ret h1 h2 h3 => exact move rfl h1 (.ret h2 h3) (by intro r hr; cases hr; exact ⟨rfl, rfl⟩)
  | _ => exact same rfl (by simp)

/-- Links stay, and a closed one stays closed. -/
theorem link_view {P : LinkPolicy} {s s' : Ctr} {ev : CtrEv} {i : Nat} {l : Lnk} (hs : Ctr.Step P s ev s') (hl : s.links[i]? = some l) :
    ∃ l', s'.links[i]? = some l' ∧ l'.sender = l.sender ∧ (l.closed = true → l'.closed = true) := by
  have set : ∀ {s1 : Ctr} {j : Nat} {lj l1 : Lnk}, s.links[j]? = some lj → s1.links = s.links → l1.sender = lj.sender → (lj.closed = true → l1.closed = true) →
      ∃ l', (s1.setLink j l1).links[i]? = some l' ∧ l'.sender = l.sender ∧ (l.closed = true → l'.closed = true) := by
    intro s1 j lj l1 h1 h2 h3 h4
    have hg := setLink_get (s := s1) (i := j) (j := i) (l := l1) (x := lj) (by rw [h2]; exact h1)
    by_cases e : j = i
    · subst e
      rw [hl] at h1
      obtain rfl := Option.some.inj h1
      exact ⟨l1, hg.trans (if_pos rfl), h3, h4⟩
    · exact ⟨l, (hg.trans (if_neg e)).trans (by rw [h2]; exact hl), rfl, fun h => h⟩
  cases hs with
  | @newLink sender h1 =>
    refine ⟨l, ?_, rfl, fun h => h⟩
    show (s.links ++ [_])[i]? = _
    rw [List.getElem?_append_left (List.getElem?_eq_some_iff.mp hl).1]; exact hl
  | close j h1 h2 => exact set h1 rfl rfl (fun _ => rfl)
  | take h1 h2 h3 => exact set h3 rfl rfl (fun h => h)
  | attach h1 h2 h3 => exact set (s1 := { s with eps := _ }) h3 rfl rfl (fun h => h)
  | clear h1 h2 h3 => exact set h3 rfl rfl (fun h => h)
  | _ => exact ⟨l, hl, rfl, fun h => h⟩

/-- How far an operation still has to go. -/
def opRank : OpPC → Nat
  | .start => 11
  | .waiting _ => 10
  | .parked _ => 9
  | .waking _ => 8
  | .got _ => 7
  | .ready => 6
  | .inCall _ => 5
  | .failing _ => 4
  | .reporting _ _ => 3
  | .clearing _ => 2
  | .leaving _ => 1
  | .done _ => 0

/-- The generation does not decrease. -/
theorem gen_mono {P : LinkPolicy} {s s' : Ctr} {ev : CtrEv} (hs : Ctr.Step P s ev s') : s.gen ≤ s'.gen := by
  cases hs with
  | session h => exact Nat.le_succ _
  | _ => exact Nat.le_refl _

/-- An operation that was woken finds a new generation. -/
theorem waking_lt {P : LinkPolicy} {evs : List CtrEv} {s : Ctr} (h : Ctr.Run P {} evs s) : ∀ (o : Nat) (op : LOp) (prev : Nat), s.ops[o]? = some op →
    (op.pc = .parked prev → prev ≤ s.gen) ∧ (op.pc = .waking prev → prev < s.gen) := by
  generalize hs0 : ({} : Ctr) = s0 at h
  induction h with
  | nil => subst hs0; intro o op prev h; simp at h
  | @snoc s s' evs ev hr hc hs ih =>
    intro o op' prev ho
    have hg := gen_mono hs
    cases hp : s.ops[o]? with
    | none =>
      have hst : op'.pc = .start := by
        cases hs with
        | @call l i k ctx h1 h2 h3 h4 =>
          have ho' : (s.ops ++ [_])[o]? = some op' := ho
          rw [List.getElem?_append_right (List.getElem?_eq_none_iff.mp hp)] at ho'
          have := List.mem_of_getElem? ho'
          rw [List.mem_singleton] at this
          rw [this]
        | @cancelOp op1 o1 e1 h1 h2 h3 =>
          have ho' : (s.ops.set o1 _)[o]? = some op' := ho
          rw [List.getElem?_eq_none_iff] at hp
          have := (List.getElem?_eq_some_iff.mp ho').1
          rw [List.length_set] at this
          omega
        | _ =>
          exfalso
          have h5 := (List.getElem?_eq_some_iff.mp ho).1
          have h6 := List.getElem?_eq_none_iff.mp hp
          have len : ∀ (s1 : Ctr) (o1 : Nat) (pc : OpPC), s1.ops = s.ops → (s1.setOp o1 pc).ops.length = s.ops.length := by
            intro s1 o1 pc h7
            simp [Ctr.setOp, h7]
          first
          | exact absurd h5 (Nat.not_lt.mpr h6)
          | exact absurd (Nat.lt_of_lt_of_eq h5 (len _ _ _ rfl)) (Nat.not_lt.mpr h6)
      constructor <;> intro hh <;> rw [hst] at hh <;> cases hh
    | some op =>
      obtain ⟨op2, g1, g2, g3, g4⟩ := op_view hs hp
      rw [ho] at g1
      obtain rfl := Option.some.inj g1
      obtain ⟨i1, i2⟩ := ih o op prev hp
      rcases g4 with ⟨rfl, _⟩ | ⟨e, rfl, _, rfl⟩ | ⟨h, hpc', _⟩
      · exact ⟨fun hh => Nat.le_trans (i1 hh) hg, fun hh => Nat.lt_of_lt_of_le (i2 hh) hg⟩
      · exact ⟨fun hh => Nat.le_trans (i1 hh) hg, fun hh => Nat.lt_of_lt_of_le (i2 hh) hg⟩
      · generalize op'.pc = pc at hpc'
        cases hpc' with
        | park h1 h2 h3 => exact ⟨fun hh => (by cases hh; omega), fun hh => (by cases hh)⟩
        | wake h1 h2 => exact ⟨fun hh => (by cases hh), fun hh => (by cases hh; have := i1 h1; omega)⟩
        | _ => exact ⟨fun hh => (by cases hh), fun hh => (by cases hh)⟩

/-! ## Resources -/

structure ResInv (s : Ctr) : Prop where
  conn : ∀ c ∈ s.conns, c.open_ = true → ∀ g, c.gen = some g → g = s.gen ∧ s.loop ≠ .ended
  ep : ∀ x ∈ s.eps, x.open_ = true → x.gen = s.gen ∧ s.loop ≠ .ended
  link : ∀ (i : Nat) (l : Lnk), s.links[i]? = some l → ∀ e, l.ep = some e → e < s.eps.length
  opening : ∀ c, s.loop = .opening c → c < s.conns.length

theorem resInv_step {P : LinkPolicy} {s s' : Ctr} {ev : CtrEv} (h : ResInv s) (hs : Ctr.Step P s ev s') : ResInv s' := by
  have loop : ∀ {s' : Ctr}, s'.conns = s.conns → s'.eps = s.eps → s'.links = s.links → s'.gen = s.gen → (s'.loop = .ended → s.loop = .ended) →
      (∀ c, s'.loop = .opening c → s.loop = .opening c) → ResInv s' := by
    intro s' h1 h2 h3 h4 h5 h6
    refine ⟨?_, ?_, ?_, ?_⟩
    · intro c hc ho g hg
      rw [h1] at hc
      obtain ⟨a, b⟩ := h.conn c hc ho g hg
      exact ⟨by rw [h4]; exact a, fun h => b (h5 h)⟩
    · intro x hx ho
      rw [h2] at hx
      obtain ⟨a, b⟩ := h.ep x hx ho
      exact ⟨by rw [h4]; exact a, fun h => b (h5 h)⟩
    · intro i l hl e he
      rw [h3] at hl
      rw [h2]
      exact h.link i l hl e he
    · intro c hc
      rw [h1]
      exact h.opening c (h6 c hc)
  have finish : ResInv ({ s with loop := .ended }.teardown s.gen) := by
    refine ⟨?_, ?_, ?_, ?_⟩
    · intro c hc ho g hg
      have hc' : c ∈ s.conns.map _ := hc
      rw [List.mem_map] at hc'
      obtain ⟨c0, hc0, rfl⟩ := hc'
      by_cases e : c0.gen = some s.gen
      · rw [if_pos e] at ho; cases ho
      · rw [if_neg e] at ho hg
        obtain ⟨a, _⟩ := h.conn c0 hc0 ho g hg
        exact absurd (by rw [hg, a]) e
    · intro x hx ho
      have hx' : x ∈ s.eps.map _ := hx
      rw [List.mem_map] at hx'
      obtain ⟨x0, hx0, rfl⟩ := hx'
      by_cases e : x0.gen = s.gen
      · rw [if_pos e] at ho; cases ho
      · rw [if_neg e] at ho
        exact absurd (h.ep x0 hx0 ho).1 e
    · intro i l hl e he
      have := h.link i l hl e he
      show e < (s.eps.map _).length
      simpa using this
    · intro c hc
      cases hc
  have setLinks : ∀ {s' : Ctr} {i : Nat} {l l' : Lnk}, s.links[i]? = some l → s'.conns = s.conns → s'.gen = s.gen → s'.loop = s.loop →
      (∀ x ∈ s'.eps, x.open_ = true → x.gen = s.gen ∧ s.loop ≠ .ended) → s.eps.length ≤ s'.eps.length →
      (∀ j : Nat, s'.links[j]? = if i = j then some l' else s.links[j]?) → (∀ e, l'.ep = some e → e < s'.eps.length) → ResInv s' := by
    intro s' i l l' h1 h2 h3 h4 h5 h6 h7 h8
    refine ⟨?_, ?_, ?_, ?_⟩
    · rw [h2, h3, h4]; exact h.conn
    · rw [h3, h4]; exact h5
    · intro j lj hj e he
      rw [h7] at hj
      by_cases e1 : i = j
      · rw [if_pos e1] at hj
        obtain rfl := Option.some.inj hj
        exact h8 e he
      · rw [if_neg e1] at hj
        exact Nat.lt_of_lt_of_le (h.link j lj hj e he) h6
    · rw [h2, h4]; exact h.opening
  cases hs with
  | @session c h1 =>
    have hno : ∀ x ∈ s.eps.map (fun e => if e.gen = s.gen then { e with open_ := false } else e), x.open_ = true → False := by
      intro x hx ho
      rw [List.mem_map] at hx
      obtain ⟨x0, hx0, rfl⟩ := hx
      by_cases e : x0.gen = s.gen
      · rw [if_pos e] at ho; cases ho
      · rw [if_neg e] at ho
        exact absurd (h.ep x0 hx0 ho).1 e
    refine ⟨?_, ?_, ?_, ?_⟩
    · intro x hx ho g hg
      refine ⟨?_, by simp⟩
      show g = s.gen + 1
      have hx' : x ∈ (s.conns.modify c fun x => { x with gen := some (s.gen + 1) }).map (fun c => if c.gen = some s.gen then { c with open_ := false } else c) := hx
      rw [List.mem_map] at hx'
      obtain ⟨x0, hx0, rfl⟩ := hx'
      by_cases e : x0.gen = some s.gen
      · rw [if_pos e] at ho; cases ho
      · rw [if_neg e] at ho hg
        obtain ⟨k, hk⟩ := List.getElem?_of_mem hx0
        rw [List.getElem?_modify] at hk
        by_cases e2 : c = k
        · cases h3 : s.conns[k]? with
          | none => simp [h3] at hk
          | some y =>
            simp only [h3, e2, if_true, Option.map_eq_map, Option.map_some, Option.some.injEq] at hk
            rw [← hk] at hg
            exact (Option.some.inj hg).symm
        · have hk' : s.conns[k]? = some x0 := by
            cases h3 : s.conns[k]? with
            | none => simp [h3] at hk
            | some y => simpa [h3, e2] using hk
          obtain ⟨a, _⟩ := h.conn x0 (List.mem_of_getElem? hk') ho g hg
          exact absurd (by rw [hg, a]) e
    · intro x hx ho
      exact (hno x hx ho).elim
    · intro i l hl e he
      have := h.link i l hl e he
      show e < (s.eps.map _).length
      simpa using this
    · intro c' hc'
      cases hc'
  | @dialOk h1 =>
    refine ⟨?_, ?_, h.link, ?_⟩
    · intro c hc ho g hg
      have hc' : c ∈ s.conns ++ [({} : Conn)] := hc
      rw [List.mem_append, List.mem_singleton] at hc'
      rcases hc' with hc' | rfl
      · obtain ⟨a, _⟩ := h.conn c hc' ho g hg
        exact ⟨a, by simp⟩
      · cases hg
    · intro x hx ho
      obtain ⟨a, _⟩ := h.ep x hx ho
      exact ⟨a, by simp⟩
    · intro c hc
      cases hc
      show _ < (s.conns ++ [_]).length
      simp
  | stopFailed h1 h2 => exact finish
  | stopWaiting h1 h2 => exact finish
  | stopGaveUp h1 h2 => exact finish
  | finished h1 => exact finish
  | @newLink sender h1 =>
    refine ⟨h.conn, h.ep, ?_, h.opening⟩
    intro i l hl e he
    have hl' : (s.links ++ [_])[i]? = some l := hl
    by_cases e1 : i < s.links.length
    · rw [List.getElem?_append_left e1] at hl'
      exact h.link i l hl' e he
    · have hlt := (List.getElem?_eq_some_iff.mp hl').1
      simp only [List.length_append, List.length_singleton] at hlt
      have : i = s.links.length := by omega
      subst this
      rw [List.getElem?_append_right (Nat.le_refl _)] at hl'
      simp only [Nat.sub_self, List.getElem?_cons_zero, Option.some.injEq] at hl'
      subst hl'
      cases he
  | @close l i h1 h2 =>
    refine setLinks (l' := { l with closed := true, curr := none, ep := none }) h1 rfl rfl rfl ?_ ?_ (fun j => setLink_get h1) (fun e he => by cases he)
    · intro x hx ho
      cases h3 : l.ep with
      | none => rw [h3] at hx; exact h.ep x hx ho
      | some ep =>
        cases h4 : l.sender with
        | true => rw [h3, h4] at hx; exact h.ep x hx ho
        | false =>
          rw [h3, h4] at hx
          have hx' : x ∈ s.eps.modify ep fun x => { x with open_ := false } := hx
          obtain ⟨k, hk⟩ := List.getElem?_of_mem hx'
          rw [List.getElem?_modify] at hk
          cases h5 : s.eps[k]? with
          | none => simp [h5] at hk
          | some y =>
            by_cases e2 : ep = k
            · simp only [h5, e2, if_true, Option.map_eq_map, Option.map_some, Option.some.injEq] at hk
              rw [← hk] at ho
              cases ho
            · have : y = x := by simpa [h5, e2] using hk
              subst this
              exact h.ep y (List.mem_of_getElem? h5) ho
    · show s.eps.length ≤ _
      cases h3 : l.ep with
      | none => exact Nat.le_refl _
      | some ep =>
        cases h4 : l.sender with
        | true => exact Nat.le_refl _
        | false =>
          show s.eps.length ≤ (s.eps.modify ep _).length
          simp
  | @take o op l g h1 h2 h3 =>
    exact setLinks (l' := { l with curr := some g, currGen := g }) h3 rfl rfl rfl h.ep (Nat.le_refl _) (fun j => setLink_get h3) (fun e he => h.link _ l h3 e he)
  | @attach o op l g h1 h2 h3 h4 h5 =>
    refine setLinks (l' := { l with ep := some s.eps.length, epGen := l.currGen }) h3 rfl rfl rfl ?_ ?_ (fun j => setLink_get (s := { s with eps := _ }) h3) ?_
    · intro x hx ho
      have hx' : x ∈ s.eps ++ [_] := hx
      rw [List.mem_append, List.mem_singleton] at hx'
      rcases hx' with hx' | rfl
      · exact h.ep x hx' ho
      · simpa [Ctr.sessionOpen] using ho
    · show s.eps.length ≤ (s.eps ++ [_]).length
      simp
    · intro e he
      obtain rfl := Option.some.inj he
      show s.eps.length < (s.eps ++ [_]).length
      simp
  | @clear o op l e h1 h2 h3 =>
    exact setLinks (l' := { l with curr := none, ep := none }) h3 rfl rfl rfl h.ep (Nat.le_refl _) (fun j => setLink_get h3) (fun e he => by cases he)
  | _ => first
    | exact loop rfl rfl rfl rfl (fun h => h) (fun c h => h)
    | exact loop rfl rfl rfl rfl (fun h => by cases h) (fun c h => by cases h)

theorem resInv_run {P : LinkPolicy} {evs : List CtrEv} {s : Ctr} (h : Ctr.Run P {} evs s) : ResInv s := by
  generalize hs0 : ({} : Ctr) = s0 at h
  induction h with
  | nil =>
    subst hs0
    exact ⟨fun c h => (by simp at h), fun x h => (by simp at h), fun i l h => (by simp at h), fun c h => (by simp at h)⟩
  | snoc _ _ hs ih => exact resInv_step ih hs

/-! ## One endpoint of a link in a session -/

/-- What is known of the endpoints when operations on a link do not overlap. -/
structure EpInv (s : Ctr) : Prop where
  one : ∀ (e1 e2 : Nat) (x1 x2 : Ep), s.eps[e1]? = some x1 → s.eps[e2]? = some x2 → x1.link = x2.link → x1.gen = x2.gen → e1 = e2
  link : ∀ (e : Nat) (x : Ep), s.eps[e]? = some x → ∃ l, s.links[x.link]? = some l ∧ x.gen ≤ l.currGen ∧
    (x.gen = l.currGen → l.curr = none ∨ (l.ep = some e ∧ l.epGen = l.currGen))

/-- Steps that make no endpoint. -/
theorem EpInv.keep {s s' : Ctr} (h : EpInv s)
    (hE : ∀ (e : Nat) (x' : Ep), s'.eps[e]? = some x' → ∃ x, s.eps[e]? = some x ∧ x.gen = x'.gen ∧ x.link = x'.link)
    (hL : ∀ (i : Nat) (l : Lnk), s.links[i]? = some l → ∃ l', s'.links[i]? = some l' ∧
      ((l'.currGen = l.currGen ∧ (l'.curr = none ∨ (l'.curr = l.curr ∧ l'.ep = l.ep ∧ l'.epGen = l.epGen))) ∨ l.currGen < l'.currGen)) : EpInv s' := by
  refine ⟨?_, ?_⟩
  · intro e1 e2 x1 x2 h1 h2 hl hg
    obtain ⟨y1, k1, g1, l1⟩ := hE e1 x1 h1
    obtain ⟨y2, k2, g2, l2⟩ := hE e2 x2 h2
    exact h.one e1 e2 y1 y2 k1 k2 (by rw [l1, l2, hl]) (by rw [g1, g2, hg])
  · intro e x h1
    obtain ⟨y, k, g, ll⟩ := hE e x h1
    obtain ⟨l, m1, m2, m3⟩ := h.link e y k
    obtain ⟨l', n1, n2⟩ := hL _ l m1
    refine ⟨l', by rw [← ll]; exact n1, ?_, ?_⟩
    · rcases n2 with ⟨n2, _⟩ | n2 <;> omega
    · intro he
      rcases n2 with ⟨n2, n3 | ⟨n3, n4, n5⟩⟩ | n2
      · exact Or.inl n3
      · rw [n3, n4, n5, n2]
        exact m3 (by omega)
      · omega

theorem epInv_step {P : LinkPolicy} {evs : List CtrEv} {s s' : Ctr} {ev : CtrEv} (h : EpInv s) (hseq : SeqInv evs s) (hs : Ctr.Step P s ev s') : EpInv s' := by
  have sameE : ∀ {s' : Ctr}, s'.eps = s.eps → ∀ (e : Nat) (x' : Ep), s'.eps[e]? = some x' → ∃ x, s.eps[e]? = some x ∧ x.gen = x'.gen ∧ x.link = x'.link :=
    fun h e x' hx => ⟨x', by rw [← h]; exact hx, rfl, rfl⟩
  have mapE : ∀ {s' : Ctr} {f : Ep → Ep}, (∀ x, (f x).gen = x.gen ∧ (f x).link = x.link) → s'.eps = s.eps.map f →
      ∀ (e : Nat) (x' : Ep), s'.eps[e]? = some x' → ∃ x, s.eps[e]? = some x ∧ x.gen = x'.gen ∧ x.link = x'.link := by
    intro s' f hf he e x' hx
    rw [he, List.getElem?_map, Option.map_eq_some_iff] at hx
    obtain ⟨x, h1, rfl⟩ := hx
    exact ⟨x, h1, (hf x).1.symm, (hf x).2.symm⟩
  have sameL : ∀ {s' : Ctr}, s'.links = s.links → ∀ (i : Nat) (l : Lnk), s.links[i]? = some l → ∃ l', s'.links[i]? = some l' ∧
      ((l'.currGen = l.currGen ∧ (l'.curr = none ∨ (l'.curr = l.curr ∧ l'.ep = l.ep ∧ l'.epGen = l.epGen))) ∨ l.currGen < l'.currGen) :=
    fun h i l hl => ⟨l, by rw [h]; exact hl, Or.inl ⟨rfl, Or.inr ⟨rfl, rfl, rfl⟩⟩⟩
  have setL : ∀ {s' : Ctr} {j : Nat} {lj l1 : Lnk}, s.links[j]? = some lj → s'.links = s.links.set j l1 →
      ((l1.currGen = lj.currGen ∧ l1.curr = none) ∨ lj.currGen < l1.currGen) → ∀ (i : Nat) (l : Lnk), s.links[i]? = some l → ∃ l', s'.links[i]? = some l' ∧
      ((l'.currGen = l.currGen ∧ (l'.curr = none ∨ (l'.curr = l.curr ∧ l'.ep = l.ep ∧ l'.epGen = l.epGen))) ∨ l.currGen < l'.currGen) := by
    intro s' j lj l1 h1 h2 h3 i l hl
    rw [h2]
    by_cases e : j = i
    · subst e
      rw [hl] at h1
      obtain rfl := Option.some.inj h1
      have hlt : j < s.links.length := (List.getElem?_eq_some_iff.mp hl).1
      exact ⟨l1, by rw [List.getElem?_set]; simp [hlt], h3.imp_left fun h => ⟨h.1, Or.inl h.2⟩⟩
    · exact ⟨l, by rw [List.getElem?_set, if_neg e]; exact hl, Or.inl ⟨rfl, Or.inr ⟨rfl, rfl, rfl⟩⟩⟩
  have tear : ∀ g (x : Ep), (if x.gen = g then { x with open_ := false } else x).gen = x.gen ∧ (if x.gen = g then { x with open_ := false } else x).link = x.link := by
    intro g x; split <;> exact ⟨rfl, rfl⟩
  cases hs with
  | session h1 => exact h.keep (mapE (tear s.gen) rfl) (sameL rfl)
  | stopFailed h1 h2 => exact h.keep (mapE (tear s.gen) rfl) (sameL rfl)
  | stopWaiting h1 h2 => exact h.keep (mapE (tear s.gen) rfl) (sameL rfl)
  | stopGaveUp h1 h2 => exact h.keep (mapE (tear s.gen) rfl) (sameL rfl)
  | finished h1 => exact h.keep (mapE (tear s.gen) rfl) (sameL rfl)
  | @newLink sender h1 =>
    refine h.keep (sameE rfl) fun i l hl => ⟨l, ?_, Or.inl ⟨rfl, Or.inr ⟨rfl, rfl, rfl⟩⟩⟩
    show (s.links ++ [_])[i]? = _
    rw [List.getElem?_append_left (List.getElem?_eq_some_iff.mp hl).1]; exact hl
  | @close l i h1 h2 =>
    refine h.keep ?_ (setL h1 rfl (Or.inl ⟨rfl, rfl⟩))
    intro e x' hx
    have hx' : (match l.ep, l.sender with | some e, false => s.eps.modify e fun x => { x with open_ := false } | _, _ => s.eps)[e]? = some x' := hx
    split at hx'
    · rw [List.getElem?_modify] at hx'
      cases hy : s.eps[e]? with
      | none => rw [hy] at hx'; simp at hx'
      | some y =>
        rw [hy] at hx'
        refine ⟨y, rfl, ?_⟩
        split at hx' <;> (simp at hx'; subst hx'; exact ⟨rfl, rfl⟩)
    · exact ⟨x', hx', rfl, rfl⟩
  | @take o op l g h1 h2 h3 =>
    refine h.keep (sameE rfl) (setL h3 rfl (Or.inr ?_))
    obtain ⟨l', hl', hm⟩ := hseq.op o op h1
    rw [h3] at hl'
    obtain rfl := Option.some.inj hl'
    rw [h2] at hm
    exact hm.1
  | @attach o op l g h1 h2 h3 h4 h5 =>
    have hg : g = l.currGen := (hseq.link _ l h3).1.curr g h5
    have hno : ∀ (e : Nat) (x : Ep), s.eps[e]? = some x → x.link = op.link → x.gen = g → False := by
      intro e x hx hl hgx
      obtain ⟨l', m1, m2, m3⟩ := h.link e x hx
      rw [hl, h3] at m1
      obtain rfl := Option.some.inj m1
      rcases m3 (hgx.trans hg) with m | ⟨m, m'⟩
      · rw [m] at h5; cases h5
      · exact h4 ⟨by rw [m]; rfl, m'⟩
    have hlt : op.link < s.links.length := (List.getElem?_eq_some_iff.mp h3).1
    have app : ∀ (e : Nat) (x : Ep), (s.eps ++ [({ gen := g, link := op.link, open_ := s.sessionOpen g } : Ep)])[e]? = some x →
        s.eps[e]? = some x ∨ (e = s.eps.length ∧ x.gen = g ∧ x.link = op.link) := by
      intro e x hx
      rw [List.getElem?_append] at hx
      split at hx
      · exact Or.inl hx
      · next hn =>
        obtain ⟨hx1, hx2⟩ := List.getElem?_eq_some_iff.mp hx
        simp at hx1
        have he : e = s.eps.length := by omega
        subst he
        simp at hx2
        subst hx2
        exact Or.inr ⟨rfl, rfl, rfl⟩
    refine ⟨?_, ?_⟩
    · intro e1 e2 x1 x2 k1 k2 hl hgg
      rcases app e1 x1 k1 with k1 | ⟨a1, a2, a3⟩ <;> rcases app e2 x2 k2 with k2 | ⟨b1, b2, b3⟩
      · exact h.one e1 e2 x1 x2 k1 k2 hl hgg
      · exact (hno e1 x1 k1 (by rw [hl, b3]) (by rw [hgg, b2])).elim
      · exact (hno e2 x2 k2 (by rw [← hl, a3]) (by rw [← hgg, a2])).elim
      · rw [a1, b1]
    · intro e x k
      show ∃ l', (s.links.set op.link _)[x.link]? = some l' ∧ _
      rcases app e x k with k | ⟨a1, a2, a3⟩
      · obtain ⟨l', m1, m2, m3⟩ := h.link e x k
        by_cases he : op.link = x.link
        · rw [← he, h3] at m1
          obtain rfl := Option.some.inj m1
          refine ⟨{ l with ep := some s.eps.length, epGen := l.currGen }, by rw [List.getElem?_set, if_pos he]; simp [hlt], m2, fun hgx => ?_⟩
          exact (hno e x k he.symm (hgx.trans hg.symm)).elim
        · exact ⟨l', by rw [List.getElem?_set, if_neg he]; exact m1, m2, m3⟩
      · refine ⟨{ l with ep := some s.eps.length, epGen := l.currGen }, by rw [List.getElem?_set, if_pos a3.symm]; simp [hlt], ?_, fun _ => Or.inr ⟨?_, rfl⟩⟩
        · rw [a2, hg]; exact Nat.le_refl _
        · rw [a1]
  | @clear o op l e h1 h2 h3 => exact h.keep (sameE rfl) (setL h3 rfl (Or.inl ⟨rfl, rfl⟩))
  | _ => exact h.keep (sameE rfl) (sameL rfl)

theorem epInv_run {P : LinkPolicy} (hP : P.overlap = false) {evs : List CtrEv} {s : Ctr} (h : Ctr.Run P {} evs s) : EpInv s := by
  generalize h0 : ({} : Ctr) = s0 at h
  induction h with
  | nil => subst h0; exact ⟨by simp, by simp⟩
  | snoc hr hc hs ih => subst h0; exact epInv_step ih (seqInv_run hP hr) hs

end Verif.Proofs
