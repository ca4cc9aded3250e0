import Verif.Spec.Mock

/-! # Invariants of the mock router -/
namespace Verif.Proofs
open Verif Verif.Model Verif.Spec

theorem mock_trans {a b c : Mock} {e1 e2 : List MockEv} (h1 : Mock.Run a e1 b) (h2 : Mock.Run b e2 c) : Mock.Run a (e1 ++ e2) c := by
  induction h2 with
  | nil => simpa using h1
  | snoc hr hs ih => rw [← List.append_assoc]; exact ih.snoc hs

theorem mock_split {a c : Mock} {e1 e2 : List MockEv} {ev : MockEv} (h : Mock.Run a (e1 ++ ev :: e2) c) :
    ∃ b b', Mock.Run a e1 b ∧ Mock.Step b ev b' ∧ Mock.Run b' e2 c := by
  generalize he : e1 ++ ev :: e2 = evs at h
  induction h generalizing e2 with
  | nil => simp at he
  | @snoc s s' evs ev' hr hs ih =>
    rcases List.eq_nil_or_concat e2 with rfl | ⟨e2', x, rfl⟩
    · have := List.append_inj' he rfl
      obtain ⟨rfl, h2⟩ := this
      cases h2
      exact ⟨s, s', hr, hs, .nil⟩
    · have h3 : (e1 ++ ev :: e2') ++ [x] = evs ++ [ev'] := by simpa using he
      obtain ⟨h4, h5⟩ := List.append_inj' h3 rfl
      cases h5
      obtain ⟨b, b', r1, st, r2⟩ := ih h4
      exact ⟨b, b', r1, st, by simpa using r2.snoc hs⟩

theorem modify_some {α : Type} {l : List α} {i j : Nat} {f : α → α} {y : α} :
    (l.modify i f)[j]? = some y ↔ ∃ x, l[j]? = some x ∧ y = if i = j then f x else x := by
  rw [List.getElem?_modify]
  cases l[j]? with
  | none => simp
  | some x => simp [eq_comm]

theorem snoc_some {α : Type} {l : List α} {j : Nat} {x y : α} : (l ++ [x])[j]? = some y ↔ l[j]? = some y ∨ (j = l.length ∧ y = x) := by
  rcases Nat.lt_trichotomy j l.length with h | rfl | h
  · rw [List.getElem?_append_left h]
    constructor
    · exact Or.inl
    · rintro (h1 | ⟨h1, _⟩)
      · exact h1
      · omega
  · simp [eq_comm]
  · rw [List.getElem?_eq_none (by simp; omega), List.getElem?_eq_none (by omega)]
    simp
    omega

/-- The multicast a Send works on. -/
def topicOf : MSendPC → Option Nat
  | .locking t | .sending t _ | .offering t _ _ | .parked t _ => some t
  | _ => none

/-- The receivers a Send has to serve yet; while there is one, and until it returns, it holds the lock. -/
def owes : MSendPC → List Nat
  | .sending _ left => left
  | .offering _ r left => r :: left
  | _ => []

def holds : MSendPC → Option Nat
  | .sending t _ => some t
  | .offering t _ _ => some t
  | _ => none

structure TopInv (s : Mock) : Prop where
  bound : ∀ a t, s.topics.get? a = some t → t < s.mcs.length
  inj : ∀ a b t, s.topics.get? a = some t → s.topics.get? b = some t → a = b
  op : ∀ (o : Nat) (op : MSend) (t : Nat), s.ops[o]? = some op → topicOf op.pc = some t → s.topics.get? op.addr = some t
  sub : ∀ (r : Nat) (x : MRcv) (t : Nat), s.rcvs[r]? = some x → x.sub = .locking t → s.topics.get? x.addr = some t
  mem : ∀ (t : Nat) (m : MCast) (r : Nat), s.mcs[t]? = some m → r ∈ m.receivers → ∃ x, s.rcvs[r]? = some x ∧ x.sub = .done ∧ s.topics.get? x.addr = some t
  has : ∀ (r : Nat) (x : MRcv), s.rcvs[r]? = some x → x.sub = .done → ∃ t m, s.topics.get? x.addr = some t ∧ s.mcs[t]? = some m ∧ r ∈ m.receivers
  nodup : ∀ (t : Nat) (m : MCast), s.mcs[t]? = some m → m.receivers.Nodup
  holder : ∀ (t o : Nat) (m : MCast), s.mcs[t]? = some m → m.holder = some o → ∃ op, s.ops[o]? = some op ∧ holds op.pc = some t
  held : ∀ (t o : Nat) (op : MSend), s.ops[o]? = some op → holds op.pc = some t →
    ∃ m, s.mcs[t]? = some m ∧ m.holder = some o ∧ (owes op.pc).Nodup ∧ ∀ r ∈ owes op.pc, r ∈ m.receivers

theorem get_topics {s : Mock} {a b : String} {t : Nat} (h : (s.get a).2.topics.get? b = some t) : s.topics.get? b = some t ∨ (b = a ∧ t = s.mcs.length ∧ s.topics.get? a = none) := by
  unfold Mock.get at h
  split at h
  · exact Or.inl h
  · rename_i h1
    simp only [GMap.get?_set] at h
    split at h
    · rename_i h2
      simp only [Option.some.injEq] at h
      exact Or.inr ⟨h2.symm, h.symm, h1⟩
    · exact Or.inl h


theorem topInv_newReceiver {s : Mock} (h : TopInv s) (x : MRcv) (hx : x.sub = .getting) : TopInv { s with rcvs := s.rcvs ++ [x] } := by
  obtain ⟨bound, inj, op, sub, mem, has, nodup, holder, held⟩ := h
  constructor <;> simp only [snoc_some] <;> grind

theorem topInv_call {s : Mock} (h : TopInv s) (x : MSend) (hx : x.pc = .start) : TopInv { s with ops := s.ops ++ [x] } := by
  obtain ⟨bound, inj, op, sub, mem, has, nodup, holder, held⟩ := h
  constructor <;> simp only [snoc_some] <;> grind [topicOf, holds]

/-- A step that neither takes nor releases a lock. -/
theorem topInv_setOp {s : Mock} (h : TopInv s) {o : Nat} {op : MSend} {pc : MSendPC} (h1 : s.ops[o]? = some op) (h2 : ∀ t, topicOf pc = some t → s.topics.get? op.addr = some t)
    (h3 : holds pc = holds op.pc) (h4 : (owes pc).Sublist (owes op.pc)) : TopInv (s.setOp o pc) := by
  refine ⟨h.bound, h.inj, ?_, h.sub, h.mem, h.has, h.nodup, ?_, ?_⟩
  · intro o' op' t ho ht
    obtain ⟨x, hx, rfl⟩ := modify_some.mp ho
    split at ht
    · rename_i e
      subst e
      rw [h1] at hx
      obtain rfl := Option.some.inj hx
      simp only [if_true] at *
      exact h2 t ht
    · rename_i e
      rw [if_neg e]
      exact h.op o' x t hx ht
  · intro t o' m hm hh
    obtain ⟨x, hx, hd⟩ := h.holder t o' m hm hh
    refine ⟨_, modify_some.mpr ⟨x, hx, rfl⟩, ?_⟩
    split
    · rename_i e
      subst e
      rw [h1] at hx
      obtain rfl := Option.some.inj hx
      exact h3.trans hd
    · exact hd
  · intro t o' op' ho ht
    obtain ⟨x, hx, rfl⟩ := modify_some.mp ho
    split at ht
    · rename_i e
      subst e
      rw [h1] at hx
      obtain rfl := Option.some.inj hx
      obtain ⟨m, g1, g2, g3, g4⟩ := h.held t o op h1 (h3 ▸ ht)
      refine ⟨m, g1, g2, ?_, ?_⟩
      · rw [if_pos rfl]; exact h4.nodup g3
      · rw [if_pos rfl]; exact fun r hr => g4 r (h4.subset hr)
    · rename_i e
      rw [if_neg e]
      exact h.held t o' x hx ht

/-- A step that changes a receiver, but not its address or whether it is subscribed. -/
theorem topInv_setRcv {s : Mock} (h : TopInv s) {r : Nat} {f : MRcv → MRcv} (h1 : ∀ x, (f x).addr = x.addr) (h2 : ∀ x, (f x).sub = x.sub) : TopInv (s.setRcv r f) := by
  obtain ⟨bound, inj, op, sub, mem, has, nodup, holder, held⟩ := h
  constructor <;> simp only [Mock.setRcv, modify_some] <;> grind


theorem get_ops {s : Mock} {a : String} : (s.get a).2.ops = s.ops := by unfold Mock.get; split <;> rfl
theorem get_rcvs {s : Mock} {a : String} : (s.get a).2.rcvs = s.rcvs := by unfold Mock.get; split <;> rfl
theorem get_snds {s : Mock} {a : String} : (s.get a).2.snds = s.snds := by unfold Mock.get; split <;> rfl

theorem get_self {s : Mock} {a : String} : (s.get a).2.topics.get? a = some (s.get a).1 := by
  unfold Mock.get
  split
  · assumption
  · simp

theorem topInv_get {s : Mock} (h : TopInv s) (a : String) : TopInv (s.get a).2 := by
  unfold Mock.get
  split
  · exact h
  · rename_i ha
    have keep : ∀ {b : String} {t : Nat}, s.topics.get? b = some t → (s.topics.set a s.mcs.length).get? b = some t := by
      intro b t hb
      rw [GMap.get?_set]
      by_cases e : a = b
      · subst e; rw [ha] at hb; cases hb
      · simpa [e] using hb
    have inv : ∀ {b : String} {t : Nat}, (s.topics.set a s.mcs.length).get? b = some t → s.topics.get? b = some t ∨ (b = a ∧ t = s.mcs.length) := by
      intro b t hb
      rw [GMap.get?_set] at hb
      by_cases e : a = b
      · simp only [e, if_true, Option.some.injEq] at hb; exact Or.inr ⟨e.symm, hb.symm⟩
      · simp only [e, if_false] at hb; exact Or.inl hb
    obtain ⟨bound, inj, op, sub, mem, has, nodup, holder, held⟩ := h
    constructor
    · intro b t hb
      simp only [List.length_append, List.length_singleton]
      rcases inv hb with hb | ⟨_, rfl⟩
      · have := bound b t hb; omega
      · omega
    · intro b c t hb hc
      rcases inv hb with hb1 | ⟨rfl, hb1⟩ <;> rcases inv hc with hc1 | ⟨rfl, hc1⟩
      · exact inj b c t hb1 hc1
      · have := bound _ _ hb1; omega
      · have := bound _ _ hc1; omega
      · rfl
    · exact fun o x t h1 h2 => keep (op o x t h1 h2)
    · exact fun r x t h1 h2 => keep (sub r x t h1 h2)
    · intro t m r hm hr
      rcases snoc_some.mp hm with hm | ⟨_, rfl⟩
      · obtain ⟨x, g1, g2, g3⟩ := mem t m r hm hr
        exact ⟨x, g1, g2, keep g3⟩
      · cases hr
    · intro r x hx hs
      obtain ⟨t, m, g1, g2, g3⟩ := has r x hx hs
      exact ⟨t, m, keep g1, snoc_some.mpr (Or.inl g2), g3⟩
    · intro t m hm
      rcases snoc_some.mp hm with hm | ⟨_, rfl⟩
      · exact nodup t m hm
      · exact List.nodup_nil
    · intro t o m hm hh
      rcases snoc_some.mp hm with hm | ⟨_, rfl⟩
      · exact holder t o m hm hh
      · cases hh
    · intro t o x hx hh
      obtain ⟨m, g1, g2⟩ := held t o x hx hh
      exact ⟨m, snoc_some.mpr (Or.inl g1), g2⟩

theorem topInv_locking {s : Mock} (h : TopInv s) {o t : Nat} {op : MSend} (h1 : s.ops[o]? = some op) (h2 : op.pc = .getting) (h3 : s.topics.get? op.addr = some t) :
    TopInv (s.setOp o (.locking t)) :=
  topInv_setOp h h1 (fun _ h => by cases h; exact h3) (by rw [h2]; rfl) (by rw [h2]; exact List.nil_sublist _)

theorem topInv_subLock {s : Mock} (h : TopInv s) {r t : Nat} {x : MRcv} (h1 : s.rcvs[r]? = some x) (h2 : x.sub = .getting) (h3 : s.topics.get? x.addr = some t) :
    TopInv (s.setRcv r fun y => { y with sub := .locking t }) := by
  refine ⟨h.bound, h.inj, h.op, ?_, ?_, ?_, h.nodup, h.holder, h.held⟩
  · intro r' x' t' hr hs
    obtain ⟨y, hy, rfl⟩ := modify_some.mp hr
    split at hs
    · rename_i e
      subst e
      rw [h1] at hy
      obtain rfl := Option.some.inj hy
      cases hs
      rw [if_pos rfl]
      exact h3
    · rename_i e; rw [if_neg e]; exact h.sub r' y t' hy hs
  · intro t' m r' hm hr
    obtain ⟨z, g1, g2, g3⟩ := h.mem t' m r' hm hr
    refine ⟨_, modify_some.mpr ⟨z, g1, rfl⟩, ?_⟩
    split
    · rename_i e
      subst e
      rw [h1] at g1
      obtain rfl := Option.some.inj g1
      rw [h2] at g2
      cases g2
    · exact ⟨g2, g3⟩
  · intro r' x' hr hs
    obtain ⟨y, hy, rfl⟩ := modify_some.mp hr
    split at hs
    · cases hs
    · rename_i e; rw [if_neg e]; exact h.has r' y hy hs

theorem topInv_subscribe {s : Mock} (h : TopInv s) {r t : Nat} {x : MRcv} {m : MCast} (h1 : s.rcvs[r]? = some x) (h2 : x.sub = .locking t) (h3 : s.mcs[t]? = some m) :
    TopInv ((s.setMC t fun y => { y with receivers := y.receivers ++ [r], ver := y.ver + 1 }).setRcv r fun y => { y with sub := .done }) := by
  have hx := h.sub r x t h1 h2
  refine ⟨fun a t ht => ?_, h.inj, h.op, ?_, ?_, ?_, ?_, ?_, ?_⟩
  · show t < (s.mcs.modify _ _).length
    rw [List.length_modify]
    exact h.bound a t ht
  · intro r' x' t' hr hs
    obtain ⟨y, hy, rfl⟩ := modify_some.mp hr
    split at hs
    · cases hs
    · rename_i e; rw [if_neg e]; exact h.sub r' y t' hy hs
  · intro t' m' r' hm hr
    obtain ⟨y, hy, rfl⟩ := modify_some.mp hm
    have old : r' ∈ y.receivers → ∃ x1, (s.rcvs.modify r fun y => { y with sub := .done })[r']? = some x1 ∧ x1.sub = .done ∧ s.topics.get? x1.addr = some t' := by
      intro hr'
      obtain ⟨z, g1, g2, g3⟩ := h.mem t' y r' hy hr'
      refine ⟨_, modify_some.mpr ⟨z, g1, rfl⟩, ?_⟩
      split
      · exact ⟨rfl, g3⟩
      · exact ⟨g2, g3⟩
    split at hr
    · rename_i e
      subst e
      simp only [List.mem_append, List.mem_singleton] at hr
      rcases hr with hr | rfl
      · exact old hr
      · refine ⟨_, modify_some.mpr ⟨x, h1, rfl⟩, ?_⟩
        rw [if_pos rfl]
        exact ⟨rfl, hx⟩
    · exact old hr
  · intro r' x' hr hs
    obtain ⟨y, hy, rfl⟩ := modify_some.mp hr
    have hy : s.rcvs[r']? = some y := hy
    by_cases e : r = r'
    · subst e
      rw [h1] at hy
      obtain rfl := Option.some.inj hy
      rw [if_pos rfl]
      refine ⟨t, _, hx, modify_some.mpr ⟨m, h3, rfl⟩, ?_⟩
      rw [if_pos rfl]
      simp
    · rw [if_neg e] at hs ⊢
      obtain ⟨t', m', g1, g2, g3⟩ := h.has r' y hy hs
      refine ⟨t', _, g1, modify_some.mpr ⟨m', g2, rfl⟩, ?_⟩
      split
      · simp [g3]
      · exact g3
  · intro t' m' hm
    obtain ⟨y, hy, rfl⟩ := modify_some.mp hm
    have hn := h.nodup t' y hy
    split
    · rename_i e
      subst e
      rw [List.nodup_append]
      refine ⟨hn, by simp, fun a ha b hb => ?_⟩
      rw [List.mem_singleton] at hb
      subst hb
      intro hab
      subst hab
      obtain ⟨z, g1, g2, _⟩ := h.mem t y a hy ha
      rw [h1] at g1
      obtain rfl := Option.some.inj g1
      rw [h2] at g2
      cases g2
    · exact hn
  · intro t' o m' hm hh
    obtain ⟨y, hy, rfl⟩ := modify_some.mp hm
    refine h.holder t' o y hy ?_
    split at hh <;> exact hh
  · intro t' o op ho hh
    obtain ⟨m', g1, g2, g3, g4⟩ := h.held t' o op ho hh
    refine ⟨_, modify_some.mpr ⟨m', g1, rfl⟩, ?_, g3, fun r' hr' => ?_⟩
    · split <;> exact g2
    · split
      · simp [g4 r' hr']
      · exact g4 r' hr'

theorem topInv_lock {s : Mock} (h : TopInv s) {o t : Nat} {op : MSend} {m : MCast} (h1 : s.ops[o]? = some op) (h2 : op.pc = .locking t) (h3 : s.mcs[t]? = some m)
    (h4 : m.holder = none) : TopInv ((s.setMC t fun y => { y with holder := some o }).setOp o (.sending t m.receivers)) := by
  refine ⟨fun a t ht => ?_, h.inj, ?_, h.sub, ?_, ?_, ?_, ?_, ?_⟩
  · show t < (s.mcs.modify _ _).length
    rw [List.length_modify]
    exact h.bound a t ht
  · intro o' op' t' ho ht
    obtain ⟨y, hy, rfl⟩ := modify_some.mp ho
    have hy : s.ops[o']? = some y := hy
    split at ht
    · rename_i e
      subst e
      rw [h1] at hy
      obtain rfl := Option.some.inj hy
      rw [if_pos rfl]
      exact h.op o op t' h1 (by rw [h2]; exact ht)
    · rename_i e; rw [if_neg e]; exact h.op o' y t' hy ht
  · intro t' m' r hm hr
    obtain ⟨y, hy, rfl⟩ := modify_some.mp hm
    exact h.mem t' y r hy (by split at hr <;> exact hr)
  · intro r x hx hs
    obtain ⟨t', m', g1, g2, g3⟩ := h.has r x hx hs
    exact ⟨t', _, g1, modify_some.mpr ⟨m', g2, rfl⟩, by split <;> exact g3⟩
  · intro t' m' hm
    obtain ⟨y, hy, rfl⟩ := modify_some.mp hm
    have := h.nodup t' y hy
    split <;> exact this
  · intro t' o' m' hm hh
    obtain ⟨y, hy, rfl⟩ := modify_some.mp hm
    split at hh
    · rename_i e
      subst e
      obtain rfl := Option.some.inj hh
      exact ⟨_, modify_some.mpr ⟨op, h1, rfl⟩, by rw [if_pos rfl]; rfl⟩
    · obtain ⟨x, g1, g2⟩ := h.holder t' o' y hy hh
      refine ⟨_, modify_some.mpr ⟨x, g1, rfl⟩, ?_⟩
      split
      · rename_i e
        subst e
        rw [h1] at g1
        obtain rfl := Option.some.inj g1
        rw [h2] at g2
        cases g2
      · exact g2
  · intro t' o' op' ho hh
    obtain ⟨y, hy, rfl⟩ := modify_some.mp ho
    split at hh
    · rename_i e
      subst e
      obtain rfl := Option.some.inj hh
      refine ⟨_, modify_some.mpr ⟨m, h3, rfl⟩, by rw [if_pos rfl], ?_, ?_⟩
      · rw [if_pos rfl]; exact h.nodup t m h3
      · rw [if_pos rfl, if_pos rfl]; exact fun r hr => hr
    · rename_i e
      rw [if_neg e]
      obtain ⟨m', g1, g2, g3, g4⟩ := h.held t' o' y hy hh
      refine ⟨_, modify_some.mpr ⟨m', g1, rfl⟩, ?_, g3, fun r hr => ?_⟩
      · split
        · rename_i e2
          subst e2
          rw [h3] at g1
          obtain rfl := Option.some.inj g1
          rw [h4] at g2
          cases g2
        · exact g2
      · split <;> exact g4 r hr

theorem topInv_finish {s : Mock} (h : TopInv s) {o t : Nat} {op : MSend} (h1 : s.ops[o]? = some op) (h2 : op.pc = .sending t []) :
    TopInv ((s.setMC t fun y => { y with holder := none }).setOp o (.done none)) := by
  obtain ⟨m, hm, hho, _, _⟩ := h.held t o op h1 (by rw [h2]; rfl)
  refine ⟨fun a t ht => ?_, h.inj, ?_, h.sub, ?_, ?_, ?_, ?_, ?_⟩
  · show t < (s.mcs.modify _ _).length
    rw [List.length_modify]
    exact h.bound a t ht
  · intro o' op' t' ho ht
    obtain ⟨y, hy, rfl⟩ := modify_some.mp ho
    split at ht
    · cases ht
    · rename_i e; rw [if_neg e]; exact h.op o' y t' hy ht
  · intro t' m' r hm hr
    obtain ⟨y, hy, rfl⟩ := modify_some.mp hm
    exact h.mem t' y r hy (by split at hr <;> exact hr)
  · intro r x hx hs
    obtain ⟨t', m', g1, g2, g3⟩ := h.has r x hx hs
    exact ⟨t', _, g1, modify_some.mpr ⟨m', g2, rfl⟩, by split <;> exact g3⟩
  · intro t' m' hm
    obtain ⟨y, hy, rfl⟩ := modify_some.mp hm
    have := h.nodup t' y hy
    split <;> exact this
  · intro t' o' m' hm' hh
    obtain ⟨y, hy, rfl⟩ := modify_some.mp hm'
    split at hh
    · cases hh
    · rename_i e
      obtain ⟨x, g1, g2⟩ := h.holder t' o' y hy hh
      refine ⟨_, modify_some.mpr ⟨x, g1, rfl⟩, ?_⟩
      split
      · rename_i e2
        subst e2
        rw [h1] at g1
        obtain rfl := Option.some.inj g1
        rw [h2] at g2
        exact absurd (Option.some.inj g2) e
      · exact g2
  · intro t' o' op' ho hh
    obtain ⟨y, hy, rfl⟩ := modify_some.mp ho
    split at hh
    · cases hh
    · rename_i e
      rw [if_neg e]
      obtain ⟨m', g1, g2, g3, g4⟩ := h.held t' o' y hy hh
      refine ⟨_, modify_some.mpr ⟨m', g1, rfl⟩, ?_, g3, fun r hr => ?_⟩
      · split
        · rename_i e2
          subst e2
          rw [hm] at g1
          obtain rfl := Option.some.inj g1
          rw [hho] at g2
          exact absurd (Option.some.inj g2) e
        · exact g2
      · split <;> exact g4 r hr

theorem topInv_step {s s' : Mock} {ev : MockEv} (h : TopInv s) (hs : Mock.Step s ev s') : TopInv s' := by
  cases hs with
  | newReceiver a c => exact topInv_newReceiver h _ rfl
  | @subGet r x h1 h2 => exact topInv_subLock (topInv_get h _) (by rw [get_rcvs]; exact h1) h2 get_self
  | subscribe h1 h2 h3 h4 => exact topInv_subscribe h h1 h2 h3
  | newSender a => exact ⟨h.bound, h.inj, h.op, h.sub, h.mem, h.has, h.nodup, h.holder, h.held⟩
  | call m c h1 => exact topInv_call h _ rfl
  | cancelOp o e h1 h2 h3 =>
    refine ⟨h.bound, h.inj, ?_, h.sub, h.mem, h.has, h.nodup, ?_, ?_⟩
    · intro o' op' t ho ht
      obtain ⟨x, hx, rfl⟩ := modify_some.mp ho
      have := h.op o' x t hx (by split at ht <;> exact ht)
      split <;> exact this
    · intro t o' m hm hh
      obtain ⟨x, hx, hd⟩ := h.holder t o' m hm hh
      exact ⟨_, modify_some.mpr ⟨x, hx, rfl⟩, by split <;> exact hd⟩
    · intro t o' op' ho ht
      obtain ⟨x, hx, rfl⟩ := modify_some.mp ho
      have := h.held t o' x hx (by split at ht <;> exact ht)
      split <;> exact this
  | startClosed h1 h2 => exact topInv_setOp h h1 (fun _ h => (by cases h)) (by rw [h2]; rfl) (by rw [h2]; exact List.nil_sublist _)
  | startCtx h1 h2 => exact topInv_setOp h h1 (fun _ h => (by cases h)) (by rw [h2]; rfl) (by rw [h2]; exact List.nil_sublist _)
  | startGo h1 h2 => exact topInv_setOp h h1 (fun _ h => (by cases h)) (by rw [h2]; rfl) (by rw [h2]; exact List.nil_sublist _)
  | get h1 h2 => exact topInv_locking (topInv_get h _) (by rw [get_ops]; exact h1) h2 get_self
  | lock h1 h2 h3 h4 => exact topInv_lock h h1 h2 h3 h4
  | lockEmpty h1 h2 => exact topInv_setOp h h1 (fun t ht => h.op _ _ t h1 (by rw [h2]; exact ht)) (by rw [h2]; rfl) (by rw [h2]; exact List.nil_sublist _)
  | parkCtx h1 h2 => exact topInv_setOp h h1 (fun _ h => (by cases h)) (by rw [h2]; rfl) (by rw [h2]; exact List.nil_sublist _)
  | wake h1 h2 => exact topInv_setOp h h1 (fun t ht => h.op _ _ t h1 (by rw [h2]; exact ht)) (by rw [h2]; rfl) (by rw [h2]; exact List.nil_sublist _)
  | skip h1 h2 => exact topInv_setOp h h1 (fun t ht => h.op _ _ t h1 (by rw [h2]; exact ht)) (by rw [h2]; rfl) (by rw [h2]; exact List.sublist_cons_self _ _)
  | offer h1 h2 => exact topInv_setOp h h1 (fun t ht => h.op _ _ t h1 (by rw [h2]; exact ht)) (by rw [h2]; rfl) (by rw [h2]; exact List.Sublist.refl _)
  | @put o mc r left op x h1 h2 h3 h4 =>
    refine topInv_setOp (s := s.setRcv r fun y => { y with chan := y.chan ++ [op.msg] }) (pc := .sending mc left) (topInv_setRcv h (fun _ => rfl) (fun _ => rfl)) h1 (fun t ht => h.op _ _ t h1 (by rw [h2]; exact ht)) ?_ ?_ <;> rw [h2]
    · rfl
    · exact List.sublist_cons_self _ _
  | finish h1 h2 => exact topInv_finish h h1 h2
  | recv h1 h2 => exact topInv_setRcv h (fun _ => rfl) (fun _ => rfl)
  | nextClosed => exact h
  | closeReceiver h1 => exact topInv_setRcv h (fun _ => rfl) (fun _ => rfl)
  | closeSender => exact ⟨h.bound, h.inj, h.op, h.sub, h.mem, h.has, h.nodup, h.holder, h.held⟩

theorem topInv_run {evs : List MockEv} {s : Mock} (h : Mock.Run {} evs s) : TopInv s := by
  generalize hs0 : ({} : Mock) = s0 at h
  induction h with
  | nil => subst hs0; constructor <;> simp
  | snoc hr hs ih => exact topInv_step ih hs

/-- At most one Send owes a message to a receiver. -/
theorem owes_unique {s : Mock} (h : TopInv s) {o1 o2 r : Nat} {op1 op2 : MSend} (h1 : s.ops[o1]? = some op1) (h2 : s.ops[o2]? = some op2) (g1 : r ∈ owes op1.pc)
    (g2 : r ∈ owes op2.pc) : o1 = o2 := by
  have hh : ∀ {pc : MSendPC}, r ∈ owes pc → ∃ t, holds pc = some t := by
    intro pc hp
    cases pc <;> first | exact ⟨_, rfl⟩ | cases hp
  obtain ⟨t1, k1⟩ := hh g1
  obtain ⟨t2, k2⟩ := hh g2
  obtain ⟨m1, a1, a2, _, a4⟩ := h.held t1 o1 op1 h1 k1
  obtain ⟨m2, b1, b2, _, b4⟩ := h.held t2 o2 op2 h2 k2
  obtain ⟨x1, c1, _, c3⟩ := h.mem t1 m1 r a1 (a4 r g1)
  obtain ⟨x2, d1, _, d3⟩ := h.mem t2 m2 r b1 (b4 r g2)
  rw [c1] at d1
  obtain rfl := Option.some.inj d1
  rw [c3] at d3
  obtain rfl := Option.some.inj d3
  rw [a1] at b1
  obtain rfl := Option.some.inj b1
  rw [a2] at b2
  exact Option.some.inj b2

/-! ## Deliveries -/

theorem received_append (r : Nat) (a b : List MockEv) : received r (a ++ b) = received r a ++ received r b := by
  induction a with
  | nil => rfl
  | cons e t ih =>
    cases e <;> simp only [List.cons_append, received, ih]
    split <;> simp

theorem sentTo_append (x : String) (a b : List MockEv) : sentTo x (a ++ b) = sentTo x a ++ sentTo x b := by
  induction a with
  | nil => rfl
  | cons e t ih =>
    cases e <;> simp only [List.cons_append, sentTo, ih]
    split <;> simp

theorem sentAfter_not {r : Nat} {x : String} {a : List MockEv} (h : MockEv.subscribed r ∉ a) : sentAfter r x a = [] := by
  induction a with
  | nil => rfl
  | cons e t ih =>
    rw [List.mem_cons, not_or] at h
    cases e with
    | subscribed r' =>
      have : r' ≠ r := fun e => h.1 (by rw [e])
      simp only [sentAfter, if_neg this]
      exact ih h.2
    | _ => exact ih h.2

theorem sentAfter_append {r : Nat} {x : String} {a b : List MockEv} (h : MockEv.subscribed r ∈ a) : sentAfter r x (a ++ b) = sentAfter r x a ++ sentTo x b := by
  induction a with
  | nil => cases h
  | cons e t ih =>
    cases e with
    | subscribed r' =>
      by_cases e : r' = r
      · simp only [List.cons_append, sentAfter, if_pos e]
        exact sentTo_append _ _ _
      · simp only [List.cons_append, sentAfter, if_neg e]
        exact ih ((List.mem_cons.mp h).resolve_left fun h => e (by cases h; rfl))
    | _ => exact ih ((List.mem_cons.mp h).resolve_left fun h => by cases h)

theorem sentAfter_first {r : Nat} {x : String} {a : List MockEv} (h : MockEv.subscribed r ∉ a) : sentAfter r x (a ++ [.subscribed r]) = [] := by
  induction a with
  | nil => simp [sentAfter, sentTo]
  | cons e t ih =>
    rw [List.mem_cons, not_or] at h
    cases e with
    | subscribed r' =>
      have : r' ≠ r := fun e => h.1 (by rw [e])
      simp only [List.cons_append, sentAfter, if_neg this]
      exact ih h.2
    | _ => exact ih h.2

/-- What a Send in progress means for a receiver. -/
def Owed (ops : List MSend) (r : Nat) (closed : Bool) (tail : List Nat) : Prop :=
  (∀ (o : Nat) (op : MSend) (t : Nat) (left : List Nat), ops[o]? = some op → op.pc = .offering t r left → tail = [op.msg]) ∧
  (closed = false → (∀ (o : Nat) (op : MSend), ops[o]? = some op → r ∈ owes op.pc → tail = [op.msg]) ∧
    ((∀ (o : Nat) (op : MSend), ops[o]? = some op → r ∉ owes op.pc) → tail = []))

structure DelInv (evs : List MockEv) (s : Mock) : Prop where
  sub : ∀ (r : Nat) (x : MRcv), s.rcvs[r]? = some x → (x.sub = .done ↔ MockEv.subscribed r ∈ evs)
  new : ∀ (r : Nat) (a : String), MockEv.newReceiver r a ∈ evs ↔ ∃ x, s.rcvs[r]? = some x ∧ x.addr = a
  closed : ∀ (r : Nat) (x : MRcv), s.rcvs[r]? = some x → (x.closed = true ↔ MockEv.closeReceiver r ∈ evs)
  dom : ∀ (r m : Nat), MockEv.recv r m ∈ evs ∨ MockEv.subscribed r ∈ evs ∨ MockEv.closeReceiver r ∈ evs → r < s.rcvs.length
  pre : ∀ (r : Nat) (x : MRcv), s.rcvs[r]? = some x → x.sub ≠ .done → x.chan = [] ∧ received r evs = []
  del : ∀ (r : Nat) (x : MRcv), s.rcvs[r]? = some x → x.sub = .done →
    ∃ tail, sentAfter r x.addr evs = received r evs ++ x.chan ++ tail ∧ Owed s.ops r x.closed tail

/-- Events that do not concern receivers. -/
def Silent : MockEv → Prop
  | .newReceiver .. | .subscribed .. | .accepted .. | .recv .. | .closeReceiver .. => False
  | _ => True

theorem Silent.received {ev : MockEv} (h : Silent ev) (r : Nat) (evs : List MockEv) : received r (evs ++ [ev]) = received r evs := by
  rw [received_append]
  cases ev <;> first | exact h.elim | simp [Spec.received]

theorem Silent.sentTo {ev : MockEv} (h : Silent ev) (a : String) : sentTo a [ev] = [] := by
  cases ev <;> first | exact h.elim | simp [Spec.sentTo]

theorem Silent.mem {ev e : MockEv} (h : Silent ev) (he : ¬ Silent e) {evs : List MockEv} : e ∈ evs ++ [ev] ↔ e ∈ evs := by
  rw [List.mem_append, List.mem_singleton]
  exact ⟨fun h1 => h1.resolve_right fun h2 => he (h2 ▸ h), Or.inl⟩

/-- A step that leaves the receivers alone. -/
theorem DelInv.silent {evs : List MockEv} {s s' : Mock} {ev : MockEv} (h : DelInv evs s) (hq : Silent ev) (h1 : s'.rcvs = s.rcvs)
    (h2 : ∀ (r : Nat) (x : MRcv) (tail : List Nat), s.rcvs[r]? = some x → x.sub = .done → Owed s.ops r x.closed tail → Owed s'.ops r x.closed tail) : DelInv (evs ++ [ev]) s' := by
  refine ⟨?_, ?_, ?_, ?_, ?_, ?_⟩
  · intro r x hx
    rw [h1] at hx
    rw [hq.mem (by simp [Silent])]
    exact h.sub r x hx
  · intro r a
    rw [hq.mem (by simp [Silent]), h1]
    exact h.new r a
  · intro r x hx
    rw [h1] at hx
    rw [hq.mem (by simp [Silent])]
    exact h.closed r x hx
  · intro r m
    rw [hq.mem (by simp [Silent]), hq.mem (by simp [Silent]), hq.mem (by simp [Silent]), h1]
    exact h.dom r m
  · intro r x hx hs
    rw [h1] at hx
    rw [hq.received]
    exact h.pre r x hx hs
  · intro r x hx hs
    rw [h1] at hx
    obtain ⟨tail, g1, g2⟩ := h.del r x hx hs
    refine ⟨tail, ?_, h2 r x tail hx hs g2⟩
    rw [sentAfter_append ((h.sub r x hx).mp hs), hq.sentTo, List.append_nil, hq.received]
    exact g1

/-- A step of one Send that has nobody to serve before and after. -/
theorem owed_idle {ops : List MSend} {o : Nat} {op : MSend} {pc : MSendPC} {r : Nat} {closed : Bool} {tail : List Nat} (h : Owed ops r closed tail) (ho : ops[o]? = some op)
    (h1 : owes op.pc = []) (h2 : owes pc = []) : Owed (ops.modify o fun x => { x with pc := pc }) r closed tail := by
  refine ⟨fun o' op' t left ho' hpc => ?_, fun hc => ⟨fun o' op' ho' hr => ?_, fun hn => ?_⟩⟩
  · obtain ⟨x, hx, rfl⟩ := modify_some.mp ho'
    by_cases e : o = o'
    · rw [if_pos e] at hpc
      have hpc : pc = _ := hpc
      rw [hpc] at h2
      cases h2
    · rw [if_neg e] at hpc ⊢
      exact h.1 o' x t left hx hpc
  · obtain ⟨x, hx, rfl⟩ := modify_some.mp ho'
    by_cases e : o = o'
    · rw [if_pos e] at hr
      have hr : r ∈ owes pc := hr
      rw [h2] at hr
      cases hr
    · rw [if_neg e] at hr ⊢
      exact (h.2 hc).1 o' x hx hr
  · refine (h.2 hc).2 fun o' op' ho' hr => ?_
    by_cases e : o = o'
    · subst e
      rw [ho] at ho'
      obtain rfl := Option.some.inj ho'
      rw [h1] at hr
      cases hr
    · refine hn o' op' (modify_some.mpr ⟨op', ho', by rw [if_neg e]⟩) hr

theorem owed_cancel {ops : List MSend} {o : Nat} {f : MSend → MSend} {r : Nat} {closed : Bool} {tail : List Nat} (h : Owed ops r closed tail)
    (h1 : ∀ x, (f x).pc = x.pc) (h2 : ∀ x, (f x).msg = x.msg) : Owed (ops.modify o f) r closed tail := by
  have e1 : ∀ (o' : Nat) (x : MSend), (if o = o' then f x else x).pc = x.pc := fun o' x => by split <;> simp [h1]
  have e2 : ∀ (o' : Nat) (x : MSend), (if o = o' then f x else x).msg = x.msg := fun o' x => by split <;> simp [h2]
  refine ⟨fun o' op' t left ho' hpc => ?_, fun hc => ⟨fun o' op' ho' hr => ?_, fun hn => ?_⟩⟩
  · obtain ⟨x, hx, rfl⟩ := modify_some.mp ho'
    rw [e1] at hpc
    rw [e2]
    exact h.1 o' x t left hx hpc
  · obtain ⟨x, hx, rfl⟩ := modify_some.mp ho'
    rw [e1] at hr
    rw [e2]
    exact (h.2 hc).1 o' x hx hr
  · refine (h.2 hc).2 fun o' op' ho' hr => ?_
    refine hn o' _ (modify_some.mpr ⟨op', ho', rfl⟩) ?_
    rw [e1]
    exact hr

theorem owed_call {ops : List MSend} {y : MSend} {r : Nat} {closed : Bool} {tail : List Nat} (h : Owed ops r closed tail) (h1 : owes y.pc = []) :
    Owed (ops ++ [y]) r closed tail := by
  refine ⟨fun o' op' t left ho' hpc => ?_, fun hc => ⟨fun o' op' ho' hr => ?_, fun hn => ?_⟩⟩
  · rcases snoc_some.mp ho' with ho' | ⟨_, rfl⟩
    · exact h.1 o' op' t left ho' hpc
    · rw [hpc] at h1; cases h1
  · rcases snoc_some.mp ho' with ho' | ⟨_, rfl⟩
    · exact (h.2 hc).1 o' op' ho' hr
    · rw [h1] at hr; cases hr
  · exact (h.2 hc).2 fun o' op' ho' hr => hn o' op' (snoc_some.mpr (Or.inl ho')) hr

/-- A step of a Send, seen by a receiver it does not concern. -/
theorem owed_other {ops : List MSend} {o : Nat} {op : MSend} {pc : MSendPC} {r : Nat} {closed : Bool} {tail : List Nat} (h : Owed ops r closed tail) (ho : ops[o]? = some op)
    (h1 : r ∈ owes pc ↔ r ∈ owes op.pc) (h2 : ∀ t left, pc = .offering t r left → ∃ t' left', op.pc = .offering t' r left') :
    Owed (ops.modify o fun x => { x with pc := pc }) r closed tail := by
  refine ⟨fun o' op' t left ho' hpc => ?_, fun hc => ⟨fun o' op' ho' hr => ?_, fun hn => ?_⟩⟩
  · obtain ⟨x, hx, rfl⟩ := modify_some.mp ho'
    by_cases e : o = o'
    · subst e
      rw [ho] at hx
      obtain rfl := Option.some.inj hx
      rw [if_pos rfl] at hpc ⊢
      obtain ⟨t', left', h3⟩ := h2 t left hpc
      exact h.1 o op t' left' ho h3
    · rw [if_neg e] at hpc ⊢
      exact h.1 o' x t left hx hpc
  · obtain ⟨x, hx, rfl⟩ := modify_some.mp ho'
    by_cases e : o = o'
    · subst e
      rw [ho] at hx
      obtain rfl := Option.some.inj hx
      rw [if_pos rfl] at hr ⊢
      exact (h.2 hc).1 o op ho (h1.mp hr)
    · rw [if_neg e] at hr ⊢
      exact (h.2 hc).1 o' x hx hr
  · refine (h.2 hc).2 fun o' op' ho' hr => ?_
    by_cases e : o = o'
    · subst e
      rw [ho] at ho'
      obtain rfl := Option.some.inj ho'
      exact hn o _ (modify_some.mpr ⟨op, ho, rfl⟩) (by rw [if_pos rfl]; exact h1.mpr hr)
    · exact hn o' op' (modify_some.mpr ⟨op', ho', by rw [if_neg e]⟩) hr

/-- Nobody owes the receiver anything. -/
theorem owed_none {ops : List MSend} {r : Nat} {closed : Bool} {tail : List Nat} (hn : ∀ (o : Nat) (op : MSend), ops[o]? = some op → r ∉ owes op.pc)
    (h : closed = false → tail = []) : Owed ops r closed tail :=
  ⟨fun o op t left ho hpc => absurd (by rw [hpc]; exact List.mem_cons_self) (hn o op ho), fun hc => ⟨fun o op ho hr => absurd hr (hn o op ho), fun _ => h hc⟩⟩

theorem delInv_step {evs : List MockEv} {s s' : Mock} {ev : MockEv} (hT : TopInv s) (h : DelInv evs s) (hs : Mock.Step s ev s') : DelInv (evs ++ [ev]) s' := by
  -- a Send that serves nobody
  have idle : ∀ {s1 : Mock} {o : Nat} {op : MSend} {pc : MSendPC} {ev : MockEv}, s1.rcvs = s.rcvs → s1.ops = s.ops → s.ops[o]? = some op → owes op.pc = [] → owes pc = [] → Silent ev →
      DelInv (evs ++ [ev]) (s1.setOp o pc) := by
    intro s1 o op pc ev h0 h0' h1 h2 h3 h4
    refine h.silent h4 h0 fun r x tail hx hs hO => ?_
    show Owed (s1.ops.modify _ _) _ _ _
    rw [h0']
    exact owed_idle hO h1 h2 h3
  cases hs with
  | newReceiver a c =>
    have old : ∀ {r : Nat} {x : MRcv}, s.rcvs[r]? = some x → r ≠ s.rcvs.length := fun hx e => by
      have := (List.getElem?_eq_some_iff.mp hx).1
      omega
    have nin : ∀ {e : MockEv}, (∀ r a, e ≠ .newReceiver r a) → (e ∈ evs ++ [.newReceiver s.rcvs.length a] ↔ e ∈ evs) := by
      intro e he
      rw [List.mem_append, List.mem_singleton]
      exact ⟨fun h1 => h1.resolve_right (he _ _), Or.inl⟩
    have rcv : ∀ r, received r (evs ++ [.newReceiver s.rcvs.length a]) = received r evs := fun r => by rw [received_append]; simp [received]
    have nrcv : ∀ m, MockEv.recv s.rcvs.length m ∉ evs := fun m hm => absurd (h.dom _ m (Or.inl hm)) (Nat.lt_irrefl _)
    have nrec : ∀ {r : Nat} {l : List MockEv}, (∀ m, MockEv.recv r m ∉ l) → received r l = [] := by
      intro r l hl
      induction l with
      | nil => rfl
      | cons e t ih =>
        have ih := ih fun m hm => hl m (List.mem_cons_of_mem _ hm)
        cases e with
        | recv r' m =>
          simp only [received]
          split
          · rename_i e; subst e; exact absurd List.mem_cons_self (hl m)
          · exact ih
        | _ => exact ih
    refine ⟨?_, ?_, ?_, ?_, ?_, ?_⟩
    · intro r x hx
      rw [nin (by simp)]
      rcases snoc_some.mp hx with hx | ⟨rfl, rfl⟩
      · exact h.sub r x hx
      · exact ⟨fun h1 => by (cases h1), fun h1 => absurd (h.dom _ 0 (Or.inr (Or.inl h1))) (Nat.lt_irrefl _)⟩
    · intro r b
      rw [List.mem_append, List.mem_singleton, h.new]
      simp only [snoc_some]
      constructor
      · rintro (⟨x, g1, g2⟩ | g)
        · exact ⟨x, Or.inl g1, g2⟩
        · cases g; exact ⟨_, Or.inr ⟨rfl, rfl⟩, rfl⟩
      · rintro ⟨x, g1 | ⟨rfl, rfl⟩, rfl⟩
        · exact Or.inl ⟨x, g1, rfl⟩
        · exact Or.inr rfl
    · intro r x hx
      rw [nin (by simp)]
      rcases snoc_some.mp hx with hx | ⟨rfl, rfl⟩
      · exact h.closed r x hx
      · exact ⟨fun h1 => by (cases h1), fun h1 => absurd (h.dom _ 0 (Or.inr (Or.inr h1))) (Nat.lt_irrefl _)⟩
    · intro r m
      rw [nin (by simp), nin (by simp), nin (by simp)]
      intro hh
      have := h.dom r m hh
      simp only [List.length_append]
      omega
    · intro r x hx hs
      rw [rcv]
      rcases snoc_some.mp hx with hx | ⟨rfl, rfl⟩
      · exact h.pre r x hx hs
      · exact ⟨rfl, nrec nrcv⟩
    · intro r x hx hs
      rw [rcv]
      rcases snoc_some.mp hx with hx | ⟨rfl, rfl⟩
      · obtain ⟨tail, g1, g2⟩ := h.del r x hx hs
        refine ⟨tail, ?_, g2⟩
        rw [sentAfter_append ((h.sub r x hx).mp hs), ← g1]
        simp [sentTo]
      · cases hs
  | @subGet r x h1 h2 =>
    have hq : Silent (.step r) := trivial
    have e1 : ∀ y : MRcv, ({ y with sub := .locking (s.get x.addr).1 } : MRcv).addr = y.addr := fun _ => rfl
    have hv : ∀ {r' : Nat} {x' : MRcv}, ((s.get x.addr).2.setRcv r fun y => { y with sub := .locking (s.get x.addr).1 }).rcvs[r']? = some x' →
        ∃ y, s.rcvs[r']? = some y ∧ x'.addr = y.addr ∧ x'.closed = y.closed ∧ x'.chan = y.chan ∧ ((x'.sub = .done ↔ y.sub = .done)) := by
      intro r' x' hx'
      obtain ⟨y, hy, rfl⟩ := modify_some.mp hx'
      rw [get_rcvs] at hy
      refine ⟨y, hy, ?_⟩
      split
      · rename_i e
        subst e
        rw [h1] at hy
        obtain rfl := Option.some.inj hy
        exact ⟨rfl, rfl, rfl, by simp [h2]⟩
      · exact ⟨rfl, rfl, rfl, Iff.rfl⟩
    have ho : ((s.get x.addr).2.setRcv r fun y => { y with sub := .locking (s.get x.addr).1 }).ops = s.ops := get_ops
    refine ⟨?_, ?_, ?_, ?_, ?_, ?_⟩
    · intro r' x' hx'
      obtain ⟨y, g1, g2, g3, g4, g5⟩ := hv hx'
      rw [hq.mem (by simp [Silent]), g5]
      exact h.sub r' y g1
    · intro r' a
      rw [hq.mem (by simp [Silent]), h.new]
      constructor
      · rintro ⟨y, g1, rfl⟩
        refine ⟨_, modify_some.mpr ⟨y, by rw [get_rcvs]; exact g1, rfl⟩, by split <;> rfl⟩
      · rintro ⟨x', g1, rfl⟩
        obtain ⟨y, k1, k2, _⟩ := hv g1
        exact ⟨y, k1, k2.symm⟩
    · intro r' x' hx'
      obtain ⟨y, g1, g2, g3, g4, g5⟩ := hv hx'
      rw [hq.mem (by simp [Silent]), g3]
      exact h.closed r' y g1
    · intro r' m
      rw [hq.mem (by simp [Silent]), hq.mem (by simp [Silent]), hq.mem (by simp [Silent])]
      intro hh
      have := h.dom r' m hh
      show r' < ((s.get x.addr).2.rcvs.modify _ _).length
      rw [List.length_modify, get_rcvs]
      exact this
    · intro r' x' hx' hs
      obtain ⟨y, g1, g2, g3, g4, g5⟩ := hv hx'
      rw [hq.received, g4]
      exact h.pre r' y g1 fun h3 => hs (g5.mpr h3)
    · intro r' x' hx' hs
      obtain ⟨y, g1, g2, g3, g4, g5⟩ := hv hx'
      obtain ⟨tail, k1, k2⟩ := h.del r' y g1 (g5.mp hs)
      refine ⟨tail, ?_, ?_⟩
      · rw [sentAfter_append ((h.sub r' y g1).mp (g5.mp hs)), hq.sentTo, List.append_nil, hq.received, g2, g4]
        exact k1
      · rw [ho, g3]; exact k2
  | @subscribe r t x m h1 h2 h3 h4 =>
    have hns : MockEv.subscribed r ∉ evs := fun hm => by
      have := (h.sub r x h1).mpr hm
      rw [h2] at this
      cases this
    have hno : ∀ (o : Nat) (op : MSend), s.ops[o]? = some op → r ∉ owes op.pc := by
      intro o op ho hr
      have hh : ∃ t, holds op.pc = some t := by
        cases hp : op.pc <;> rw [hp] at hr <;> first | exact ⟨_, rfl⟩ | cases hr
      obtain ⟨t', ht⟩ := hh
      obtain ⟨m', a1, _, _, a4⟩ := hT.held t' o op ho ht
      obtain ⟨x', b1, b2, _⟩ := hT.mem t' m' r a1 (a4 r hr)
      rw [h1] at b1
      obtain rfl := Option.some.inj b1
      rw [h2] at b2
      cases b2
    have nin : ∀ {e : MockEv}, (∀ r, e ≠ .subscribed r) → (e ∈ evs ++ [.subscribed r] ↔ e ∈ evs) := by
      intro e he
      rw [List.mem_append, List.mem_singleton]
      exact ⟨fun h1 => h1.resolve_right (he _), Or.inl⟩
    have nin' : ∀ {r' : Nat}, r ≠ r' → (MockEv.subscribed r' ∈ evs ++ [.subscribed r] ↔ MockEv.subscribed r' ∈ evs) := by
      intro r' he
      rw [List.mem_append, List.mem_singleton]
      exact ⟨fun h1 => h1.resolve_right fun h => he (by cases h; rfl), Or.inl⟩
    have rcv : ∀ r', received r' (evs ++ [.subscribed r]) = received r' evs := fun r' => by rw [received_append]; simp [received]
    have hv : ∀ {r' : Nat} {x' : MRcv}, (s.rcvs.modify r fun y => { y with sub := .done })[r']? = some x' →
        ∃ y, s.rcvs[r']? = some y ∧ x' = (if r = r' then { y with sub := .done } else y) := fun hx' => modify_some.mp hx'
    refine ⟨?_, ?_, ?_, ?_, ?_, ?_⟩
    · intro r' x' hx'
      obtain ⟨y, hy, rfl⟩ := hv hx'
      split
      · rename_i e; subst e; simp
      · rename_i e; rw [nin' e]; exact h.sub r' y hy
    · intro r' a
      rw [nin (by simp), h.new]
      constructor
      · rintro ⟨y, g1, rfl⟩
        exact ⟨_, modify_some.mpr ⟨y, g1, rfl⟩, by split <;> rfl⟩
      · rintro ⟨x', g1, rfl⟩
        obtain ⟨y, k1, rfl⟩ := hv g1
        exact ⟨y, k1, by split <;> rfl⟩
    · intro r' x' hx'
      obtain ⟨y, hy, rfl⟩ := hv hx'
      rw [nin (by simp), ← h.closed r' y hy]
      split <;> exact Iff.rfl
    · intro r' m'
      rw [nin (by simp), nin (e := .closeReceiver r') (by simp)]
      show _ → r' < (s.rcvs.modify _ _).length
      rw [List.length_modify]
      intro hh
      by_cases e : r = r'
      · subst e; exact (List.getElem?_eq_some_iff.mp h1).1
      · rw [nin' e] at hh; exact h.dom r' m' hh
    · intro r' x' hx' hs
      obtain ⟨y, hy, rfl⟩ := hv hx'
      split at hs
      · exact absurd rfl hs
      · rename_i e
        rw [if_neg e, rcv]
        exact h.pre r' y hy hs
    · intro r' x' hx' hs
      obtain ⟨y, hy, rfl⟩ := hv hx'
      by_cases e : r = r'
      · subst e
        rw [h1] at hy
        obtain rfl := Option.some.inj hy
        obtain ⟨p1, p2⟩ := h.pre r x h1 (by rw [h2]; simp)
        rw [if_pos rfl, sentAfter_first hns, rcv, p2]
        refine ⟨[], ?_, owed_none hno fun _ => rfl⟩
        show [] = [] ++ x.chan ++ []
        rw [p1]; rfl
      · rw [if_neg e] at hs ⊢
        obtain ⟨tail, g1, g2⟩ := h.del r' y hy hs
        refine ⟨tail, ?_, g2⟩
        rw [sentAfter_append ((h.sub r' y hy).mp hs), rcv, ← g1]
        simp [sentTo]
  | newSender a => exact h.silent trivial rfl fun _ _ _ _ _ hO => hO
  | call m c h1 => exact h.silent trivial rfl fun _ _ _ _ _ hO => owed_call hO rfl
  | cancelOp o e h1 h2 h3 => exact h.silent trivial rfl fun _ _ _ _ _ hO => owed_cancel hO (fun _ => rfl) (fun _ => rfl)
  | startClosed h1 h2 => exact idle rfl rfl h1 (by rw [h2]; rfl) rfl trivial
  | startCtx h1 h2 => exact idle rfl rfl h1 (by rw [h2]; rfl) rfl trivial
  | startGo h1 h2 => exact idle rfl rfl h1 (by rw [h2]; rfl) rfl trivial
  | get h1 h2 => exact idle get_rcvs get_ops h1 (by rw [h2]; rfl) rfl trivial
  | @lock o t op m h1 h2 h3 h4 h5 =>
    have htop := hT.op o op t h1 (by rw [h2]; rfl)
    have rcv : ∀ r', received r' (evs ++ [.accepted o op.addr op.msg]) = received r' evs := fun r' => by rw [received_append]; simp [received]
    have nin : ∀ {e : MockEv}, (∀ o a m, e ≠ .accepted o a m) → (e ∈ evs ++ [.accepted o op.addr op.msg] ↔ e ∈ evs) := by
      intro e he
      rw [List.mem_append, List.mem_singleton]
      exact ⟨fun h1 => h1.resolve_right (he _ _ _), Or.inl⟩
    refine ⟨?_, ?_, ?_, ?_, ?_, ?_⟩
    · intro r x hx
      rw [nin (by simp)]
      exact h.sub r x hx
    · intro r a
      rw [nin (by simp)]
      exact h.new r a
    · intro r x hx
      rw [nin (by simp)]
      exact h.closed r x hx
    · intro r m'
      rw [nin (by simp), nin (by simp), nin (by simp)]
      exact h.dom r m'
    · intro r x hx hs
      rw [rcv]
      exact h.pre r x hx hs
    · intro r x hx hs
      obtain ⟨tail, g1, g2⟩ := h.del r x hx hs
      obtain ⟨t', m', k1, k2, k3⟩ := hT.has r x hx hs
      rw [sentAfter_append ((h.sub r x hx).mp hs), rcv, g1]
      by_cases e : r ∈ m.receivers
      · obtain ⟨y, y1, _, y3⟩ := hT.mem t m r h3 e
        have y1 : s.rcvs[r]? = some y := y1
        have hx : s.rcvs[r]? = some x := hx
        rw [hx] at y1
        obtain rfl := Option.some.inj y1
        have ha : op.addr = x.addr := hT.inj _ _ t htop y3
        have hno : ∀ (o : Nat) (op : MSend), s.ops[o]? = some op → r ∉ owes op.pc := by
          intro o1 op1 ho1 hr1
          have hh : ∃ t, holds op1.pc = some t := by
            cases hp : op1.pc <;> rw [hp] at hr1 <;> first | exact ⟨_, rfl⟩ | cases hr1
          obtain ⟨t1, ht1⟩ := hh
          obtain ⟨m1, a1, a2, _, a4⟩ := hT.held t1 o1 op1 ho1 ht1
          obtain ⟨x1, b1, _, b3⟩ := hT.mem t1 m1 r a1 (a4 r hr1)
          rw [hx] at b1
          obtain rfl := Option.some.inj b1
          rw [y3] at b3
          obtain rfl := Option.some.inj b3
          rw [h3] at a1
          obtain rfl := Option.some.inj a1
          rw [h4] at a2
          cases a2
        refine ⟨tail ++ [op.msg], by simp [sentTo, ha], ?_, ?_⟩
        · intro o1 op1 t1 left ho1 hpc
          obtain ⟨z, hz, rfl⟩ := modify_some.mp ho1
          have hz : s.ops[o1]? = some z := hz
          split at hpc
          · cases hpc
          · exact absurd (by rw [hpc]; exact List.mem_cons_self) (hno o1 z hz)
        · intro hc
          have htail : tail = [] := (g2.2 hc).2 hno
          rw [htail]
          refine ⟨fun o1 op1 ho1 hr1 => ?_, fun hn => ?_⟩
          · obtain ⟨z, hz, rfl⟩ := modify_some.mp ho1
            have hz : s.ops[o1]? = some z := hz
            by_cases e1 : o = o1
            · subst e1
              rw [h1] at hz
              obtain rfl := Option.some.inj hz
              rw [if_pos rfl]; rfl
            · rw [if_neg e1] at hr1
              exact absurd hr1 (hno o1 z hz)
          · exact absurd (by rw [if_pos rfl]; exact e) (hn o _ (modify_some.mpr ⟨op, h1, rfl⟩))
      · have ha : op.addr ≠ x.addr := by
          intro ha
          rw [← ha, htop] at k1
          obtain rfl := Option.some.inj k1
          rw [h3] at k2
          obtain rfl := Option.some.inj k2
          exact e k3
        refine ⟨tail, by simp [sentTo, ha], ?_⟩
        exact owed_other g2 h1 (by rw [h2]; simp [owes, e]) (fun _ _ h => by cases h)
  | lockEmpty h1 h2 => exact idle rfl rfl h1 (by rw [h2]; rfl) rfl trivial
  | parkCtx h1 h2 => exact idle rfl rfl h1 (by rw [h2]; rfl) rfl trivial
  | wake h1 h2 => exact idle rfl rfl h1 (by rw [h2]; rfl) rfl trivial
  | @skip o t r0 left op x0 h1 h2 h3 h4 =>
    refine h.silent trivial rfl fun r x tail hx hs hO => ?_
    by_cases e : r = r0
    · subst e
      rw [h3] at hx
      obtain rfl := Option.some.inj hx
      refine ⟨fun o1 op1 t1 left1 ho1 hpc => ?_, fun hc => by rw [h4] at hc; cases hc⟩
      obtain ⟨z, hz, rfl⟩ := modify_some.mp ho1
      split at hpc
      · cases hpc
      · rename_i e1
        exact absurd (owes_unique hT h1 hz (by rw [h2]; exact List.mem_cons_self) (by rw [hpc]; exact List.mem_cons_self)) e1
    · exact owed_other hO h1 (by rw [h2]; simp [owes, e]) (fun _ _ h => by cases h)
  | @offer o t r0 left op x0 h1 h2 h3 h4 =>
    refine h.silent trivial rfl fun r x tail hx hs hO => ?_
    by_cases e : r = r0
    · subst e
      rw [h3] at hx
      obtain rfl := Option.some.inj hx
      have key := (hO.2 h4).1 o op h1 (by rw [h2]; exact List.mem_cons_self)
      refine ⟨fun o1 op1 t1 left1 ho1 hpc => ?_, fun hc => ⟨fun o1 op1 ho1 hr1 => ?_, fun hn => ?_⟩⟩
      · obtain ⟨z, hz, rfl⟩ := modify_some.mp ho1
        by_cases e1 : o = o1
        · subst e1
          rw [h1] at hz
          obtain rfl := Option.some.inj hz
          rw [if_pos rfl]; exact key
        · rw [if_neg e1] at hpc ⊢
          exact hO.1 o1 z t1 left1 hz hpc
      · obtain ⟨z, hz, rfl⟩ := modify_some.mp ho1
        by_cases e1 : o = o1
        · subst e1
          rw [h1] at hz
          obtain rfl := Option.some.inj hz
          rw [if_pos rfl]; exact key
        · rw [if_neg e1] at hr1 ⊢
          exact (hO.2 h4).1 o1 z hz hr1
      · exact absurd (by rw [if_pos rfl]; exact List.mem_cons_self) (hn o _ (modify_some.mpr ⟨op, h1, rfl⟩))
    · exact owed_other hO h1 (by rw [h2]; simp [owes]) (fun _ _ h => by cases h; exact absurd rfl e)
  | @put o t r0 left op x0 h1 h2 h3 h4 =>
    have hq : Silent (.step o) := trivial
    obtain ⟨m0, q1, q2, q3, q4⟩ := hT.held t o op h1 (by rw [h2]; rfl)
    rw [h2] at q3 q4
    obtain ⟨y0, w1, w2, w3⟩ := hT.mem t m0 r0 q1 (q4 r0 List.mem_cons_self)
    rw [h3] at w1
    obtain rfl := Option.some.inj w1
    have hnl : r0 ∉ left := (List.nodup_cons.mp q3).1
    have hv : ∀ {r' : Nat} {x' : MRcv}, ((s.setRcv r0 fun y => { y with chan := y.chan ++ [op.msg] }).setOp o (.sending t left)).rcvs[r']? = some x' →
        ∃ y, s.rcvs[r']? = some y ∧ x' = (if r0 = r' then { y with chan := y.chan ++ [op.msg] } else y) := fun hx' => modify_some.mp hx'
    have hsub : ∀ {r' : Nat} {y : MRcv}, (if r0 = r' then { y with chan := y.chan ++ [op.msg] } else y).sub = y.sub := by intros; split <;> rfl
    refine ⟨?_, ?_, ?_, ?_, ?_, ?_⟩
    · intro r' x' hx'
      obtain ⟨y, hy, rfl⟩ := hv hx'
      rw [hq.mem (by simp [Silent]), hsub]
      exact h.sub r' y hy
    · intro r' a
      rw [hq.mem (by simp [Silent]), h.new]
      constructor
      · rintro ⟨y, g1, rfl⟩
        exact ⟨_, modify_some.mpr ⟨y, g1, rfl⟩, by split <;> rfl⟩
      · rintro ⟨x', g1, rfl⟩
        obtain ⟨y, k1, rfl⟩ := hv g1
        exact ⟨y, k1, by split <;> rfl⟩
    · intro r' x' hx'
      obtain ⟨y, hy, rfl⟩ := hv hx'
      rw [hq.mem (by simp [Silent]), ← h.closed r' y hy]
      split <;> exact Iff.rfl
    · intro r' m'
      rw [hq.mem (by simp [Silent]), hq.mem (by simp [Silent]), hq.mem (by simp [Silent])]
      show _ → r' < (s.rcvs.modify _ _).length
      rw [List.length_modify]
      exact h.dom r' m'
    · intro r' x' hx' hs
      obtain ⟨y, hy, rfl⟩ := hv hx'
      rw [hsub] at hs
      rw [hq.received]
      by_cases e : r0 = r'
      · subst e
        rw [h3] at hy
        obtain rfl := Option.some.inj hy
        exact absurd w2 hs
      · rw [if_neg e]; exact h.pre r' y hy hs
    · intro r' x' hx' hs
      obtain ⟨y, hy, rfl⟩ := hv hx'
      rw [hsub] at hs
      obtain ⟨tail, g1, g2⟩ := h.del r' y hy hs
      by_cases e : r0 = r'
      · subst e
        rw [h3] at hy
        obtain rfl := Option.some.inj hy
        rw [if_pos rfl, hq.received]
        have htail := g2.1 o op t left h1 h2
        refine ⟨[], ?_, ?_⟩
        · show sentAfter r0 x0.addr _ = _ ++ (x0.chan ++ [op.msg]) ++ []
          rw [sentAfter_append ((h.sub r0 x0 h3).mp hs), hq.sentTo, g1, htail]
          simp
        · refine owed_none (fun o1 op1 ho1 hr1 => ?_) fun _ => rfl
          obtain ⟨z, hz, rfl⟩ := modify_some.mp ho1
          by_cases e1 : o = o1
          · rw [if_pos e1] at hr1
            exact hnl hr1
          · rw [if_neg e1] at hr1
            exact e1 (owes_unique hT h1 hz (by rw [h2]; exact List.mem_cons_self) hr1)
      · rw [if_neg e, hq.received]
        refine ⟨tail, ?_, owed_other g2 h1 (by rw [h2]; simp [owes, Ne.symm e]) (fun _ _ h => by cases h)⟩
        rw [sentAfter_append ((h.sub r' y hy).mp hs), hq.sentTo, List.append_nil]
        exact g1
  | finish h1 h2 => exact idle rfl rfl h1 (by rw [h2]; rfl) rfl trivial
  | @recv r0 m rest x0 h1 h2 h3 =>
    have nin : ∀ {e : MockEv}, (∀ r m, e ≠ .recv r m) → (e ∈ evs ++ [.recv r0 m] ↔ e ∈ evs) := by
      intro e he
      rw [List.mem_append, List.mem_singleton]
      exact ⟨fun h1 => h1.resolve_right (he _ _), Or.inl⟩
    have rcv : ∀ r', received r' (evs ++ [.recv r0 m]) = received r' evs ++ if r0 = r' then [m] else [] := fun r' => by
      rw [received_append]; simp only [received]
    have hv : ∀ {r' : Nat} {x' : MRcv}, (s.setRcv r0 fun y => { y with chan := rest }).rcvs[r']? = some x' →
        ∃ y, s.rcvs[r']? = some y ∧ x' = (if r0 = r' then { y with chan := rest } else y) := fun hx' => modify_some.mp hx'
    have hsub : ∀ {r' : Nat} {y : MRcv}, (if r0 = r' then { y with chan := rest } else y).sub = y.sub := by intros; split <;> rfl
    refine ⟨?_, ?_, ?_, ?_, ?_, ?_⟩
    · intro r' x' hx'
      obtain ⟨y, hy, rfl⟩ := hv hx'
      rw [nin (by simp), hsub]
      exact h.sub r' y hy
    · intro r' a
      rw [nin (by simp), h.new]
      constructor
      · rintro ⟨y, g1, rfl⟩
        exact ⟨_, modify_some.mpr ⟨y, g1, rfl⟩, by split <;> rfl⟩
      · rintro ⟨x', g1, rfl⟩
        obtain ⟨y, k1, rfl⟩ := hv g1
        exact ⟨y, k1, by split <;> rfl⟩
    · intro r' x' hx'
      obtain ⟨y, hy, rfl⟩ := hv hx'
      rw [nin (by simp), ← h.closed r' y hy]
      split <;> exact Iff.rfl
    · intro r' m'
      rw [nin (e := .subscribed r') (by simp), nin (e := .closeReceiver r') (by simp), List.mem_append, List.mem_singleton]
      show _ → r' < (s.rcvs.modify _ _).length
      rw [List.length_modify]
      rintro ((hh | hh) | hh)
      · exact h.dom r' m' (Or.inl hh)
      · cases hh; exact (List.getElem?_eq_some_iff.mp h1).1
      · exact h.dom r' m' (Or.inr hh)
    · intro r' x' hx' hs
      obtain ⟨y, hy, rfl⟩ := hv hx'
      rw [hsub] at hs
      rw [rcv]
      by_cases e : r0 = r'
      · subst e
        rw [h1] at hy
        obtain rfl := Option.some.inj hy
        exact absurd h2 hs
      · rw [if_neg e, if_neg e, List.append_nil]; exact h.pre r' y hy hs
    · intro r' x' hx' hs
      obtain ⟨y, hy, rfl⟩ := hv hx'
      rw [hsub] at hs
      obtain ⟨tail, g1, g2⟩ := h.del r' y hy hs
      rw [rcv]
      by_cases e : r0 = r'
      · subst e
        rw [h1] at hy
        obtain rfl := Option.some.inj hy
        rw [if_pos rfl, if_pos rfl]
        refine ⟨tail, ?_, g2⟩
        show sentAfter r0 x0.addr _ = _ ++ rest ++ tail
        rw [sentAfter_append ((h.sub r0 x0 h1).mp hs), g1, h3]
        simp [sentTo]
      · rw [if_neg e, if_neg e]
        refine ⟨tail, ?_, g2⟩
        rw [sentAfter_append ((h.sub r' y hy).mp hs), g1]
        simp [sentTo]
  | nextClosed => exact h.silent trivial rfl fun _ _ _ _ _ hO => hO
  | @closeReceiver r0 x0 h1 h2 =>
    have nin : ∀ {e : MockEv}, (∀ r, e ≠ .closeReceiver r) → (e ∈ evs ++ [.closeReceiver r0] ↔ e ∈ evs) := by
      intro e he
      rw [List.mem_append, List.mem_singleton]
      exact ⟨fun h1 => h1.resolve_right (he _), Or.inl⟩
    have rcv : ∀ r', received r' (evs ++ [.closeReceiver r0]) = received r' evs := fun r' => by rw [received_append]; simp [received]
    have hv : ∀ {r' : Nat} {x' : MRcv}, (s.setRcv r0 fun y => { y with closed := true }).rcvs[r']? = some x' →
        ∃ y, s.rcvs[r']? = some y ∧ x' = (if r0 = r' then { y with closed := true } else y) := fun hx' => modify_some.mp hx'
    have hsub : ∀ {r' : Nat} {y : MRcv}, (if r0 = r' then { y with closed := true } else y).sub = y.sub := by intros; split <;> rfl
    have hchan : ∀ {r' : Nat} {y : MRcv}, (if r0 = r' then { y with closed := true } else y).chan = y.chan := by intros; split <;> rfl
    have haddr : ∀ {r' : Nat} {y : MRcv}, (if r0 = r' then { y with closed := true } else y).addr = y.addr := by intros; split <;> rfl
    refine ⟨?_, ?_, ?_, ?_, ?_, ?_⟩
    · intro r' x' hx'
      obtain ⟨y, hy, rfl⟩ := hv hx'
      rw [nin (by simp), hsub]
      exact h.sub r' y hy
    · intro r' a
      rw [nin (by simp), h.new]
      constructor
      · rintro ⟨y, g1, rfl⟩
        exact ⟨_, modify_some.mpr ⟨y, g1, rfl⟩, haddr⟩
      · rintro ⟨x', g1, rfl⟩
        obtain ⟨y, k1, rfl⟩ := hv g1
        exact ⟨y, k1, haddr.symm⟩
    · intro r' x' hx'
      obtain ⟨y, hy, rfl⟩ := hv hx'
      rw [List.mem_append, List.mem_singleton, ← h.closed r' y hy]
      by_cases e : r0 = r'
      · simp [e]
      · simp only [if_neg e]
        exact ⟨Or.inl, fun h1 => h1.resolve_right fun h2 => e (by cases h2; rfl)⟩
    · intro r' m'
      rw [nin (e := .subscribed r') (by simp), nin (e := .recv r' m') (by simp), List.mem_append, List.mem_singleton]
      show _ → r' < (s.rcvs.modify _ _).length
      rw [List.length_modify]
      rintro (hh | hh | hh | hh)
      · exact h.dom r' m' (Or.inl hh)
      · exact h.dom r' m' (Or.inr (Or.inl hh))
      · exact h.dom r' m' (Or.inr (Or.inr hh))
      · cases hh; exact (List.getElem?_eq_some_iff.mp h1).1
    · intro r' x' hx' hs
      obtain ⟨y, hy, rfl⟩ := hv hx'
      rw [hsub] at hs
      rw [rcv, hchan]
      exact h.pre r' y hy hs
    · intro r' x' hx' hs
      obtain ⟨y, hy, rfl⟩ := hv hx'
      rw [hsub] at hs
      obtain ⟨tail, g1, g2⟩ := h.del r' y hy hs
      rw [rcv, hchan, haddr]
      refine ⟨tail, ?_, g2.1, fun hc => ?_⟩
      · rw [sentAfter_append ((h.sub r' y hy).mp hs), g1]
        simp [sentTo]
      · by_cases e : r0 = r'
        · rw [if_pos e] at hc; cases hc
        · rw [if_neg e] at hc; exact g2.2 hc
  | closeSender => exact h.silent trivial rfl fun _ _ _ _ _ hO => hO

theorem delInv_run {evs : List MockEv} {s : Mock} (h : Mock.Run {} evs s) : DelInv evs s := by
  generalize hs0 : ({} : Mock) = s0 at h
  induction h with
  | nil => subst hs0; constructor <;> simp
  | snoc hr hs ih =>
    subst hs0
    exact delInv_step (topInv_run hr) ih hs

/-! ## Calls of Send -/

/-- The message has been sent, or is being sent. -/
def begun : MSendPC → Bool
  | .sending .. | .offering .. | .done none => true
  | _ => false

structure CallInv (evs : List MockEv) (s : Mock) : Prop where
  call : ∀ (o : Nat) (op : MSend), s.ops[o]? = some op → MockEv.call o op.sender op.addr op.msg ∈ evs
  ret : ∀ (o : Nat) (r : Option GoErr), MockEv.ret o r ∈ evs → ∃ op, s.ops[o]? = some op ∧ op.pc = .done r
  acc : ∀ (o : Nat) (a : String) (m : Nat), MockEv.accepted o a m ∈ evs → ∃ op, s.ops[o]? = some op ∧ op.addr = a ∧ op.msg = m ∧ begun op.pc = true
  count : ∀ (o : Nat) (op : MSend), s.ops[o]? = some op → evs.countP (isAccepted o) = if begun op.pc then 1 else 0

theorem CallInv.setOp {evs : List MockEv} {s s1 : Mock} {ev : MockEv} {o : Nat} {op : MSend} {pc : MSendPC} (h : CallInv evs s) (h0 : s1.ops = s.ops) (h1 : s.ops[o]? = some op)
    (hnd : ∀ r, op.pc ≠ .done r) (hev : (pc = .done none ∧ begun op.pc = true ∧ ev = .ret o none) ∨ (∃ e, pc = .done (some e) ∧ ev = .ret o (some e) ∧ begun op.pc = false) ∨
      (begun pc = begun op.pc ∧ ∃ n, ev = .step n) ∨ (begun op.pc = false ∧ begun pc = true ∧ ev = .accepted o op.addr op.msg)) :
    CallInv (evs ++ [ev]) (s1.setOp o pc) := by
  have hget : ∀ {o' : Nat} {y : MSend}, (s1.setOp o pc).ops[o']? = some y ↔ ∃ x, s.ops[o']? = some x ∧ y = if o = o' then { x with pc := pc } else x := by
    intro o' y
    show (s1.ops.modify _ _)[o']? = _ ↔ _
    rw [h0]
    exact modify_some
  refine ⟨?_, ?_, ?_, ?_⟩
  · intro o' y hy
    obtain ⟨x, hx, rfl⟩ := hget.mp hy
    have := h.call o' x hx
    split <;> exact List.mem_append_left _ this
  · intro o' r hr
    rw [List.mem_append, List.mem_singleton] at hr
    rcases hr with hr | hr
    · obtain ⟨x, hx, hp⟩ := h.ret o' r hr
      refine ⟨x, hget.mpr ⟨x, hx, ?_⟩, hp⟩
      split
      · rename_i e
        subst e
        rw [h1] at hx
        obtain rfl := Option.some.inj hx
        exact absurd hp (hnd r)
      · rfl
    · rcases hev with ⟨e1, _, rfl⟩ | ⟨e, e1, rfl, _⟩ | ⟨_, n, rfl⟩ | ⟨_, _, rfl⟩
      · cases hr
        exact ⟨_, hget.mpr ⟨op, h1, rfl⟩, by rw [if_pos rfl]; exact e1⟩
      · cases hr
        exact ⟨_, hget.mpr ⟨op, h1, rfl⟩, by rw [if_pos rfl]; exact e1⟩
      · cases hr
      · cases hr
  · intro o' a m ha
    rw [List.mem_append, List.mem_singleton] at ha
    rcases ha with ha | ha
    · obtain ⟨x, hx, g1, g2, g3⟩ := h.acc o' a m ha
      refine ⟨_, hget.mpr ⟨x, hx, rfl⟩, ?_⟩
      split
      · rename_i e
        subst e
        rw [h1] at hx
        obtain rfl := Option.some.inj hx
        refine ⟨g1, g2, ?_⟩
        rcases hev with ⟨e1, _, rfl⟩ | ⟨e, e1, rfl, e2⟩ | ⟨e1, n, rfl⟩ | ⟨e1, _, rfl⟩
        · show begun pc = true; rw [e1]; rfl
        · rw [g3] at e2; cases e2
        · exact e1.trans g3
        · rw [g3] at e1; cases e1
      · exact ⟨g1, g2, g3⟩
    · rcases hev with ⟨e1, _, rfl⟩ | ⟨e, e1, rfl, e2⟩ | ⟨e1, n, rfl⟩ | ⟨e1, e2, rfl⟩
      · cases ha
      · cases ha
      · cases ha
      · cases ha
        refine ⟨_, hget.mpr ⟨op, h1, rfl⟩, ?_⟩
        rw [if_pos rfl]
        exact ⟨rfl, rfl, e2⟩
  · intro o' y hy
    obtain ⟨x, hx, rfl⟩ := hget.mp hy
    have hc := h.count o' x hx
    rw [List.countP_append, hc]
    by_cases e : o = o'
    · subst e
      rw [h1] at hx
      obtain rfl := Option.some.inj hx
      rw [if_pos rfl]
      show _ = if begun pc then 1 else 0
      rcases hev with ⟨rfl, e1, rfl⟩ | ⟨e, rfl, rfl, e2⟩ | ⟨e1, n, rfl⟩ | ⟨e1, e2, rfl⟩
      · rw [e1, show begun (.done none) = true from rfl]; simp [isAccepted]
      · rw [e2, show begun (.done (some e)) = false from rfl]; simp [isAccepted]
      · simp [e1, isAccepted]
      · simp [e1, e2, isAccepted]
    · rw [if_neg e]
      have : [ev].countP (isAccepted o') = 0 := by
        rcases hev with ⟨_, _, rfl⟩ | ⟨_, _, rfl, _⟩ | ⟨_, n, rfl⟩ | ⟨_, _, rfl⟩ <;> simp [isAccepted, e]
      rw [this]
      rfl

theorem CallInv.other {evs : List MockEv} {s s' : Mock} {ev : MockEv} (h : CallInv evs s) (h0 : s'.ops = s.ops) (h1 : ∀ o r, ev ≠ .ret o r) (h2 : ∀ o a m, ev ≠ .accepted o a m) :
    CallInv (evs ++ [ev]) s' := by
  refine ⟨?_, ?_, ?_, ?_⟩
  · intro o op ho
    rw [h0] at ho
    exact List.mem_append_left _ (h.call o op ho)
  · intro o r hr
    rw [List.mem_append, List.mem_singleton] at hr
    rw [h0]
    exact h.ret o r (hr.resolve_right fun e => h1 o r e.symm)
  · intro o a m hr
    rw [List.mem_append, List.mem_singleton] at hr
    rw [h0]
    exact h.acc o a m (hr.resolve_right fun e => h2 o a m e.symm)
  · intro o op ho
    rw [h0] at ho
    rw [List.countP_append, h.count o op ho]
    have : [ev].countP (isAccepted o) = 0 := by
      cases ev <;> first | simp [isAccepted]; done | exact absurd rfl (h2 _ _ _)
    rw [this]
    rfl

theorem callInv_run {evs : List MockEv} {s : Mock} (h : Mock.Run {} evs s) : CallInv evs s := by
  generalize hs0 : ({} : Mock) = s0 at h
  induction h with
  | nil => subst hs0; constructor <;> simp
  | @snoc s s' evs ev hr hs h =>
    subst hs0
    cases hs with
    | @call i x m c h1 =>
      have hdom : ∀ {o : Nat} {op : MSend}, s.ops[o]? = some op → o ≠ s.ops.length := fun ho e => by
        have := (List.getElem?_eq_some_iff.mp ho).1
        omega
      refine ⟨?_, ?_, ?_, ?_⟩
      · intro o op ho
        rcases snoc_some.mp ho with ho | ⟨rfl, rfl⟩
        · exact List.mem_append_left _ (h.call o op ho)
        · exact List.mem_append_right _ List.mem_cons_self
      · intro o r hr
        rw [List.mem_append, List.mem_singleton] at hr
        obtain ⟨op, g1, g2⟩ := h.ret o r (hr.resolve_right fun e => by cases e)
        exact ⟨op, snoc_some.mpr (Or.inl g1), g2⟩
      · intro o a m' hr
        rw [List.mem_append, List.mem_singleton] at hr
        obtain ⟨op, g1, g2⟩ := h.acc o a m' (hr.resolve_right fun e => by cases e)
        exact ⟨op, snoc_some.mpr (Or.inl g1), g2⟩
      · intro o op ho
        rw [List.countP_append]
        rcases snoc_some.mp ho with ho | ⟨rfl, rfl⟩
        · rw [h.count o op ho]; simp [isAccepted]
        · have : evs.countP (isAccepted s.ops.length) = 0 := by
            rw [List.countP_eq_zero]
            intro ev hev hacc
            cases ev with
            | accepted o a m' =>
              have : o = s.ops.length := by simpa [isAccepted] using hacc
              subst this
              obtain ⟨op, g1, _⟩ := h.acc _ a m' hev
              exact hdom g1 rfl
            | _ => cases hacc
          rw [this]
          simp [isAccepted, begun]
    | cancelOp o e h1 h2 h3 =>
      have hget : ∀ {o' : Nat} {y : MSend}, (s.ops.modify o fun x => { x with ctx := some e })[o']? = some y ↔
          ∃ x, s.ops[o']? = some x ∧ y = if o = o' then { x with ctx := some e } else x := modify_some
      have hp : ∀ {o' : Nat} {x : MSend}, (if o = o' then { x with ctx := some e } else x).pc = x.pc ∧ (if o = o' then { x with ctx := some e } else x).addr = x.addr ∧
          (if o = o' then { x with ctx := some e } else x).msg = x.msg ∧ (if o = o' then { x with ctx := some e } else x).sender = x.sender := by
        intros; split <;> exact ⟨rfl, rfl, rfl, rfl⟩
      refine ⟨?_, ?_, ?_, ?_⟩
      · intro o' y hy
        obtain ⟨x, hx, rfl⟩ := hget.mp hy
        rw [hp.2.1, hp.2.2.1, hp.2.2.2]
        exact List.mem_append_left _ (h.call o' x hx)
      · intro o' r hr
        rw [List.mem_append, List.mem_singleton] at hr
        obtain ⟨x, g1, g2⟩ := h.ret o' r (hr.resolve_right fun e => by cases e)
        exact ⟨_, hget.mpr ⟨x, g1, rfl⟩, by rw [hp.1]; exact g2⟩
      · intro o' a m' hr
        rw [List.mem_append, List.mem_singleton] at hr
        obtain ⟨x, g1, g2, g3, g4⟩ := h.acc o' a m' (hr.resolve_right fun e => by cases e)
        exact ⟨_, hget.mpr ⟨x, g1, rfl⟩, by rw [hp.2.1]; exact g2, by rw [hp.2.2.1]; exact g3, by rw [hp.1]; exact g4⟩
      · intro o' y hy
        obtain ⟨x, hx, rfl⟩ := hget.mp hy
        rw [List.countP_append, h.count o' x hx, hp.1]
        simp [isAccepted]
    | startClosed h1 h2 => exact h.setOp rfl h1 (by rw [h2]; simp) (Or.inr (Or.inl ⟨_, rfl, rfl, by rw [h2]; rfl⟩))
    | startCtx h1 h2 => exact h.setOp rfl h1 (by rw [h2]; simp) (Or.inr (Or.inl ⟨_, rfl, rfl, by rw [h2]; rfl⟩))
    | startGo h1 h2 => exact h.setOp rfl h1 (by rw [h2]; simp) (Or.inr (Or.inr (Or.inl ⟨by rw [h2]; rfl, _, rfl⟩)))
    | get h1 h2 => exact h.setOp get_ops h1 (by rw [h2]; simp) (Or.inr (Or.inr (Or.inl ⟨by rw [h2]; rfl, _, rfl⟩)))
    | lock h1 h2 => exact h.setOp (s1 := s.setMC _ _) rfl h1 (by rw [h2]; simp) (Or.inr (Or.inr (Or.inr ⟨by rw [h2]; rfl, rfl, rfl⟩)))
    | lockEmpty h1 h2 => exact h.setOp rfl h1 (by rw [h2]; simp) (Or.inr (Or.inr (Or.inl ⟨by rw [h2]; rfl, _, rfl⟩)))
    | parkCtx h1 h2 => exact h.setOp rfl h1 (by rw [h2]; simp) (Or.inr (Or.inl ⟨_, rfl, rfl, by rw [h2]; rfl⟩))
    | wake h1 h2 => exact h.setOp rfl h1 (by rw [h2]; simp) (Or.inr (Or.inr (Or.inl ⟨by rw [h2]; rfl, _, rfl⟩)))
    | skip h1 h2 => exact h.setOp rfl h1 (by rw [h2]; simp) (Or.inr (Or.inr (Or.inl ⟨by rw [h2]; rfl, _, rfl⟩)))
    | offer h1 h2 => exact h.setOp rfl h1 (by rw [h2]; simp) (Or.inr (Or.inr (Or.inl ⟨by rw [h2]; rfl, _, rfl⟩)))
    | put h1 h2 => exact h.setOp (s1 := s.setRcv _ _) rfl h1 (by rw [h2]; simp) (Or.inr (Or.inr (Or.inl ⟨by rw [h2]; rfl, _, rfl⟩)))
    | finish h1 h2 => exact h.setOp (s1 := s.setMC _ _) rfl h1 (by rw [h2]; simp) (Or.inl ⟨rfl, by rw [h2]; rfl, rfl⟩)
    | subGet => exact h.other get_ops (by simp) (by simp)
    | _ => exact h.other rfl (by simp) (by simp)

end Verif.Proofs
