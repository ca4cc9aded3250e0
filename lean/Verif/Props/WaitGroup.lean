import Verif.Model.WaitGroup

/-!
# C125: `Listen` and `Close` at the same time
-/
namespace Verif.Props
open Verif Verif.Model

/-- The listener counts. -/
def WlPC.counted : WlPC → Bool
  | .added | .running => true
  | _ => false

theorem countP_set_get {α : Type} (p : α → Bool) : ∀ (ls : List α) (i : Nat) (x y : α), ls[i]? = some x →
    (ls.set i y).countP p + (if p x then 1 else 0) = ls.countP p + (if p y then 1 else 0)
  | [], i, x, y, h => by simp at h
  | a :: ls, 0, x, y, h => by
    simp only [List.getElem?_cons_zero, Option.some.injEq] at h
    subst h
    rw [List.set_cons_zero, List.countP_cons, List.countP_cons]
    omega
  | a :: ls, i + 1, x, y, h => by
    simp only [List.getElem?_cons_succ] at h
    have := countP_set_get p ls i x y h
    rw [List.set_cons_succ, List.countP_cons, List.countP_cons]
    omega

theorem countP_pos_get {α : Type} (p : α → Bool) {ls : List α} {i : Nat} {x : α} (h : ls[i]? = some x) (hp : p x = true) : 0 < ls.countP p :=
  List.countP_pos_iff.2 ⟨x, List.mem_of_getElem? h, hp⟩

/-- Where `Close`, the waiters, the semaphore and the last `Done` are together. -/
inductive WgTable (s : WgCl) : Prop where
  | outside : s.close = .open_ ∨ s.close = .locking ∨ s.close = .returned → s.lock = false → s.waiters = 0 → s.sema = 0 → s.waker = none → WgTable s
  | loading : s.close = .loading ∨ (∃ v w, s.close = .swapping v w ∧ v ≠ 0) → s.lock = true → s.waiters = 0 → s.sema = 0 → s.waker = none → WgTable s
  | asleep : s.close = .sleeping → s.lock = true → s.waiters = 1 → s.sema = 0 → s.waker = none → 0 < s.counter → WgTable s
  | last : s.close = .sleeping → s.lock = true → s.waiters = 1 → s.sema = 0 → s.waker = some (.checking 1) ∨ s.waker = some (.storing 1) → s.counter = 0 → WgTable s
  | stored : s.close = .sleeping → s.lock = true → s.waiters = 0 → s.sema = 0 → s.waker = some (.releasing 1) → WgTable s
  | released : s.close = .sleeping → s.lock = true → s.waiters = 0 → s.sema = 1 → s.waker = none → WgTable s
  | woken : s.close = .woken → s.lock = true → s.waiters = 0 → s.sema = 0 → s.waker = none → WgTable s

structure WgOK (s : WgCl) : Prop where
  count : s.counter = (s.ls.countP WlPC.counted : Nat)
  table : WgTable s

theorem wgOK_step {b : Bool} {s s' : WgCl} {ev : WgEv} (h : WgOK s) (hs : WgCl.Step b s ev s') :
    WgOK s' ∨ s'.crashed = some .addDuringWait ∨ s'.crashed = some .reused := by
  obtain ⟨hc, ht⟩ := h
  cases hs with
  | listen h1 =>
    refine .inl ⟨?_, ?_⟩
    · simp [List.countP_append, WlPC.counted, hc]
    · cases ht with
      | outside a b c d e => exact .outside a b c d e
      | loading a b c d e => exact .loading a b c d e
      | asleep a b c d e f => exact .asleep a b c d e f
      | last a b c d e f => exact .last a b c d e f
      | stored a b c d e => exact .stored a b c d e
      | released a b c d e => exact .released a b c d e
      | woken a b c d e => exact .woken a b c d e
  | @add l h1 h2 =>
    refine .inl ⟨?_, ?_⟩
    · have := countP_set_get WlPC.counted s.ls l _ .added h1
      simp [WlPC.counted] at this
      simp only [this, hc]
      omega
    · cases ht with
      | outside a b c d e => exact .outside a b c d e
      | loading a b c d e => exact .loading a b c d e
      | asleep a b c d e f => exact .asleep a b c d e (by show 0 < s.counter + 1; omega)
      | last a b c d e f => exact absurd ⟨by omega, by omega⟩ h2
      | stored a b c d e => exact .stored a b c d e
      | released a b c d e => exact .released a b c d e
      | woken a b c d e => exact .woken a b c d e
  | addPanic h1 h2 h3 => exact .inr (.inl rfl)
  | @listening l h1 h2 =>
    refine .inl ⟨?_, ?_⟩
    · have := countP_set_get WlPC.counted s.ls l _ .running h1
      simp [WlPC.counted] at this
      simp only [this, hc]
    · cases ht with
      | outside a b c d e => exact .outside a b c d e
      | loading a b c d e => exact .loading a b c d e
      | asleep a b c d e f => exact .asleep a b c d e f
      | last a b c d e f => exact .last a b c d e f
      | stored a b c d e => exact .stored a b c d e
      | released a b c d e => exact .released a b c d e
      | woken a b c d e => exact .woken a b c d e
  | @doneNegative l h1 h2 =>
    have := countP_pos_get WlPC.counted h1 rfl
    omega
  | @done l h1 h2 h3 =>
    refine .inl ⟨?_, ?_⟩
    · have := countP_set_get WlPC.counted s.ls l _ .left h1
      simp [WlPC.counted] at this
      show s.counter - 1 = ((s.ls.set l .left).countP WlPC.counted : Nat)
      omega
    · cases ht with
      | outside a b c d e => exact .outside a b c d e
      | loading a b c d e => exact .loading a b c d e
      | asleep a b c d e f =>
        exact .asleep a b c d e (by show 0 < s.counter - 1; omega)
      | last a b c d e f => have := countP_pos_get WlPC.counted h1 rfl; omega
      | stored a b c d e => exact .stored a b c d e
      | released a b c d e => exact .released a b c d e
      | woken a b c d e => exact .woken a b c d e
  | @doneLast l h1 h2 h3 =>
    refine .inl ⟨?_, ?_⟩
    · have := countP_set_get WlPC.counted s.ls l _ .left h1
      simp [WlPC.counted] at this
      show s.counter - 1 = ((s.ls.set l .left).countP WlPC.counted : Nat)
      omega
    · cases ht with
      | asleep a b c d e f => exact .last a b c d (.inl (by rw [c])) h2
      | last a b c d e f => have := countP_pos_get WlPC.counted h1 rfl; omega
      | outside a b c d e => exact absurd c h3
      | loading a b c d e => exact absurd c h3
      | stored a b c d e => exact absurd c h3
      | released a b c d e => exact absurd c h3
      | woken a b c d e => exact absurd c h3
  | @check w h1 h2 h3 =>
    refine .inl ⟨hc, ?_⟩
    cases ht with
    | last a b c d e f =>
      rw [h1] at e
      simp at e
      subst e
      exact .last a b c d (.inr rfl) f
    | outside a b c d e => rw [h1] at e; cases e
    | loading a b c d e => rw [h1] at e; cases e
    | asleep a b c d e f => rw [h1] at e; cases e
    | stored a b c d e => rw [h1] at e; cases e
    | released a b c d e => rw [h1] at e; cases e
    | woken a b c d e => rw [h1] at e; cases e
  | @checkPanic w h1 h2 =>
    exfalso
    cases ht with
    | last a b c d e f =>
      rw [h1] at e
      simp at e
      subst e
      exact h2 ⟨f, c⟩
    | outside a b c d e => rw [h1] at e; cases e
    | loading a b c d e => rw [h1] at e; cases e
    | asleep a b c d e f => rw [h1] at e; cases e
    | stored a b c d e => rw [h1] at e; cases e
    | released a b c d e => rw [h1] at e; cases e
    | woken a b c d e => rw [h1] at e; cases e
  | @store w h1 =>
    cases ht with
    | last a b c d e f =>
      rw [h1] at e
      simp at e
      subst e
      exact .inl ⟨f.symm.trans hc, .stored a b rfl d rfl⟩
    | outside a b c d e => rw [h1] at e; cases e
    | loading a b c d e => rw [h1] at e; cases e
    | asleep a b c d e f => rw [h1] at e; cases e
    | stored a b c d e => rw [h1] at e; cases e
    | released a b c d e => rw [h1] at e; cases e
    | woken a b c d e => rw [h1] at e; cases e
  | @release n h1 =>
    cases ht with
    | last a b c d e f => rw [h1] at e; simp at e
    | outside a b c d e => rw [h1] at e; cases e
    | loading a b c d e => rw [h1] at e; cases e
    | asleep a b c d e f => rw [h1] at e; cases e
    | stored a b c d e =>
      rw [h1] at e
      simp at e
      subst e
      exact .inl ⟨hc, .released a b c (by show s.sema + 1 = 1; omega) rfl⟩
    | released a b c d e => rw [h1] at e; cases e
    | woken a b c d e => rw [h1] at e; cases e
  | close h1 h2 =>
    refine .inl ⟨hc, ?_⟩
    cases ht with
    | outside a b c d e => exact .outside (.inr (.inl rfl)) b c d e
    | loading a => simp [h1] at a
    | asleep a => rw [h1] at a; cases a
    | last a => rw [h1] at a; cases a
    | stored a => rw [h1] at a; cases a
    | released a => rw [h1] at a; cases a
    | woken a => rw [h1] at a; cases a
  | lock h1 h2 =>
    refine .inl ⟨hc, ?_⟩
    cases ht with
    | outside a b c d e => exact .loading (.inl rfl) rfl c d e
    | loading a => simp [h1] at a
    | asleep a => rw [h1] at a; cases a
    | last a => rw [h1] at a; cases a
    | stored a => rw [h1] at a; cases a
    | released a => rw [h1] at a; cases a
    | woken a => rw [h1] at a; cases a
  | loadZero h1 h2 =>
    refine .inl ⟨hc, ?_⟩
    cases ht with
    | outside a => simp [h1] at a
    | loading a b c d e => exact .outside (.inr (.inr rfl)) rfl c d e
    | asleep a => rw [h1] at a; cases a
    | last a => rw [h1] at a; cases a
    | stored a => rw [h1] at a; cases a
    | released a => rw [h1] at a; cases a
    | woken a => rw [h1] at a; cases a
  | load h1 h2 =>
    refine .inl ⟨hc, ?_⟩
    cases ht with
    | outside a => simp [h1] at a
    | loading a b c d e => exact .loading (.inr ⟨_, _, rfl, h2⟩) b c d e
    | asleep a => rw [h1] at a; cases a
    | last a => rw [h1] at a; cases a
    | stored a => rw [h1] at a; cases a
    | released a => rw [h1] at a; cases a
    | woken a => rw [h1] at a; cases a
  | @swap v w h1 h2 h3 =>
    refine .inl ⟨hc, ?_⟩
    cases ht with
    | outside a => simp [h1] at a
    | loading a b c d e =>
      simp only [h1, WcPC.swapping.injEq, reduceCtorEq, false_or] at a
      obtain ⟨v', w', ⟨rfl, rfl⟩, hv⟩ := a
      exact .asleep rfl b (by show s.waiters + 1 = 1; omega) d e (by show 0 < s.counter; omega)
    | asleep a => rw [h1] at a; cases a
    | last a => rw [h1] at a; cases a
    | stored a => rw [h1] at a; cases a
    | released a => rw [h1] at a; cases a
    | woken a => rw [h1] at a; cases a
  | @swapFail v w h1 h2 =>
    refine .inl ⟨hc, ?_⟩
    cases ht with
    | outside a => simp [h1] at a
    | loading a b c d e => exact .loading (.inl rfl) b c d e
    | asleep a => rw [h1] at a; cases a
    | last a => rw [h1] at a; cases a
    | stored a => rw [h1] at a; cases a
    | released a => rw [h1] at a; cases a
    | woken a => rw [h1] at a; cases a
  | sleep h1 h2 =>
    refine .inl ⟨hc, ?_⟩
    cases ht with
    | outside a => simp [h1] at a
    | loading a => simp [h1] at a
    | asleep a b c d e f => omega
    | last a b c d e f => omega
    | stored a b c d e => omega
    | released a b c d e => exact .woken rfl b c (by show s.sema - 1 = 0; omega) e
    | woken a => rw [h1] at a; cases a
  | woken h1 h2 h3 =>
    refine .inl ⟨hc, ?_⟩
    cases ht with
    | outside a => simp [h1] at a
    | loading a => simp [h1] at a
    | asleep a => rw [h1] at a; cases a
    | last a => rw [h1] at a; cases a
    | stored a => rw [h1] at a; cases a
    | released a => rw [h1] at a; cases a
    | woken a b c d e => exact .outside (.inr (.inr rfl)) rfl c d e
  | wokenPanic h1 h2 => exact .inr (.inr rfl)

theorem wgOK_run {b : Bool} {s : WgCl} {evs : List WgEv} (h : WgCl.Run b {} evs s) : (s.crashed = none → WgOK s) ∧ (s.crashed = none ∨ s.crashed = some .addDuringWait ∨ s.crashed = some .reused) := by
  generalize hs0 : ({} : WgCl) = s0 at h
  induction h with
  | nil => subst hs0; exact ⟨fun _ => ⟨rfl, .outside (.inl rfl) rfl rfl rfl rfl⟩, .inl rfl⟩
  | @snoc s1 s2 evs ev hr hc hs ih =>
    subst hs0
    have ok := ih.1 hc
    rcases wgOK_step ok hs with h | h | h
    · refine ⟨fun _ => h, ?_⟩
      cases hs with
      | addPanic => exact .inr (.inl rfl)
      | wokenPanic => exact .inr (.inr rfl)
      | @doneNegative l h1 h2 =>
        have := countP_pos_get WlPC.counted h1 rfl
        have := ok.count
        omega
      | @checkPanic w h1 h2 =>
        exfalso
        cases ok.table with
        | last a b c d e f =>
          rw [h1] at e
          simp at e
          subst e
          exact h2 ⟨f, c⟩
        | outside a b c d e => rw [h1] at e; cases e
        | loading a b c d e => rw [h1] at e; cases e
        | asleep a b c d e f => rw [h1] at e; cases e
        | stored a b c d e => rw [h1] at e; cases e
        | released a b c d e => rw [h1] at e; cases e
        | woken a b c d e => rw [h1] at e; cases e
      | _ => exact .inl hc
    · exact ⟨fun h' => (by rw [h] at h'; cases h'), .inr (.inl h)⟩
    · exact ⟨fun h' => (by rw [h] at h'; cases h'), .inr (.inr h)⟩

/-- **C125.** However `Listen` and `Close` are called, the goroutine of a listener never panics in `wg.Done`. -/
theorem C125_done {b : Bool} {s : WgCl} {evs : List WgEv} (h : WgCl.Run b {} evs s) : s.crashed ≠ some .negative ∧ s.crashed ≠ some .changed := by
  rcases (wgOK_run h).2 with h | h | h <;> rw [h] <;> simp

/-- A step panics just when it leaves the process crashed, with that panic. -/
theorem wg_panics {b : Bool} {s s' : WgCl} {ev : WgEv} (hs : WgCl.Step b s ev s') (hc : s.crashed = none) (p : WgPanic) : ev = .panic p ↔ s'.crashed = some p := by
  cases hs <;> simp [hc]

/-- **C125 (panics).** The panics of a run are what it crashed of: one at most, the last event, and none is passed over. -/
theorem C125_panics {b : Bool} {s : WgCl} {evs : List WgEv} (h : WgCl.Run b {} evs s) (p : WgPanic) : .panic p ∈ evs ↔ s.crashed = some p := by
  generalize hs0 : ({} : WgCl) = s0 at h
  induction h with
  | nil => subst hs0; simp
  | @snoc s1 s2 evs ev hr hc hs ih =>
    have h1 := wg_panics hs hc p
    simp only [List.mem_append, List.mem_singleton, ih, hc]
    rw [← h1]
    constructor
    · rintro (h | h)
      · cases h
      · exact h.symm
    · exact fun h => .inr h.symm

/-- **C125 (counterexample).** `Listen` is called as the last listener ends, which `Close` waits for: it panics. -/
theorem C125_counterexample_listen : ∃ evs s, WgCl.Run true {} evs s ∧ s.crashed = some .addDuringWait := by
  have r := (WgCl.Run.nil (overlap := true) (s := {})).snoc rfl (.listen (by simp))
  have r := r.snoc rfl (.add (l := 0) rfl (by simp))
  have r := r.snoc rfl (.listening (l := 0) rfl rfl)
  have r := r.snoc rfl (.listen (by simp))
  have r := r.snoc rfl (.close rfl (by simp))
  have r := r.snoc rfl (.lock rfl rfl)
  have r := r.snoc rfl (.load rfl (by decide))
  have r := r.snoc rfl (.swap rfl rfl rfl)
  have r := r.snoc rfl (.doneLast (l := 0) rfl rfl (by decide))
  have r := r.snoc rfl (.addPanic (l := 1) rfl (by decide) rfl)
  exact ⟨_, _, r, rfl⟩

/-- **C125 (counterexample).** `Listen` is called a moment later: `Close` panics. -/
theorem C125_counterexample_close : ∃ evs s, WgCl.Run true {} evs s ∧ s.crashed = some .reused := by
  have r := (WgCl.Run.nil (overlap := true) (s := {})).snoc rfl (.listen (by simp))
  have r := r.snoc rfl (.add (l := 0) rfl (by simp))
  have r := r.snoc rfl (.listening (l := 0) rfl rfl)
  have r := r.snoc rfl (.listen (by simp))
  have r := r.snoc rfl (.close rfl (by simp))
  have r := r.snoc rfl (.lock rfl rfl)
  have r := r.snoc rfl (.load rfl (by decide))
  have r := r.snoc rfl (.swap rfl rfl rfl)
  have r := r.snoc rfl (.doneLast (l := 0) rfl rfl (by decide))
  have r := r.snoc rfl (.check (w := 1) rfl rfl rfl)
  have r := r.snoc rfl (.store (w := 1) rfl)
  have r := r.snoc rfl (.add (l := 1) rfl (by decide))
  have r := r.snoc rfl (.release (n := 0) rfl)
  have r := r.snoc rfl (.sleep rfl (by decide))
  have r := r.snoc rfl (.wokenPanic rfl (by decide))
  exact ⟨_, _, r, rfl⟩

/-- While `Close` is active nobody is between the begin and the end of `Listen`, and once `Done` has seen 0 it stays 0. -/
structure WgApart (s : WgCl) : Prop where
  apart : s.close.active = true → WlPC.calling ∉ s.ls ∧ WlPC.added ∉ s.ls
  zero : s.close = .sleeping → s.waiters = 0 → s.counter = 0
  woken : s.close = .woken → s.counter = 0

theorem not_mem_set {α : Type} {ls : List α} {i : Nat} {x y : α} (h : x ∉ ls) (hy : x ≠ y) : x ∉ ls.set i y := by
  intro hm
  rcases List.mem_or_eq_of_mem_set hm with hm | hm
  · exact h hm
  · exact hy hm

theorem wgApart_step {s s' : WgCl} {ev : WgEv} (hok : WgOK s) (h : WgApart s) (hs : WgCl.Step false s ev s') : WgApart s' ∧ (s.crashed = none → s'.crashed = none) := by
  have idle : ∀ {l : Nat} {pc : WlPC}, s.ls[l]? = some pc → pc = .calling ∨ pc = .added → s.close.active = false := by
    intro l pc hl hp
    cases ha : s.close.active with
    | false => rfl
    | true =>
      obtain ⟨a, b⟩ := h.apart ha
      rcases hp with rfl | rfl
      · exact absurd (List.mem_of_getElem? hl) a
      · exact absurd (List.mem_of_getElem? hl) b
  have sl : ∀ {c : WcPC}, c.active = false → c ≠ .sleeping ∧ c ≠ .woken := by
    intro c hc
    constructor <;> rintro rfl <;> cases hc
  have pos : ∀ {l : Nat}, s.ls[l]? = some .running → 0 < s.counter := by
    intro l hl
    have := countP_pos_get WlPC.counted hl rfl
    have := hok.count
    omega
  have leave : ∀ {l : Nat}, (s.close.active = true → WlPC.calling ∉ s.ls.set l .left ∧ WlPC.added ∉ s.ls.set l .left) := by
    intro l ha
    obtain ⟨a, b⟩ := h.apart ha
    exact ⟨not_mem_set a (by simp), not_mem_set b (by simp)⟩
  cases hs with
  | listen h1 =>
    have hi := h1 rfl
    exact ⟨⟨fun ha => absurd (hi.symm.trans ha) (by simp), fun hc => absurd hc (sl hi).1, fun hc => absurd hc (sl hi).2⟩, id⟩
  | add h1 h2 =>
    have hi := idle h1 (.inl rfl)
    exact ⟨⟨fun ha => absurd (hi.symm.trans ha) (by simp), fun hc => absurd hc (sl hi).1, fun hc => absurd hc (sl hi).2⟩, id⟩
  | addPanic h1 h2 h3 =>
    have hi := idle h1 (.inl rfl)
    exfalso
    cases hok.table with
    | outside a b c d e => exact h2 c
    | loading a b c d e => exact h2 c
    | asleep a b c d e f => exact (sl hi).1 a
    | last a b c d e f => exact (sl hi).1 a
    | stored a b c d e => exact h2 c
    | released a b c d e => exact h2 c
    | woken a b c d e => exact h2 c
  | listening h1 h2 =>
    have hi := idle h1 (.inr rfl)
    exact ⟨⟨fun ha => absurd (hi.symm.trans ha) (by simp), fun hc => absurd hc (sl hi).1, fun hc => absurd hc (sl hi).2⟩, id⟩
  | doneNegative h1 h2 => have := pos h1; omega
  | done h1 h2 h3 =>
    have := pos h1
    exact ⟨⟨leave, fun hc hw => absurd (h.zero hc hw) (by omega), fun hc => absurd (h.woken hc) (by omega)⟩, id⟩
  | doneLast h1 h2 h3 =>
    have := pos h1
    exact ⟨⟨leave, fun hc hw => absurd hw h3, fun hc => absurd (h.woken hc) (by omega)⟩, id⟩
  | check h1 h2 h3 => exact ⟨⟨h.apart, h.zero, h.woken⟩, id⟩
  | @checkPanic w h1 h2 =>
    exfalso
    cases hok.table with
    | last a b c d e f =>
      rw [h1] at e
      simp at e
      subst e
      exact h2 ⟨f, c⟩
    | outside a b c d e => rw [h1] at e; cases e
    | loading a b c d e => rw [h1] at e; cases e
    | asleep a b c d e f => rw [h1] at e; cases e
    | stored a b c d e => rw [h1] at e; cases e
    | released a b c d e => rw [h1] at e; cases e
    | woken a b c d e => rw [h1] at e; cases e
  | store h1 => exact ⟨⟨h.apart, fun _ _ => rfl, fun _ => rfl⟩, id⟩
  | release h1 => exact ⟨⟨h.apart, h.zero, h.woken⟩, id⟩
  | close h1 h2 => exact ⟨⟨fun _ => h2 rfl, by simp, by simp⟩, id⟩
  | lock h1 h2 => exact ⟨⟨fun _ => h.apart (by rw [h1]; rfl), by simp, by simp⟩, id⟩
  | loadZero h1 h2 => exact ⟨⟨by simp [WcPC.active], by simp, by simp⟩, id⟩
  | load h1 h2 => exact ⟨⟨fun _ => h.apart (by rw [h1]; rfl), by simp, by simp⟩, id⟩
  | swap h1 h2 h3 => exact ⟨⟨fun _ => h.apart (by rw [h1]; rfl), by simp, by simp⟩, id⟩
  | swapFail h1 h2 => exact ⟨⟨fun _ => h.apart (by rw [h1]; rfl), by simp, by simp⟩, id⟩
  | sleep h1 h2 =>
    refine ⟨⟨fun _ => h.apart (by rw [h1]; rfl), by simp, fun _ => h.zero h1 ?_⟩, id⟩
    cases hok.table with
    | outside a => simp [h1] at a
    | loading a => simp [h1] at a
    | asleep a b c d e f => omega
    | last a b c d e f => omega
    | stored a b c d e => exact c
    | released a b c d e => exact c
    | woken a b c d e => exact c
  | woken h1 h2 h3 => exact ⟨⟨by simp [WcPC.active], by simp, by simp⟩, id⟩
  | wokenPanic h1 h2 =>
    exfalso
    refine h2 ⟨h.woken h1, ?_⟩
    cases hok.table with
    | outside a => simp [h1] at a
    | loading a => simp [h1] at a
    | asleep a => rw [h1] at a; cases a
    | last a => rw [h1] at a; cases a
    | stored a => rw [h1] at a; cases a
    | released a => rw [h1] at a; cases a
    | woken a b c d e => exact c

theorem wgApart_run {s : WgCl} {evs : List WgEv} (h : WgCl.Run false {} evs s) : s.crashed = none ∧ WgApart s := by
  generalize hs0 : ({} : WgCl) = s0 at h
  induction h with
  | nil => subst hs0; exact ⟨rfl, ⟨by simp [WcPC.active], by simp, by simp⟩⟩
  | @snoc s1 s2 evs ev hr hc hs ih =>
    subst hs0
    obtain ⟨a, b⟩ := wgApart_step ((wgOK_run hr).1 hc) ih.2 hs
    exact ⟨b hc, a⟩

/-- **C125** (partial: calls of `Listen` do not overlap with `Close`).  Nobody panics, and when `Close` returns every listener has left. -/
theorem C125_apart_partial {s : WgCl} {evs : List WgEv} (h : WgCl.Run false {} evs s) :
    s.crashed = none ∧ ∀ s', WgCl.Step false s .closeReturned s' → ∀ pc ∈ s'.ls, pc = .left := by
  obtain ⟨h1, h2⟩ := wgApart_run h
  refine ⟨h1, fun s' hs => ?_⟩
  have hok := (wgOK_run h).1 h1
  have key : s.counter = 0 → s.close.active = true → ∀ pc ∈ s.ls, pc = .left := by
    intro hz ha pc hm
    obtain ⟨a, b⟩ := h2.apart ha
    have hcn : s.ls.countP WlPC.counted = 0 := by have := hok.count; omega
    have hpc := List.countP_eq_zero.1 hcn pc hm
    cases pc with
    | left => rfl
    | calling => exact absurd hm a
    | added => exact absurd hm b
    | running => simp [WlPC.counted] at hpc
  cases hs with
  | loadZero k1 k2 => exact key k2 (by rw [k1]; rfl)
  | woken k1 k2 k3 => exact key k2 (by rw [k1]; rfl)

theorem wg_trans {b : Bool} {s s1 s2 : WgCl} {e1 e2 : List WgEv} (h1 : WgCl.Run b s e1 s1) (h2 : WgCl.Run b s1 e2 s2) : WgCl.Run b s (e1 ++ e2) s2 := by
  induction h2 with
  | nil => simpa using h1
  | snoc hr hc hs ih => rw [← List.append_assoc]; exact ih.snoc hc hs

/-- **C125.** No wake-up is lost: when the counter is 0, `Close`, once it has begun, comes to its end with its own steps and those of the last `Done`. -/
theorem C125_wakes {b : Bool} {s : WgCl} {evs : List WgEv} (h : WgCl.Run b {} evs s) (hc : s.crashed = none) (ha : s.close.active = true) (hz : s.counter = 0) :
    ∃ evs' s', WgCl.Run b s evs' s' ∧ (∀ ev ∈ evs', ev = .wake ∨ ev = .wait ∨ ev = .closeReturned) ∧ s'.close = .returned ∧ s'.crashed = none := by
  have hok := (wgOK_run h).1 hc
  have fwoken : ∀ {t : WgCl}, t.crashed = none → t.counter = 0 → t.waiters = 0 → t.close = .woken →
      ∃ evs' s', WgCl.Run b t evs' s' ∧ (∀ ev ∈ evs', ev = .wake ∨ ev = .wait ∨ ev = .closeReturned) ∧ s'.close = .returned ∧ s'.crashed = none := by
    intro t h1 h2 h3 h4
    exact ⟨_, _, WgCl.Run.nil.snoc h1 (.woken h4 h2 h3), by simp, rfl, h1⟩
  have step : ∀ {t t' : WgCl} {ev : WgEv}, t.crashed = none → WgCl.Step b t ev t' → (ev = .wake ∨ ev = .wait ∨ ev = .closeReturned) →
      (∃ evs' s', WgCl.Run b t' evs' s' ∧ (∀ ev ∈ evs', ev = .wake ∨ ev = .wait ∨ ev = .closeReturned) ∧ s'.close = .returned ∧ s'.crashed = none) →
      ∃ evs' s', WgCl.Run b t evs' s' ∧ (∀ ev ∈ evs', ev = .wake ∨ ev = .wait ∨ ev = .closeReturned) ∧ s'.close = .returned ∧ s'.crashed = none := by
    rintro t t' ev h1 h2 h3 ⟨evs', s', a, c, d, e⟩
    refine ⟨[ev] ++ evs', s', wg_trans (WgCl.Run.nil.snoc h1 h2) a, ?_, d, e⟩
    intro ev' hm
    rcases List.mem_append.1 hm with hm | hm
    · rw [List.mem_singleton.1 hm]; exact h3
    · exact c ev' hm
  have freleased : ∀ {t : WgCl}, t.crashed = none → t.counter = 0 → t.waiters = 0 → t.sema = 1 → t.close = .sleeping →
      ∃ evs' s', WgCl.Run b t evs' s' ∧ (∀ ev ∈ evs', ev = .wake ∨ ev = .wait ∨ ev = .closeReturned) ∧ s'.close = .returned ∧ s'.crashed = none := by
    intro t h1 h2 h3 h4 h5
    exact step h1 (.sleep h5 (by omega)) (.inr (.inl rfl)) (fwoken h1 h2 h3 rfl)
  have fstored : ∀ {t : WgCl}, t.crashed = none → t.counter = 0 → t.waiters = 0 → t.sema = 0 → t.close = .sleeping → t.waker = some (.releasing 1) →
      ∃ evs' s', WgCl.Run b t evs' s' ∧ (∀ ev ∈ evs', ev = .wake ∨ ev = .wait ∨ ev = .closeReturned) ∧ s'.close = .returned ∧ s'.crashed = none := by
    intro t h1 h2 h3 h4 h5 h6
    exact step h1 (.release (n := 0) h6) (.inl rfl) (freleased h1 h2 h3 (by show t.sema + 1 = 1; omega) h5)
  have fstoring : ∀ {t : WgCl}, t.crashed = none → t.counter = 0 → t.sema = 0 → t.close = .sleeping → t.waker = some (.storing 1) →
      ∃ evs' s', WgCl.Run b t evs' s' ∧ (∀ ev ∈ evs', ev = .wake ∨ ev = .wait ∨ ev = .closeReturned) ∧ s'.close = .returned ∧ s'.crashed = none := by
    intro t h1 h2 h3 h4 h5
    exact step h1 (.store h5) (.inl rfl) (fstored h1 rfl rfl h3 h4 rfl)
  have floading : ∀ {t : WgCl}, t.crashed = none → t.counter = 0 → t.close = .loading →
      ∃ evs' s', WgCl.Run b t evs' s' ∧ (∀ ev ∈ evs', ev = .wake ∨ ev = .wait ∨ ev = .closeReturned) ∧ s'.close = .returned ∧ s'.crashed = none := by
    intro t h1 h2 h3
    exact ⟨_, _, WgCl.Run.nil.snoc h1 (.loadZero h3 h2), by simp, rfl, h1⟩
  cases hok.table with
  | outside a b c d e =>
    rcases a with a | a | a
    · rw [a] at ha; cases ha
    · exact step hc (.lock a b) (.inr (.inl rfl)) (floading hc hz rfl)
    · rw [a] at ha; cases ha
  | loading a b c d e =>
    rcases a with a | ⟨v, w, a, hv⟩
    · exact floading hc hz a
    · exact step hc (.swapFail a (by rintro ⟨k, _⟩; exact hv (k.symm.trans hz))) (.inr (.inl rfl)) (floading hc hz rfl)
  | asleep a b c d e f => omega
  | last a b c d e f =>
    rcases e with e | e
    · exact step hc (.check e f c) (.inl rfl) (fstoring hc f d a rfl)
    · exact fstoring hc f d a e
  | stored a b c d e => exact fstored hc hz c d a e
  | released a b c d e => exact freleased hc hz c d a
  | woken a b c d e => exact fwoken hc hz c a

/-- One listener, then `Close`: it waits for the listener, is woken by its `Done`, and returns. -/
example : ∃ evs s, WgCl.Run false {} evs s ∧ WgEv.done 0 ∈ evs ∧ WgEv.closeReturned ∈ evs ∧ s.close = .returned := by
  have r := (WgCl.Run.nil (overlap := false) (s := {})).snoc rfl (.listen (fun _ => rfl))
  have r := r.snoc rfl (.add (l := 0) rfl (by simp))
  have r := r.snoc rfl (.listening (l := 0) rfl rfl)
  have r := r.snoc rfl (.close rfl (by simp))
  have r := r.snoc rfl (.lock rfl rfl)
  have r := r.snoc rfl (.load rfl (by decide))
  have r := r.snoc rfl (.swap rfl rfl rfl)
  have r := r.snoc rfl (.doneLast (l := 0) rfl rfl (by decide))
  have r := r.snoc rfl (.check (w := 1) rfl rfl rfl)
  have r := r.snoc rfl (.store (w := 1) rfl)
  have r := r.snoc rfl (.release (n := 0) rfl)
  have r := r.snoc rfl (.sleep rfl (by decide))
  have r := r.snoc rfl (.woken rfl rfl rfl)
  exact ⟨_, _, r, by decide, by decide, rfl⟩

/-- The goroutine of a listener can always end: its `wg.Done()` does not panic, and takes one off the counter. -/
theorem C125_leaves {b : Bool} {s : WgCl} {evs : List WgEv} (h : WgCl.Run b {} evs s) (hc : s.crashed = none) {l : Nat} (hl : s.ls[l]? = some .running) :
    ∃ s', WgCl.Step b s (.done l) s' ∧ s'.counter = s.counter - 1 ∧ s'.ls = s.ls.set l .left ∧ s'.crashed = none := by
  have hok := (wgOK_run h).1 hc
  have hpos : 0 ≤ s.counter - 1 := by
    rcases Int.lt_or_le (s.counter - 1) 0 with hneg | hge
    · have hr := h.snoc hc (.doneNegative hl hneg)
      exact absurd rfl (C125_done hr).1
    · exact hge
  by_cases hz : s.counter - 1 = 0
  · by_cases hw : s.waiters = 0
    · exact ⟨_, .done hl hpos (.inr hw), rfl, rfl, hc⟩
    · exact ⟨_, .doneLast hl hz hw, rfl, rfl, hc⟩
  · exact ⟨_, .done hl hpos (.inl (by omega)), rfl, rfl, hc⟩

example : ∃ evs s s', WgCl.Run true {} evs s ∧ s.crashed = none ∧ s.ls[0]? = some .running ∧ s.waiters = 0 ∧ WgCl.Step true s (.done 0) s' ∧ s'.counter = 0 := by
  have r := (((WgCl.Run.nil (overlap := true) (s := {})).snoc rfl (.listen (by simp))).snoc rfl (.add (l := 0) rfl (by simp))).snoc rfl (.listening (l := 0) rfl rfl)
  exact ⟨_, _, _, r, rfl, rfl, rfl, .done rfl (by decide) (.inr rfl), rfl⟩

/-- **C125 (the swap of Wait).** `Close` goes to sleep, counted as a waiter, exactly if nothing happened since it read the state; otherwise it reads it again. -/
theorem C125_swap {b : Bool} {s : WgCl} {v : Int} {w : Nat} (hc : s.close = .swapping v w) :
    ((s.counter = v ∧ s.waiters = w) → (∃ s', WgCl.Step b s .wait s') ∧ ∀ s', WgCl.Step b s .wait s' → s' = { s with waiters := w + 1, close := .sleeping }) ∧
    (¬ (s.counter = v ∧ s.waiters = w) → (∃ s', WgCl.Step b s .wait s') ∧ ∀ s', WgCl.Step b s .wait s' → s' = { s with close := .loading }) := by
  refine ⟨fun h => ⟨⟨_, .swap hc h.1 h.2⟩, fun s' hs => ?_⟩, fun h => ⟨⟨_, .swapFail hc h⟩, fun s' hs => ?_⟩⟩
  all_goals
    generalize hev : WgEv.wait = ev at hs
    cases hs <;> cases hev <;> simp_all

/-- Both happen: a listener leaves between the two. -/
example : ∃ evs s s', WgCl.Run true {} evs s ∧ s.crashed = none ∧ s.close = .swapping 2 0 ∧ s.counter = 1 ∧ WgCl.Step true s .wait s' ∧ s'.close = .loading := by
  refine ⟨_, _, _, ((((((((WgCl.Run.nil.snoc rfl (.listen (by simp))).snoc rfl (.listen (by simp))).snoc rfl (.add (l := 0) rfl (by simp))).snoc rfl (.add (l := 1) rfl (by simp))).snoc rfl
    (.listening (l := 0) rfl rfl)).snoc rfl (.close rfl (by simp))).snoc rfl (.lock rfl rfl)).snoc rfl (.load rfl (by simp))).snoc rfl (.done (l := 0) rfl (by simp) (.inl (by simp))), rfl, rfl, rfl,
    .swapFail rfl (by simp), rfl⟩

end Verif.Props
