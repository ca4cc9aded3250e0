import Verif.Spec.Backoff

/-!
# C79, C80: when a container gives up
-/
namespace Verif.Props
open Verif.Model Verif.Spec

theorem clockAfter_append (t : Int) : ∀ (a b : List BoEv), clockAfter t (a ++ b) = clockAfter (clockAfter t a) b
  | [], b => rfl
  | .time u :: a, b => by simp only [List.cons_append, clockAfter, clockAfter_append u a b]
  | .start _ :: a, b => by simp only [List.cons_append, clockAfter, clockAfter_append t a b]
  | .up _ :: a, b => by simp only [List.cons_append, clockAfter, clockAfter_append t a b]
  | .report _ :: a, b => by simp only [List.cons_append, clockAfter, clockAfter_append t a b]
  | .down _ :: a, b => by simp only [List.cons_append, clockAfter, clockAfter_append t a b]
  | .giveUp _ :: a, b => by simp only [List.cons_append, clockAfter, clockAfter_append t a b]
  | .retry _ :: a, b => by simp only [List.cons_append, clockAfter, clockAfter_append t a b]

/-- The fold behind `lastReset`. -/
def resetFold (p : Int × Int) (ev : BoEv) : Int × Int :=
  match ev with
  | .time u => (u, p.2)
  | .start _ => (p.1, p.1)
  | .report _ => (p.1, p.1)
  | _ => p

theorem lastReset_eq (evs : List BoEv) : lastReset evs = (evs.foldl resetFold (0, 0)).2 := rfl

/-- The state knows the clock and the last reset. -/
theorem bo_reset {max : Int} {evs : List BoEv} {s : Bo} (h : Bo.Run max {} evs s) :
    evs.foldl resetFold (0, 0) = (s.now, s.startTime) ∧ clockAfter 0 evs = s.now := by
  generalize hs0 : ({} : Bo) = s0 at h
  induction h with
  | nil => subst hs0; exact ⟨rfl, rfl⟩
  | snoc hr hs ih =>
    obtain ⟨h1, h2⟩ := ih
    rw [List.foldl_append, h1, clockAfter_append, h2]
    cases hs <;> exact ⟨rfl, rfl⟩

/-- C79, the part that holds: when a container gives up, the time since the last reported success (or start) of a container with this
backoff, plus the wait that would have followed, exceeds the limit.  Missing: that the container was without a session for that long (false,
`C79_idle_ends`). -/
theorem C79_limit_partial {max : Int} {evs : List BoEv} {s s' : Bo} (h : Bo.Run max {} evs s) {i : Nat} (hs : Bo.Step max s (.giveUp i) s') :
    max ≠ 0 ∧ ∃ next, 0 ≤ next ∧ clockAfter 0 evs - lastReset evs + next > max := by
  obtain ⟨h1, h2⟩ := bo_reset h
  rw [lastReset_eq, h1, h2]
  cases hs with
  | giveUp _ hn hm => exact ⟨hm.1, _, hn, hm.2⟩

/-- C79: without a limit (the default configuration) a container never gives up. -/
theorem C79_unlimited {evs : List BoEv} {s : Bo} (h : Bo.Run 0 {} evs s) (i : Nat) : .giveUp i ∉ evs := by
  generalize hs0 : ({} : Bo) = s0 at h
  induction h with
  | nil => simp
  | snoc hr hs ih =>
    intro hm
    rcases List.mem_append.1 hm with hm | hm
    · exact ih hm
    · rw [← List.mem_singleton.1 hm] at hs
      cases hs with
      | giveUp _ _ hm => exact hm.1 rfl

/-- The hypotheses of `C79_limit_partial` hold in a run where the router is never reached. -/
example : ∃ evs s s', Bo.Run 60 {} evs s ∧ Bo.Step 60 s (.giveUp 0) s' ∧ failures 0 evs = 1 :=
  ⟨[.start 0, .down 0, .time 61, .retry 0], _, _,
    ((((Bo.Run.nil.snoc (.start rfl)).snoc (.down (next := 1) (Or.inl rfl) (by decide) (by decide))).snoc (.time 61 (by decide))).snoc
      (.retry (u := 1) rfl (by decide))),
    .giveUp (next := 1) (Or.inl rfl) (by decide) (by decide), rfl⟩

/-- C79 is false for every limit: a container that has had a session all the time, without reporting a success, gives up at the first failure. -/
theorem C79_idle_ends {max : Int} (hmax : 0 < max) :
    ∃ evs s s', Bo.Run max {} evs s ∧ hasSession 0 evs = true ∧ failures 0 evs = 0 ∧ Bo.Step max s (.giveUp 0) s' := by
  refine ⟨[.start 0, .up 0, .time (max + 1)], _, _,
    (((Bo.Run.nil.snoc (.start rfl)).snoc (.up rfl)).snoc (.time (max + 1) (by show (0 : Int) ≤ _; omega))), rfl, rfl,
    .giveUp (next := 0) (Or.inr rfl) (by decide) ⟨by omega, ?_⟩⟩
  show max + 1 - 0 + 0 > max
  omega

/-- The phase of a container, as its events tell it. -/
def lifeOf : BoPhase → Life
  | .idle => .notStarted
  | .dialing => .attempt
  | .serving => .session
  | .waiting _ => .pause
  | .gaveUp => .over

/-- C79: the events of a container come in order: only what is started fails, after a failure there is a next attempt before the next failure, a success is reported only by a container
that has a session, and after a container has given up nothing follows. -/
theorem C79_life {max : Int} {evs : List BoEv} {s : Bo} (h : Bo.Run max {} evs s) (i : Nat) : ∃ l, evs.foldl (lifeStep i) (some .notStarted) = some l ∧ (l = .over ↔ .giveUp i ∈ evs) := by
  suffices hk : evs.foldl (lifeStep i) (some .notStarted) = some (lifeOf (s.phase i)) ∧ (s.phase i = .gaveUp ↔ .giveUp i ∈ evs) by
    refine ⟨_, hk.1, ?_⟩
    rw [← hk.2]
    cases s.phase i <;> simp [lifeOf]
  generalize hs0 : ({} : Bo) = s0 at h
  induction h with
  | nil => subst hs0; exact ⟨rfl, by simp⟩
  | @snoc s s' evs ev hr hs ih =>
    subst hs0
    obtain ⟨i1, i2⟩ := ih
    rw [List.foldl_append, i1]
    simp only [List.foldl_cons, List.foldl_nil, List.mem_append, List.mem_singleton]
    cases hs with
    | time => exact ⟨rfl, by simpa using i2⟩
    | @start j hp | @up j hp | @retry j u hp =>
      by_cases hj : j = i
      · subst hj
        have h2 : .giveUp j ∉ evs := fun h => by rw [hp] at i2; simpa using i2.mpr h
        simp [lifeStep, hp, lifeOf, Bo.at, h2]
      · have hj' : ¬ i = j := fun h => hj h.symm
        simp [lifeStep, hj, hj', Bo.at, i2]
    | @report j hp =>
      by_cases hj : j = i
      · subst hj
        have h2 : .giveUp j ∉ evs := fun h => by rw [hp] at i2; simpa using i2.mpr h
        simp [lifeStep, hp, lifeOf, h2]
      · simp [lifeStep, hj, i2]
    | @down j next hp =>
      by_cases hj : j = i
      · subst hj
        have h2 : .giveUp j ∉ evs := fun h => by rcases hp with hp | hp <;> (rw [hp] at i2; simpa using i2.mpr h)
        rcases hp with hp | hp <;> simp [lifeStep, hp, lifeOf, Bo.at, h2]
      · have hj' : ¬ i = j := fun h => hj h.symm
        simp [lifeStep, hj, hj', Bo.at, i2]
    | @giveUp j next hp =>
      by_cases hj : j = i
      · subst hj
        rcases hp with hp | hp <;> simp [lifeStep, hp, lifeOf, Bo.at]
      · have hj' : ¬ i = j := fun h => hj h.symm
        simp [lifeStep, hj, hj', Bo.at, i2]

/-! ## C80 -/

/-- What a container alone knows: the backoff started with it. -/
theorem bo_alone {max : Int} {i : Nat} {evs : List BoEv} {s : Bo} (h : Bo.Run max {} evs s) (ho : OnlyContainer i evs) (hu : .up i ∉ evs)
    {t : Int} (ht : ∃ pre post, evs = pre ++ .start i :: post ∧ t = clockAfter 0 pre) :
    s.startTime = t ∧ s.phase i ≠ .idle ∧ s.phase i ≠ .serving := by
  generalize hs0 : ({} : Bo) = s0 at h
  induction h generalizing t with
  | nil =>
    obtain ⟨pre, post, h1, _⟩ := ht
    cases pre <;> cases h1
  | @snoc s1 s2 evs ev hr hs ih =>
    obtain ⟨pre, post, h1, h2⟩ := ht
    have ho' : OnlyContainer i evs := fun e he => ho e (List.mem_append_left _ he)
    have hu' : .up i ∉ evs := fun e => hu (List.mem_append_left _ e)
    subst hs0
    rcases List.eq_nil_or_concat post with rfl | ⟨post', x, rfl⟩
    · -- this step is the start
      have h3 : evs = pre ∧ ev = .start i := by
        have := List.append_inj' h1 rfl
        exact ⟨this.1, by simpa using this.2⟩
      obtain ⟨rfl, rfl⟩ := h3
      cases hs with
      | start hp =>
        refine ⟨by rw [h2]; exact (bo_reset hr).2.symm, ?_, ?_⟩ <;> simp [Bo.at]
    · have h3 : evs = pre ++ .start i :: post' ∧ ev = x := by
        have h4 : evs ++ [ev] = (pre ++ .start i :: post') ++ [x] := by rw [h1]; simp
        have := List.append_inj' h4 rfl
        exact ⟨this.1, by simpa using this.2⟩
      obtain ⟨h3, -⟩ := h3
      obtain ⟨g1, g2, g3⟩ := ih ho' hu' ⟨pre, post', h3, h2⟩
      have hev := ho ev (by simp)
      cases hs with
      | time => exact ⟨g1, g2, g3⟩
      | start hp => subst hev; exact absurd hp g2
      | up hp => subst hev; exact absurd (by simp) hu
      | report hp => subst hev; exact absurd hp g3
      | down hp => subst hev; exact ⟨g1, by simp [Bo.at], by simp [Bo.at]⟩
      | giveUp hp => subst hev; exact ⟨g1, by simp [Bo.at], by simp [Bo.at]⟩
      | retry hp => subst hev; exact ⟨g1, by simp [Bo.at], by simp [Bo.at]⟩

/-- C80, the part that holds: a container with a backoff of its own that never gets a session makes no attempt whose failure it would survive later than the limit after its start.
Missing: containers that share a backoff, as those of one factory do (false, `C80_shared_never_ends`). -/
theorem C80_alone_partial {max : Int} (hmax : max ≠ 0) {i : Nat} {evs : List BoEv} {s s' : Bo} (h : Bo.Run max {} evs s) (ho : OnlyContainer i evs)
    (hu : .up i ∉ evs) {t : Int} (ht : ∃ pre post, evs = pre ++ .start i :: post ∧ t = clockAfter 0 pre) (hs : Bo.Step max s (.down i) s') :
    clockAfter 0 evs ≤ t + max := by
  obtain ⟨g1, -, -⟩ := bo_alone h ho hu ht
  rw [(bo_reset h).2, ← g1]
  cases hs with
  | down _ hn hm =>
    have : ¬ (s.now - s.startTime + _ > max) := fun h => hm ⟨hmax, h⟩
    omega

example : ∃ evs s s', Bo.Run 60 {} evs s ∧ OnlyContainer 0 evs ∧ .up 0 ∉ evs ∧ Bo.Step 60 s (.down 0) s' :=
  ⟨[.start 0, .down 0, .time 10, .retry 0], _, _,
    ((((Bo.Run.nil.snoc (.start rfl)).snoc (.down (next := 1) (Or.inl rfl) (by decide) (by decide))).snoc (.time 10 (by decide))).snoc
      (.retry (u := 1) rfl (by decide))),
    by intro ev h; simp at h; rcases h with rfl | rfl | rfl | rfl <;> simp, by decide, .down (next := 1) (Or.inl rfl) (by decide) (by decide)⟩

/-- C80 is false for containers that share a backoff: for any number of failures one of them can fail that often, over that many times the limit, without ever
having had a session and without giving up, because the other reports successes. -/
theorem C80_shared_never_ends {max : Int} (hmax : 0 < max) (n : Nat) :
    ∃ evs s, Bo.Run max {} evs s ∧ .up 0 ∉ evs ∧ failures 0 evs = n ∧ .giveUp 0 ∉ evs ∧ clockAfter 0 evs = n * max ∧ s.phase 0 = .dialing := by
  suffices h : ∃ evs s, Bo.Run max {} evs s ∧ .up 0 ∉ evs ∧ failures 0 evs = n ∧ .giveUp 0 ∉ evs ∧ clockAfter 0 evs = n * max ∧ s.phase 0 = .dialing ∧
      s.phase 1 = .serving by
    obtain ⟨evs, s, h1, h2, h3, h4, h5, h6, _⟩ := h
    exact ⟨evs, s, h1, h2, h3, h4, h5, h6⟩
  induction n with
  | zero =>
    refine ⟨[.start 0, .start 1, .up 1], _, ((Bo.Run.nil.snoc (.start rfl)).snoc (.start rfl)).snoc (.up rfl), by decide, rfl, by decide, by simp [clockAfter], rfl, rfl⟩
  | succ n ih =>
    obtain ⟨evs, s, h1, h2, h3, h4, h5, h6, h7⟩ := ih
    have hn := (bo_reset h1).2
    have r1 := h1.snoc (.time (s.now + max) (by omega))
    have r2 := r1.snoc (.report (i := 1) h7)
    have r3 := r2.snoc (.down (i := 0) (next := 0) (Or.inl h6) (by decide) (by
      rintro ⟨_, h⟩
      simp only at h
      omega))
    have r4 := r3.snoc (.retry (i := 0) (u := s.now + max + 0) (by simp [Bo.at]) (by simp [Bo.at]))
    refine ⟨_, _, r4, ?_, ?_, ?_, ?_, by simp [Bo.at], by simp [Bo.at, h7]⟩
    · simp [h2]
    · have : ∀ a b : List BoEv, failures 0 (a ++ b) = failures 0 a + failures 0 b := fun a b => List.count_append
      rw [this, this, this, this, h3]
      simp [failures]
    · simp [h4]
    · simp only [clockAfter_append, clockAfter]
      rw [← hn, h5]
      rw [Int.natCast_add, Int.add_mul]
      simp

end Verif.Props
