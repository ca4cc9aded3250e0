import Verif.Spec.Watch

/-!
# C52, C53: the watch
-/
namespace Verif.Props
open Verif Verif.Model Verif.Spec

variable {cfg : WatchCfg}

theorem watch_trans {s s' s'' : Watch} {evs evs' : List WEv} (h : Watch.Run cfg s evs s') (h' : Watch.Run cfg s' evs' s'') :
    Watch.Run cfg s (evs ++ evs') s'' := by
  induction h' with
  | nil => simpa using h
  | snoc _ hs ih => rw [← List.append_assoc]; exact ih.snoc hs

/-- A run that ends with an event. -/
theorem watch_last {s s' : Watch} {evs : List WEv} {ev : WEv} (h : Watch.Run cfg s (evs ++ [ev]) s') :
    ∃ s1, Watch.Run cfg s evs s1 ∧ Watch.Step cfg s1 ev s' := by
  generalize he : evs ++ [ev] = l at h
  cases h with
  | nil => simp at he
  | snoc hr hs =>
    obtain ⟨rfl, h2⟩ := List.append_inj' he rfl
    cases h2
    exact ⟨_, hr, hs⟩

theorem activity_append (a b : List WEv) : activity (a ++ b) = activity a ++ activity b := by simp [activity]

/-! ## The timer and the place in the loop -/

/-- How the timer stands at each place of the loop. -/
def WOk (cfg : WatchCfg) (s : Watch) : Prop :=
  if cfg.timeout > 0 then
    match s.pc with
    | .spawned => s.timer = .off
    | .init | .select | .gotTick | .updating _ false | .stopping _ => ∃ d, s.timer = .armed d ∨ s.timer = .fired d
    | .draining _ => ∃ d, s.timer = .fired d
    | .gotTimer | .forgetting | .updating _ true | .resetting _ => s.timer = .idle
    | .done => True
  else s.timer = .off ∧
    match s.pc with
    | .gotTimer | .forgetting | .updating _ true | .resetting _ | .draining _ => False
    | _ => True

theorem wok_step {s s' : Watch} {ev : WEv} (h : WOk cfg s) (hs : Watch.Step cfg s ev s') : WOk cfg s' := by
  unfold WOk at *
  by_cases ht : cfg.timeout > 0
  · rw [if_pos ht] at h ⊢
    cases hs with
    | time | cancel | stamp | store | tick => exact h
    | @fire d hd _ =>
      rw [hd] at h
      cases hp : s.pc with
      | updating n b => rw [hp] at h; cases b <;> simp_all
      | _ => rw [hp] at h; simp_all
    | start hp => simp [ht]
    | return_ hp => trivial
    | init hp | nothing hp => rw [hp] at h; simpa using h
    | expiry hp hf => simp
    | renew hp | decide hp => rw [hp] at h; simpa using h
    | forget hp => trivial
    | takeTick hp => rw [hp] at h; simpa using h
    | observe hp => rw [hp] at h; simpa using h
    | @update next b hp => rw [hp] at h; cases b <;> simpa using h
    | noTimer hp ho => rw [hp, ho] at h; simp at h
    | stopTrue => rfl
    | stopFalse hp ho ha =>
      rw [hp] at h
      obtain ⟨d, h | h⟩ := h
      · exact absurd h (ha d)
      · exact ⟨d, h⟩
    | drain => rfl
    | reset => exact ⟨_, .inl rfl⟩
  · rw [if_neg ht] at h ⊢
    obtain ⟨h1, h2⟩ := h
    cases hs with
    | time | cancel | stamp | store | tick => exact ⟨h1, h2⟩
    | fire hd _ => rw [h1] at hd; cases hd
    | start hp => simp [ht]
    | expiry hp hf => rw [h1] at hf; cases hf
    | renew hp | decide hp | forget hp | reset hp | drain hp => rw [hp] at h2; exact h2.elim
    | @update next b hp => rw [hp] at h2; cases b <;> simp_all
    | stopTrue hp hf => rw [h1] at hf; cases hf
    | stopFalse hp ho => exact absurd h1 ho
    | _ => exact ⟨h1, trivial⟩

theorem wok_run {t : Int} {s : Watch} {evs : List WEv} (h : Watch.Run cfg (watchStart t) evs s) : WOk cfg s := by
  generalize hs0 : watchStart t = s0 at h
  induction h with
  | nil => subst hs0; unfold WOk watchStart; split <;> simp
  | snoc _ hs ih => exact wok_step ih hs

/-! ## C52 -/

/-- C52: a watch with Timeout 0 (or less) never forgets its source. -/
theorem C52_zero {t : Int} {s : Watch} {evs : List WEv} (h : Watch.Run cfg (watchStart t) evs s) (hz : cfg.timeout ≤ 0) : .forget ∉ evs := by
  generalize hs0 : watchStart t = s0 at h
  induction h with
  | nil => simp
  | @snoc s s' evs ev hr hs ih =>
    subst hs0
    have hok := wok_run hr
    unfold WOk at hok
    rw [if_neg (by omega)] at hok
    intro hm
    rcases List.mem_append.1 hm with hm | hm
    · exact ih hm
    · simp only [List.mem_singleton] at hm
      subst hm
      cases hs with
      | forget hp => rw [hp] at hok; exact hok.2

/-- The goroutine starts once. -/
theorem start_unique {t : Int} {s : Watch} {evs : List WEv} (h : Watch.Run cfg (watchStart t) evs s) :
    (s.pc = .spawned → ∀ t0, .start t0 ∉ evs) ∧ ∀ t0 t1, .start t0 ∈ evs → .start t1 ∈ evs → t0 = t1 := by
  generalize hs0 : watchStart t = s0 at h
  induction h with
  | nil => simp
  | @snoc s s' evs ev hr hs ih =>
    obtain ⟨h1, h2⟩ := ih
    by_cases hst : ∃ t0, ev = .start t0
    · obtain ⟨t0, rfl⟩ := hst
      cases hs with
      | start hp =>
        have := h1 hp
        refine ⟨fun h => by simp at h, fun a b ha hb => ?_⟩
        have aux : ∀ c, WEv.start c ∈ evs ++ [.start s.now] → c = s.now := by
          intro c hc
          rcases List.mem_append.1 hc with hc | hc
          · exact absurd hc (this c)
          · simpa using hc
        rw [aux a ha, aux b hb]
    · have hne : ∀ t0, WEv.start t0 ∈ evs ++ [ev] → WEv.start t0 ∈ evs := by
        intro t0 hm
        rcases List.mem_append.1 hm with hm | hm
        · exact hm
        · simp only [List.mem_singleton] at hm; exact absurd ⟨t0, hm.symm⟩ hst
      refine ⟨fun hp t0 hm => ?_, fun a b ha hb => h2 a b (hne a ha) (hne b hb)⟩
      have hp' : s.pc = .spawned := by
        cases hs <;> first | exact hp | (simp at hp; done) | skip
        rename_i b _ ; cases b <;> simp at hp
      exact h1 hp' t0 (hne t0 hm)

/-- When the timer fires or has fired: after its last setting and Timeout, or, if it was never set again, GracePeriod and Timeout after the start. -/
def Due (cfg : WatchCfg) (evs : List WEv) (d : Int) : Prop :=
  (∃ t0, .start t0 ∈ evs ∧ (∀ r, .reset r ∉ evs) ∧ d = t0 + (cfg.grace + cfg.timeout)) ∨
    ∃ pre r post, evs = pre ++ .reset r :: post ∧ (∀ r', .reset r' ∉ post) ∧ d = r + cfg.timeout

theorem Due.snoc {evs : List WEv} {ev : WEv} {d : Int} (h : Due cfg evs d) (hev : ∀ r, ev ≠ .reset r) : Due cfg (evs ++ [ev]) d := by
  rcases h with ⟨t0, h1, h2, h3⟩ | ⟨pre, r, post, h1, h2, h3⟩
  · refine .inl ⟨t0, List.mem_append_left _ h1, fun r hm => ?_, h3⟩
    rcases List.mem_append.1 hm with hm | hm
    · exact h2 r hm
    · simp only [List.mem_singleton] at hm; exact hev r hm.symm
  · refine .inr ⟨pre, r, post ++ [ev], by simp [h1], fun r' hm => ?_, h3⟩
    rcases List.mem_append.1 hm with hm | hm
    · exact h2 r' hm
    · simp only [List.mem_singleton] at hm; exact hev r' hm.symm

theorem due_run {t : Int} {s : Watch} {evs : List WEv} (h : Watch.Run cfg (watchStart t) evs s) :
    (∀ d, s.timer = .armed d → Due cfg evs d) ∧ (∀ d, s.timer = .fired d → Due cfg evs d ∧ d ≤ s.now) ∧
      (s.pc = .gotTimer → ∃ d, Due cfg evs d ∧ d ≤ s.now) ∧ (s.pc = .spawned → ∀ r, .reset r ∉ evs) := by
  generalize hs0 : watchStart t = s0 at h
  induction h with
  | nil => subst hs0; simp [watchStart]
  | @snoc s s' evs ev hr hs ih =>
    obtain ⟨h1, h2, h3, h4⟩ := ih
    have spn : ∀ {ev : WEv}, (∀ r, ev ≠ .reset r) → s.pc = .spawned → ∀ r, WEv.reset r ∉ evs ++ [ev] := by
      intro ev hev hp r hm
      rcases List.mem_append.1 hm with hm | hm
      · exact h4 hp r hm
      · simp only [List.mem_singleton] at hm; exact hev r hm.symm
    cases hs with
    | time u hu =>
      refine ⟨fun d hd => (h1 d hd).snoc (by simp), fun d hd => ⟨(h2 d hd).1.snoc (by simp), Int.le_trans (h2 d hd).2 hu⟩, fun hp => ?_, spn (by simp)⟩
      obtain ⟨d, hd, hle⟩ := h3 hp
      exact ⟨d, hd.snoc (by simp), Int.le_trans hle hu⟩
    | cancel | stamp | store | tick =>
      refine ⟨fun d hd => (h1 d hd).snoc (by simp), fun d hd => ⟨(h2 d hd).1.snoc (by simp), (h2 d hd).2⟩, fun hp => ?_, spn (by simp)⟩
      obtain ⟨d, hd, hle⟩ := h3 hp
      exact ⟨d, hd.snoc (by simp), hle⟩
    | @fire d' hd' hle' =>
      refine ⟨fun d hd => by simp at hd, fun d hd => ?_, fun hp => ?_, spn (by simp)⟩
      · simp only [WTimer.fired.injEq] at hd; subst hd; exact ⟨(h1 d' hd').snoc (by simp), hle'⟩
      · obtain ⟨d, hd, hle⟩ := h3 hp
        exact ⟨d, hd.snoc (by simp), hle⟩
    | start hp =>
      refine ⟨fun d hd => ?_, fun d hd => ?_, fun hp => by simp at hp, fun hp => by simp at hp⟩
      · simp only at hd
        split at hd
        · simp only [WTimer.armed.injEq] at hd; subst hd
          refine .inl ⟨s.now, by simp, spn (by simp) hp, rfl⟩
        · cases hd
      · simp only at hd
        split at hd <;> cases hd
    | reset hp =>
      refine ⟨fun d hd => ?_, fun d hd => by simp at hd, fun hp => by simp at hp, fun hp => by simp at hp⟩
      simp only [WTimer.armed.injEq] at hd; subst hd
      exact .inr ⟨evs, s.now, [], rfl, by simp, rfl⟩
    | @expiry d hp hf =>
      refine ⟨fun d hd => by simp at hd, fun d hd => by simp at hd, fun _ => ⟨d, (h2 d hf).1.snoc (by simp), (h2 d hf).2⟩, fun hp => by simp at hp⟩
    | drain | stopTrue =>
      exact ⟨fun d hd => by simp at hd, fun d hd => by simp at hd, fun hp => by simp at hp, fun hp => by simp at hp⟩
    | @update next b hp =>
      exact ⟨fun d hd => (h1 d hd).snoc (by simp), fun d hd => ⟨(h2 d hd).1.snoc (by simp), (h2 d hd).2⟩, fun hp => by cases b <;> simp at hp,
        fun hp => by cases b <;> simp at hp⟩
    | _ =>
      exact ⟨fun d hd => (h1 d hd).snoc (by simp), fun d hd => ⟨(h2 d hd).1.snoc (by simp), (h2 d hd).2⟩, fun hp => by simp at hp, fun hp => by simp at hp⟩

/-- C52, for every schedule: a watch that forgets does so no earlier than Timeout after the last time it set its timer again, or, if it never did
(it observed no activity), no earlier than GracePeriod and Timeout after it started. -/
theorem C52_due {t f : Int} {s : Watch} {evs : List WEv} (h : Watch.Run cfg (watchStart t) (evs ++ [.decide f]) s) :
    (∃ t0, .start t0 ∈ evs ∧ (∀ r, .reset r ∉ evs) ∧ t0 + cfg.grace + cfg.timeout ≤ f) ∨
      ∃ pre r post, evs = pre ++ .reset r :: post ∧ (∀ r', .reset r' ∉ post) ∧ r + cfg.timeout ≤ f := by
  obtain ⟨s1, h1, hs⟩ := watch_last h
  cases hs with
  | decide hp hn =>
    obtain ⟨d, hd, hle⟩ := (due_run h1).2.2.1 hp
    rcases hd with ⟨t0, a, b, rfl⟩ | ⟨pre, r, post, a, b, rfl⟩
    · exact .inl ⟨t0, a, b, by omega⟩
    · exact .inr ⟨pre, r, post, a, b, hle⟩

/-- One handler at a time: what is recorded is the latest activity. -/
theorem latest_run (hl : cfg.listeners ≤ 1) {t : Int} {s : Watch} {evs : List WEv} (h : Watch.Run cfg (watchStart t) evs s) :
    (∀ a ∈ activity evs, ∃ m, s.lastSeen = some m ∧ a ≤ m) ∧ (∀ m, s.lastSeen = some m → m ≤ s.now) ∧ s.inflight.length ≤ 1 ∧
      (∀ x ∈ s.inflight, x ≤ s.now ∧ ∀ a ∈ activity evs, a ≤ x) := by
  generalize hs0 : watchStart t = s0 at h
  induction h with
  | nil => subst hs0; simp [watchStart, activity]
  | @snoc s s' evs ev hr hs ih =>
    obtain ⟨h1, h2, h3, h4⟩ := ih
    rw [activity_append]
    cases hs with
    | time u hu =>
      refine ⟨by simpa [activity] using h1, fun m hm => Int.le_trans (h2 m hm) hu, h3, fun x hx => ⟨Int.le_trans (h4 x hx).1 hu, ?_⟩⟩
      simpa [activity] using (h4 x hx).2
    | stamp hlen =>
      have he : s.inflight = [] := by
        rw [← List.length_eq_zero_iff]; omega
      refine ⟨by simpa [activity] using h1, h2, by simp [he], fun x hx => ?_⟩
      simp only [he, List.nil_append, List.mem_singleton] at hx
      subst hx
      refine ⟨Int.le_refl _, fun a ha => ?_⟩
      simp only [activity, List.filterMap_cons, List.filterMap_nil, List.append_nil] at ha
      obtain ⟨m, hm, hle⟩ := h1 a ha
      exact Int.le_trans hle (h2 m hm)
    | store l r a he =>
      have hlen : l = [] ∧ r = [] := by
        rw [he] at h3; simp only [List.length_append, List.length_cons] at h3
        exact ⟨List.length_eq_zero_iff.1 (by omega), List.length_eq_zero_iff.1 (by omega)⟩
      obtain ⟨rfl, rfl⟩ := hlen
      have ha := h4 a (by rw [he]; simp)
      refine ⟨fun b hb => ⟨a, rfl, ?_⟩, fun m hm => ?_, by simp, fun x hx => by simp at hx⟩
      · rcases List.mem_append.1 hb with hb | hb
        · exact ha.2 b hb
        · simp [activity] at hb; omega
      · simp only [Option.some.injEq] at hm; subst hm; exact ha.1
    | _ => exact ⟨by simpa [activity] using h1, h2, h3, by simpa [activity] using h4⟩

theorem advance_some {c p : Option Int} {n : Int} (h : advanceLastSeen c p = some n) : c = some n := by
  cases c with
  | none => simp [advanceLastSeen] at h
  | some c => cases p <;> simp [advanceLastSeen] at h <;> simp_all

theorem advance_none {c p : Option Int} {m : Int} (h : advanceLastSeen c p = none) (hc : c = some m) : ∃ q, p = some q ∧ m ≤ q := by
  subst hc
  cases p with
  | none => simp [advanceLastSeen] at h
  | some q =>
    simp only [advanceLastSeen] at h
    split at h
    · cases h
    · exact ⟨q, rfl, by omega⟩

/-- The activity already observed is at least Timeout before the timer fires. -/
structure WTime (cfg : WatchCfg) (evs : List WEv) (s : Watch) : Prop where
  fired : ∀ d, s.timer = .fired d → d ≤ s.now
  next : ∀ n, (∃ b, s.pc = .updating n b) ∨ s.pc = .stopping n ∨ s.pc = .draining n ∨ s.pc = .resetting n → n ≤ s.now
  prev : ∀ p, s.prev = some p → p ≤ s.now
  init : s.pc = .init → s.prev = none ∧ ∃ t0, .start t0 ∈ evs ∧ ∀ d, s.timer = .armed d ∨ s.timer = .fired d → d = t0 + (cfg.grace + cfg.timeout)
  spawned : s.pc = .spawned → s.prev = none ∧ s.timer = .off
  due : ∀ p d, s.prev = some p → s.timer = .armed d ∨ s.timer = .fired d → p + cfg.timeout ≤ d
  gotTimer : ∀ p, s.pc = .gotTimer → s.prev = some p → p + cfg.timeout ≤ s.now

/-- What is recorded was read from the clock before, however many handlers there are. -/
theorem seen_le {t : Int} {s : Watch} {evs : List WEv} (h : Watch.Run cfg (watchStart t) evs s) :
    (∀ a ∈ activity evs, a ≤ s.now) ∧ (∀ m, s.lastSeen = some m → m ≤ s.now) ∧ (∀ x ∈ s.inflight, x ≤ s.now) := by
  generalize hs0 : watchStart t = s0 at h
  induction h with
  | nil => subst hs0; simp [watchStart, activity]
  | @snoc s s' evs ev hr hs ih =>
    obtain ⟨h1, h2, h3⟩ := ih
    rw [activity_append]
    cases hs with
    | time u hu =>
      exact ⟨fun a ha => Int.le_trans (h1 a (by simpa [activity] using ha)) hu, fun m hm => Int.le_trans (h2 m hm) hu, fun x hx => Int.le_trans (h3 x hx) hu⟩
    | stamp hlen =>
      refine ⟨fun a ha => h1 a (by simpa [activity] using ha), h2, fun x hx => ?_⟩
      simp only [List.mem_append, List.mem_singleton] at hx
      rcases hx with hx | hx
      · exact h3 x hx
      · rw [hx]; exact Int.le_refl _
    | store l r a he =>
      have ha := h3 a (by rw [he]; simp)
      refine ⟨fun b hb => ?_, fun m hm => ?_, fun x hx => h3 x (by rw [he]; simp at hx ⊢; rcases hx with h | h <;> simp [h])⟩
      · rcases List.mem_append.1 hb with hb | hb
        · exact h1 b hb
        · simp [activity] at hb; subst hb; exact ha
      · simp only [Option.some.injEq] at hm; subst hm; exact ha
    | _ => exact ⟨by simpa [activity] using h1, h2, h3⟩

theorem wtime_run {t : Int} {s : Watch} {evs : List WEv} (h : Watch.Run cfg (watchStart t) evs s)
    (hinit : ∀ t0 i, .start t0 ∈ evs → .init i ∈ evs → i ≤ t0 + cfg.grace) : WTime cfg evs s := by
  generalize hs0 : watchStart t = s0 at h
  induction h with
  | nil => subst hs0; constructor <;> simp [watchStart]
  | @snoc s s' evs ev hr hs ih =>
    subst hs0
    have hlat := (seen_le hr).2.1
    obtain ⟨h1, h2, h3, h4, h4', h5, h6⟩ := ih (fun t0 i a b => hinit t0 i (List.mem_append_left _ a) (List.mem_append_left _ b))
    have h4s : s.pc = .init → s.prev = none ∧ ∃ t0, .start t0 ∈ evs ++ [ev] ∧
        ∀ d, s.timer = .armed d ∨ s.timer = .fired d → d = t0 + (cfg.grace + cfg.timeout) := fun hp => by
      obtain ⟨a, t0, b, c⟩ := h4 hp
      exact ⟨a, t0, List.mem_append_left _ b, c⟩
    cases hs with
    | time u hu =>
      exact ⟨fun d hd => Int.le_trans (h1 d hd) hu, fun n hn => Int.le_trans (h2 n hn) hu, fun p hp => Int.le_trans (h3 p hp) hu, h4s, h4', h5,
        fun p a b => Int.le_trans (h6 p a b) hu⟩
    | cancel | stamp | store | tick => exact ⟨h1, h2, h3, h4s, h4', h5, h6⟩
    | @fire d hd hle =>
      refine ⟨fun d' hd' => ?_, h2, h3, fun hp => ?_, fun hp => ?_, fun p d' hp hd' => ?_, h6⟩
      · simp only [WTimer.fired.injEq] at hd'; show d' ≤ s.now; omega
      · obtain ⟨a, t0, b, c⟩ := h4s hp
        refine ⟨a, t0, b, fun d' hd' => ?_⟩
        simp only [reduceCtorEq, WTimer.fired.injEq, false_or] at hd'; subst hd'; exact c d (.inl hd)
      · have := (h4' hp).2; rw [hd] at this; cases this
      · simp only [reduceCtorEq, WTimer.fired.injEq, false_or] at hd'; subst hd'; exact h5 p d hp (.inl hd)
    | start hp =>
      refine ⟨fun d hd => ?_, fun n hn => by simp at hn, h3, fun _ => ⟨(h4' hp).1, s.now, by simp, fun d hd => ?_⟩, fun hp => by simp at hp,
        (fun p d hp' => by rw [(h4' hp).1] at hp'; cases hp'), fun p hp => by simp at hp⟩
      · simp only at hd; split at hd <;> cases hd
      · simp only at hd; split at hd <;> simp at hd; exact hd.symm
    | init hp =>
      obtain ⟨hpn, t0, ht0, hd0⟩ := h4 hp
      have hi := hinit t0 s.now (List.mem_append_left _ ht0) (by simp)
      have hprev : ∀ p, (advanceLastSeen s.lastSeen s.prev).or s.prev = some p → p ≤ s.now := by
        intro p hp'
        rw [hpn] at hp'
        cases ha : advanceLastSeen s.lastSeen none with
        | none => rw [ha] at hp'; simp at hp'
        | some q =>
          rw [ha] at hp'; simp at hp'; subst hp'
          exact hlat q (advance_some ha)
      refine ⟨h1, fun n hn => by simp at hn, hprev, fun hp => by simp at hp, fun hp => by simp at hp, fun p d hp' hd => ?_, fun p hp => by simp at hp⟩
      have := hd0 d hd
      have := hprev p hp'
      omega
    | return_ hp => exact ⟨h1, fun n hn => by simp at hn, h3, fun hp => by simp at hp, fun hp => by simp at hp, h5, fun p hp => by simp at hp⟩
    | @expiry d hp hf =>
      refine ⟨fun d hd => by simp at hd, fun n hn => by simp at hn, h3, fun hp => by simp at hp, fun hp => by simp at hp, fun p d _ hd => by simp at hd,
        fun p _ hp' => Int.le_trans (h5 p d hp' (.inr hf)) (h1 d hf)⟩
    | renew hp ha | observe hp ha =>
      refine ⟨h1, fun n hn => ?_, h3, fun hp => by simp at hp, fun hp => by simp at hp, h5, fun p hp => by simp at hp⟩
      simp at hn; subst hn; exact hlat _ (advance_some ha)
    | decide hp | forget hp | takeTick hp | nothing hp =>
      exact ⟨h1, fun n hn => by simp at hn, h3, fun hp => by simp at hp, fun hp => by simp at hp, h5, fun p hp => by simp at hp⟩
    | @update next b hp =>
      have := h2 next (.inl ⟨b, hp⟩)
      refine ⟨h1, fun n hn => ?_, h3, fun hp => by cases b <;> simp at hp, fun hp => by cases b <;> simp at hp, h5, fun p hp => by cases b <;> simp at hp⟩
      cases b <;> simp at hn <;> subst hn <;> exact this
    | @noTimer next hp ho =>
      have := h2 next (.inr (.inl hp))
      refine ⟨h1, fun n hn => by simp at hn, fun p hp => ?_, fun hp => by simp at hp, fun hp => by simp at hp, fun p d _ hd => ?_, fun p hp => by simp at hp⟩
      · simp at hp; show p ≤ s.now; omega
      · simp [ho] at hd
    | @stopTrue next d hp ho =>
      have := h2 next (.inr (.inl hp))
      refine ⟨fun d hd => by simp at hd, fun n hn => ?_, h3, fun hp => by simp at hp, fun hp => by simp at hp, fun p d _ hd => by simp at hd,
        fun p hp => by simp at hp⟩
      simp at hn; show n ≤ s.now; omega
    | @stopFalse next hp =>
      have := h2 next (.inr (.inl hp))
      refine ⟨h1, fun n hn => ?_, h3, fun hp => by simp at hp, fun hp => by simp at hp, h5, fun p hp => by simp at hp⟩
      simp at hn; show n ≤ s.now; omega
    | @drain next d hp =>
      have := h2 next (.inr (.inr (.inl hp)))
      refine ⟨fun d hd => by simp at hd, fun n hn => ?_, h3, fun hp => by simp at hp, fun hp => by simp at hp, fun p d _ hd => by simp at hd,
        fun p hp => by simp at hp⟩
      simp at hn; show n ≤ s.now; omega
    | @reset next hp =>
      have := h2 next (.inr (.inr (.inr hp)))
      refine ⟨fun d hd => by simp at hd, fun n hn => by simp at hn, fun p hp => ?_, fun hp => by simp at hp, fun hp => by simp at hp, fun p d hp hd => ?_,
        fun p hp => by simp at hp⟩
      · simp at hp; show p ≤ s.now; omega
      · simp at hp hd; omega

/-- C52, when messages are handled one at a time and the goroutine's first look at the activity is not delayed beyond the GracePeriod: all activity recorded
before a watch decides to forget its source is at least Timeout old.
Missing: several listeners, see `C52_counterexample_race`; a delayed start, see `C52_counterexample_late`. -/
theorem C52_active_partial {t f : Int} {s : Watch} {evs : List WEv} (h : Watch.Run cfg (watchStart t) (evs ++ [.decide f]) s) (hl : cfg.listeners ≤ 1)
    (hinit : ∀ t0 i, .start t0 ∈ evs → .init i ∈ evs → i ≤ t0 + cfg.grace) : ∀ a ∈ activity evs, a + cfg.timeout ≤ f := by
  obtain ⟨s1, h1, hs⟩ := watch_last h
  have hw := wtime_run h1 hinit
  have hlat := (latest_run hl h1).1
  cases hs with
  | decide hp hn =>
    intro a ha
    obtain ⟨m, hm, ham⟩ := hlat a ha
    obtain ⟨q, hq, hmq⟩ := advance_none hn hm
    have := hw.gotTimer q hp hq
    omega

/-- A prompt run is a run. -/
theorem prompt_run {D : Int} {s s' : Watch} {evs : List WEv} (h : PromptRun cfg D s evs s') : Watch.Run cfg s evs s' := by
  induction h with
  | nil => exact .nil
  | snoc _ hs _ ih => exact ih.snoc hs

/-- With several handlers what is recorded may be older than activity recorded before, by less than `D`. -/
theorem lag_run {D t : Int} {s : Watch} {evs : List WEv} (h : PromptRun cfg D (watchStart t) evs s) :
    (∀ a ∈ activity evs, ∃ m, s.lastSeen = some m ∧ (a = m ∨ a < m + D)) ∧ (∀ x ∈ s.inflight, s.now < x + D) := by
  generalize hs0 : watchStart t = s0 at h
  induction h with
  | nil => subst hs0; simp [watchStart, activity]
  | @snoc s s' evs ev hr hs hi ih =>
    subst hs0
    obtain ⟨h1, h2⟩ := ih
    refine ⟨?_, hi⟩
    have hle := (seen_le (prompt_run hr)).1
    rw [activity_append]
    cases hs with
    | store l r a he =>
      intro b hb
      refine ⟨a, rfl, ?_⟩
      rcases List.mem_append.1 hb with hb | hb
      · have := hle b hb
        have := h2 a (by rw [he]; simp)
        exact .inr (by omega)
      · simp [activity] at hb; exact .inl hb
    | _ => simpa [activity] using h1

/-- C52, with any number of listeners, when each handler stores the time less than `D` after reading it, and the goroutine's first look at the activity is not delayed
beyond the GracePeriod: all activity recorded before a watch decides to forget its source is at least Timeout old, up to `D`.
Missing: the `D`, see `C52_counterexample_race`; a delayed start, see `C52_counterexample_late`. -/
theorem C52_listeners_partial {D t f : Int} {s : Watch} {evs : List WEv} (h : PromptRun cfg D (watchStart t) (evs ++ [.decide f]) s)
    (hinit : ∀ t0 i, .start t0 ∈ evs → .init i ∈ evs → i ≤ t0 + cfg.grace) : ∀ a ∈ activity evs, a + cfg.timeout ≤ f ∨ a + cfg.timeout < f + D := by
  generalize he : evs ++ [.decide f] = l at h
  cases h with
  | nil => simp at he
  | @snoc s1 _ evs' ev h1 hs _ =>
    obtain ⟨rfl, e⟩ := List.append_inj' he rfl
    cases e
    have hw := wtime_run (prompt_run h1) hinit
    have hlat := (lag_run h1).1
    cases hs with
    | decide hp hn =>
      intro a ha
      obtain ⟨m, hm, ham⟩ := hlat a ha
      obtain ⟨q, hq, hmq⟩ := advance_none hn hm
      have := hw.gotTimer q hp hq
      rcases ham with h | h
      · exact .inl (by omega)
      · exact .inr (by omega)

/-- Forgetting is decided first. -/
theorem forget_decided {t : Int} {s : Watch} {evs : List WEv} (h : Watch.Run cfg (watchStart t) evs s) :
    (s.pc = .forgetting ∨ .forget ∈ evs) → ∃ f, .decide f ∈ evs := by
  generalize hs0 : watchStart t = s0 at h
  induction h with
  | nil => subst hs0; simp [watchStart]
  | @snoc s s' evs ev hr hs ih =>
    have key : s.pc = .forgetting ∨ .forget ∈ evs → ∃ f, .decide f ∈ evs ++ [ev] := fun h => by
      obtain ⟨f, hf⟩ := ih h
      exact ⟨f, List.mem_append_left _ hf⟩
    cases hs with
    | decide hp => intro _; exact ⟨s.now, by simp⟩
    | forget hp => intro _; exact key (.inl hp)
    | @update next b hp => cases b <;> simpa using fun h => key (.inr h)
    | time | cancel | stamp | store | tick | fire => simpa using key
    | _ => simpa using fun h => key (.inr h)

/-- C52: `Forget` is called only after such a decision. -/
theorem C52_decided {t : Int} {s : Watch} {evs : List WEv} (h : Watch.Run cfg (watchStart t) evs s) (hf : .forget ∈ evs) : ∃ f, .decide f ∈ evs :=
  forget_decided h (.inr hf)

/-- Two listeners, a Timeout of 10. -/
def exWatch2 : WatchCfg := { timeout := 10, interval := 5, listeners := 2 }

/-- C52 fails with two listeners: a handler that read the clock at 3 stores only after another one that read it at 14; the watch, which has seen the
activity at 4, takes the stored 3 for no news, and forgets its source at 15. -/
theorem C52_counterexample_race :
    ∃ evs s, Watch.Run exWatch2 (watchStart 0) (evs ++ [.decide 15, .forget]) s ∧ .store 14 ∈ evs ∧ ¬ (14 + exWatch2.timeout ≤ 15) ∧
      ∀ t0 i, .start t0 ∈ evs → .init i ∈ evs → i ≤ t0 + exWatch2.grace := by
  have r1 := (Watch.Run.nil (cfg := exWatch2) (s := watchStart 0)).snoc (.start rfl)
  have r2 := r1.snoc (.init rfl)
  have r3 := r2.snoc (.time 3 (by decide))
  have r4 := r3.snoc (.stamp (by decide))
  have r5 := r4.snoc (.time 4 (by decide))
  have r6 := r5.snoc (.stamp (by decide))
  have r7 := r6.snoc (.store [3] [] 4 rfl)
  have r8 := r7.snoc (.time 5 (by decide))
  have r9 := r8.snoc (.tick (by decide) (by decide))
  have r10 := r9.snoc (.takeTick rfl rfl)
  have r11 := r10.snoc (.observe (next := 4) rfl rfl)
  have r12 := r11.snoc (.update (next := 4) (byTimer := false) rfl)
  have r13 := r12.snoc (.stopTrue (next := 4) (d := 10) rfl rfl)
  have r14 := r13.snoc (.reset (next := 4) rfl)
  have r15 := r14.snoc (.time 14 (by decide))
  have r16 := r15.snoc (.stamp (by decide))
  have r17 := r16.snoc (.store [3] [] 14 rfl)
  have r18 := r17.snoc (.store [] [] 3 rfl)
  have r19 := r18.snoc (.time 15 (by decide))
  have r20 := r19.snoc (.fire (d := 15) rfl (by decide))
  have r21 := r20.snoc (.expiry (d := 15) rfl rfl)
  have r22 := r21.snoc (.decide rfl rfl)
  have r23 := r22.snoc (.forget rfl)
  refine ⟨[_, _, _, _, _, _, _, _, _, _, _, _, _, _, _, _, _, _, _, _, _], _, r23, by simp, by decide, ?_⟩
  intro t0 i h1 h2
  simp [watchStart] at h1 h2
  subst h1; subst h2; decide

/-- The hypotheses of `C52_listeners_partial` with two listeners, of which one stores 4 after the other has stored 6: the watch decides at 16, when the
activity at 6 is exactly Timeout old. -/
example : ∃ evs s, PromptRun exWatch2 3 (watchStart 0) (evs ++ [.decide 16]) s ∧ activity evs = [6, 4] ∧
    ∀ t0 i, .start t0 ∈ evs → .init i ∈ evs → i ≤ t0 + exWatch2.grace := by
  have r1 := (PromptRun.nil (cfg := exWatch2) (D := 3) (s := watchStart 0) rfl).snoc (.start rfl) (by decide)
  have r2 := r1.snoc (.init rfl) (by decide)
  have r3 := r2.snoc (.time 4 (by decide)) (by decide)
  have r4 := r3.snoc (.stamp (by decide)) (by decide)
  have r5 := r4.snoc (.time 6 (by decide)) (by decide)
  have r6 := r5.snoc (.stamp (by decide)) (by decide)
  have r7 := r6.snoc (.store [4] [] 6 rfl) (by decide)
  have r8 := r7.snoc (.tick (by decide) (by decide)) (by decide)
  have r9 := r8.snoc (.takeTick rfl rfl) (by decide)
  have r10 := r9.snoc (.observe (next := 6) rfl rfl) (by decide)
  have r11 := r10.snoc (.update (next := 6) (byTimer := false) rfl) (by decide)
  have r12 := r11.snoc (.stopTrue (next := 6) (d := 10) rfl rfl) (by decide)
  have r13 := r12.snoc (.reset (next := 6) rfl) (by decide)
  have r14 := r13.snoc (.store [] [] 4 rfl) (by decide)
  have r15 := r14.snoc (.time 16 (by decide)) (by decide)
  have r16 := r15.snoc (.fire (d := 16) rfl (by decide)) (by decide)
  have r17 := r16.snoc (.expiry (d := 16) rfl rfl) (by decide)
  have r18 := r17.snoc (.decide rfl rfl) (by decide)
  refine ⟨[_, _, _, _, _, _, _, _, _, _, _, _, _, _, _, _, _], _, r18, rfl, ?_⟩
  intro t0 i h1 h2
  simp [watchStart] at h1 h2
  subst h1; subst h2; decide

/-- C52 fails when the goroutine is delayed between setting its timer and its first look at the activity: activity at 9 is taken for old, and the source is
forgotten at 10. -/
theorem C52_counterexample_late :
    ∃ evs s, Watch.Run { timeout := 10 } (watchStart 0) (evs ++ [.decide 10, .forget]) s ∧ .start 0 ∈ evs ∧ .store 9 ∈ evs := by
  have r1 := (Watch.Run.nil (cfg := { timeout := 10 }) (s := watchStart 0)).snoc (.start rfl)
  have r2 := r1.snoc (.time 9 (by decide))
  have r3 := r2.snoc (.stamp (by decide))
  have r4 := r3.snoc (.store [] [] 9 rfl)
  have r5 := r4.snoc (.init rfl)
  have r6 := r5.snoc (.time 10 (by decide))
  have r7 := r6.snoc (.fire (d := 10) rfl (by decide))
  have r8 := r7.snoc (.expiry (d := 10) rfl rfl)
  have r9 := r8.snoc (.decide rfl rfl)
  have r10 := r9.snoc (.forget rfl)
  exact ⟨[_, _, _, _, _, _, _, _], _, r10, by simp [watchStart], by simp [watchStart]⟩

/-- C52 fails for the GracePeriod: once there was activity the GracePeriod is over.  With a GracePeriod of 60 and a Timeout of 10, a source active at 1
is forgotten at 12. -/
theorem C52_counterexample_grace :
    ∃ evs s, Watch.Run { timeout := 10, grace := 60, interval := 2 } (watchStart 0) (evs ++ [.decide 12, .forget]) s ∧ .start 0 ∈ evs ∧
      activity evs = [1] := by
  have r1 := (Watch.Run.nil (cfg := { timeout := 10, grace := 60, interval := 2 }) (s := watchStart 0)).snoc (.start rfl)
  have r2 := r1.snoc (.init rfl)
  have r3 := r2.snoc (.time 1 (by decide))
  have r4 := r3.snoc (.stamp (by decide))
  have r5 := r4.snoc (.store [] [] 1 rfl)
  have r6 := r5.snoc (.time 2 (by decide))
  have r7 := r6.snoc (.tick (by decide) (by decide))
  have r8 := r7.snoc (.takeTick rfl rfl)
  have r9 := r8.snoc (.observe (next := 1) rfl rfl)
  have r10 := r9.snoc (.update (next := 1) (byTimer := false) rfl)
  have r11 := r10.snoc (.stopTrue (next := 1) (d := 70) rfl rfl)
  have r12 := r11.snoc (.reset (next := 1) rfl)
  have r13 := r12.snoc (.time 12 (by decide))
  have r14 := r13.snoc (.fire (d := 12) rfl (by decide))
  have r15 := r14.snoc (.expiry (d := 12) rfl rfl)
  have r16 := r15.snoc (.decide rfl rfl)
  have r17 := r16.snoc (.forget rfl)
  exact ⟨[_, _, _, _, _, _, _, _, _, _, _, _, _, _, _], _, r17, by simp [watchStart], by decide⟩

/-! ## C53 -/

/-- C53: the drain of the timer never blocks: the value is there. -/
theorem C53_drain {t n : Int} {s : Watch} {evs : List WEv} (h : Watch.Run cfg (watchStart t) evs s) (hp : s.pc = .draining n) :
    ∃ s', Watch.Step cfg s .drain s' := by
  have hok := wok_run h
  unfold WOk at hok
  split at hok
  · rw [hp] at hok
    obtain ⟨d, hd⟩ := hok
    exact ⟨_, .drain hp hd⟩
  · rw [hp] at hok; exact hok.2.elim

/-- C53: outside its select the goroutine can always go on, until it returns. -/
theorem C53_goes_on {t : Int} {s : Watch} {evs : List WEv} (h : Watch.Run cfg (watchStart t) evs s) (hd : s.pc ≠ .done) (hsel : s.pc ≠ .select) :
    ∃ ev s', isWatchStep ev = true ∧ Watch.Step cfg s ev s' := by
  have hok := wok_run h
  cases hp : s.pc with
  | spawned => exact ⟨_, _, rfl, .start hp⟩
  | init => exact ⟨_, _, rfl, .init hp⟩
  | select => exact absurd hp hsel
  | gotTimer =>
    cases ha : advanceLastSeen s.lastSeen s.prev with
    | none => exact ⟨_, _, rfl, .decide hp ha⟩
    | some n => exact ⟨_, _, rfl, .renew hp ha⟩
  | forgetting => exact ⟨_, _, rfl, .forget hp⟩
  | gotTick =>
    cases ha : advanceLastSeen s.lastSeen s.prev with
    | none => exact ⟨_, _, rfl, .nothing hp ha⟩
    | some n => exact ⟨_, _, rfl, .observe hp ha⟩
  | updating n b => exact ⟨_, _, rfl, .update hp⟩
  | stopping n =>
    unfold WOk at hok
    rw [hp] at hok
    split at hok
    · obtain ⟨d, hd | hd⟩ := hok
      · exact ⟨_, _, rfl, .stopTrue hp hd⟩
      · exact ⟨_, _, rfl, .stopFalse hp (by rw [hd]; simp) (by rw [hd]; simp)⟩
    · exact ⟨_, _, rfl, .noTimer hp hok.1⟩
  | draining n =>
    obtain ⟨s', hs⟩ := C53_drain h hp
    exact ⟨_, s', rfl, hs⟩
  | resetting n => exact ⟨_, _, rfl, .reset hp⟩
  | done => exact absurd hp hd

/-- The activity the goroutine is about to note. -/
def nexts : WPC → Option Int
  | .updating n _ | .stopping n | .draining n | .resetting n => some n
  | _ => none

theorem advance_self (n : Int) : advanceLastSeen (some n) (some n) = none := by simp [advanceLastSeen]

/-- C53: when activity stops while the goroutine waits in its select, the timer is set again at most once more. -/
theorem C53_one_more {t : Int} {s s' : Watch} {evs evs' : List WEv} (_h : Watch.Run cfg (watchStart t) evs s) (hp : s.pc = .select)
    (h' : Watch.Run cfg s evs' s') (hsil : Silent evs') : evs'.countP isReset ≤ 1 := by
  suffices hk : evs'.countP isReset + (if (advanceLastSeen s'.lastSeen s'.prev).isSome then 1 else 0) ≤ 1 ∧ s'.pc ≠ .init ∧ s'.pc ≠ .spawned ∧
      ∀ n, nexts s'.pc = some n → advanceLastSeen s'.lastSeen s'.prev = some n by
    exact Nat.le_trans (Nat.le_add_right _ _) hk.1
  clear _h
  induction h' with
  | nil => refine ⟨?_, by simp [hp], by simp [hp], fun n hn => by simp [hp, nexts] at hn⟩; simp only [List.countP_nil]; split <;> omega
  | @snoc s1 s2 evs' ev hr hs ih =>
    obtain ⟨h1, h2, h2', h3⟩ := ih (fun e he => hsil e (List.mem_append_left _ he))
    have hev := hsil ev (by simp)
    rw [List.countP_append]
    cases hs with
    | store l r a => exact absurd rfl (hev.1 a)
    | cancel => exact absurd rfl hev.2
    | start hp => exact absurd hp h2'
    | init hp => exact absurd hp h2
    | time | stamp | tick | fire => exact ⟨by simpa [isReset] using h1, h2, h2', h3⟩
    | renew hp ha | observe hp ha =>
      exact ⟨by simpa [isReset] using h1, by simp, by simp, fun n hn => by simp [nexts] at hn; subst hn; exact ha⟩
    | @update next b hp =>
      refine ⟨by simpa [isReset] using h1, by cases b <;> simp, by cases b <;> simp, fun n hn => ?_⟩
      have := h3 next (by simp [hp, nexts])
      cases b <;> simp [nexts] at hn <;> subst hn <;> exact this
    | @stopTrue next d hp | @stopFalse next hp | @drain next d hp =>
      have := h3 next (by simp [hp, nexts])
      exact ⟨by simpa [isReset] using h1, by simp, by simp, fun n hn => by simp [nexts] at hn; subst hn; exact this⟩
    | @noTimer next hp | @reset next hp =>
      have ha := h3 next (by simp [hp, nexts])
      have hl := advance_some ha
      rw [ha] at h1
      refine ⟨?_, by simp, by simp, fun n hn => by simp [nexts] at hn⟩
      simp only [hl, advance_self]
      simp only [Option.isSome_some, if_true] at h1
      simp only [Option.isSome_none, Bool.false_eq_true, if_false, List.countP_cons, List.countP_nil, isReset, if_true]
      omega
    | _ => exact ⟨by simpa [isReset] using h1, by simp, by simp, fun n hn => by simp [nexts] at hn⟩

/-- C53: when there is no new activity any more while the goroutine waits in its select — as after its last setting of the timer — the timer is not set
again, and the next expiry leads to forgetting: the goroutine is then on its way to it or has done it. -/
theorem C53_next_expiry {t : Int} {s s' : Watch} {evs evs' : List WEv} (_h : Watch.Run cfg (watchStart t) evs s) (hp : s.pc = .select)
    (ha : advanceLastSeen s.lastSeen s.prev = none) (h' : Watch.Run cfg s evs' s') (hsil : Silent evs') (hnc : s.cancelled = false) :
    (∀ r, .reset r ∉ evs') ∧ (.expiry ∈ evs' → (s'.pc = .gotTimer ∧ advanceLastSeen s'.lastSeen s'.prev = none) ∨ s'.pc = .forgetting ∨ .forget ∈ evs') := by
  suffices hk : (∀ r, .reset r ∉ evs') ∧ advanceLastSeen s'.lastSeen s'.prev = none ∧ s'.cancelled = false ∧
      (s'.pc = .select ∨ s'.pc = .gotTick ∨ s'.pc = .gotTimer ∨ s'.pc = .forgetting ∨ s'.pc = .done) ∧
      (.expiry ∈ evs' → s'.pc = .gotTimer ∨ s'.pc = .forgetting ∨ (s'.pc = .done ∧ .forget ∈ evs')) by
    obtain ⟨h1, h2, -, -, h3⟩ := hk
    exact ⟨h1, fun he => (h3 he).imp (fun a => ⟨a, h2⟩) (fun a => a.imp id (·.2))⟩
  clear _h
  induction h' with
  | nil => exact ⟨by simp, ha, hnc, .inl hp, by simp⟩
  | @snoc s1 s2 evs' ev hr hs ih =>
    obtain ⟨h1, h2, h3, h4, h5⟩ := ih (fun e he => hsil e (List.mem_append_left _ he))
    have hev := hsil ev (by simp)
    cases hs with
    | store l r a => exact absurd rfl (hev.1 a)
    | cancel => exact absurd rfl hev.2
    | time | stamp | tick | fire => exact ⟨by simpa using h1, h2, h3, h4, by simpa using h5⟩
    | start hp | init hp | update hp | noTimer hp | stopTrue hp | stopFalse hp | drain hp | reset hp => rw [hp] at h4; simp at h4
    | return_ hp hc => rw [h3] at hc; cases hc
    | renew hp hn | observe hp hn => rw [h2] at hn; cases hn
    | expiry hp => exact ⟨by simpa using h1, h2, h3, by simp, by simp⟩
    | decide hp => exact ⟨by simpa using h1, h2, h3, by simp, by simp⟩
    | forget hp => exact ⟨by simpa using h1, h2, h3, by simp, by simp⟩
    | takeTick hp | nothing hp =>
      refine ⟨by simpa using h1, h2, h3, by simp, fun he => ?_⟩
      simp only [List.mem_append, List.mem_singleton, reduceCtorEq, or_false] at he
      rcases h5 he with h | h | h
      · rw [hp] at h; cases h
      · rw [hp] at h; cases h
      · rw [hp] at h; cases h.1

theorem _root_.Verif.Spec.Silent.append {a b : List WEv} (ha : Silent a) (hb : Silent b) : Silent (a ++ b) := fun ev h =>
  (List.mem_append.1 h).elim (ha ev) (hb ev)

theorem _root_.Verif.Spec.Silent.one {ev : WEv} (h1 : ∀ a, ev ≠ .store a) (h2 : ev ≠ .cancel) : Silent [ev] := fun e h => by
  simp only [List.mem_singleton] at h; subst h; exact ⟨h1, h2⟩

theorem _root_.Verif.Spec.Silent.nil : Silent [] := fun e h => by simp at h

/-- From the select to the timer's case. -/
theorem to_expiry {s : Watch} (hp : s.pc = .select) (ht : ∃ d, s.timer = .armed d ∨ s.timer = .fired d) :
    ∃ evs s', Watch.Run cfg s evs s' ∧ Silent evs ∧ s'.pc = .gotTimer ∧ s'.lastSeen = s.lastSeen ∧ s'.prev = s.prev := by
  obtain ⟨d, ht | ht⟩ := ht
  · have r1 := (Watch.Run.nil (cfg := cfg) (s := s)).snoc (.time (max s.now d) (by omega))
    have r2 := r1.snoc (.fire (d := d) ht (by show d ≤ max s.now d; omega))
    have r3 := r2.snoc (.expiry (d := d) hp rfl)
    exact ⟨_, _, r3, ((Silent.nil.append (.one (by simp) (by simp))).append (.one (by simp) (by simp))).append (.one (by simp) (by simp)), rfl, rfl, rfl⟩
  · exact ⟨_, _, (Watch.Run.nil (cfg := cfg) (s := s)).snoc (.expiry (d := d) hp ht), Silent.nil.append (.one (by simp) (by simp)), rfl, rfl, rfl⟩

/-- There is a way to forgetting. -/
def CanForget (cfg : WatchCfg) (s : Watch) : Prop := ∃ evs s', Watch.Run cfg s evs s' ∧ Silent evs ∧ .forget ∈ evs

theorem CanForget.of_run {s s' : Watch} {evs : List WEv} (h : Watch.Run cfg s evs s') (hs : Silent evs) (hc : CanForget cfg s') : CanForget cfg s := by
  obtain ⟨evs', s2, r, hs', hf⟩ := hc
  exact ⟨_, s2, watch_trans h r, hs.append hs', List.mem_append_right _ hf⟩

theorem CanForget.of_step {s s' : Watch} {ev : WEv} (h : Watch.Step cfg s ev s') (h1 : ∀ a, ev ≠ .store a) (h2 : ev ≠ .cancel) (hc : CanForget cfg s') :
    CanForget cfg s := hc.of_run (Watch.Run.nil.snoc h) (Silent.nil.append (.one h1 h2))

theorem can_forgetting {s : Watch} (hp : s.pc = .forgetting) : CanForget cfg s :=
  ⟨_, _, Watch.Run.nil.snoc (.forget hp), Silent.nil.append (.one (by simp) (by simp)), by simp⟩

theorem can_gotTimer {s : Watch} (hp : s.pc = .gotTimer) : CanForget cfg s := by
  cases ha : advanceLastSeen s.lastSeen s.prev with
  | none => exact .of_step (.decide hp ha) (by simp) (by simp) (can_forgetting rfl)
  | some n =>
    refine .of_step (.renew hp ha) (by simp) (by simp) (.of_step (.update (byTimer := true) rfl) (by simp) (by simp)
      (.of_step (.reset (next := n) rfl) (by simp) (by simp) ?_))
    obtain ⟨evs, s', r, hs, hp', hl, hpr⟩ := to_expiry (cfg := cfg) (s := { s with
      pc := .select, timer := .armed (s.now + cfg.timeout), prev := some n }) rfl ⟨_, .inl rfl⟩
    refine .of_run r hs (.of_step (.decide hp' ?_) (by simp) (by simp) (can_forgetting rfl))
    rw [hl, hpr]
    simp [advance_some ha, advance_self]

theorem can_select {s : Watch} (hp : s.pc = .select) (ht : ∃ d, s.timer = .armed d ∨ s.timer = .fired d) : CanForget cfg s := by
  obtain ⟨evs, s', r, hs, hp', -, -⟩ := to_expiry (cfg := cfg) hp ht
  exact .of_run r hs (can_gotTimer hp')

theorem can_resetting {s : Watch} {n : Int} (hp : s.pc = .resetting n) : CanForget cfg s :=
  .of_step (.reset hp) (by simp) (by simp) (can_select rfl ⟨_, .inl rfl⟩)

theorem can_stopping {s : Watch} {n : Int} (hp : s.pc = .stopping n) (ht : ∃ d, s.timer = .armed d ∨ s.timer = .fired d) : CanForget cfg s := by
  obtain ⟨d, hd | hd⟩ := ht
  · exact .of_step (.stopTrue hp hd) (by simp) (by simp) (can_resetting rfl)
  · exact .of_step (.stopFalse hp (by rw [hd]; simp) (by rw [hd]; simp)) (by simp) (by simp)
      (.of_step (.drain rfl hd) (by simp) (by simp) (can_resetting rfl))

/-- C53: with a Timeout, a goroutine that has not returned can come to forget its source without further activity and without its context ending; it needs nobody else
for that but the clock. -/
theorem C53_can_forget {t : Int} {s : Watch} {evs : List WEv} (h : Watch.Run cfg (watchStart t) evs s) (ht : 0 < cfg.timeout) (hd : s.pc ≠ .done) :
    ∃ evs' s', Watch.Run cfg s evs' s' ∧ Silent evs' ∧ .forget ∈ evs' := by
  have hok := wok_run h
  unfold WOk at hok
  rw [if_pos ht] at hok
  show CanForget cfg s
  cases hp : s.pc with
  | spawned =>
    refine .of_step (.start hp) (by simp) (by simp) (.of_step (.init rfl) (by simp) (by simp) (can_select rfl ⟨s.now + (cfg.grace + cfg.timeout), .inl ?_⟩))
    simp only [ht, if_true]
  | init => rw [hp] at hok; exact .of_step (.init hp) (by simp) (by simp) (can_select rfl hok)
  | select => rw [hp] at hok; exact can_select hp hok
  | gotTimer => exact can_gotTimer hp
  | forgetting => exact can_forgetting hp
  | gotTick =>
    rw [hp] at hok
    cases ha : advanceLastSeen s.lastSeen s.prev with
    | none => exact .of_step (.nothing hp ha) (by simp) (by simp) (can_select rfl hok)
    | some n => exact .of_step (.observe hp ha) (by simp) (by simp) (.of_step (.update (byTimer := false) rfl) (by simp) (by simp) (can_stopping rfl hok))
  | updating n b =>
    rw [hp] at hok
    cases b with
    | true => exact .of_step (.update hp) (by simp) (by simp) (can_resetting rfl)
    | false => exact .of_step (.update hp) (by simp) (by simp) (can_stopping rfl hok)
  | stopping n => rw [hp] at hok; exact can_stopping hp hok
  | draining n =>
    rw [hp] at hok
    obtain ⟨d, hd⟩ := hok
    exact .of_step (.drain hp hd) (by simp) (by simp) (can_resetting rfl)
  | resetting n => exact can_resetting hp
  | done => exact absurd hp hd

/-- How far the goroutine is from its select. -/
def watchRank : WPC → Nat
  | .select | .done => 0
  | .init | .resetting _ | .forgetting => 1
  | .spawned | .draining _ => 2
  | .stopping _ => 3
  | .updating _ _ => 4
  | .gotTick | .gotTimer => 5

theorem watch_rank {s s' : Watch} {ev : WEv} (hs : Watch.Step cfg s ev s') (ho : isWatchStep ev = true) (hsel : s.pc ≠ .select) : watchRank s'.pc < watchRank s.pc := by
  cases hs with
  | time | cancel | stamp | store | fire | tick => cases ho
  | return_ hp | expiry hp | takeTick hp => exact absurd hp hsel
  | @update n b hp => cases b <;> simp [hp, watchRank]
  | start hp | init hp | renew hp | decide hp | forget hp | nothing hp | observe hp | noTimer hp | stopTrue hp | stopFalse hp | drain hp | reset hp => simp [hp, watchRank]

theorem cancelled_keeps {s s' : Watch} {evs : List WEv} (h : Watch.Run cfg s evs s') (hc : s.cancelled = true) : s'.cancelled = true := by
  induction h with
  | nil => exact hc
  | snoc _ hs ih => cases hs <;> first | exact ih | rfl

theorem to_select {t : Int} : ∀ (n : Nat) {s : Watch} {evs : List WEv}, Watch.Run cfg (watchStart t) evs s → watchRank s.pc ≤ n →
    ∃ evs' s', Watch.Run cfg s evs' s' ∧ (∀ ev ∈ evs', isWatchStep ev = true) ∧ evs'.length ≤ n ∧ (s'.pc = .select ∨ s'.pc = .done)
  | n, s, evs, h, hn => by
    by_cases hsel : s.pc = .select
    · exact ⟨[], s, .nil, by simp, by simp, .inl hsel⟩
    by_cases hd : s.pc = .done
    · exact ⟨[], s, .nil, by simp, by simp, .inr hd⟩
    obtain ⟨ev, s1, ho, hs⟩ := C53_goes_on h hd hsel
    have hlt := watch_rank hs ho hsel
    match n, hn with
    | 0, hn => omega
    | n + 1, hn =>
      obtain ⟨evs', s', r, h1, h2, h3⟩ := to_select n (h.snoc hs) (by omega)
      refine ⟨[ev] ++ evs', s', watch_trans (Watch.Run.nil.snoc hs) r, ?_, by simpa using h2, h3⟩
      intro e he
      rcases List.mem_append.1 he with he | he
      · rw [List.mem_singleton.1 he]; exact ho
      · exact h1 e he

/-- C53: once its context has ended, the goroutine can return from wherever it is, with at most six steps of its own; it needs nobody else for that. -/
theorem C53_stops {t : Int} {s : Watch} {a b : List WEv} (h : Watch.Run cfg (watchStart t) (a ++ .cancel :: b) s) :
    ∃ evs' s', Watch.Run cfg s evs' s' ∧ (∀ ev ∈ evs', isWatchStep ev = true ∨ ev = .return_) ∧ evs'.length ≤ 6 ∧ s'.pc = .done := by
  have hc : s.cancelled = true := by
    have : ∀ {evs : List WEv} {s : Watch}, Watch.Run cfg (watchStart t) evs s → .cancel ∈ evs → s.cancelled = true := by
      intro evs s h
      induction h with
      | nil => simp
      | @snoc s1 s2 evs ev _ hs ih =>
        intro hm
        rcases List.mem_append.1 hm with hm | hm
        · exact cancelled_keeps (Watch.Run.nil.snoc hs) (ih hm)
        · rw [List.mem_singleton] at hm
          subst hm
          cases hs
          rfl
    exact this h (by simp)
  obtain ⟨evs', s', r, h1, h2, h3⟩ := to_select 5 h (by cases s.pc <;> simp [watchRank])
  rcases h3 with h3 | h3
  · refine ⟨evs' ++ [.return_], _, r.snoc (.return_ h3 (cancelled_keeps r hc)), ?_, by simp; omega, rfl⟩
    intro e he
    rcases List.mem_append.1 he with he | he
    · exact .inl (h1 e he)
    · exact .inr (List.mem_singleton.1 he)
  · exact ⟨evs', s', r, fun e he => .inl (h1 e he), by omega, h3⟩

/-- A goroutine that returns without forgetting its source has been told to: its context has ended. -/
theorem C53_returns_when_told {t : Int} {s : Watch} {evs : List WEv} (h : Watch.Run cfg (watchStart t) evs s) (hr : .return_ ∈ evs) : .cancel ∈ evs := by
  have key : ∀ {evs : List WEv} {s : Watch}, Watch.Run cfg (watchStart t) evs s → (s.cancelled = true → .cancel ∈ evs) ∧ (.return_ ∈ evs → .cancel ∈ evs) := by
    intro evs s h
    generalize hs0 : watchStart t = s0 at h
    induction h with
    | nil => subst hs0; simp [watchStart]
    | @snoc s1 s2 evs ev _ hs ih =>
      obtain ⟨i1, i2⟩ := ih
      cases hs with
      | cancel => simp
      | return_ hp hc => have := i1 hc; simp [this]
      | _ => refine ⟨fun h => List.mem_append_left _ (i1 h), fun h => List.mem_append_left _ (i2 (by simpa using h))⟩
  exact (key h).2 hr

/-! ## Instances -/

/-- One listener, a GracePeriod of 5 and a Timeout of 10: activity at 3 is observed at 8, by a tick; activity at 17 by the timer, at 18; the source is
forgotten at 28. -/
theorem exWatchRun : ∃ evs s, Watch.Run { timeout := 10, grace := 5, interval := 8 } (watchStart 0) (evs ++ [.decide 28]) s ∧
    activity evs = [3, 17] ∧ ∀ t0 i, .start t0 ∈ evs → .init i ∈ evs → i ≤ t0 + 5 := by
  have r1 := (Watch.Run.nil (cfg := { timeout := 10, grace := 5, interval := 8 }) (s := watchStart 0)).snoc (.start rfl)
  have r2 := r1.snoc (.init rfl)
  have r3 := r2.snoc (.time 3 (by decide))
  have r4 := r3.snoc (.stamp (by decide))
  have r5 := r4.snoc (.store [] [] 3 rfl)
  have r6 := r5.snoc (.time 8 (by decide))
  have r7 := r6.snoc (.tick (by decide) (by decide))
  have r8 := r7.snoc (.takeTick rfl rfl)
  have r9 := r8.snoc (.observe (next := 3) rfl rfl)
  have r10 := r9.snoc (.update (next := 3) (byTimer := false) rfl)
  have r11 := r10.snoc (.stopTrue (next := 3) (d := 15) rfl rfl)
  have r12 := r11.snoc (.reset (next := 3) rfl)
  have r13 := r12.snoc (.time 17 (by decide))
  have r14 := r13.snoc (.stamp (by decide))
  have r15 := r14.snoc (.store [] [] 17 rfl)
  have r16 := r15.snoc (.time 18 (by decide))
  have r17 := r16.snoc (.fire (d := 18) rfl (by decide))
  have r18 := r17.snoc (.expiry (d := 18) rfl rfl)
  have r19 := r18.snoc (.renew (next := 17) rfl rfl)
  have r20 := r19.snoc (.update (next := 17) (byTimer := true) rfl)
  have r21 := r20.snoc (.reset (next := 17) rfl)
  have r22 := r21.snoc (.time 28 (by decide))
  have r23 := r22.snoc (.fire (d := 28) rfl (by decide))
  have r24 := r23.snoc (.expiry (d := 28) rfl rfl)
  have r25 := r24.snoc (.decide rfl rfl)
  refine ⟨[_, _, _, _, _, _, _, _, _, _, _, _, _, _, _, _, _, _, _, _, _, _, _, _], _, r25, by decide, ?_⟩
  intro t0 i h1 h2
  simp [watchStart] at h1 h2
  subst h1; subst h2; decide

example : ∃ evs s, Watch.Run { timeout := 10, grace := 5, interval := 8 } (watchStart 0) (evs ++ [.decide 28]) s ∧
    (activity evs).length = 2 ∧ ∀ a ∈ activity evs, a + 10 ≤ 28 := by
  obtain ⟨evs, s, h, ha, hi⟩ := exWatchRun
  exact ⟨evs, s, h, by rw [ha]; rfl, C52_active_partial h (by decide) hi⟩

/-- The drain: the timer fires while the ticker's case is taken. -/
example : ∃ evs s, Watch.Run { timeout := 10, interval := 8 } (watchStart 0) evs s ∧ s.pc = .draining 9 ∧ s.timer = .fired 10 := by
  have r1 := (Watch.Run.nil (cfg := { timeout := 10, interval := 8 }) (s := watchStart 0)).snoc (.start rfl)
  have r2 := r1.snoc (.init rfl)
  have r3 := r2.snoc (.time 9 (by decide))
  have r4 := r3.snoc (.stamp (by decide))
  have r5 := r4.snoc (.store [] [] 9 rfl)
  have r6 := r5.snoc (.tick (by decide) (by decide))
  have r7 := r6.snoc (.takeTick rfl rfl)
  have r8 := r7.snoc (.time 10 (by decide))
  have r9 := r8.snoc (.fire (d := 10) rfl (by decide))
  have r10 := r9.snoc (.observe (next := 9) rfl rfl)
  have r11 := r10.snoc (.update (next := 9) (byTimer := false) rfl)
  have r12 := r11.snoc (.stopFalse (next := 9) rfl (by simp) (by simp))
  exact ⟨_, _, r12, rfl, rfl⟩

end Verif.Props
