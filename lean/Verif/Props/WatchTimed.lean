import Verif.Model.WatchTimed
import Verif.Props.Alive

/-!
# C97: a silent source is forgotten in time
-/
namespace Verif.Props
open Verif Verif.Model Verif.Spec

variable {cfg : WatchCfg} {late : Int}

theorem trun_run {s s' : Watch} {evs : List WEv} (h : Watch.TRun cfg late s evs s') : Watch.Run cfg s evs s' := by
  induction h with
  | nil => exact .nil
  | snoc _ hs _ ih => exact ih.snoc hs

theorem period_pos (cfg : WatchCfg) : 0 < cfg.period := by unfold WatchCfg.period; split <;> omega

/-- The timer is due at most a Timeout from now, unless it still is the first one; the ticker at most a period from now. -/
theorem timer_bound {t : Int} {evs : List WEv} {s : Watch} (h : Watch.Run cfg (watchStart t) evs s) (hT : 0 < cfg.timeout) :
    (∀ x, s.timer = .armed x ∨ s.timer = .fired x → x ≤ s.now + cfg.timeout ∨ ∃ t0, .start t0 ∈ evs ∧ x ≤ t0 + cfg.grace + cfg.timeout) ∧
    (s.pc ≠ .spawned → s.ticker.next ≤ s.now + cfg.period) := by
  generalize hs0 : watchStart t = s0 at h
  induction h with
  | nil => subst hs0; simp [watchStart]
  | @snoc s s' evs ev hr hs ih =>
    subst hs0
    obtain ⟨i1, i2⟩ := ih
    have mono : ∀ {x : Int}, (x ≤ s.now + cfg.timeout ∨ ∃ t0, .start t0 ∈ evs ∧ x ≤ t0 + cfg.grace + cfg.timeout) →
        (x ≤ s.now + cfg.timeout ∨ ∃ t0, .start t0 ∈ evs ++ [ev] ∧ x ≤ t0 + cfg.grace + cfg.timeout) := by
      rintro x (h | ⟨t0, h, h'⟩)
      · exact .inl h
      · exact .inr ⟨t0, by simp [h], h'⟩
    cases hs with
    | time t' hle =>
      refine ⟨?_, ?_⟩
      · intro x hx
        rcases mono (i1 x hx) with h | h
        · exact .inl (by show x ≤ t' + _; omega)
        · exact .inr h
      · intro hp; have := i2 hp; show s.ticker.next ≤ t' + _; omega
    | cancel | stamp | store => exact ⟨fun x hx => mono (i1 x hx), i2⟩
    | fire hd hle =>
      refine ⟨fun x hx => ?_, i2⟩
      rcases hx with hx | hx
      · cases hx
      · cases hx; exact mono (i1 _ (.inl hd))
    | tick hp hle =>
      refine ⟨fun x hx => mono (i1 x hx), fun _ => ?_⟩
      exact (fire_next s.ticker (period_pos cfg) hle).2.1
    | start hp =>
      refine ⟨fun x hx => ?_, fun _ => Int.le_refl _⟩
      simp only [hT, if_true] at hx
      rcases hx with hx | hx
      · cases hx; exact .inr ⟨s.now, by simp, by omega⟩
      · cases hx
    | reset hp =>
      refine ⟨fun x hx => ?_, fun _ => i2 (by rw [hp]; simp)⟩
      rcases hx with hx | hx
      · cases hx; exact .inl (Int.le_refl _)
      · cases hx
    | expiry hp | stopTrue hp | drain hp => exact ⟨fun x hx => (by rcases hx with hx | hx <;> cases hx), fun _ => i2 (by rw [hp]; simp)⟩
    | init hp | return_ hp | renew hp | decide hp | forget hp | takeTick hp | nothing hp | observe hp | noTimer hp | stopFalse hp | update hp =>
      exact ⟨fun x hx => mono (i1 x hx), fun _ => i2 (by rw [hp]; simp)⟩

theorem done_forgot {t : Int} {evs : List WEv} {s : Watch} (h : Watch.Run cfg (watchStart t) evs s) (hd : s.pc = .done) : .forget ∈ evs ∨ s.cancelled = true := by
  generalize hs0 : watchStart t = s0 at h
  induction h with
  | nil => subst hs0; cases hd
  | @snoc s s' evs ev hr hs ih =>
    subst hs0
    cases hs with
    | time | cancel | stamp | store | fire | tick => rcases ih hd with h | h <;> simp [h]
    | return_ hp hc => exact .inr hc
    | forget => simp
    | @update n bt hp => cases bt <;> cases hd
    | _ => cases hd

/-- What is left to do after the last message: the next tick finds it, or the goroutine is looking already, or it knows. -/
def Settles (cfg : WatchCfg) (late z : Int) (s : Watch) : Prop :=
  (s.now ≤ z + cfg.period + late ∧ ((s.ticker.next ≤ z + cfg.period ∨ s.ticker.pending = true) ∨ (s.pc = .gotTick ∨ s.pc = .gotTimer) ∨ ∃ n, nexts s.pc = some n ∧ s.lastSeen = some n)) ∨
  (advanceLastSeen s.lastSeen s.prev = none ∧ nexts s.pc = none)

theorem advance_eq {a b : Option Int} {n : Int} (h : advanceLastSeen a b = some n) : a = some n := by
  unfold advanceLastSeen at h
  split at h
  · cases h
  · exact h
  · split at h
    · exact h
    · cases h

theorem settles_step {s s' : Watch} {ev : WEv} {z : Int} (h : Settles cfg late z s) (hs : Watch.Step cfg s ev s') (hm : ev = .time → s.MayPass late s'.now)
    (hsil : (∀ a, ev ≠ .store a) ∧ ev ≠ .cancel) (hd : s'.pc ≠ .done) (hp0 : s.pc ≠ .spawned) : Settles cfg late z s' := by
  cases hs with
  | time t' hle =>
    have hm := hm rfl
    rcases hm.waits with hp | hp | hp
    · rcases h with ⟨h1, h2⟩ | h
      · have hid := hm.idle hp
        have htk := hm.ticker hp
        simp only at htk
        rcases h2 with h2 | h2 | ⟨n, h2, _⟩
        · rcases h2 with h2 | h2
          · exact .inl ⟨by show t' ≤ _; omega, .inl (.inl h2)⟩
          · rw [hid.2.2] at h2; cases h2
        · rw [hp] at h2; rcases h2 with h2 | h2 <;> cases h2
        · rw [hp] at h2; cases h2
      · exact .inr h
    · exact absurd hp hp0
    · exact absurd hp hd
  | cancel => exact absurd rfl hsil.2
  | store => exact absurd rfl (hsil.1 _)
  | stamp | fire => exact h
  | tick hp hle =>
    rcases h with ⟨h1, h2⟩ | h
    · exact .inl ⟨h1, .inl (.inr (fire_next s.ticker (period_pos cfg) hle).2.2.2)⟩
    · exact .inr h
  | start hp => exact absurd hp hp0
  | init hp =>
    rcases h with ⟨h1, h2 | h2 | ⟨n, h2, _⟩⟩ | ⟨h1, h2⟩
    · exact .inl ⟨h1, .inl h2⟩
    · rw [hp] at h2; rcases h2 with h2 | h2 <;> cases h2
    · rw [hp] at h2; cases h2
    · right
      refine ⟨?_, rfl⟩
      show advanceLastSeen s.lastSeen ((advanceLastSeen s.lastSeen s.prev).or s.prev) = none
      rw [h1]; exact h1
  | return_ => exact absurd rfl hd
  | forget => exact absurd rfl hd
  | expiry hp =>
    rcases h with ⟨h1, _⟩ | ⟨h1, h2⟩
    · exact .inl ⟨h1, .inr (.inl (.inr rfl))⟩
    · exact .inr ⟨h1, rfl⟩
  | takeTick hp =>
    rcases h with ⟨h1, _⟩ | ⟨h1, h2⟩
    · exact .inl ⟨h1, .inr (.inl (.inl rfl))⟩
    · exact .inr ⟨h1, rfl⟩
  | renew hp ha | observe hp ha =>
    rcases h with ⟨h1, _⟩ | ⟨h1, h2⟩
    · exact .inl ⟨h1, .inr (.inr ⟨_, rfl, advance_eq ha⟩)⟩
    · rw [ha] at h1; cases h1
  | decide hp ha | nothing hp ha => exact .inr ⟨ha, rfl⟩
  | @update n bt hp =>
    rcases h with ⟨h1, h2 | h2 | ⟨m, h2, h3⟩⟩ | ⟨h1, h2⟩
    · exact .inl ⟨h1, .inl h2⟩
    · rw [hp] at h2; rcases h2 with h2 | h2 <;> cases h2
    · rw [hp] at h2; cases h2
      exact .inl ⟨h1, .inr (.inr ⟨n, by cases bt <;> rfl, h3⟩)⟩
    · rw [hp] at h2; cases h2
  | stopTrue hp | stopFalse hp | drain hp =>
    rcases h with ⟨h1, h2 | h2 | ⟨m, h2, h3⟩⟩ | ⟨h1, h2⟩
    · exact .inl ⟨h1, .inl h2⟩
    · rw [hp] at h2; rcases h2 with h2 | h2 <;> cases h2
    · rw [hp] at h2; cases h2
      exact .inl ⟨h1, .inr (.inr ⟨_, rfl, h3⟩)⟩
    · rw [hp] at h2; cases h2
  | noTimer hp | reset hp =>
    rcases h with ⟨h1, h2 | h2 | ⟨m, h2, h3⟩⟩ | ⟨h1, h2⟩
    · exact .inl ⟨h1, .inl h2⟩
    · rw [hp] at h2; rcases h2 with h2 | h2 <;> cases h2
    · rw [hp] at h2; cases h2
      right
      refine ⟨?_, rfl⟩
      simp only [h3]
      exact advance_self _
    · rw [hp] at h2; cases h2

/-- C97: once no more messages are handled (`s` is the state after the last one), the watch forgets its source no later than a Timeout after its next look at the activity, or after
GracePeriod+Timeout if that is later. -/
theorem C97_in_time {t t0 : Int} {s s' : Watch} {evs evs' : List WEv} (h : Watch.TRun cfg late (watchStart t) evs s) (h' : Watch.TRun cfg late s evs' s') (hT : 0 < cfg.timeout)
    (hlate : 0 ≤ late) (ht0 : .start t0 ∈ evs) (hc : s.cancelled = false) (hsil : Silent evs') :
    .forget ∈ evs ++ evs' ∨ s'.now ≤ max (s.now + cfg.period + late) (t0 + cfg.grace) + cfg.timeout + late := by
  have hr := trun_run h
  have hsp := (watch_start_once hr).1
  obtain ⟨hb1, hb2⟩ := timer_bound hr hT
  have hst : s.pc ≠ .spawned := fun hp => (hsp hp).1 t0 ht0
  have hPp := period_pos cfg
  generalize hX : max (s.now + cfg.period + late) (t0 + cfg.grace) + cfg.timeout = X
  suffices hk : s'.pc ≠ .spawned ∧ s'.cancelled = false ∧ (s'.pc ≠ .done → Settles cfg late s.now s' ∧ s'.now ≤ X + late ∧ ∀ x, s'.timer = .armed x ∨ s'.timer = .fired x → x ≤ X) by
    by_cases hd : s'.pc = .done
    · rcases done_forgot (watch_trans hr (trun_run h')) hd with hf | hf
      · exact .inl hf
      · rw [hk.2.1] at hf; cases hf
    · exact .inr (hk.2.2 hd).2.1
  induction h' with
  | nil =>
    refine ⟨hst, hc, fun _ => ⟨.inl ⟨by omega, .inl (.inl (hb2 hst))⟩, by omega, ?_⟩⟩
    intro x hx
    rcases hb1 x hx with hb | ⟨a, ha, hb⟩
    · omega
    · have := (watch_start_once hr).2.2.1 a t0 ha ht0
      omega
  | @snoc s1 s2 evs' ev hr' hs hm ih =>
    obtain ⟨i1, i2, i3⟩ := ih (fun e he => hsil e (by simp [he]))
    have hsil' := hsil ev (by simp)
    have hall := watch_trans hr (trun_run hr')
    have hok := wok_run hall
    have hsp2 : s2.pc ≠ .spawned := by
      cases hs with
      | time | cancel | stamp | store | fire | tick => exact i1
      | @update n bt hp => cases bt <;> simp
      | _ => simp
    have hc2 : s2.cancelled = false := by
      cases hs with
      | cancel => exact absurd rfl hsil'.2
      | _ => exact i2
    refine ⟨hsp2, hc2, fun hd => ?_⟩
    have hd1 : s1.pc ≠ .done := by
      intro hd1
      cases hs with
      | time | cancel | stamp | store | fire | tick => exact hd hd1
      | start hp | init hp | return_ hp | expiry hp | renew hp | decide hp | forget hp | takeTick hp | nothing hp | observe hp => rw [hd1] at hp; cases hp
      | update hp | noTimer hp | stopTrue hp | stopFalse hp | drain hp | reset hp => rw [hd1] at hp; cases hp
    obtain ⟨j1, j2, j3⟩ := i3 hd1
    refine ⟨settles_step j1 hs hm hsil' hd i1, ?_, ?_⟩
    · cases hs with
      | time t' hle =>
        have hm := hm rfl
        rcases hm.waits with hp | hp | hp
        · unfold WOk at hok
          rw [if_pos hT, hp] at hok
          obtain ⟨x, hx | hx⟩ := hok
          · have h1 := hm.timer x hx hp
            have h2 := j3 x (.inl hx)
            simp only at h1 ⊢
            omega
          · exact absurd hx ((hm.idle hp).2.1 x)
        · exact absurd hp i1
        · exact absurd hp hd1
      | _ => exact j2
    · cases hs with
      | time | cancel | stamp | store | tick | init | return_ | renew | decide | forget | takeTick | nothing | observe | update | noTimer | stopFalse => exact j3
      | fire hx =>
        intro x hx'
        rcases hx' with h | h
        · cases h
        · cases h; exact j3 _ (.inl hx)
      | start hp => exact absurd hp i1
      | expiry | stopTrue | drain => intro x hx; rcases hx with hx | hx <;> cases hx
      | reset hp =>
        intro x hx
        rcases hx with hx | hx
        · cases hx
          rcases j1 with ⟨h1, -⟩ | ⟨-, h2⟩
          · omega
          · rw [hp] at h2; cases h2
        · cases hx

/-- C97: the runs on such a machine have no end before the goroutine returns: it can go on, or its timer or ticker fires, or time may go on.  (So the bound of `C97_in_time` is not one of
runs that stop.) -/
theorem C97_goes_on {t : Int} {s : Watch} {evs : List WEv} (h : Watch.TRun cfg late (watchStart t) evs s) (hlate : 0 ≤ late) (hd : s.pc ≠ .done) :
    (∃ ev s', (isWatchStep ev = true ∨ ev = .return_ ∨ ev = .fire ∨ ev = .tick) ∧ Watch.Step cfg s ev s') ∨ s.MayPass late (s.now + 1) := by
  by_cases hsel : s.pc = .select
  · by_cases hc : s.cancelled = true
    · exact .inl ⟨_, _, .inr (.inl rfl), .return_ hsel hc⟩
    by_cases hpe : s.ticker.pending = true
    · exact .inl ⟨_, _, .inl rfl, .takeTick hsel hpe⟩
    by_cases hnx : s.ticker.next ≤ s.now
    · exact .inl ⟨_, _, .inr (.inr (.inr rfl)), .tick (by rw [hsel]; simp) hnx⟩
    rcases (by cases s.timer <;> simp : (∃ d, s.timer = .fired d) ∨ (∃ d, s.timer = .armed d) ∨ ∀ d, s.timer ≠ .fired d ∧ s.timer ≠ .armed d) with ⟨d, ht⟩ | ⟨d, ht⟩ | ht
    · exact .inl ⟨_, _, .inl rfl, .expiry hsel ht⟩
    · by_cases hdue : d ≤ s.now
      · exact .inl ⟨_, _, .inr (.inr (.inl rfl)), .fire ht hdue⟩
      · exact .inr ⟨.inl hsel, fun _ => ⟨by simpa using hc, fun x hx => (by rw [ht] at hx; cases hx), by simpa using hpe⟩,
          fun x hx _ => (by rw [ht] at hx; cases hx; omega), fun _ => by omega⟩
    · exact .inr ⟨.inl hsel, fun _ => ⟨by simpa using hc, fun x => (ht x).1, by simpa using hpe⟩, fun x hx => absurd hx (ht x).2, fun _ => by omega⟩
  · obtain ⟨ev, s', h1, h2⟩ := C53_goes_on (trun_run h) hd hsel
    exact .inl ⟨ev, s', .inl h1, h2⟩

theorem mayPass_armed {s : Watch} {t d : Int} (h1 : s.pc = .select) (h2 : s.cancelled = false) (h3 : s.timer = .armed d) (h4 : s.ticker.pending = false) (h5 : t ≤ d + late)
    (h6 : t ≤ s.ticker.next + late) : s.MayPass late t :=
  ⟨.inl h1, fun _ => ⟨h2, fun x hx => (by rw [h3] at hx; cases hx), h4⟩, fun x hx _ => (by rw [h3] at hx; cases hx; exact h5), fun _ => h6⟩

theorem plain_step {s s' s'' : Watch} {evs : List WEv} {ev : WEv} (h : Watch.TRun cfg late s evs s') (hs : Watch.Step cfg s' ev s'') (he : ev ≠ .time) :
    Watch.TRun cfg late s (evs ++ [ev]) s'' := h.snoc hs fun h => absurd h he

/-- C97: the Timeout is 3, the ticker's period 2, nothing is late. -/
def quietCfg : WatchCfg := { timeout := 3, interval := 2 }

/-- C97: the watch starts at 0 and the last message comes at 1; the tick at 2 sets the timer to 5, when the source is forgotten (the bound is 1 + 2 + 3). -/
example : ∃ s s' : Watch, ∃ evs : List WEv, Watch.TRun quietCfg 0 (watchStart 0) [.start 0, .init 0, .time, .stamp 1, .store 1] s ∧ Watch.TRun quietCfg 0 s evs s' ∧ Silent evs ∧
    .forget ∈ evs ∧ s.now = 1 ∧ s'.now = 5 := by
  have r : Watch.TRun quietCfg 0 (watchStart 0) [] _ := .nil
  have r := plain_step r (.start rfl) (by simp)
  have r := plain_step r (.init rfl) (by simp)
  have r := r.snoc (.time 1 (by decide)) fun _ => mayPass_armed (d := 3) rfl rfl rfl rfl (by decide) (by decide)
  have r := plain_step r (.stamp (by decide)) (by simp)
  have r := plain_step r (.store [] [] 1 rfl) (by simp)
  have q : Watch.TRun quietCfg 0 ({ now := 1, lastSeen := some 1, timer := .armed 3, ticker := ⟨2, false⟩, pc := .select } : Watch) [] _ := .nil
  have q := q.snoc (.time 2 (by decide)) fun _ => mayPass_armed (d := 3) rfl rfl rfl rfl (by decide) (by decide)
  have q := plain_step q (.tick (by simp) (by decide)) (by simp)
  have q := plain_step q (.takeTick rfl rfl) (by simp)
  have q := plain_step q (.observe (next := 1) rfl rfl) (by simp)
  have q := plain_step q (.update rfl) (by simp)
  have q := plain_step q (.stopTrue (d := 3) rfl rfl) (by simp)
  have q := plain_step q (.reset rfl) (by simp)
  have q := q.snoc (.time 4 (by decide)) fun _ => mayPass_armed (d := 5) rfl rfl rfl rfl (by decide) (by decide)
  have q := plain_step q (.tick (by simp) (by decide)) (by simp)
  have q := plain_step q (.takeTick rfl rfl) (by simp)
  have q := plain_step q (.nothing rfl rfl) (by simp)
  have q := q.snoc (.time 5 (by decide)) fun _ => mayPass_armed (d := 5) rfl rfl rfl rfl (by decide) (by decide)
  have q := plain_step q (.fire (d := 5) rfl (by decide)) (by simp)
  have q := plain_step q (.expiry (d := 5) rfl rfl) (by simp)
  have q := plain_step q (.decide rfl rfl) (by simp)
  have q := plain_step q (.forget rfl) (by simp)
  exact ⟨_, _, _, r, q, by intro e he; simp at he; rcases he with h | h | h | h | h | h | h | h | h | h | h | h | h | h | h | h <;> subst h <;> simp, by simp, rfl, rfl⟩

end Verif.Props
