import Verif.Spec.Coalesce
import Verif.Props.Manager

/-!
# C87: flush requests are coalesced; none is invented and none is counted twice
-/
namespace Verif.Props
open Verif Verif.Model Verif.Spec

/-- The requests taken from the queue for which no flush has begun yet. -/
private def InHand (k : Nat) : ServePC → Prop
  | .draining n => k = n + 1 ∧ n < 2048
  | .flushStart => 1 ≤ k ∧ k ≤ 2049
  | .stopped | .crashed => k ≤ 2049
  | _ => k = 0

private theorem coalesce_count {cfg : MgrConfig} {s0 s : Mgr} {evs : List MgrEv} (h0 : Fresh s0) (h : RoomyRun cfg s0 evs s) :
    ∃ k m, InHand k s.pc ∧ evs.countP isRequest = s.flushQueue + m + k ∧ evs.countP isFlushBegin ≤ m ∧ m ≤ 2049 * evs.countP isFlushBegin := by
  obtain ⟨_, hq, _, hp, _⟩ := h0
  induction h with
  | nil => exact ⟨0, 0, by simp [InHand, hp], by simp [hq], by simp, by simp⟩
  | @snoc s s' evs ev hr hroom hs ih =>
    obtain ⟨k, m, hk, h1, h2, h3⟩ := ih
    simp only [List.countP_append, List.countP_singleton]
    cases hs with
    | flushReceived =>
      have : s.flushQueue < flushQueueCap := hroom rfl
      exact ⟨k, m, hk, by simp only [isRequest, if_pos this]; simp; omega, by simpa [isFlushBegin] using h2, by simpa [isFlushBegin] using h3⟩
    | receiveError =>
      have : s.flushQueue < flushQueueCap := hroom rfl
      exact ⟨k, m, hk, by simp only [isRequest, if_pos this]; simp; omega, by simpa [isFlushBegin] using h2, by simpa [isFlushBegin] using h3⟩
    | takeFlush hpc hpos =>
      rw [hpc] at hk
      have hk : k = 0 := hk
      subst hk
      refine ⟨1, m, ?_, by simp [isRequest]; omega, by simpa [isFlushBegin] using h2, by simpa [isFlushBegin] using h3⟩
      simp only []
      split
      · exact ⟨rfl, by omega⟩
      · exact ⟨by omega, by omega⟩
    | @drain n hpc hpos =>
      rw [hpc] at hk
      obtain ⟨rfl, hn⟩ := hk
      refine ⟨n + 2, m, ?_, by simp [isRequest]; omega, by simpa [isFlushBegin] using h2, by simpa [isFlushBegin] using h3⟩
      show InHand (n + 2) (if n + 1 = drainMax then (if s.cancelled then .stopped else .flushStart) else .draining (n + 1))
      by_cases hd : n + 1 = drainMax
      · rw [if_pos hd]
        have : n + 1 = 2048 := hd
        cases s.cancelled <;> simp [InHand] <;> omega
      · rw [if_neg hd]
        have : n + 1 ≠ 2048 := hd
        exact ⟨rfl, by omega⟩
    | @drainTimeout n hpc =>
      rw [hpc] at hk
      obtain ⟨rfl, hn⟩ := hk
      refine ⟨n + 1, m, ?_, by simp [isRequest]; omega, by simpa [isFlushBegin] using h2, by simpa [isFlushBegin] using h3⟩
      simp only []
      split
      · simp only [InHand]; omega
      · simp only [InHand]; omega
    | flushBegin hpc =>
      rw [hpc] at hk
      obtain ⟨hk1, hk2⟩ := hk
      exact ⟨0, m + k, rfl, by simp [isRequest]; omega, by simp [isFlushBegin]; omega, by simp [isFlushBegin]; omega⟩
    | sendPanic hq' he =>
      refine ⟨k, m, ?_, by simpa [isRequest] using h1, by simpa [isFlushBegin] using h2, by simpa [isFlushBegin] using h3⟩
      revert hk
      cases s.pc <;> simp only [InHand] <;> omega
    | publish u hl => exact ⟨k, m, hk, by simpa [isRequest] using h1, by simpa [isFlushBegin] using h2, by simpa [isFlushBegin] using h3⟩
    | storeOp i op => exact ⟨k, m, hk, by simpa [isRequest] using h1, by simpa [isFlushBegin] using h2, by simpa [isFlushBegin] using h3⟩
    | cancel => exact ⟨k, m, hk, by simpa [isRequest] using h1, by simpa [isFlushBegin] using h2, by simpa [isFlushBegin] using h3⟩
    | send => exact ⟨k, m, hk, by simpa [isRequest] using h1, by simpa [isFlushBegin] using h2, by simpa [isFlushBegin] using h3⟩
    | skip => exact ⟨k, m, hk, by simpa [isRequest] using h1, by simpa [isFlushBegin] using h2, by simpa [isFlushBegin] using h3⟩
    | takeMsg | sndStop | sendFail => exact ⟨k, m, hk, by simpa [isRequest] using h1, by simpa [isFlushBegin] using h2, by simpa [isFlushBegin] using h3⟩
    | pageError nonce hpc he => exact ⟨k, m, hk, by simpa [isRequest] using h1, by simpa [isFlushBegin] using h2, by simpa [isFlushBegin] using h3⟩
    | stop hpc | take hpc | buffer hpc | bufferTimeout hpc | diff hpc | diffPanic hpc | queueUpdate hpc | stopUpdate hpc | flushEnd hpc | page nonce hpc | pagePanic nonce hpc | queueFlush hpc
    | stopFlush hpc =>
      rw [hpc] at hk
      have hk : k = 0 := hk
      refine ⟨k, m, ?_, by simpa [isRequest] using h1, by simpa [isFlushBegin] using h2, by simpa [isFlushBegin] using h3⟩
      subst hk
      simp only []
      repeat' split
      all_goals simp [InHand]

/-- C87: when no request finds the queue full, every flush is for at least one request of its own, and each request is for one flush: it waits
in the queue, or is in hand (at most 2049), or belongs to exactly one of the flushes begun, to each of which at most 2049 belong. -/
theorem C87_coalesced {cfg : MgrConfig} {s0 s : Mgr} {evs : List MgrEv} (h0 : Fresh s0) (h : RoomyRun cfg s0 evs s) :
    s.flushQueue + evs.countP isFlushBegin ≤ evs.countP isRequest ∧
      evs.countP isRequest ≤ s.flushQueue + 2049 * (evs.countP isFlushBegin + 1) := by
  obtain ⟨k, m, hk, h1, h2, h3⟩ := coalesce_count h0 h
  have : k ≤ 2049 := by
    revert hk
    cases s.pc <;> simp only [InHand] <;> omega
  omega

/-- C87: idle again, with nothing waiting, all requests have been served, each flush having served at most 2049 of them. -/
theorem C87_all_served {cfg : MgrConfig} {s0 s : Mgr} {evs : List MgrEv} (h0 : Fresh s0) (h : RoomyRun cfg s0 evs s) (hi : s.pc = .idle) (hq : s.flushQueue = 0) :
    evs.countP isFlushBegin ≤ evs.countP isRequest ∧ evs.countP isRequest ≤ 2049 * evs.countP isFlushBegin := by
  obtain ⟨k, m, hk, h1, h2, h3⟩ := coalesce_count h0 h
  rw [hi] at hk
  have hk : k = 0 := hk
  omega

private def InHand1 (k : Nat) : ServePC → Prop
  | .draining _ => False
  | .flushStart => k = 1
  | .stopped | .crashed => True
  | _ => k = 0

/-- C87: with no FlushDelay nothing is coalesced: there is one flush for each request. -/
theorem C87_no_delay {cfg : MgrConfig} (hd : cfg.flushDelay ≤ 0) {s0 s : Mgr} {evs : List MgrEv} (h0 : Fresh s0) (h : RoomyRun cfg s0 evs s) (hi : s.pc = .idle)
    (hq : s.flushQueue = 0) : evs.countP isFlushBegin = evs.countP isRequest := by
  have key : ∃ k, evs.countP isRequest = s.flushQueue + evs.countP isFlushBegin + k ∧ InHand1 k s.pc := by
    clear hi hq
    obtain ⟨_, hq, _, hp, _⟩ := h0
    induction h with
    | nil => exact ⟨0, by simp [hq], by simp [hp, InHand1]⟩
    | @snoc s s' evs ev hr hroom hs ih =>
      obtain ⟨k, h1, hk⟩ := ih
      simp only [List.countP_append, List.countP_singleton]
      cases hs with
      | flushReceived =>
        have : s.flushQueue < flushQueueCap := hroom rfl
        exact ⟨k, by simp only [isRequest, isFlushBegin, if_pos this]; simp; omega, hk⟩
      | receiveError =>
        have : s.flushQueue < flushQueueCap := hroom rfl
        exact ⟨k, by simp only [isRequest, isFlushBegin, if_pos this]; simp; omega, hk⟩
      | takeFlush hpc hpos =>
        rw [hpc] at hk
        have hk : k = 0 := hk
        refine ⟨1, by simp [isRequest, isFlushBegin]; omega, ?_⟩
        simp only []
        rw [if_neg (by omega)]
        rfl
      | drain hpc => rw [hpc] at hk; exact hk.elim
      | drainTimeout hpc => rw [hpc] at hk; exact hk.elim
      | flushBegin hpc =>
        rw [hpc] at hk
        have hk : k = 1 := hk
        exact ⟨0, by simp [isRequest, isFlushBegin]; omega, rfl⟩
      | sendPanic => exact ⟨k, by simpa [isRequest, isFlushBegin] using h1, trivial⟩
      | publish | storeOp | cancel | takeMsg | sndStop | send | skip | sendFail | pageError => exact ⟨k, by simpa [isRequest, isFlushBegin] using h1, hk⟩
      | stop hpc | take hpc | buffer hpc | bufferTimeout hpc | diff hpc | diffPanic hpc | queueUpdate hpc | stopUpdate hpc | flushEnd hpc | page nonce hpc | pagePanic nonce hpc | queueFlush hpc
      | stopFlush hpc =>
        rw [hpc] at hk
        have hk : k = 0 := hk
        refine ⟨k, by simpa [isRequest, isFlushBegin] using h1, ?_⟩
        subst hk
        simp only []
        repeat' split
        all_goals simp [InHand1]
  obtain ⟨k, h1, hk⟩ := key
  rw [hi] at hk
  have hk : k = 0 := hk
  omega

/-- C87: the draining of further requests ends only with the delay, or when 2048 have been drained; every waiting one can be drained until then. -/
theorem C87_drains {cfg : MgrConfig} {s : Mgr} {n : Nat} (hpc : s.pc = .draining n) (hn : n + 1 < 2048) (hq : 0 < s.flushQueue) :
    ∃ s', Mgr.Step cfg s .tau s' ∧ s'.pc = .draining (n + 1) ∧ s'.flushQueue + 1 = s.flushQueue := by
  refine ⟨_, .drain hpc hq, ?_, by simp only []; omega⟩
  have : ¬ n + 1 = drainMax := by simp only [drainMax]; omega
  simp only [if_neg this]

/-! ## Instances -/

/-- Three requests within the delay, one flush; the hypotheses of the theorems are met. -/
example : ∃ evs s, RoomyRun { flushDelay := 1, numStores := 0 } { stores := fun _ => after vanOps exCfg [] } evs s ∧ Fresh { stores := fun _ => after vanOps exCfg [] } ∧ s.pc = .idle ∧ s.flushQueue = 0 ∧
    evs.countP isRequest = 3 ∧ evs.countP isFlushBegin = 1 := by
  have r0 : RoomyRun { flushDelay := 1, numStores := 0 } { stores := fun _ => after vanOps exCfg [] } _ _ := .nil
  have r1 := r0.snoc (by decide) .flushReceived
  have r2 := r1.snoc (by decide) (.takeFlush rfl (by decide))
  have r3 := r2.snoc (by decide) .flushReceived
  have r4 := r3.snoc (by decide) .receiveError
  have r5 := r4.snoc (by decide) (.drain rfl (by decide))
  have r6 := r5.snoc (by decide) (.drain rfl (by decide))
  have r7 := r6.snoc (by decide) (.drainTimeout rfl)
  have r8 := r7.snoc (by decide) (.flushBegin rfl)
  have r9 := r8.snoc (by decide) (.flushEnd rfl)
  exact ⟨_, _, r9, ⟨rfl, rfl, rfl, rfl, rfl, rfl⟩, rfl, rfl, rfl, rfl⟩

end Verif.Props
