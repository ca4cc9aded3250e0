import Verif.Props.Stop
import Verif.Props.Flush

/-!
# C101: publishers are held back, and only while the manager is behind
-/
namespace Verif.Props
open Verif Verif.Model Verif.Spec

/-- What the manager can hold. -/
structure Bounded (s : Mgr) : Prop where
  updates : s.changeQueue.length ≤ 256
  flushes : s.flushQueue ≤ 8
  /-- the channel; the message in the hands of the sender is the first of `sendQueue` -/
  channel : (if s.snd = .busy then s.sendQueue.tail else s.sendQueue).length ≤ 256
  hands : s.snd = .busy → s.sendQueue ≠ []

theorem sendRoom_iff {s : Mgr} (h : s.snd = .busy → s.sendQueue ≠ []) :
    s.SendRoom ↔ (if s.snd = .busy then s.sendQueue.tail else s.sendQueue).length < 256 := by
  unfold Mgr.SendRoom sendQueueCap
  by_cases hb : s.snd = .busy
  · rw [if_pos hb, if_pos hb]
    cases hq : s.sendQueue with
    | nil => exact absurd hq (h hb)
    | cons a l => simp only [List.length_cons, List.tail_cons]; omega
  · rw [if_neg hb, if_neg hb]

theorem bounded_step {cfg : MgrConfig} {s s' : Mgr} {ev : MgrEv} (hb : Bounded s) (hs : Mgr.Step cfg s ev s') : Bounded s' := by
  obtain ⟨h1, h2, h3, h4⟩ := hb
  have hroom := sendRoom_iff h4
  cases hs with
  | publish u hcap => exact ⟨by simp only [changeQueueCap] at hcap; simp; omega, h2, h3, h4⟩
  | flushReceived | receiveError => refine ⟨h1, ?_, h3, h4⟩; show (if s.flushQueue < 8 then s.flushQueue + 1 else s.flushQueue) ≤ 8; by_cases h : s.flushQueue < 8 <;> simp only [h, if_true, if_false] <;> omega
  | take _ hq | buffer _ hq => rw [hq, List.length_cons] at h1; exact ⟨by simp only; omega, h2, h3, h4⟩
  | takeFlush | drain => exact ⟨h1, by simp only; omega, h3, h4⟩
  | queueUpdate _ hr | queueFlush _ hr =>
    have hl := hroom.1 hr
    refine ⟨h1, h2, ?_, by simp⟩
    by_cases hb : s.snd = .busy
    · rw [if_pos hb] at hl
      simp only [if_pos hb]
      rw [List.tail_append_of_ne_nil (h4 hb), List.length_append, List.length_singleton]
      omega
    · rw [if_neg hb] at hl
      simp only [if_neg hb]
      rw [List.length_append, List.length_singleton]
      omega
  | takeMsg hw hq =>
    rw [if_neg (by rw [hw]; simp)] at h3
    exact ⟨h1, h2, by simp; omega, fun _ => hq⟩
  | sndStop hw =>
    rw [if_neg (by rw [hw]; simp)] at h3
    exact ⟨h1, h2, by simpa using h3, by simp⟩
  | send hq _ hb | skip hq _ hb | sendFail hq _ hb | sendPanic hq _ hb =>
    rw [if_pos hb, hq] at h3
    exact ⟨h1, h2, by simpa using h3, by simp⟩
  | _ => exact ⟨h1, h2, h3, h4⟩

/-- **C101 (bounds).** However fast updates and flush requests come and however slow the sender is: at most 256 updates, 8 flush requests and 256 messages wait, besides the message
being sent and the batch that `serve` is at. -/
theorem C101_bounds {cfg : MgrConfig} {s0 s : Mgr} {evs : List MgrEv} (h0 : Fresh s0) (h : Mgr.Run cfg s0 evs s) : Bounded s := by
  induction h with
  | nil => obtain ⟨a, b, c, _, _, f⟩ := h0; exact ⟨by simp [a], by simp [b], by simp [c, f], by simp [f]⟩
  | snoc _ hs ih => exact bounded_step ih hs

/-- **C101 (waits exactly while the queue is full).** A publication gets through unless 256 updates wait; then it is put behind them. -/
theorem C101_waits_iff {cfg : MgrConfig} {s : Mgr} (u : RecordUpdate) :
    ((∃ s', Mgr.Step cfg s (.publish u) s') ↔ s.changeQueue.length < 256) ∧
    ∀ s', Mgr.Step cfg s (.publish u) s' → s'.changeQueue = s.changeQueue ++ [u] ∧ s'.sendQueue = s.sendQueue ∧ s'.pc = s.pc := by
  refine ⟨⟨fun ⟨s', h⟩ => ?_, fun h => ⟨_, .publish u h⟩⟩, fun s' h => ?_⟩
  · cases h with | publish _ hcap => exact hcap
  · cases h; exact ⟨rfl, rfl, rfl⟩

/-- **C101, what holds of getting through.** While no goroutine of the manager has stopped or crashed, its stores are in good order and sends end (with or without success), the manager left to
itself takes a number of steps that is bounded beforehand, whatever the schedule, and a publication that still waits then can go on: the queue is empty.  Missing for C101: the manager
is stopped (false, `C101_stopped_counterexample`). -/
theorem C101_gets_through_partial {cfg : MgrConfig} {m : Nat → AMap (GoRec GoTime)} {ks : Nat → List String} {s s' : Mgr} {quiet : List MgrEv}
    (hok : ∀ i < cfg.numStores, StoreOK (s.stores i) (m i) (ks i)) (ht : PcTok s.pc) (hq : PcQueue cfg.numStores s.pc) (hr : Mgr.Run cfg s quiet s')
    (hquiet : ∀ ev ∈ quiet, Internal ev) :
    quiet.length ≤ workLeft cfg.numStores (fun i => (ks i).length) s ∧
    (s'.pc ≠ .stopped ∧ s'.pc ≠ .crashed ∧ s'.snd ≠ .done →
      (∃ ev s'', Internal ev ∧ Mgr.Step cfg s' ev s'') ∨ (s'.changeQueue = [] ∧ ∀ u, ∃ s'', Mgr.Step cfg s' (.publish u) s'')) := by
  obtain ⟨h1, h2, h3, h4, h5⟩ := C39_bounded hok ht hq hr hquiet
  refine ⟨by omega, fun hpc => ?_⟩
  by_cases hno : ∃ ev s'', Internal ev ∧ Mgr.Step cfg s' ev s''
  · exact .inl hno
  · obtain ⟨_, _, q3, _⟩ := C39_quiescent (by rw [h4]; exact hok) h2 h3 hpc (fun ev s'' hi hs => hno ⟨ev, s'', hi, hs⟩)
    exact .inr ⟨q3, fun u => (C101_waits_iff u).1.2 (by rw [q3]; decide)⟩

/-- **C101 (after the end).** When `serve` has ended (stopped or crashed), no more than 256 publications get through, ever, those that waited in the queue at the end included: the
publishers after them wait for good.  (`PublishUpdate` does not know the context.) -/
theorem C101_after_the_end {cfg : MgrConfig} {s s' : Mgr} {evs : List MgrEv} (hb : Bounded s) (hp : Ended s.pc) (h : Mgr.Run cfg s evs s') :
    s.changeQueue.length + (published evs).length ≤ 256 := by
  have h1 := (C99_for_good h hp).2.2.1
  have h2 : Bounded s' := by
    clear h1
    induction h with
    | nil => exact hb
    | snoc _ hs ih => exact bounded_step ih hs
  have := h2.updates
  rw [h1, List.length_append] at this
  exact this

theorem publish_many {cfg : MgrConfig} (u : RecordUpdate) : ∀ (n : Nat) {s0 s : Mgr} {evs : List MgrEv}, Mgr.Run cfg s0 evs s → s.changeQueue = [] → n ≤ 256 →
    ∃ evs' s', Mgr.Run cfg s0 (evs ++ evs') s' ∧ (∀ ev ∈ evs', ev = .publish u) ∧ s'.changeQueue.length = n ∧ s'.pc = s.pc ∧ s'.cancelled = s.cancelled
  | 0, _, s, _, hr, hq, _ => ⟨[], s, by simpa using hr, by simp, by simp [hq], rfl, rfl⟩
  | n + 1, _, s, evs, hr, hq, hn => by
    obtain ⟨evs', s', h1, h2, h3, h4, h5⟩ := publish_many u n hr hq (by omega)
    have h6 := h1.snoc (.publish u (by rw [h3]; exact hn))
    rw [List.append_assoc] at h6
    refine ⟨evs' ++ [.publish u], { s' with changeQueue := s'.changeQueue ++ [u] }, h6, ?_, by simp [h3], h4, h5⟩
    intro ev he
    rcases List.mem_append.1 he with he | he
    · exact h2 ev he
    · simpa using he

/-- C101 is false when the manager stops: after the context has ended and `serve` has returned, 256 updates fill the queue; a further publication waits for ever. -/
theorem C101_stopped_counterexample : ∃ evs s, Mgr.Run {} { stores := fun _ => after vanOps exCfg [] } evs s ∧ s.pc = .stopped ∧
    ∀ evs' s', Mgr.Run {} s evs' s' → ∀ u s'', ¬ Mgr.Step {} s' (.publish u) s'' := by
  have r1 := Mgr.Run.nil (cfg := {}) (s := { stores := fun _ => after vanOps exCfg [] })
  have r2 := r1.snoc .cancel
  have r3 := r2.snoc (.stop rfl rfl)
  have h0 : Fresh { stores := fun _ => after vanOps exCfg [] } := ⟨rfl, rfl, rfl, rfl, rfl, rfl⟩
  obtain ⟨evs', s, h1, _, h3, h4, _⟩ := publish_many { curr := hostRec "h1" "x" } 256 r3 rfl (Nat.le_refl _)
  have hend : Ended s.pc := by rw [h4]; trivial
  refine ⟨_, s, h1, h4, fun evs2 s' hr u s'' hs => ?_⟩
  have := C101_after_the_end (C101_bounds h0 h1) hend (hr.snoc hs)
  rw [h3, show published (evs2 ++ [MgrEv.publish u]) = published evs2 ++ [u] by simp [published, List.filterMap_append], List.length_append, List.length_singleton] at this
  omega

/-- Instance of `C101_gets_through_partial`: 256 updates wait, the next publication has to wait, and the premises hold. -/
example : ∃ evs s, Mgr.Run {} { stores := fun _ => after vanOps exCfg [] } evs s ∧ s.changeQueue.length = 256 ∧ PcTok s.pc ∧ PcQueue 0 s.pc ∧ s.pc = .idle ∧
    ∀ u s', ¬ Mgr.Step {} s (.publish u) s' := by
  obtain ⟨evs', s, h1, _, h3, h4, _⟩ :=
    publish_many { curr := hostRec "h1" "x" } 256 (Mgr.Run.nil (cfg := {}) (s := { stores := fun _ => after vanOps exCfg [] })) rfl (Nat.le_refl _)
  refine ⟨_, s, h1, h3, by rw [h4]; trivial, by rw [h4]; trivial, h4, fun u s' hs => ?_⟩
  have := (C101_waits_iff u).1.1 ⟨s', hs⟩
  omega

end Verif.Props
