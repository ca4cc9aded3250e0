import Verif.Model.StoreThreads
import Verif.Props.Accumulate

/-!
# Store property C33: events under concurrency
-/
namespace Verif.Props
open Verif Verif.Model Verif.Spec Verif.Proofs

variable {R : Type} [Inhabited R]

/-- The entry an event describes as stored now; none for a deletion. -/
def Event.now : Event R → Option (Entry R)
  | .add e => some e
  | .change _ e => some e
  | .delete _ => none

/-- Is the event about key `k`? -/
def Event.about (kf : KeyFunc R) (k : String) : Event R → Prop
  | .add e => kf e = .ok k
  | .change _ e => kf e = .ok k
  | .delete e => kf e = .ok k

/-- C33 is false: two goroutines update one entry; both calls have returned, yet the last event is of the older write. -/
theorem C33_counterexample :
    ∃ (cfg : CacheConfig (GoRec GoTime)) (s : Threads (GoRec GoTime)), Threads.Reach vanOps cfg s ∧ (∀ t, s.pending t = []) ∧
      ∃ ev, s.delivered.getLast? = some ev ∧ Event.about (keyOf vanOps cfg) "h1" ev.2 ∧
        content vanOps cfg (s.hist.map fun p => p.2.1) "h1" = some ((hostEntry "h1" "new" "r1").stamp t1) ∧
        Event.now ev.2 = some ((hostEntry "h1" "old" "r1").stamp t0) := by
  let cfg : CacheConfig (GoRec GoTime) := { handlers := ⟨true, true, true⟩ }
  have h0 : Threads.Reach vanOps cfg _ := .init
  have h1 := h0.step (.call 1 (.update (hostEntry "h1" "old" "r1") none t0) rfl)
  have h2 := h1.step (.call 2 (.update (hostEntry "h1" "new" "r1") none t1) rfl)
  have h3 := h2.step (.deliver 2 rfl)
  have h4 := h3.step (.deliver 1 rfl)
  refine ⟨cfg, _, h4, ?_, _, rfl, rfl, rfl, rfl⟩
  intro t
  by_cases ht : t = 1
  · simp [ht]
  · by_cases ht2 : t = 2
    · simp [ht2]
    · simp [ht, ht2]

/-- Is the event about the entry "h1"? -/
def eventAboutH1 : Event (GoRec GoTime) → Bool
  | .add e => vanIdentity e.record == .ok "h1"
  | .change _ e => vanIdentity e.record == .ok "h1"
  | .delete e => vanIdentity e.record == .ok "h1"

/-- The calls of goroutine `t`. -/
def callsOf (t : Nat) (h : List (Nat × Op R × Out R Unit)) : List (Op R × Out R Unit) := (h.filter fun p => p.1 = t).map fun p => p.2

/-- The events delivered by goroutine `t`. -/
def deliveredBy (t : Nat) (d : List (Nat × Event R)) : List (Event R) := (d.filter fun p => p.1 = t).map fun p => p.2

/-- C33, what holds of every concurrent execution: the calls take effect one after the other (the state and all outcomes are those of a
sequential history, so everything proved of sequential histories applies); each goroutine delivers exactly the events of its own calls, in
order.  Missing for C33: the order of events of different goroutines (false, `C33_counterexample`). -/
theorem C33_linearizable_partial {ops : RecOps R} {cfg : CacheConfig R} {s : Threads R} (h : Threads.Reach ops cfg s) :
    s.cache = after ops cfg (s.hist.map fun p => p.2.1) ∧
    s.hist.map (fun p => p.2) = historyOf ops cfg (s.hist.map fun p => p.2.1) ∧
    ∀ t, deliveredBy t s.delivered ++ s.pending t = eventsOf (callsOf t s.hist) := by
  induction h with
  | init => exact ⟨rfl, rfl, fun t => rfl⟩
  | @step s s' _ hs ih =>
    obtain ⟨ih1, ih2, ih3⟩ := ih
    cases hs with
    | call t op hp =>
      refine ⟨?_, ?_, ?_⟩
      · simp only [List.map_append, List.map_cons, List.map_nil, after]
        rw [(run_append ops _ _ _).1, ih1]
        rfl
      · simp only [List.map_append, List.map_cons, List.map_nil, historyOf]
        rw [(run_append ops _ _ _).2, ih2, ih1]
        rfl
      · intro u
        have := ih3 u
        by_cases hu : u = t
        · subst hu
          rw [hp, List.append_nil] at this
          simp [callsOf, eventsOf, this] at this ⊢
        · have hu' : ¬ t = u := fun h => hu h.symm
          simp only [hu, if_false, this]
          simp [callsOf, hu']
    | @deliver t ev rest hp =>
      refine ⟨ih1, ih2, ?_⟩
      intro u
      have := ih3 u
      by_cases hu : u = t
      · subst hu
        rw [hp] at this
        simp only [if_true, ← this]
        simp [deliveredBy]
      · have hu' : ¬ t = u := fun h => hu h.symm
        simp only [hu, if_false, ← this]
        simp [deliveredBy, hu']

/-- C33 for a key written by one goroutine only: once that goroutine has returned from its calls, the events about the key have been
delivered exactly, and in write order. -/
theorem C33_single_writer_partial {ops : RecOps R} {cfg : CacheConfig R} {s : Threads R} (h : Threads.Reach ops cfg s) (P : Event R → Prop)
    [DecidablePred P] (t : Nat) (hone : ∀ p ∈ s.hist, ∀ ev ∈ p.2.2.events, P ev → p.1 = t) (hq : s.pending t = []) :
    (s.delivered.map fun p => p.2).filter P = (eventsOf (historyOf ops cfg (s.hist.map fun p => p.2.1))).filter P := by
  obtain ⟨_, h2, h3⟩ := C33_linearizable_partial h
  rw [← h2]
  have hall : ∀ u, ∀ ev ∈ deliveredBy u s.delivered, P ev → u = t := by
    intro u ev hev hP
    have : ev ∈ eventsOf (callsOf u s.hist) := by rw [← h3 u]; exact List.mem_append_left _ hev
    obtain ⟨c, hc, hce⟩ := List.mem_flatMap.1 this
    obtain ⟨p, hp, rfl⟩ := List.mem_map.1 hc
    obtain ⟨hp1, hp2⟩ := List.mem_filter.1 hp
    have := hone p hp1 ev hce hP
    simp at hp2
    omega
  have hd : (s.delivered.map fun p => p.2).filter P = (deliveredBy t s.delivered).filter P := by
    unfold deliveredBy
    have hmem : ∀ p ∈ s.delivered, P p.2 → p.1 = t := by
      intro p hp hP
      exact hall p.1 p.2 (List.mem_map.2 ⟨p, List.mem_filter.2 ⟨hp, by simp⟩, rfl⟩) hP
    generalize s.delivered = d at hmem
    induction d with
    | nil => rfl
    | cons p d ih =>
      have ih := ih fun q hq => hmem q (List.mem_cons_of_mem _ hq)
      by_cases hP : P p.2
      · have := hmem p List.mem_cons_self hP
        simp [hP, this, ih]
      · by_cases ht : p.1 = t
        · simp [hP, ht, ih]
        · simp [hP, ht, ih]
  rw [hd]
  have h3t := h3 t
  rw [hq, List.append_nil] at h3t
  rw [h3t]
  unfold callsOf eventsOf
  generalize s.hist = hh at hone
  induction hh with
  | nil => rfl
  | cons p hh ih =>
    have ih := ih fun q hq => hone q (List.mem_cons_of_mem _ hq)
    by_cases ht : p.1 = t
    · simp only [List.filter_cons, ht, decide_true, if_true, List.map_cons, List.flatMap_cons, List.filter_append, ih]
    · simp only [List.filter_cons, ht, decide_false, List.map_cons, List.flatMap_cons, List.filter_append]
      have : List.filter P p.2.2.events = [] := by
        rw [List.filter_eq_nil_iff]
        intro ev hev hP
        exact ht (hone p List.mem_cons_self ev hev (by simpa using hP))
      rw [this]
      simpa using ih

/-- Instance: goroutine 1 writes "h1" twice while goroutine 2 writes "h2"; the events about "h1" are delivered in order although goroutine 2
has not delivered its own. -/
example : ∃ s : Threads (GoRec GoTime), Threads.Reach vanOps exCfg s ∧ s.pending 1 = [] ∧ s.pending 2 ≠ [] ∧
    (∀ p ∈ s.hist, ∀ ev ∈ p.2.2.events, eventAboutH1 ev = true → p.1 = 1) ∧
    (s.delivered.map fun p => p.2).filter (fun ev => eventAboutH1 ev) =
      [.add ((hostEntry "h1" "old" "r1").stamp t0), .change ((hostEntry "h1" "old" "r1").stamp t0) ((hostEntry "h1" "new" "r1").stamp t1)] := by
  have h0 : Threads.Reach vanOps exCfg _ := .init
  have h1 := h0.step (.call 1 (.update (hostEntry "h1" "old" "r1") none t0) rfl)
  have h2 := h1.step (.call 2 (.update (hostEntry "h2" "other" "r1") none t0) rfl)
  have h3 := h2.step (.deliver 1 rfl)
  have h4 := h3.step (.call 1 (.update (hostEntry "h1" "new" "r1") none t1) rfl)
  have h5 := h4.step (.deliver 1 rfl)
  refine ⟨_, h5, rfl, ?_, ?_, rfl⟩
  · intro h
    have : (2 : Nat) ≠ 1 := by decide
    simp only [this, if_false, if_true] at h
    exact absurd h (by rw [show ((newCache vanOps exCfg).step vanOps (.update (hostEntry "h1" "old" "r1") none t0)).1.step vanOps
      (.update (hostEntry "h2" "other" "r1") none t0) = (_, { res := .ok (), events := [.add ((hostEntry "h2" "other" "r1").stamp t0)] }) from rfl]; simp)
  · intro p hp ev hev hk
    rcases List.mem_append.1 hp with hp | hp
    · rcases List.mem_append.1 hp with hp | hp
      · rcases List.mem_append.1 hp with hp | hp
        · simp at hp
        · simp only [List.mem_singleton] at hp; subst hp; rfl
      · simp only [List.mem_singleton] at hp; subst hp
        have hev' : ev ∈ [Event.add ((hostEntry "h2" "other" "r1").stamp t0)] := hev
        simp only [List.mem_singleton] at hev'
        subst hev'
        exact absurd hk (by decide)
    · simp only [List.mem_singleton] at hp; subst hp; rfl

end Verif.Props
