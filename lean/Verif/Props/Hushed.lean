import Verif.Props.Keepalive

/-!
# The first heartbeat timeouts are ignored (C122)

manager.go:291-295 says: ignore the first few heartbeat timeouts before aborting the connection entirely.
-/
namespace Verif.Props
open Verif Verif.Model Verif.Spec

variable {cfg : KaConfig} {snd : Callee}

/-- How the heartbeats of an execution ended. -/
def heartbeatEnds : List KaEv → List KaRes
  | [] => []
  | .end_ .heartbeat r :: evs => r :: heartbeatEnds evs
  | _ :: evs => heartbeatEnds evs

/-- The timeouts that are to be ignored, of heartbeats that ended like this: those before everything else, and at most three. -/
def ignored (l : List KaRes) : Nat := min 3 (l.takeWhile KaRes.isTimeout).length

theorem heartbeatEnds_append (l l' : List KaEv) : heartbeatEnds (l ++ l') = heartbeatEnds l ++ heartbeatEnds l' := by
  induction l with
  | nil => rfl
  | cons e l ih =>
    cases e with
    | end_ k r => cases k <;> simp [heartbeatEnds, ih]
    | _ => simp [heartbeatEnds, ih]

theorem takeWhile_snoc {α : Type} (p : α → Bool) (l : List α) (x : α) :
    (l ++ [x]).takeWhile p = if (l.takeWhile p).length = l.length then l ++ (if p x then [x] else []) else l.takeWhile p := by
  induction l with
  | nil => by_cases h : p x <;> simp [h]
  | cons y l ih =>
    by_cases h : p y
    · simp only [List.cons_append, List.takeWhile_cons, h, if_true, ih, List.length_cons, Nat.add_right_cancel_iff]
      split <;> rfl
    · simp [h]

theorem takeWhile_len_le {α : Type} (p : α → Bool) (l : List α) : (l.takeWhile p).length ≤ l.length := (List.takeWhile_sublist p).length_le

theorem takeWhile_all {α : Type} (p : α → Bool) (l : List α) : (l.takeWhile p).length = l.length ↔ ∀ x ∈ l, p x = true := by
  induction l with
  | nil => simp
  | cons y l ih =>
    by_cases h : p y
    · simp [h, ih]
    · simp [h]

theorem ka_append {s0 s1 s2 : Ka} {evs evs' : List KaEv} (h : Ka.Run cfg snd s0 evs s1) (h' : Ka.Run cfg snd s1 evs' s2) : Ka.Run cfg snd s0 (evs ++ evs') s2 := by
  induction h' with
  | nil => rw [List.append_nil]; exact h
  | snoc _ hs ih => rw [← List.append_assoc]; exact ih.snoc hs

/-- The manager counts the timeouts it ignores, and knows that one was not. -/
theorem C122_counted {t : Int} {s : Ka} {evs : List KaEv} (h : Ka.Run cfg snd (kaStart t) evs s) :
    s.timeouts = ignored (heartbeatEnds evs) ∧ (s.firstSent = true ↔ ignored (heartbeatEnds evs) < (heartbeatEnds evs).length) := by
  generalize hs0 : kaStart t = s0 at h
  induction h with
  | nil => subst hs0; exact ⟨rfl, by simp [kaStart, ignored, heartbeatEnds]⟩
  | @snoc s' s'' evs ev h hs ih =>
    rw [heartbeatEnds_append]
    cases hs with
    | @endHeartbeat b u q r hp hc =>
      obtain ⟨i1, i2⟩ := ih
      generalize sendResult r q s'.ctx = x
      generalize hl : heartbeatEnds evs = l at i1 i2
      show (s'.heartbeatDone x).timeouts = ignored (l ++ [x]) ∧ ((s'.heartbeatDone x).firstSent = true ↔ ignored (l ++ [x]) < (l ++ [x]).length)
      have hle := takeWhile_len_le KaRes.isTimeout l
      have hit : ignored l = min 3 (l.takeWhile KaRes.isTimeout).length := rfl
      have hsn : ignored (l ++ [x]) = min 3 (if (l.takeWhile KaRes.isTimeout).length = l.length then l ++ (if x.isTimeout then [x] else []) else l.takeWhile KaRes.isTimeout).length := by
        rw [ignored, takeWhile_snoc]
      by_cases hb : s'.firstSent = true
      · have hlt := i2.1 hb
        have : s'.heartbeatDone x = { s' with firstSent := true, pc := .loop } := by
          unfold Ka.heartbeatDone
          rw [if_neg]
          rintro ⟨_, _, h3⟩
          rw [hb] at h3
          cases h3
        rw [this, hsn]
        simp only [List.length_append, List.length_singleton, true_iff]
        rw [i1, hit] at *
        split
        · rename_i he
          rw [he] at hlt ⊢
          constructor
          · split <;> simp <;> omega
          · split <;> simp <;> omega
        · exact ⟨rfl, by omega⟩
      · have hnl : ¬ ignored l < l.length := fun h => hb (i2.2 h)
        have hfull : (l.takeWhile KaRes.isTimeout).length = l.length := by omega
        have h3 : l.length ≤ 3 := by omega
        have hbf : s'.firstSent = false := by cases hf : s'.firstSent <;> simp_all
        rw [hsn, if_pos hfull]
        by_cases hx : x.isTimeout = true
        · by_cases hlt : l.length < 3
          · have : s'.heartbeatDone x = { s' with timeouts := s'.timeouts + 1, pc := .loop } := by
              unfold Ka.heartbeatDone
              rw [if_pos ⟨hx, by omega, hbf⟩]
            rw [this]
            simp only [hx, if_true, List.length_append, List.length_singleton, hbf, Bool.false_eq_true, false_iff]
            omega
          · have : s'.heartbeatDone x = { s' with firstSent := true, pc := .loop } := by
              unfold Ka.heartbeatDone
              rw [if_neg (by rintro ⟨_, h, _⟩; omega)]
            rw [this]
            simp only [hx, if_true, List.length_append, List.length_singleton, true_iff]
            omega
        · have : s'.heartbeatDone x = { s' with firstSent := true, pc := .loop } := by
            unfold Ka.heartbeatDone
            rw [if_neg (by rintro ⟨h, _, _⟩; exact hx h)]
          rw [this]
          simp only [hx, Bool.false_eq_true, if_false, List.append_nil, List.length_append, List.length_singleton, true_iff]
          omega
    | @endBeacon | _ =>
      simp only [heartbeatEnds, List.append_nil]
      exact ih

/-- A heartbeat's failure is ignored exactly if it is a timeout, all before it were, and they are fewer than three.  Missing for the property: the connection is not aborted afterwards
(`C122_counterexample`). -/
theorem C122_ignored_partial {t : Int} {s s' : Ka} {evs : List KaEv} {r : KaRes} (h : Ka.Run cfg snd (kaStart t) evs s) (hs : Ka.Step cfg snd s (.end_ .heartbeat r) s') :
    s'.timeouts = s.timeouts + 1 ↔ r.isTimeout = true ∧ (∀ x ∈ heartbeatEnds evs, x.isTimeout = true) ∧ (heartbeatEnds evs).length < 3 := by
  have h1 := (C122_counted h).1
  have h2 := (C122_counted (h.snoc hs)).1
  rw [heartbeatEnds_append] at h2
  have he : heartbeatEnds [KaEv.end_ .heartbeat r] = [r] := rfl
  rw [he] at h2
  generalize heartbeatEnds evs = l at h1 h2
  rw [ignored, takeWhile_snoc] at h2
  rw [ignored] at h1
  have hle := takeWhile_len_le KaRes.isTimeout l
  have hall := takeWhile_all KaRes.isTimeout l
  rw [← hall]
  by_cases hf : (l.takeWhile KaRes.isTimeout).length = l.length
  · rw [if_pos hf] at h2
    by_cases hx : r.isTimeout = true
    · simp only [hx, if_true, List.length_append, List.length_singleton] at h2
      simp only [hx, hf, true_and]
      omega
    · simp only [hx, Bool.false_eq_true, if_false, List.append_nil] at h2
      simp only [hx, Bool.false_eq_true, false_and, iff_false]
      omega
  · rw [if_neg hf] at h2
    simp only [hf, false_and, and_false, iff_false]
    omega

/-- A sender with a timeout of its own, which can say of everything that it took too long. -/
def slow : Callee := fun _ r => r = none ∨ r = some .deadline

/-- A later heartbeat: the state after the sender gave up on it. -/
theorem slow_round {s : Ka} (hp : s.pc = .loop) (hc : s.ctx = none) (cfg : KaConfig) :
    ∃ evs s', Ka.Run cfg slow s evs s' ∧ heartbeatEnds evs = [.failed .sendTimeout] ∧ KaEv.stop ∉ evs ∧ s'.pc = .loop ∧ s'.ctx = none := by
  have ht : s.now ≤ max s.now s.heartbeatTick.next := Int.le_max_left _ _
  have r1 := (Ka.Run.nil (cfg := cfg) (snd := slow) (s := s)).snoc (.time _ ht)
  have r2 := r1.snoc (.tickHeartbeat (Int.le_max_right _ _) (by simp [hp]) (by simp [hp]))
  have r3 := r2.snoc (.beginHeartbeat hp rfl)
  have r4 := r3.snoc (.time (max s.now s.heartbeatTick.next + cfg.deliveryTimeout) (by
    have := heartbeatEvery_pos (cfg := cfg)
    have := beaconEvery_pos (cfg := cfg)
    show max s.now s.heartbeatTick.next ≤ _
    unfold KaConfig.deliveryTimeout
    split <;> omega))
  have r5 := r4.snoc (.expire (k := .heartbeat) (b := max s.now s.heartbeatTick.next) (u := max s.now s.heartbeatTick.next + cfg.deliveryTimeout) (by simp [hc]) (Int.le_refl _))
  have r6 := r5.snoc (.endHeartbeat (r := some .deadline) rfl (.inr rfl))
  refine ⟨_, _, r6, ?_, ?_, heartbeatDone_pc _ _, ?_⟩
  · simp [heartbeatEnds, sendResult, errorsIs, GoErr.is, hc]
  · simp
  · rw [(heartbeatDone_rest _ _).2.1]
    exact hc

/-- The connection is never aborted, nor is anything else done: after any number of heartbeats that all timed out the manager is in its loop, and goes on. -/
theorem C122_counterexample (cfg : KaConfig) (t : Int) (n : Nat) :
    ∃ evs s, Ka.Run cfg slow (kaStart t) evs s ∧ heartbeatEnds evs = List.replicate n (.failed .sendTimeout) ∧ KaEv.stop ∉ evs ∧ s.pc = .loop ∧ s.ctx = none := by
  induction n with
  | zero =>
    have r1 := (Ka.Run.nil (cfg := cfg) (snd := slow) (s := kaStart t)).snoc (.beginInit rfl)
    have r2 := r1.snoc (.doneInit rfl (.inl rfl))
    exact ⟨_, _, r2, rfl, by simp, rfl, rfl⟩
  | succ n ih =>
    obtain ⟨evs, s, h, h1, h2, h3, h4⟩ := ih
    obtain ⟨evs', s', h', h1', h2', h3', h4'⟩ := slow_round h3 h4 cfg
    refine ⟨evs ++ evs', s', ?_, ?_, ?_, h3', h4'⟩
    · exact ka_append h h'
    · rw [heartbeatEnds_append, h1, h1', List.replicate_succ']
    · simp [h2, h2']

/-- Whatever became of the heartbeats, the manager stops only when its context has ended. -/
theorem C122_goes_on {t : Int} {s s' : Ka} {evs : List KaEv} (_h : Ka.Run cfg snd (kaStart t) evs s) (hs : Ka.Step cfg snd s .stop s') : s.ctx.isSome = true := by
  cases hs with
  | stop _ h => exact h

/-- A heartbeat that is sent is never taken for one that timed out: the count stays, and no later timeout is ignored. -/
theorem C122_sent {s s' : Ka} (hs : Ka.Step cfg snd s (.end_ .heartbeat .ok) s') : s'.timeouts = s.timeouts ∧ s'.firstSent = true := by
  generalize hev : KaEv.end_ .heartbeat .ok = ev at hs
  cases hs with
  | endHeartbeat =>
    injection hev with _ hr
    rw [← hr]
    exact ⟨rfl, rfl⟩
  | _ => simp at hev

end Verif.Props
