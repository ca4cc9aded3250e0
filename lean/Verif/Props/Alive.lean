import Verif.Spec.Alive
import Verif.Props.Keepalive
import Verif.Props.Watch

/-!
# C96: a source that sends its heartbeats is not forgotten
-/
namespace Verif.Props
open Verif Verif.Model Verif.Spec

variable {kc : KaConfig} {wc : WatchCfg} {d : Delays} {snd : Callee}


/-- A ticker that fires is next due after now, at most a period later, and at least a period after it was due. -/
theorem fire_next (t : Ticker) {period now : Int} (hp : 0 < period) (hn : t.next ≤ now) :
    now < (t.fire period now).next ∧ (t.fire period now).next ≤ now + period ∧ t.next + period ≤ (t.fire period now).next ∧ (t.fire period now).pending = true := by
  have h1 := Int.mul_ediv_add_emod (now - t.next) period
  have h2 := Int.emod_nonneg (now - t.next) (by omega : period ≠ 0)
  have h3 := Int.emod_lt_of_pos (now - t.next) hp
  have h4 : 0 ≤ (now - t.next) / period := Int.ediv_nonneg (by omega) (by omega)
  have h5 : 0 ≤ period * ((now - t.next) / period) := Int.mul_nonneg (by omega) h4
  simp only [Ticker.fire, Int.mul_add, Int.mul_one]
  generalize period * ((now - t.next) / period) = q at *
  refine ⟨by omega, by omega, by omega, trivial⟩

/-! ## The source -/

/-- A heartbeat tick has been waiting since `p`. -/
def Waiting (kc : KaConfig) (d : Delays) (ka : Ka) (p : Int) : Prop :=
  match ka.pc with
  | .sending k b _ _ => b ≤ p ∨
      (k = .beacon ∧ p ≤ b ∧ b ≤ p + d.send ∧ (ka.beaconTick.pending = true → b + kc.beaconEvery - d.tick ≤ ka.beaconTick.next)) ∨
      (k = .beacon ∧ b ≤ p + 2 * d.send ∧ ka.beaconTick.pending = false ∧ b + d.send < ka.beaconTick.next)
  | .loop => ka.now ≤ p + d.send ∨
      (ka.now ≤ p + 2 * d.send ∧ (ka.beaconTick.pending = true → ka.now - d.send + kc.beaconEvery - d.tick ≤ ka.beaconTick.next)) ∨
      (ka.now ≤ p + 3 * d.send ∧ ka.beaconTick.pending = false ∧ ka.now < ka.beaconTick.next)
  | _ => False

/-- The source since it was announced, at `A`; its last heartbeat was sent at `last` (`A` if there was none). -/
structure Beating (kc : KaConfig) (d : Delays) (ka : Ka) (last : Int) : Prop where
  ctx : ka.ctx = none
  pc : ka.pc ≠ .init ∧ (∀ b u r, ka.pc ≠ .sending .initial b u r) ∧ ka.pc ≠ .stopped
  le : last ≤ ka.now
  next : ka.heartbeatTick.next ≤ ka.now + kc.heartbeatEvery
  late : ka.now ≤ ka.heartbeatTick.next + d.tick ∧ ka.now ≤ ka.beaconTick.next + d.tick
  sending : ∀ k b u r, ka.pc = .sending k b u r → b ≤ ka.now ∧ ka.now ≤ b + d.send
  idle : ka.heartbeatTick.pending = false → ka.heartbeatTick.next ≤ last + kc.heartbeatEvery
  wait : ka.heartbeatTick.pending = true → ∃ p, p ≤ last + kc.heartbeatEvery + d.tick ∧ p ≤ ka.now ∧ Waiting kc d ka p

/-- Between two heartbeats there is never more than the longest gap. -/
theorem Beating.gap {ka : Ka} {last : Int} (h : Beating kc d ka last) (hS : 0 ≤ d.send) : ka.now ≤ last + longestGap kc d := by
  unfold longestGap
  cases hp : ka.heartbeatTick.pending with
  | false => have := h.idle hp; have := h.late.1; omega
  | true =>
    obtain ⟨p, h1, h2, h3⟩ := h.wait hp
    cases hpc : ka.pc with
    | sending k b u r =>
      have := h.sending k b u r hpc
      simp only [Waiting, hpc] at h3
      omega
    | loop => simp only [Waiting, hpc] at h3; omega
    | init => exact absurd hpc h.pc.1
    | stopped => exact absurd hpc h.pc.2.2

theorem beating_time {ka : Ka} {last t : Int} (h : Beating kc d ka last) (hle : ka.now ≤ t) (hsend : ∀ k b u r, ka.pc = .sending k b u r → t ≤ b + d.send)
    (hloop : ka.pc = .loop → ka.heartbeatTick.pending = false) (hticks : t ≤ ka.heartbeatTick.next + d.tick ∧ t ≤ ka.beaconTick.next + d.tick) :
    Beating kc d { ka with now := t } last := by
  refine ⟨h.ctx, h.pc, ?_, ?_, hticks, ?_, h.idle, ?_⟩
  · have := h.le; show last ≤ t; omega
  · have := h.next; show _ ≤ t + _; simp only; omega
  · intro k b u r hp
    have := h.sending k b u r hp
    have := hsend k b u r hp
    show b ≤ t ∧ t ≤ _; omega
  · intro hp
    obtain ⟨p, h1, h2, h3⟩ := h.wait hp
    refine ⟨p, h1, by show p ≤ t; omega, ?_⟩
    cases hpc : ka.pc with
    | sending k b u r => simpa only [Waiting, hpc] using h3
    | loop => have := hloop hpc; simp only at hp; rw [this] at hp; cases hp
    | init => exact absurd hpc h.pc.1
    | stopped => exact absurd hpc h.pc.2.2

theorem beating_step {ka ka' : Ka} {e : KaEv} {last : Int} (h : Beating kc d ka last) (hs : Ka.Step kc snd ka e ka') (hS : 0 ≤ d.send) (hε : 0 ≤ d.tick)
    (hB : 2 * d.send + d.tick < kc.beaconEvery) (he : e.plain = true) : Beating kc d ka' last ∧ ka'.now = ka.now := by
  obtain ⟨hctx, ⟨hp1, hp2, hp3⟩, hle, hnext, hlate, hsending, hidle, hwait⟩ := h
  have hH := heartbeatEvery_pos (cfg := kc)
  have hBp := beaconEvery_pos (cfg := kc)
  cases hs with
  | time => cases he
  | cancel => cases he
  | doneInit => cases he
  | beginHeartbeat => cases he
  | beginInit hp => exact absurd hp hp1
  | retryInit hp => exact absurd hp (hp2 _ _ _)
  | stop hp hc => rw [hctx] at hc; cases hc
  | @expire k b u hp hu =>
    refine ⟨⟨hctx, ⟨by simp, ?_, by simp⟩, hle, hnext, hlate, ?_, hidle, ?_⟩, rfl⟩
    · intro b' u' r' e; simp only [KaPC.sending.injEq] at e; exact hp2 b u none (by rw [hp, e.1])
    · intro k' b' u' r' e; simp only [KaPC.sending.injEq] at e; rw [← e.2.1]; exact hsending k b u none hp
    · intro hpend
      obtain ⟨p, h1, h2, h3⟩ := hwait hpend
      exact ⟨p, h1, h2, by simpa only [Waiting, hp] using h3⟩
  | tickBeacon hn _ _ =>
    obtain ⟨f1, f2, f3, f4⟩ := fire_next ka.beaconTick hBp hn
    refine ⟨⟨hctx, ⟨hp1, hp2, hp3⟩, hle, hnext, ⟨hlate.1, ?_⟩, hsending, hidle, ?_⟩, rfl⟩
    · show ka.now ≤ (ka.beaconTick.fire kc.beaconEvery ka.now).next + d.tick; omega
    · intro hpend
      obtain ⟨p, h1, h2, h3⟩ := hwait hpend
      refine ⟨p, h1, h2, ?_⟩
      cases hpc : ka.pc with
      | sending k b u r =>
        have := hsending k b u r hpc
        simp only [Waiting, hpc] at h3 ⊢
        rcases h3 with h3 | ⟨h31, h32, h33, h34⟩ | ⟨h31, h32, h33, h34⟩
        · exact .inl h3
        · exact .inr (.inl ⟨h31, h32, h33, fun _ => by omega⟩)
        · omega
      | loop =>
        simp only [Waiting, hpc] at h3 ⊢
        rcases h3 with h3 | ⟨h31, h32⟩ | ⟨h31, h32, h33⟩
        · exact .inl h3
        · exact .inr (.inl ⟨h31, fun _ => by omega⟩)
        · omega
      | init => exact absurd hpc hp1
      | stopped => exact absurd hpc hp3
  | tickHeartbeat hn _ _ =>
    obtain ⟨f1, f2, f3, f4⟩ := fire_next ka.heartbeatTick hH hn
    refine ⟨⟨hctx, ⟨hp1, hp2, hp3⟩, hle, f2, ⟨?_, hlate.2⟩, hsending, ?_, ?_⟩, rfl⟩
    · show ka.now ≤ (ka.heartbeatTick.fire kc.heartbeatEvery ka.now).next + d.tick; omega
    · intro hf; simp only at hf; rw [f4] at hf; cases hf
    · intro _
      cases hpend : ka.heartbeatTick.pending with
      | true =>
        obtain ⟨p, h1, h2, h3⟩ := hwait hpend
        exact ⟨p, h1, h2, by simpa only [Waiting] using h3⟩
      | false =>
        have := hidle hpend
        refine ⟨ka.now, by omega, Int.le_refl _, ?_⟩
        cases hpc : ka.pc with
        | sending k b u r =>
          have := hsending k b u r hpc
          simp only [Waiting]
          exact .inl (by omega)
        | loop => simp only [Waiting]; exact .inl (by omega)
        | init => exact absurd hpc hp1
        | stopped => exact absurd hpc hp3
  | beginBeacon hp hb =>
    refine ⟨⟨hctx, ⟨by simp, by simp, by simp⟩, hle, hnext, hlate, ?_, hidle, ?_⟩, rfl⟩
    · intro k b u r e; simp only [KaPC.sending.injEq] at e; show b ≤ ka.now ∧ ka.now ≤ _; omega
    · intro hpend
      obtain ⟨p, h1, h2, h3⟩ := hwait hpend
      refine ⟨p, h1, h2, ?_⟩
      simp only [Waiting, hp] at h3 ⊢
      rcases h3 with h3 | ⟨h31, h32⟩ | ⟨h31, h32, h33⟩
      · exact .inr (.inl ⟨by trivial, h2, h3, by simp⟩)
      · have := h32 hb
        exact .inr (.inr ⟨by trivial, h31, by trivial, by omega⟩)
      · rw [hb] at h32; cases h32
  | @endBeacon b u q r hp _ =>
    refine ⟨⟨hctx, ⟨by simp, by simp, by simp⟩, hle, hnext, hlate, by simp, hidle, ?_⟩, rfl⟩
    intro hpend
    obtain ⟨p, h1, h2, h3⟩ := hwait hpend
    refine ⟨p, h1, h2, ?_⟩
    have := hsending _ _ _ _ hp
    simp only [Waiting, hp] at h3 ⊢
    rcases h3 with h3 | ⟨h31, h32, h33, h34⟩ | ⟨h31, h32, h33, h34⟩
    · exact .inl (by omega)
    · exact .inr (.inl ⟨by omega, fun hb => by have := h34 hb; omega⟩)
    · exact .inr (.inr ⟨by omega, h33, by omega⟩)
  | @endHeartbeat b u q r hp _ =>
    have hpc : ∀ x, (ka.heartbeatDone x).pc = .loop := by intro x; unfold Ka.heartbeatDone; split <;> rfl
    have hnow : ∀ x, (ka.heartbeatDone x).now = ka.now := by intro x; unfold Ka.heartbeatDone; split <;> rfl
    have hbt : ∀ x, (ka.heartbeatDone x).beaconTick = ka.beaconTick := by intro x; unfold Ka.heartbeatDone; split <;> rfl
    have hht : ∀ x, (ka.heartbeatDone x).heartbeatTick = ka.heartbeatTick := by intro x; unfold Ka.heartbeatDone; split <;> rfl
    have hcx : ∀ x, (ka.heartbeatDone x).ctx = ka.ctx := by intro x; unfold Ka.heartbeatDone; split <;> rfl
    refine ⟨⟨by rw [hcx]; exact hctx, ⟨by simp [hpc], by simp [hpc], by simp [hpc]⟩, by rw [hnow]; exact hle, by rw [hnow, hht]; exact hnext, by rw [hnow, hht, hbt]; exact hlate,
      by simp [hpc], by rw [hht]; exact hidle, ?_⟩, hnow _⟩
    intro hpend
    rw [hht] at hpend
    obtain ⟨p, h1, h2, h3⟩ := hwait hpend
    refine ⟨p, h1, by rw [hnow]; exact h2, ?_⟩
    have := hsending _ _ _ _ hp
    simp only [Waiting, hp, hpc, hnow] at h3 ⊢
    rcases h3 with h3 | ⟨h31, -⟩ | ⟨h31, -⟩
    · exact .inl (by omega)
    · cases h31
    · cases h31

theorem beating_heartbeat {ka ka' : Ka} {a : String} {m : Msg} {last : Int} (h : Beating kc d ka last) (hs : Ka.Step kc snd ka (.begin_ .heartbeat a m) ka') (hS : 0 ≤ d.send) :
    Beating kc d ka' ka.now ∧ ka'.now = ka.now := by
  cases hs with
  | beginHeartbeat hp hb =>
    refine ⟨⟨h.ctx, ⟨by simp, by simp, by simp⟩, Int.le_refl _, h.next, h.late, ?_, fun _ => h.next, by simp⟩, rfl⟩
    intro k b u r e
    simp only [KaPC.sending.injEq] at e
    show b ≤ ka.now ∧ ka.now ≤ _
    omega

theorem beating_announce {ka ka' : Ka} (hs : Ka.Step kc snd ka (.end_ .initial .ok) ka') (hε : 0 ≤ d.tick) (hctx : ka.ctx = none) :
    Beating kc d ka' ka.now ∧ ka'.now = ka.now := by
  have hH := heartbeatEvery_pos (cfg := kc)
  have hBp := beaconEvery_pos (cfg := kc)
  generalize hev : KaEv.end_ .initial .ok = ev at hs
  cases hs with
  | doneInit hp _ =>
    refine ⟨⟨hctx, ⟨by simp, by simp, by simp⟩, Int.le_refl _, Int.le_refl _, ?_, by simp, fun _ => Int.le_refl _, by simp⟩, rfl⟩
    show ka.now ≤ ka.now + _ + _ ∧ ka.now ≤ ka.now + _ + _
    omega
  | retryInit hp hsnd => 
    simp only [KaEv.end_.injEq, true_and, sendResult] at hev
    split at hev <;> cases hev
  | _ => cases hev

/-- The source and its heartbeats. -/
structure SourceInv (kc : KaConfig) (d : Delays) (s : Alive) : Prop where
  before : s.announced = none → s.ka.ctx = none ∧ s.sent = [] ∧ (s.ka.pc = .init ∨ ∃ b u r, s.ka.pc = .sending .initial b u r)
  beat : ∀ A, s.announced = some A → ∃ last, (last = A ∨ last ∈ s.sent) ∧ Beating kc d s.ka last
  window : ∀ A, s.announced = some A → ∀ τ, A ≤ τ → τ + longestGap kc d < s.ka.now → ∃ b ∈ s.sent, τ ≤ b ∧ b ≤ τ + longestGap kc d
  sent : ∀ b ∈ s.sent, b ≤ s.ka.now

theorem source_inv {t : Int} {evs : List AlEv} {s : Alive} (h : Alive.Run kc wc d snd (aliveStart t) evs s) (hS : 0 ≤ d.send) (hε : 0 ≤ d.tick)
    (hB : 2 * d.send + d.tick < kc.beaconEvery) : SourceInv kc d s := by
  generalize hs0 : aliveStart t = s0 at h
  induction h with
  | nil => subst hs0; exact ⟨fun _ => ⟨rfl, rfl, .inl rfl⟩, by simp [aliveStart], by simp [aliveStart], by simp [aliveStart]⟩
  | @snoc s s' evs ev hr hs ih =>
    subst hs0
    obtain ⟨hbef, hbeat, hwin, hsent⟩ := ih
    cases hs with
    | time t' hle hm =>
      refine ⟨hbef, ?_, ?_, ?_⟩
      · intro A hA
        obtain ⟨last, h1, h2⟩ := hbeat A hA
        exact ⟨last, h1, beating_time h2 hle hm.send (fun h => (hm.loop h).1) (hm.ticks (by simp only at hA; rw [hA]; rfl))⟩
      · intro A hA τ h1 h2
        obtain ⟨last, h3, h4⟩ := hbeat A hA
        have h5 := (beating_time h4 hle hm.send (fun h => (hm.loop h).1) (hm.ticks (by simp only at hA; rw [hA]; rfl))).gap hS
        simp only at h2 h5
        by_cases h6 : τ + longestGap kc d < s.ka.now
        · exact hwin A hA τ h1 h6
        · have := h4.le
          rcases h3 with rfl | h3
          · omega
          · exact ⟨last, h3, by omega, by omega⟩
      · intro b hb; have := hsent b hb; show b ≤ t'; omega
    | listen hl => exact ⟨hbef, hbeat, hwin, hsent⟩
    | @src e ka hk hpl =>
      rcases (by cases s.announced <;> simp : s.announced = none ∨ ∃ A0, s.announced = some A0) with hann | ⟨A0, hann⟩
      · obtain ⟨h1, h2, h3⟩ := hbef hann
        have hnow : ka.now = s.ka.now ∧ ka.ctx = none ∧ (ka.pc = .init ∨ ∃ b u r, ka.pc = .sending .initial b u r) := by
          cases hk with
          | time => cases hpl
          | cancel => cases hpl
          | doneInit => cases hpl
          | beginHeartbeat => cases hpl
          | beginInit hp => exact ⟨rfl, h1, .inr ⟨_, _, _, rfl⟩⟩
          | retryInit hp => exact ⟨rfl, h1, .inl rfl⟩
          | stop hp => rcases h3 with h3 | ⟨_, _, _, h3⟩ <;> rw [h3] at hp <;> cases hp
          | expire hp =>
            rcases h3 with h3 | ⟨_, _, _, h3⟩
            · rw [h3] at hp; cases hp
            · rw [h3] at hp; cases hp; exact ⟨rfl, h1, .inr ⟨_, _, _, rfl⟩⟩
          | tickBeacon _ hp1 hp2 => rcases h3 with h3 | ⟨_, _, _, h3⟩; exact absurd h3 hp1; exact absurd h3 (hp2 _ _ _)
          | tickHeartbeat _ hp1 hp2 => rcases h3 with h3 | ⟨_, _, _, h3⟩; exact absurd h3 hp1; exact absurd h3 (hp2 _ _ _)
          | beginBeacon hp => rcases h3 with h3 | ⟨_, _, _, h3⟩ <;> rw [h3] at hp <;> cases hp
          | endBeacon hp => rcases h3 with h3 | ⟨_, _, _, h3⟩ <;> rw [h3] at hp <;> cases hp
          | endHeartbeat hp => rcases h3 with h3 | ⟨_, _, _, h3⟩ <;> rw [h3] at hp <;> cases hp
        refine ⟨fun _ => ⟨hnow.2.1, h2, hnow.2.2⟩, ?_, ?_, ?_⟩
        · intro A hA; simp only at hA; rw [hann] at hA; cases hA
        · intro A hA; simp only at hA; rw [hann] at hA; cases hA
        · intro b hb; simp only at hb; rw [h2] at hb; simp at hb
      · obtain ⟨last0, h01, h02⟩ := hbeat A0 hann
        have hnow := (beating_step h02 hk hS hε hB hpl).2
        refine ⟨?_, ?_, ?_, ?_⟩
        · intro h; simp only at h; rw [hann] at h; cases h
        · intro A hA
          obtain ⟨last, h1, h2⟩ := hbeat A hA
          exact ⟨last, h1, (beating_step h2 hk hS hε hB hpl).1⟩
        · intro A hA τ h1 h2; simp only at h2 hA; rw [hnow] at h2; exact hwin A hA τ h1 h2
        · intro b hb; have := hsent b hb; show b ≤ ka.now; omega
    | @announce ka hk =>
      rcases (by cases s.announced <;> simp : s.announced = none ∨ ∃ A0, s.announced = some A0) with hann | ⟨A0, hann⟩
      · obtain ⟨h1, h2, h3⟩ := hbef hann
        obtain ⟨h4, h5⟩ := beating_announce (d := d) hk hε h1
        refine ⟨by simp, ?_, ?_, ?_⟩
        · intro A hA; cases hA; exact ⟨_, .inl rfl, h4⟩
        · intro A hA τ h6 h7
          cases hA
          have := h4.gap hS
          simp only at h7
          omega
        · intro b hb; simp only at hb; rw [h2] at hb; simp at hb
      · obtain ⟨last0, h01, h02⟩ := hbeat A0 hann
        exfalso
        generalize hev : KaEv.end_ .initial .ok = ev at hk
        cases hk with
        | doneInit hp => exact h02.pc.2.1 _ _ _ hp
        | retryInit hp => exact h02.pc.2.1 _ _ _ hp
        | _ => cases hev
    | @heartbeat a m ka hk =>
      rcases (by cases s.announced <;> simp : s.announced = none ∨ ∃ A0, s.announced = some A0) with hann | ⟨A0, hann⟩
      · obtain ⟨h1, h2, h3⟩ := hbef hann
        cases hk with
        | beginHeartbeat hp => rcases h3 with h3 | ⟨_, _, _, h3⟩ <;> rw [h3] at hp <;> cases hp
      · obtain ⟨last0, h01, h02⟩ := hbeat A0 hann
        have hnow := (beating_heartbeat h02 hk hS).2
        refine ⟨?_, ?_, ?_, ?_⟩
        · intro h; simp only at h; rw [hann] at h; cases h
        · intro A hA
          obtain ⟨last, h1, h2⟩ := hbeat A hA
          exact ⟨s.ka.now, .inr (by simp), (beating_heartbeat h2 hk hS).1⟩
        · intro A hA τ h1 h2
          simp only at h2 hA; rw [hnow] at h2
          obtain ⟨b, hb, h3⟩ := hwin A hA τ h1 h2
          exact ⟨b, by simp [hb], h3⟩
        · intro b hb
          show b ≤ ka.now
          simp only [List.mem_append, List.mem_singleton] at hb
          rcases hb with hb | hb
          · have := hsent b hb; omega
          · omega
    | handle => exact ⟨hbef, hbeat, hwin, hsent⟩
    | record => exact ⟨hbef, hbeat, hwin, hsent⟩
    | store => exact ⟨hbef, hbeat, hwin, hsent⟩
    | watch => exact ⟨hbef, hbeat, hwin, hsent⟩

/-! ## The watch -/

theorem watchEvents_append (a b : List AlEv) : watchEvents (a ++ b) = watchEvents a ++ watchEvents b := by simp [watchEvents]

theorem mem_watchEvents {evs : List AlEv} {e : WEv} (he : e ≠ .time) : e ∈ watchEvents evs ↔ .watch e ∈ evs := by
  simp only [watchEvents, List.mem_filterMap]
  constructor
  · rintro ⟨a, ha, h⟩
    cases a with
    | watch e' => cases h; exact ha
    | time => cases h; exact absurd rfl he
    | listen => cases h
    | src => cases h
  · intro h; exact ⟨_, h, rfl⟩

theorem alive_clock {t : Int} {evs : List AlEv} {s : Alive} (h : Alive.Run kc wc d snd (aliveStart t) evs s) :
    s.ka.now = s.w.now ∧ Watch.Run wc (watchStart t) (watchEvents evs) s.w := by
  generalize hs0 : aliveStart t = s0 at h
  induction h with
  | nil => subst hs0; exact ⟨rfl, .nil⟩
  | @snoc s s' evs ev hr hs ih =>
    subst hs0
    obtain ⟨h1, h2⟩ := ih
    rw [watchEvents_append]
    have wnow : ∀ {e w}, Watch.Step wc s.w e w → e.plain = true ∨ (∃ a, e = .stamp a) ∨ (∃ a, e = .store a) → w.now = s.w.now := by
      intro e w hw he
      cases hw with
      | time => rcases he with he | ⟨_, he⟩ | ⟨_, he⟩ <;> cases he
      | _ => rfl
    have know : ∀ {e ka}, Ka.Step kc snd s.ka e ka → e ≠ .time → ka.now = s.ka.now := by
      intro e ka hk he
      cases hk with
      | time => exact absurd rfl he
      | endHeartbeat => unfold Ka.heartbeatDone; split <;> rfl
      | _ => rfl
    cases hs with
    | time t' hle hm => exact ⟨rfl, h2.snoc (.time t' (by omega))⟩
    | listen hl => exact ⟨h1, by simpa [watchEvents] using h2⟩
    | src hk hpl => exact ⟨by rw [← h1]; exact know hk (by rintro rfl; cases hpl), by simpa [watchEvents] using h2⟩
    | announce hk => exact ⟨by rw [← h1]; exact know hk (by simp), by simpa [watchEvents] using h2⟩
    | heartbeat hk => exact ⟨by rw [← h1]; exact know hk (by simp), by simpa [watchEvents] using h2⟩
    | handle _ hw => exact ⟨by rw [h1]; exact (wnow hw (.inr (.inl ⟨_, rfl⟩))).symm, h2.snoc hw⟩
    | record _ hw => exact ⟨by rw [h1]; exact (wnow hw (.inr (.inl ⟨_, rfl⟩))).symm, h2.snoc hw⟩
    | store _ hw => exact ⟨by rw [h1]; exact (wnow hw (.inr (.inr ⟨_, rfl⟩))).symm, h2.snoc hw⟩
    | watch hw hpl => exact ⟨by rw [h1]; exact (wnow hw (.inl hpl)).symm, h2.snoc hw⟩

/-- The watch starts once, and sets its timer again only after that. -/
theorem watch_start_once {t : Int} {evs : List WEv} {s : Watch} (h : Watch.Run wc (watchStart t) evs s) :
    (s.pc = .spawned → (∀ a, .start a ∉ evs) ∧ (∀ a, .reset a ∉ evs) ∧ (∀ a, .init a ∉ evs)) ∧ (∀ a, .start a ∈ evs → a ≤ s.now) ∧
    (∀ a b, .start a ∈ evs → .start b ∈ evs → a = b) ∧ (∀ a b, .start a ∈ evs → .reset b ∈ evs → a ≤ b) := by
  generalize hs0 : watchStart t = s0 at h
  induction h with
  | nil => subst hs0; simp
  | @snoc s s' evs ev hr hs ih =>
    subst hs0
    obtain ⟨i1, i2, i3, i4⟩ := ih
    cases hs with
    | time t' hle =>
      refine ⟨by simpa using i1, ?_, by simpa using i3, by simpa using i4⟩
      intro a ha; have := i2 a (by simpa using ha); show a ≤ t'; omega
    | start hp =>
      obtain ⟨j1, j2, j3⟩ := i1 hp
      refine ⟨by simp, ?_, ?_, ?_⟩
      · intro a ha; simp [j1] at ha; show a ≤ s.now; omega
      · intro a b ha hb; simp [j1] at ha hb; omega
      · intro a b ha hb; simp [j2] at hb
    | reset hp =>
      refine ⟨by simp, by simpa using i2, by simpa using i3, ?_⟩
      intro a b ha hb
      simp at ha hb
      rcases hb with hb | hb
      · exact i4 a b ha hb
      · subst hb; exact i2 a ha
    | cancel | stamp | store | fire | tick => exact ⟨by simpa using i1, by simpa using i2, by simpa using i3, by simpa using i4⟩
    | init | return_ | expiry | renew | decide | forget | takeTick | nothing | observe | noTimer | stopTrue | stopFalse | drain =>
      exact ⟨by simp, by simpa using i2, by simpa using i3, by simpa using i4⟩
    | @update n bt hp => exact ⟨by cases bt <;> simp, by simpa using i2, by simpa using i3, by simpa using i4⟩

/-- The watch looks at the activity for the first time at the moment it starts. -/
theorem alive_init {t : Int} {evs : List AlEv} {s : Alive} (h : Alive.Run kc wc d snd (aliveStart t) evs s) :
    (s.w.pc = .init → ∀ a, .start a ∈ watchEvents evs → a = s.w.now) ∧ (∀ a b, .start a ∈ watchEvents evs → .init b ∈ watchEvents evs → a = b) := by
  generalize hs0 : aliveStart t = s0 at h
  induction h with
  | nil => subst hs0; simp [watchEvents]
  | @snoc s s' evs ev hr hs ih =>
    subst hs0
    obtain ⟨i1, i2⟩ := ih
    have hsp := (watch_start_once (alive_clock hr).2).1
    rw [watchEvents_append]
    cases hs with
    | time t' hle hm => exact ⟨fun hp => absurd hp hm.init, by simpa [watchEvents] using i2⟩
    | listen hl | src hk hpl | announce hk | heartbeat hk => exact ⟨by simpa [watchEvents] using i1, by simpa [watchEvents] using i2⟩
    | handle _ hw | record _ hw | store _ hw => cases hw; exact ⟨by simpa [watchEvents] using i1, by simpa [watchEvents] using i2⟩
    | watch hw hpl =>
      cases hw with
      | time => cases hpl
      | stamp => cases hpl
      | store => cases hpl
      | start hp =>
        obtain ⟨j1, j2, j3⟩ := hsp hp
        refine ⟨?_, ?_⟩
        · intro _ a ha; simp [watchEvents] at ha; rcases ha with ha | ha
          · exact absurd (by simpa [watchEvents] using ha) (j1 a)
          · exact ha
        · intro a b _ hb; simp [watchEvents] at hb; exact absurd (by simpa [watchEvents] using hb) (j3 b)
      | init hp =>
        refine ⟨by simp, ?_⟩
        intro a b ha hb
        have ha : .start a ∈ watchEvents evs := by simpa [watchEvents] using ha
        simp only [List.mem_append] at hb
        rcases hb with hb | hb
        · exact i2 a b ha hb
        · simp [watchEvents] at hb; rw [hb]; exact i1 hp a ha
      | cancel | fire | tick => exact ⟨by simpa [watchEvents] using i1, by simpa [watchEvents] using i2⟩
      | return_ | expiry | renew | decide | forget | takeTick | nothing | observe | noTimer | stopTrue | stopFalse | drain | reset =>
        exact ⟨by simp, by simpa [watchEvents] using i2⟩
      | @update n bt hp => exact ⟨by cases bt <;> simp, by simpa [watchEvents] using i2⟩

/-! ## The messages between them -/

/-- Where the watch can be before it has seen a message. -/
def Unheard (w : Watch) : Prop := w.lastSeen = none ∧ w.prev = none ∧ w.inflight = [] ∧
  (w.pc = .spawned ∨ w.pc = .init ∨ w.pc = .select ∨ w.pc = .gotTimer ∨ w.pc = .forgetting ∨ w.pc = .gotTick ∨ w.pc = .done)

structure NetInv (d : Delays) (evs : List AlEv) (s : Alive) : Prop where
  sent : ∀ b ∈ s.sent, b ≤ s.ka.now
  net : ∀ b ∈ s.net, b ≤ s.ka.now ∧ (s.ka.now < b + d.deliver)
  inflight : s.w.inflight.Perm (s.handling.map (·.2))
  handling : ∀ p ∈ s.handling, s.ka.now < p.1 + d.deliver ∧ p.1 ≤ p.2
  unheard : s.listening = none → Unheard s.w ∧ s.net = [] ∧ s.handling = [] ∧ ∀ r, .reset r ∉ watchEvents evs
  heard : ∀ L, s.listening = some L → L ≤ s.ka.now ∧ (∀ r, .reset r ∈ watchEvents evs → L ≤ r) ∧
    ∀ b ∈ s.sent, L < b → b ∈ s.net ∨ (∃ a, (b, a) ∈ s.handling) ∨ ∃ a ∈ activity (watchEvents evs), b ≤ a

theorem net_inv {t : Int} {evs : List AlEv} {s : Alive} (h : Alive.Run kc wc d snd (aliveStart t) evs s) (hD : 0 < d.deliver) : NetInv d evs s := by
  generalize hs0 : aliveStart t = s0 at h
  induction h with
  | nil =>
    subst hs0
    exact ⟨by simp [aliveStart], by simp [aliveStart], .refl _, by simp [aliveStart], fun _ => ⟨⟨rfl, rfl, rfl, .inl rfl⟩, rfl, rfl, by simp [watchEvents]⟩, by simp [aliveStart]⟩
  | @snoc s s' evs ev hr hs ih =>
    subst hs0
    obtain ⟨i0, i1, i2, i3, i4, i5⟩ := ih
    have hcl := (alive_clock hr).1
    have know : ∀ {e ka}, Ka.Step kc snd s.ka e ka → e ≠ .time → ka.now = s.ka.now := by
      intro e ka hk he
      cases hk with
      | time => exact absurd rfl he
      | endHeartbeat => unfold Ka.heartbeatDone; split <;> rfl
      | _ => rfl
    have src : ∀ {e}, watchEvents (evs ++ [.src e]) = watchEvents evs := by intro e; simp [watchEvents]
    cases hs with
    | time t' hle hm =>
      have we : ∀ r, .reset r ∈ watchEvents (evs ++ [.time]) ↔ .reset r ∈ watchEvents evs := by intro r; simp [watchEvents]
      have wa : activity (watchEvents (evs ++ [.time])) = activity (watchEvents evs) := by rw [watchEvents_append, activity_append]; simp [watchEvents, activity]
      refine ⟨?_, ?_, i2, ?_, ?_, ?_⟩
      · intro b hb; have := i0 b hb; show b ≤ t'; omega
      · intro b hb; have := i1 b hb; have := hm.net b hb; show b ≤ t' ∧ t' < _; omega
      · intro p hp; exact ⟨hm.handling p hp, (i3 p hp).2⟩
      · intro hl
        obtain ⟨j1, j2, j3, j4⟩ := i4 hl
        exact ⟨j1, j2, j3, fun r => by rw [we]; exact j4 r⟩
      · intro L hL
        obtain ⟨j1, j2, j3⟩ := i5 L hL
        refine ⟨by show L ≤ t'; omega, fun r => by rw [we]; exact j2 r, ?_⟩
        rw [wa]; exact j3
    | listen hl =>
      have e : watchEvents (evs ++ [.listen]) = watchEvents evs := by simp [watchEvents]
      obtain ⟨j1, j2, j3, j4⟩ := i4 hl
      refine ⟨i0, i1, i2, i3, by simp, ?_⟩
      intro L hL
      cases hL
      rw [e]
      refine ⟨Int.le_refl _, fun r hr => absurd hr (j4 r), ?_⟩
      intro b hb hlt
      have := i0 b hb
      omega
    | @src e ka hk hpl =>
      have := know hk (by rintro rfl; cases hpl)
      refine ⟨?_, ?_, i2, ?_, ?_, ?_⟩
      · intro b hb; simp only [this]; exact i0 b hb
      · intro b hb; simp only [this]; exact i1 b hb
      · intro b hb; simp only [this]; exact i3 b hb
      · rw [src]; exact i4
      · rw [src]; simp only [this]; exact i5
    | @announce ka hk =>
      have := know hk (by simp)
      refine ⟨?_, ?_, i2, ?_, ?_, ?_⟩
      · intro b hb; simp only [this]; exact i0 b hb
      · intro b hb; simp only [this]; exact i1 b hb
      · intro b hb; simp only [this]; exact i3 b hb
      · rw [src]; exact i4
      · rw [src]; simp only [this]; exact i5
    | @heartbeat a m ka hk =>
      have hn := know hk (by simp)
      refine ⟨?_, ?_, i2, ?_, ?_, ?_⟩
      · intro b hb
        simp only [hn]
        simp only [List.mem_append, List.mem_singleton] at hb
        rcases hb with hb | hb
        · exact i0 b hb
        · omega
      · intro b hb
        simp only [hn]
        simp only at hb
        split at hb
        · simp only [List.mem_append, List.mem_singleton] at hb
          rcases hb with hb | hb
          · exact i1 b hb
          · omega
        · exact i1 b hb
      · intro b hb; simp only [hn]; exact i3 b hb
      · rw [src]
        intro hl
        obtain ⟨j1, j2, j3, j4⟩ := i4 hl
        refine ⟨j1, ?_, j3, j4⟩
        simp only at hl
        simp [hl, j2]
      · rw [src]
        intro L hL
        obtain ⟨j1, j2, j3⟩ := i5 L hL
        simp only at hL
        simp only [hn, hL, Option.isSome_some, if_true, List.mem_append, List.mem_singleton]
        refine ⟨j1, j2, ?_⟩
        rintro b (hb | hb) hlt
        · rcases j3 b hb hlt with h | h | h
          · exact .inl (.inl h)
          · exact .inr (.inl h)
          · exact .inr (.inr h)
        · exact .inl (.inr hb)
    | @handle l r b a w hnet hw =>
      have we : ∀ r, .reset r ∈ watchEvents (evs ++ [.watch (.stamp a)]) ↔ .reset r ∈ watchEvents evs := by intro r; simp [watchEvents]
      have wa : activity (watchEvents (evs ++ [.watch (.stamp a)])) = activity (watchEvents evs) := by rw [watchEvents_append, activity_append]; simp [watchEvents, activity]
      have hb := i1 b (by rw [hnet]; simp)
      cases hw with
      | stamp hlen =>
        refine ⟨i0, ?_, by simpa using i2.append_right [s.w.now], ?_, ?_, ?_⟩
        · intro b' hb'; exact i1 b' (by rw [hnet]; simp at hb' ⊢; rcases hb' with h | h <;> simp [h])
        · intro p hp
          simp only [List.mem_append, List.mem_singleton] at hp
          rcases hp with hp | rfl
          · exact i3 p hp
          · exact ⟨hb.2, by show b ≤ s.w.now; omega⟩
        · intro hl
          obtain ⟨-, j2, -⟩ := i4 hl
          rw [j2] at hnet; simp at hnet
        · intro L hL
          obtain ⟨j1, j2, j3⟩ := i5 L hL
          refine ⟨j1, fun r => by rw [we]; exact j2 r, ?_⟩
          rw [wa]
          intro b' hb' hlt
          rcases j3 b' hb' hlt with h | ⟨a', h⟩ | h
          · rw [hnet] at h
            simp only [List.mem_append, List.mem_cons] at h ⊢
            rcases h with h | h | h
            · exact .inl (.inl h)
            · exact .inr (.inl ⟨s.w.now, .inr (by simp [h])⟩)
            · exact .inl (.inr h)
          · exact .inr (.inl ⟨a', List.mem_append_left _ h⟩)
          · exact .inr (.inr h)
    | @record a w hl hw =>
      have we : ∀ r, .reset r ∈ watchEvents (evs ++ [.watch (.stamp a)]) ↔ .reset r ∈ watchEvents evs := by intro r; simp [watchEvents]
      have wa : activity (watchEvents (evs ++ [.watch (.stamp a)])) = activity (watchEvents evs) := by rw [watchEvents_append, activity_append]; simp [watchEvents, activity]
      cases hw with
      | stamp hlen =>
        refine ⟨i0, i1, by simpa using i2.append_right [s.w.now], ?_, ?_, ?_⟩
        · intro p hp
          simp only [List.mem_append, List.mem_singleton] at hp
          rcases hp with hp | rfl
          · exact i3 p hp
          · exact ⟨by show s.ka.now < s.ka.now + _; omega, by show s.ka.now ≤ s.w.now; omega⟩
        · intro hl'; simp only at hl'; rw [hl'] at hl; cases hl
        · intro L hL
          obtain ⟨j1, j2, j3⟩ := i5 L hL
          refine ⟨j1, fun r => by rw [we]; exact j2 r, ?_⟩
          rw [wa]
          intro b' hb' hlt
          rcases j3 b' hb' hlt with h | ⟨a', h⟩ | h
          · exact .inl h
          · exact .inr (.inl ⟨a', List.mem_append_left _ h⟩)
          · exact .inr (.inr h)
    | @store l r b0 a w hh hw =>
      have we : ∀ r, .reset r ∈ watchEvents (evs ++ [.watch (.store a)]) ↔ .reset r ∈ watchEvents evs := by intro r; simp [watchEvents]
      have wa : activity (watchEvents (evs ++ [.watch (.store a)])) = activity (watchEvents evs) ++ [a] := by rw [watchEvents_append, activity_append]; simp [watchEvents, activity]
      have hsub : ∀ p ∈ l ++ r, p ∈ s.handling := by
        intro p hp; rw [hh]; simp at hp ⊢; rcases hp with h | h <;> simp [h]
      cases hw with
      | store l' r' _ hin =>
        refine ⟨i0, i1, ?_, fun p hp => i3 p (hsub p hp), ?_, ?_⟩
        · rw [hin, hh] at i2
          simp only [List.map_append, List.map_cons] at i2 ⊢
          exact ((List.perm_middle.symm.trans i2).trans List.perm_middle).cons_inv
        · intro hl
          obtain ⟨-, -, j3, -⟩ := i4 hl
          rw [j3] at hh; simp at hh
        · intro L hL
          obtain ⟨j1, j2, j3⟩ := i5 L hL
          refine ⟨j1, fun r => by rw [we]; exact j2 r, ?_⟩
          rw [wa]
          intro b' hb' hlt
          rcases j3 b' hb' hlt with h | ⟨a', h⟩ | ⟨a2, h, h'⟩
          · exact .inl h
          · have hle := (i3 _ h).2
            rw [hh] at h
            simp only [List.mem_append, List.mem_cons, Prod.mk.injEq] at h
            rcases h with h | ⟨-, rfl⟩ | h
            · exact .inr (.inl ⟨a', List.mem_append_left _ h⟩)
            · exact .inr (.inr ⟨a', by simp, hle⟩)
            · exact .inr (.inl ⟨a', List.mem_append_right _ h⟩)
          · exact .inr (.inr ⟨a2, by simp [h], h'⟩)
    | @watch e w hw hpl =>
      have wa : activity (watchEvents (evs ++ [.watch e])) = activity (watchEvents evs) := by
        rw [watchEvents_append, activity_append]
        cases e <;> simp [watchEvents, activity, WEv.plain] at hpl ⊢
      have hin : w.inflight = s.w.inflight := by
        cases hw with
        | stamp => cases hpl
        | store => cases hpl
        | _ => rfl
      have we : ∀ r, .reset r ∈ watchEvents (evs ++ [.watch e]) → .reset r ∈ watchEvents evs ∨ (r = s.w.now ∧ ∃ n, s.w.pc = .resetting n) := by
        intro r hmem
        rw [watchEvents_append, List.mem_append] at hmem
        rcases hmem with hmem | hmem
        · exact .inl hmem
        · simp [watchEvents] at hmem
          subst hmem
          cases hw with
          | reset hp => exact .inr ⟨rfl, _, hp⟩
      refine ⟨i0, i1, ?_, ?_, ?_, ?_⟩
      · simp only [hin]; exact i2
      · exact i3
      · intro hl
        obtain ⟨⟨j11, j12, j13, j14⟩, j2, j3, j4⟩ := i4 hl
        refine ⟨?_, j2, j3, ?_⟩
        · have hadv : advanceLastSeen s.w.lastSeen s.w.prev = none := by rw [j11]; rfl
          cases hw with
          | time => cases hpl
          | stamp => cases hpl
          | store => cases hpl
          | cancel | fire | tick => exact ⟨j11, j12, j13, j14⟩
          | start | return_ | expiry | decide | forget | takeTick | nothing => exact ⟨j11, j12, j13, by simp⟩
          | init => exact ⟨j11, by show (advanceLastSeen s.w.lastSeen s.w.prev).or s.w.prev = none; rw [hadv, j12]; rfl, j13, by simp⟩
          | renew _ h => rw [hadv] at h; cases h
          | observe _ h => rw [hadv] at h; cases h
          | update hp | noTimer hp | stopTrue hp | stopFalse hp | drain hp | reset hp => rw [hp] at j14; simp at j14
        · intro r hmem
          rcases we r hmem with h | ⟨-, n, h⟩
          · exact j4 r h
          · rw [h] at j14; simp at j14
      · intro L hL
        obtain ⟨j1, j2, j3⟩ := i5 L hL
        refine ⟨j1, ?_, by rw [wa]; exact j3⟩
        intro r hmem
        rcases we r hmem with h | ⟨h, -⟩
        · exact j2 r h
        · omega

/-- The handlers are as prompt as the messages. -/
theorem alive_prompt {t : Int} {evs : List AlEv} {s : Alive} (h : Alive.Run kc wc d snd (aliveStart t) evs s) (hD : 0 < d.deliver) :
    PromptRun wc d.deliver (watchStart t) (watchEvents evs) s.w := by
  generalize hs0 : aliveStart t = s0 at h
  induction h with
  | nil => subst hs0; exact .nil rfl
  | @snoc s s' evs ev hr hs ih =>
    subst hs0
    have hn := net_inv (hr.snoc hs) hD
    have hcl := (alive_clock (hr.snoc hs)).1
    have hfl : ∀ a ∈ s'.w.inflight, s'.w.now < a + d.deliver := by
      intro a ha
      obtain ⟨p, hp, rfl⟩ := List.mem_map.mp (hn.inflight.mem_iff.mp ha)
      have := hn.handling p hp
      omega
    have hcl0 := (alive_clock hr).1
    rw [watchEvents_append]
    cases hs with
    | time t' hle hm => exact ih.snoc (.time t' (by omega)) hfl
    | listen | src | announce | heartbeat => simpa [watchEvents] using ih
    | handle _ hw | record _ hw | store _ hw | watch hw => exact ih.snoc hw hfl

/-- A run is cut at one of its events. -/
theorem alive_split {s s' : Alive} {pre post : List AlEv} {ev : AlEv} (h : Alive.Run kc wc d snd s (pre ++ ev :: post) s') :
    ∃ s1 s2, Alive.Run kc wc d snd s pre s1 ∧ Alive.Step kc wc d snd s1 ev s2 ∧ Alive.Run kc wc d snd s2 post s' := by
  generalize he : pre ++ ev :: post = evs at h
  induction h generalizing post with
  | nil => simp at he
  | @snoc s' s'' evs ev' hr hs ih =>
    rcases List.eq_nil_or_concat post with rfl | ⟨post', e', rfl⟩
    · obtain ⟨rfl, e⟩ := List.append_inj' he rfl
      cases e
      exact ⟨_, _, hr, hs, .nil⟩
    · rw [List.concat_eq_append, ← List.cons_append, ← List.append_assoc] at he
      obtain ⟨he', e⟩ := List.append_inj' he rfl
      cases e
      obtain ⟨s1, s2, h1, h2, h3⟩ := ih he'
      exact ⟨s1, s2, h1, h2, by rw [List.concat_eq_append]; exact h3.snoc hs⟩

theorem alive_trans {s s' s'' : Alive} {evs evs' : List AlEv} (h : Alive.Run kc wc d snd s evs s') (h' : Alive.Run kc wc d snd s' evs' s'') :
    Alive.Run kc wc d snd s (evs ++ evs') s'' := by
  induction h' with
  | nil => simpa using h
  | snoc _ hs ih => rw [← List.append_assoc]; exact ih.snoc hs

/-- What is announced or listened to later is dated later. -/
theorem alive_later {t : Int} {s s1 s2 : Alive} {pre mid post : List AlEv}
    (h0 : Alive.Run kc wc d snd (aliveStart t) pre s1) (hm : Alive.Run kc wc d snd s1 mid s2) (h : Alive.Run kc wc d snd s2 post s) :
    (∀ A, s.announced = some A → s1.announced = some A ∨ s1.w.now ≤ A) ∧
    (∀ L, s.listening = some L → s1.listening = some L ∨ (s1.w.now ≤ L ∧ s1.listening = none)) := by
  have h' := alive_trans hm h
  clear h
  generalize mid ++ post = l at h'
  suffices hk : s1.ka.now ≤ s.ka.now ∧ (∀ A, s.announced = some A → s1.announced = some A ∨ s1.ka.now ≤ A) ∧
      (∀ L, s.listening = some L → s1.listening = some L ∨ (s1.ka.now ≤ L ∧ s1.listening = none)) ∧ (s.listening = none → s1.listening = none) by
    rw [← (alive_clock h0).1]; exact ⟨hk.2.1, hk.2.2.1⟩
  induction h' with
  | nil => exact ⟨Int.le_refl _, fun A h => .inl h, fun L h => .inl h, id⟩
  | @snoc s s' evs ev hr hs ih =>
    obtain ⟨i1, i2, i3, i4⟩ := ih
    have know : ∀ {e ka}, Ka.Step kc snd s.ka e ka → e ≠ .time → ka.now = s.ka.now := by
      intro e ka hk he
      cases hk with
      | time => exact absurd rfl he
      | endHeartbeat => unfold Ka.heartbeatDone; split <;> rfl
      | _ => rfl
    cases hs with
    | time t' hle _ => exact ⟨by show _ ≤ t'; omega, i2, i3, i4⟩
    | listen hl => exact ⟨i1, i2, fun L e => by cases e; exact .inr ⟨i1, i4 hl⟩, by simp⟩
    | @src e ka hk hpl => exact ⟨by rw [know hk (by rintro rfl; cases hpl)]; exact i1, i2, i3, i4⟩
    | announce hk => exact ⟨by rw [know hk (by simp)]; exact i1, fun A e => by cases e; exact .inr i1, i3, i4⟩
    | heartbeat hk => exact ⟨by rw [know hk (by simp)]; exact i1, i2, i3, i4⟩
    | handle | record | store | watch => exact ⟨i1, i2, i3, i4⟩

/-- What `C96_live_partial` and `C96_listeners_partial` share: `lag` is by how much activity recorded later may be older. -/
theorem alive_core {t A L t0 lag : Int} {evs : List AlEv} {s : Alive} (h : Alive.Run kc wc d snd (aliveStart t) evs s)
    (hS : 0 ≤ d.send) (hε : 0 ≤ d.tick) (hD : 0 < d.deliver) (hB : 2 * d.send + d.tick < kc.beaconEvery) (hg : 0 ≤ wc.grace)
    (hlag : 0 ≤ lag) (hact : ∀ {pre : List AlEv} {s1 : Alive} {w : Watch}, Alive.Run kc wc d snd (aliveStart t) pre s1 → Watch.Step wc s1.w (.decide s1.w.now) w →
      (∀ a i, .start a ∈ watchEvents pre → .init i ∈ watchEvents pre → i ≤ a + wc.grace) → ∀ a ∈ activity (watchEvents pre), a + wc.timeout ≤ s1.w.now + lag)
    (hT : longestGap kc d + d.deliver + lag < wc.timeout)
    (hA : s.announced = some A) (hA' : A + longestGap kc d + d.deliver ≤ t0 + wc.timeout)
    (hL : s.listening = some L) (hL' : L + longestGap kc d + d.deliver < t0 + wc.grace + wc.timeout)
    (ht0 : .watch (.start t0) ∈ evs) : .watch .forget ∉ evs := by
  intro hf
  have hcl := alive_clock h
  obtain ⟨f, hdec⟩ := C52_decided hcl.2 ((mem_watchEvents (by simp)).mpr hf)
  have hdec : .watch (.decide f) ∈ evs := (mem_watchEvents (by simp)).mp hdec
  have ht0 : .start t0 ∈ watchEvents evs := (mem_watchEvents (by simp)).mpr ht0
  obtain ⟨pre, post, rfl⟩ := List.append_of_mem hdec
  obtain ⟨s1, s2, h1, h2, h3⟩ := alive_split h
  obtain ⟨hnow1, hw1⟩ := alive_clock h1
  have hw2 : Watch.Run wc (watchStart t) (watchEvents pre ++ [.decide f]) s2.w ∧ Watch.Step wc s1.w (.decide f) s2.w ∧ f = s1.w.now := by
    cases h2 with
    | watch hw _ => exact ⟨hw1.snoc hw, hw, by cases hw; rfl⟩
  obtain ⟨hw2, hdecide, rfl⟩ := hw2
  have honce := watch_start_once hcl.2
  have hpre : ∀ e, e ∈ watchEvents pre → e ∈ watchEvents (pre ++ .watch (.decide s1.w.now) :: post) := by intro e he; rw [watchEvents_append]; simp [he]
  have hinit := (alive_init h1).2
  have hact := hact h1 hdecide (fun a i ha hi => by rw [hinit a i ha hi]; omega)
  have hsrc := source_inv h1 hS hε hB
  have hnet := net_inv h1 hD
  have hG : 0 ≤ longestGap kc d := by have := heartbeatEvery_pos (cfg := kc); unfold longestGap; omega
  -- when it was decided
  have hdue : t0 + wc.timeout ≤ s1.w.now ∧ (t0 + wc.grace + wc.timeout ≤ s1.w.now ∨ ∃ r, .reset r ∈ watchEvents pre ∧ r + wc.timeout ≤ s1.w.now) := by
    rcases C52_due hw2 with ⟨a, ha, _, hle⟩ | ⟨p, r, q, e, _, hle⟩
    · have := honce.2.2.1 a t0 (hpre _ ha) ht0
      subst this
      exact ⟨by omega, .inl hle⟩
    · have hr : .reset r ∈ watchEvents pre := by rw [e]; simp
      have := honce.2.2.2 t0 r ht0 (hpre _ hr)
      exact ⟨by omega, .inr ⟨r, hr, hle⟩⟩
  -- the source had announced itself, the client listened
  have hA1 : s1.announced = some A := by
    rcases (alive_later h1 (.snoc .nil h2) h3).1 A hA with h | h
    · exact h
    · omega
  have hL1 : s1.listening = some L := by
    rcases (alive_later h1 (.snoc .nil h2) h3).2 L hL with h | ⟨h, h'⟩
    · exact h
    · have := (hnet.unheard h').2.2.2
      rcases hdue.2 with h | ⟨r, hr, _⟩
      · omega
      · exact absurd hr (this r)
  have hL2 : L + 1 + longestGap kc d + d.deliver ≤ s1.w.now := by
    rcases hdue.2 with h | ⟨r, hr, h⟩
    · omega
    · have := (hnet.heard L hL1).2.1 r hr; omega
  have key : ∃ τ, A ≤ τ ∧ L < τ ∧ s1.w.now + lag < τ + wc.timeout ∧ τ + longestGap kc d + d.deliver ≤ s1.w.now := by
    refine ⟨max A (max (L + 1) (s1.w.now + lag - wc.timeout + 1)), by omega, by omega, by omega, by omega⟩
  obtain ⟨τ, k1, k2, k3, k4⟩ := key
  obtain ⟨b, hb, k5, k6⟩ := hsrc.window A hA1 τ k1 (by omega)
  rcases (hnet.heard L hL1).2.2 b hb (by omega) with h | ⟨a, h⟩ | ⟨a, ha, hle⟩
  · have := hnet.net b h; omega
  · have := (hnet.handling _ h).1; simp only at this; omega
  · have := hact a ha; omega

/-- C96, partial: a source that sends its heartbeats is not forgotten by a watch whose Timeout is longer than the longest time between two heartbeats and their delivery, if
the client listens to one address.  `A` is the time when the source had announced itself, `L` when the client listened, `t0` when the watch started.
Missing: what makes sends return in time, see C96_forgotten; for several listeners see C96_listeners_partial. -/
theorem C96_live_partial {t A L t0 : Int} {evs : List AlEv} {s : Alive} (h : Alive.Run kc wc d snd (aliveStart t) evs s)
    (hS : 0 ≤ d.send) (hε : 0 ≤ d.tick) (hD : 0 < d.deliver) (hB : 2 * d.send + d.tick < kc.beaconEvery) (hl : wc.listeners ≤ 1) (hg : 0 ≤ wc.grace)
    (hT : longestGap kc d + d.deliver < wc.timeout)
    (hA : s.announced = some A) (hA' : A + longestGap kc d + d.deliver ≤ t0 + wc.timeout)
    (hL : s.listening = some L) (hL' : L + longestGap kc d + d.deliver < t0 + wc.grace + wc.timeout)
    (ht0 : .watch (.start t0) ∈ evs) : .watch .forget ∉ evs :=
  alive_core (lag := 0) h hS hε hD hB hg (Int.le_refl _)
    (fun h1 hd hi a ha => by have := C52_active_partial ((alive_clock h1).2.snoc hd) hl hi a ha; omega)
    (by omega) hA hA' hL hL' ht0

/-- C96, partial: the same for a client with any number of listeners (serve.go:146-163 and log.go:88-105 start up to four), whose handlers may overtake each other.  The time a delivery
takes counts twice.  Missing: what makes sends return in time, see C96_forgotten. -/
theorem C96_listeners_partial {t A L t0 : Int} {evs : List AlEv} {s : Alive} (h : Alive.Run kc wc d snd (aliveStart t) evs s)
    (hS : 0 ≤ d.send) (hε : 0 ≤ d.tick) (hD : 0 < d.deliver) (hB : 2 * d.send + d.tick < kc.beaconEvery) (hg : 0 ≤ wc.grace)
    (hT : longestGap kc d + 2 * d.deliver < wc.timeout)
    (hA : s.announced = some A) (hA' : A + longestGap kc d + d.deliver ≤ t0 + wc.timeout)
    (hL : s.listening = some L) (hL' : L + longestGap kc d + d.deliver < t0 + wc.grace + wc.timeout)
    (ht0 : .watch (.start t0) ∈ evs) : .watch .forget ∉ evs :=
  alive_core (lag := d.deliver) h hS hε hD hB hg (by omega)
    (fun h1 hd hi a ha => by
      have hp := alive_prompt h1 hD
      have := C52_listeners_partial (hp.snoc hd (by cases hd; exact (lag_run hp).2)) hi a ha
      omega)
    (by omega) hA hA' hL hL' ht0

/-! ### Examples -/

/-- The defaults of manager.go:229-236 and the Timeout of serve.go:131: if a send takes two seconds at most (the delivery timeout of manager.go:270-273) and a tick is late by a second at
most, messages may take 20 seconds. -/
example {t A L t0 : Int} {evs : List AlEv} {s : Alive}
    (h : Alive.Run { source := {} } { timeout := 30000000000 } ⟨2000000000, 1000000000, 20000000000⟩ snd (aliveStart t) evs s)
    (hA : s.announced = some A) (hA' : A ≤ t0) (hL : s.listening = some L) (hL' : L < t0 + 1000000000) (ht0 : .watch (.start t0) ∈ evs) : .watch .forget ∉ evs := by
  have e : longestGap { source := {} } ⟨2000000000, 1000000000, 20000000000⟩ = 9000000000 := by decide
  exact C96_live_partial h (by decide) (by decide) (by decide) (by decide) (by decide) (by decide) (by rw [e]; decide) hA (by rw [e]; simp only; omega) hL (by rw [e]; simp only; omega) ht0

/-- The same for the four listeners of log.go:88-105: messages may take 10 seconds. -/
example {t A L t0 : Int} {evs : List AlEv} {s : Alive}
    (h : Alive.Run { source := {} } { timeout := 30000000000, listeners := 4 } ⟨2000000000, 1000000000, 10000000000⟩ snd (aliveStart t) evs s)
    (hA : s.announced = some A) (hA' : A ≤ t0) (hL : s.listening = some L) (hL' : L < t0 + 1000000000) (ht0 : .watch (.start t0) ∈ evs) : .watch .forget ∉ evs := by
  have e : longestGap { source := {} } ⟨2000000000, 1000000000, 10000000000⟩ = 9000000000 := by decide
  exact C96_listeners_partial h (by decide) (by decide) (by decide) (by decide) (by decide) (by rw [e]; decide) hA (by rw [e]; simp only; omega) hL (by rw [e]; simp only; omega) ht0

/-- A source with an interval of 20 between heartbeats and 41 between beacons; the delivery timeout is 20. -/
def exAliveKa : KaConfig := { source := {}, heartbeatInterval := 20, beaconInterval := 41 }
def exAliveWatch : WatchCfg := { timeout := 82, interval := 21 }
/-- Sends take up to 100. -/
def exAliveDelays : Delays := ⟨100, 0, 1⟩

/-- C96 does not hold for the code: a heartbeat is sent at 20 and handled at once, but not acknowledged; the delivery timeout of 20 does not end the call of Send (C42), no more
heartbeats are sent, and the watch forgets the source at 103.  Had the call ended after the delivery timeout, the Timeout of 82 would have been enough. -/
theorem C96_forgotten : ∃ evs s, Alive.Run exAliveKa exAliveWatch exAliveDelays (fun _ _ => True) (aliveStart 0) evs s ∧
    s.announced = some 0 ∧ s.listening = some 0 ∧ .watch (.start 0) ∈ evs ∧ s.ka.ctx = none ∧ .watch .forget ∈ evs ∧
    longestGap exAliveKa { exAliveDelays with send := exAliveKa.deliveryTimeout } + exAliveDelays.deliver < exAliveWatch.timeout ∧
    2 * exAliveKa.deliveryTimeout + exAliveDelays.tick < exAliveKa.beaconEvery := by
  have mp : ∀ {s : Alive} {t k b u r}, s.ka.pc = .sending k b u r → t ≤ b + 100 → t ≤ s.ka.heartbeatTick.next + 0 → t ≤ s.ka.beaconTick.next + 0 → s.net = [] → s.handling = [] → s.w.pc ≠ .init →
      s.MayPass exAliveDelays t := by
    intro s t k b u r h1 h2 h3 h4 h5 h6 h7
    refine ⟨?_, ?_, fun _ => ⟨h3, h4⟩, by simp [h5], by simp [h6], h7⟩
    · intro k' b' u' r' e; rw [h1] at e; cases e; exact h2
    · intro e; rw [h1] at e; cases e
  have r := (Alive.Run.nil (kc := exAliveKa) (wc := exAliveWatch) (d := exAliveDelays) (snd := fun _ _ => True) (s := aliveStart 0)).snoc (.src (.beginInit rfl) rfl)
  have r := r.snoc (.announce (.doneInit rfl trivial))
  have r := r.snoc (.listen rfl)
  have r := r.snoc (.watch (.start rfl) rfl)
  have r := r.snoc (.watch (.init rfl) rfl)
  have r := r.snoc (.time 20 (by decide) ⟨(by intro _ _ _ _ h; cases h), fun _ => ⟨rfl, rfl⟩, fun _ => by decide, (by intro b hb; cases hb), (by intro b hb; cases hb), (by intro h; cases h)⟩)
  have r := r.snoc (.src (.tickHeartbeat (by decide) (by intro h; cases h) (by intro _ _ _ h; cases h)) rfl)
  have r := r.snoc (.heartbeat (.beginHeartbeat rfl rfl))
  have r := r.snoc (.handle (l := []) (r := []) (b := 20) rfl (.stamp (by decide)))
  have r := r.snoc (.store (l := []) (r := []) rfl (.store [] [] 20 rfl))
  have r := r.snoc (.time 21 (by decide) (mp rfl (by decide) (by decide) (by decide) rfl rfl (by intro h; cases h)))
  have r := r.snoc (.watch (.tick (by intro h; cases h) (by decide)) rfl)
  have r := r.snoc (.watch (.takeTick rfl rfl) rfl)
  have r := r.snoc (.watch (.observe (next := 20) rfl rfl) rfl)
  have r := r.snoc (.watch (.update rfl) rfl)
  have r := r.snoc (.watch (.stopTrue (d := 82) rfl rfl) rfl)
  have r := r.snoc (.watch (.reset rfl) rfl)
  have r := r.snoc (.time 40 (by decide) (mp rfl (by decide) (by decide) (by decide) rfl rfl (by intro h; cases h)))
  have r := r.snoc (.src (.tickHeartbeat (by decide) (by intro h; cases h) (by intro _ _ _ h; cases h)) rfl)
  have r := r.snoc (.time 41 (by decide) (mp rfl (by decide) (by decide) (by decide) rfl rfl (by intro h; cases h)))
  have r := r.snoc (.src (.tickBeacon (by decide) (by intro h; cases h) (by intro _ _ _ h; cases h)) rfl)
  have r := r.snoc (.time 60 (by decide) (mp rfl (by decide) (by decide) (by decide) rfl rfl (by intro h; cases h)))
  have r := r.snoc (.src (.tickHeartbeat (by decide) (by intro h; cases h) (by intro _ _ _ h; cases h)) rfl)
  have r := r.snoc (.time 80 (by decide) (mp rfl (by decide) (by decide) (by decide) rfl rfl (by intro h; cases h)))
  have r := r.snoc (.src (.tickHeartbeat (by decide) (by intro h; cases h) (by intro _ _ _ h; cases h)) rfl)
  have r := r.snoc (.time 82 (by decide) (mp rfl (by decide) (by decide) (by decide) rfl rfl (by intro h; cases h)))
  have r := r.snoc (.src (.tickBeacon (by decide) (by intro h; cases h) (by intro _ _ _ h; cases h)) rfl)
  have r := r.snoc (.time 100 (by decide) (mp rfl (by decide) (by decide) (by decide) rfl rfl (by intro h; cases h)))
  have r := r.snoc (.src (.tickHeartbeat (by decide) (by intro h; cases h) (by intro _ _ _ h; cases h)) rfl)
  have r := r.snoc (.time 103 (by decide) (mp rfl (by decide) (by decide) (by decide) rfl rfl (by intro h; cases h)))
  have r := r.snoc (.watch (.fire (d := 103) rfl (by decide)) rfl)
  have r := r.snoc (.watch (.expiry (d := 103) rfl rfl) rfl)
  have r := r.snoc (.watch (.decide rfl rfl) rfl)
  have r := r.snoc (.watch (.forget rfl) rfl)
  exact ⟨_, _, r, rfl, rfl, by simp [kaStart, aliveStart, watchStart], rfl, by simp, by decide, by decide⟩

end Verif.Props
