import Verif.Spec.Keepalive
import Verif.Props.Messages
import Mathlib.Tactic.Linarith

/-!
# C41, C42, C67: keepalives
-/
namespace Verif.Props
open Verif Verif.Model Verif.Spec

variable {cfg : KaConfig} {snd : Callee}

/-- The first beacon is not yet out. -/
def Initial (s : Ka) : Prop := s.pc = .init ∨ ∃ b u r, s.pc = .sending .initial b u r

theorem heartbeatDone_pc (s : Ka) (r : KaRes) : (s.heartbeatDone r).pc = .loop := by
  unfold Ka.heartbeatDone; split <;> rfl

theorem heartbeatDone_rest (s : Ka) (r : KaRes) : (s.heartbeatDone r).now = s.now ∧ (s.heartbeatDone r).ctx = s.ctx ∧
    (s.heartbeatDone r).beaconTick = s.beaconTick ∧ (s.heartbeatDone r).heartbeatTick = s.heartbeatTick := by
  unfold Ka.heartbeatDone; split <;> exact ⟨rfl, rfl, rfl, rfl⟩

theorem ka_initial_step {s s' : Ka} {ev : KaEv} (h : Ka.Step cfg snd s ev s') (hi : Initial s) : Initial s' ∨ ev = .end_ .initial .ok := by
  cases h with
  | time => exact .inl hi
  | cancel e he hc =>
    left
    rcases hi with hp | ⟨b, u, r, hp⟩
    · exact .inl (by simp [hp])
    · cases r with
      | none => exact .inr ⟨b, u, some e, by simp [hp]⟩
      | some r => exact .inr ⟨b, u, some r, by simp [hp]⟩
  | expire hp _ =>
    left
    rcases hi with hq | ⟨b', u', r', hq⟩
    · rw [hp] at hq; cases hq
    · rw [hp] at hq; cases hq; exact .inr ⟨_, _, _, rfl⟩
  | beginInit => exact .inl (.inr ⟨_, _, _, rfl⟩)
  | retryInit => exact .inl (.inl rfl)
  | doneInit => exact .inr rfl
  | tickBeacon _ h1 h2 => exact (hi.elim (absurd · h1) (fun ⟨b, u, r, hq⟩ => absurd hq (h2 b u r)))
  | tickHeartbeat _ h1 h2 => exact (hi.elim (absurd · h1) (fun ⟨b, u, r, hq⟩ => absurd hq (h2 b u r)))
  | stop hp | beginBeacon hp | endBeacon hp | beginHeartbeat hp | endHeartbeat hp =>
    rcases hi with hq | ⟨b', u', r', hq⟩ <;> rw [hp] at hq <;> cases hq

theorem ka_announced {t : Int} {s : Ka} {evs : List KaEv} (h : Ka.Run cfg snd (kaStart t) evs s) :
    Initial s ∨ KaEv.end_ .initial .ok ∈ evs := by
  induction h with
  | nil => exact .inl (.inl rfl)
  | snoc _ hs ih =>
    rcases ih with ih | ih
    · rcases ka_initial_step hs ih with h | h
      · exact .inl h
      · exact .inr (by simp [h])
    · exact .inr (List.mem_append_left _ ih)

theorem ka_prefix {s0 s : Ka} {evs pre post : List KaEv} {ev : KaEv} (h : Ka.Run cfg snd s0 evs s) (he : evs = pre ++ ev :: post) :
    ∃ s1 s2, Ka.Run cfg snd s0 pre s1 ∧ Ka.Step cfg snd s1 ev s2 ∧ Ka.Run cfg snd s2 post s := by
  induction h generalizing post with
  | nil => simp at he
  | @snoc s' s'' evs ev' hr hs ih =>
    rcases List.eq_nil_or_concat post with hp | ⟨post', x, hp⟩
    · subst hp
      obtain ⟨h1, h2⟩ := List.append_inj' he rfl
      cases h2
      subst h1
      exact ⟨_, _, hr, hs, .nil⟩
    · subst hp
      rw [List.concat_eq_append, ← List.cons_append, ← List.append_assoc] at he
      obtain ⟨h1, h2⟩ := List.append_inj' he rfl
      cases h2
      obtain ⟨s1, s2, a, b, c⟩ := ih h1
      exact ⟨s1, s2, a, b, by rw [List.concat_eq_append]; exact c.snoc hs⟩

/-- C41: whatever the timers, the sender and the context do, no heartbeat (and no repeated beacon) is sent before a beacon has been
delivered. -/
theorem C41_announce_first {t : Int} {s : Ka} {pre post : List KaEv} {k : KaKind} {a : String} {m : Msg}
    (h : Ka.Run cfg snd (kaStart t) (pre ++ .begin_ k a m :: post) s) (hk : k ≠ .initial) : KaEv.end_ .initial .ok ∈ pre := by
  obtain ⟨s1, s2, h1, h2, _⟩ := ka_prefix h rfl
  rcases ka_announced h1 with hi | hi
  · rcases ka_initial_step h2 hi with h | h
    · cases h2 with
      | beginInit => exact absurd rfl hk
      | beginBeacon => rcases h with h | ⟨_, _, _, h⟩ <;> cases h
      | beginHeartbeat => rcases h with h | ⟨_, _, _, h⟩ <;> cases h
    · cases h
  · exact hi

theorem ka_now {s0 s : Ka} {evs : List KaEv} (h : Ka.Run cfg snd s0 evs s) : s0.now ≤ s.now := by
  induction h with
  | nil => exact le_refl _
  | snoc _ hs ih =>
    cases hs with
    | time _ h => exact le_trans ih h
    | endHeartbeat => rw [(heartbeatDone_rest _ _).1]; exact ih
    | _ => exact ih

theorem toUint32_toNat {v : Int} (h0 : 0 ≤ v) (h1 : v < 4294967296) : ((toUint32 v).toNat : Int) = v := by
  unfold toUint32
  rw [Int.emod_eq_of_lt h0 h1, UInt32.toNat_ofNat']
  have : v.toNat % 2 ^ 32 = v.toNat := Nat.mod_eq_of_lt (by omega)
  rw [this]; omega

/-- C41: every keepalive is readable and carries the source's identity and version; beacons go to the beacon address and carry the source's
addresses, heartbeats go to the source's (heartbeat) address and carry a time of this run. -/
theorem C41_content {t : Int} {s : Ka} {evs : List KaEv} (h : Ka.Run cfg snd (kaStart t) evs s) {k : KaKind} {a : String} {m : Msg}
    (hm : KaEv.begin_ k a m ∈ evs) (hv0 : 0 ≤ cfg.source.version) (hv1 : cfg.source.version < 4294967296) (reg : Registry) :
    if k = .heartbeat then
      a = (if cfg.useAlternateHeartbeatAddress then cfg.source.address ++ ".heartbeats" else cfg.source.address) ∧
      ∃ hb now, decodeMsg reg (some m) = .ok (.heartbeat hb) ∧ hb.identity = cfg.source.id ∧ (hb.version.toNat : Int) = cfg.source.version ∧
        t ≤ now ∧ now ≤ s.now ∧ (0 ≤ now → now / 1000 < 18446744073709551616 → (hb.now.toNat : Int) = now / 1000)
    else
      a = "mc/sfe.all" ∧
      ∃ b, decodeMsg reg (some m) = .ok (.beacon b) ∧ b.identity = cfg.source.id ∧ (b.version.toNat : Int) = cfg.source.version ∧
        b.sourceType = cfg.source.type ∧ b.address = cfg.source.address ∧ b.direct = cfg.source.direct := by
  obtain ⟨pre, post, he⟩ := List.append_of_mem hm
  obtain ⟨s1, s2, h1, h2, h3⟩ := ka_prefix h he
  have hv := toUint32_toNat hv0 hv1
  have hb : ∃ b, decodeMsg reg (some cfg.beacon.encode) = .ok (.beacon b) ∧ b.identity = cfg.source.id ∧
      (b.version.toNat : Int) = cfg.source.version ∧ b.sourceType = cfg.source.type ∧ b.address = cfg.source.address ∧
      b.direct = cfg.source.direct := ⟨_, rfl, rfl, hv, rfl, rfl, rfl⟩
  cases h2 with
  | beginInit => exact ⟨rfl, hb⟩
  | beginBeacon => exact ⟨rfl, hb⟩
  | beginHeartbeat =>
    refine ⟨rfl, _, s1.now, rfl, rfl, hv, ka_now h1, (by have := ka_now h3; exact this), ?_⟩
    intro h0 hlt
    show ((UInt64.ofNat (s1.now / 1000 % 18446744073709551616).toNat).toNat : Int) = _
    have h0' : 0 ≤ s1.now / 1000 := Int.ediv_nonneg h0 (by decide)
    rw [Int.emod_eq_of_lt h0' hlt, UInt64.toNat_ofNat']
    have : (s1.now / 1000).toNat % 2 ^ 64 = (s1.now / 1000).toNat := Nat.mod_eq_of_lt (by omega)
    rw [this]; omega

/-- Steps of the goroutine left, counting ticks that wait. -/
def kaLeft (s : Ka) : Nat :=
  let p := 2 * s.beaconTick.pending.toNat + 2 * s.heartbeatTick.pending.toNat
  match s.pc with
  | .stopped => 0
  | .loop => 1 + p
  | _ => 2 + p

theorem kaLeft_le (s : Ka) : kaLeft s ≤ 6 := by
  unfold kaLeft
  have h1 := Bool.toNat_le s.beaconTick.pending
  have h2 := Bool.toNat_le s.heartbeatTick.pending
  cases s.pc <;> simp <;> omega

theorem ka_left_step {s s' : Ka} {ev : KaEv} (h : Ka.Step cfg snd s ev s') (hi : ¬ Initial s) :
    ¬ Initial s' ∧ kaLeft s' + [ev].countP isOwn ≤ kaLeft s + 2 * [ev].countP (· = .tick) := by
  have hnot : ∀ {pc : KaPC} {x : Ka}, x.pc = pc → pc ≠ .init → (∀ b u r, pc ≠ .sending .initial b u r) → ¬ Initial x := by
    rintro pc x rfl h1 h2 (h | ⟨b, u, r, h⟩)
    · exact h1 h
    · exact h2 b u r h
  cases h with
  | time => exact ⟨hi, by simp [isOwn, kaLeft]⟩
  | cancel e he hc =>
    constructor
    · rintro (h | ⟨b, u, r, h⟩)
      · dsimp only at h; split at h
        · cases h
        · exact hi (.inl h)
      · dsimp only at h; split at h
        · rename_i hp; cases h; exact hi (.inr ⟨_, _, _, hp⟩)
        · exact hi (.inr ⟨_, _, _, h⟩)
    · simp only [kaLeft]
      rcases hp : s.pc with _ | ⟨k, b, u, _ | r⟩ | _ | _ <;> simp [isOwn]
  | @expire k b u hp _ =>
    refine ⟨hnot rfl (by simp) ?_, by simp [isOwn, kaLeft, hp]⟩
    rintro b' u' r' h; cases h; exact hi (.inr ⟨_, _, _, hp⟩)
  | beginInit hp => exact absurd (.inl hp) hi
  | retryInit hp => exact absurd (.inr ⟨_, _, _, hp⟩) hi
  | doneInit hp => exact absurd (.inr ⟨_, _, _, hp⟩) hi
  | tickBeacon =>
    refine ⟨hi, ?_⟩
    have h1 := Bool.toNat_le s.beaconTick.pending
    simp only [kaLeft, Ticker.fire]
    cases s.pc <;> simp [isOwn] <;> omega
  | tickHeartbeat =>
    refine ⟨hi, ?_⟩
    have h1 := Bool.toNat_le s.heartbeatTick.pending
    simp only [kaLeft, Ticker.fire]
    cases s.pc <;> simp [isOwn] <;> omega
  | stop hp => exact ⟨hnot rfl (by simp) (by simp), by simp [isOwn, kaLeft, hp]⟩
  | beginBeacon hp ht =>
    exact ⟨hnot rfl (by simp) (by simp), by simp [isOwn, kaLeft, hp, ht]; omega⟩
  | beginHeartbeat hp ht =>
    exact ⟨hnot rfl (by simp) (by simp), by simp [isOwn, kaLeft, hp, ht]; omega⟩
  | endBeacon hp => exact ⟨hnot rfl (by simp) (by simp), by simp [isOwn, kaLeft, hp]; omega⟩
  | endHeartbeat hp =>
    refine ⟨hnot (heartbeatDone_pc _ _) (by simp) (by simp), ?_⟩
    simp [isOwn, kaLeft, hp, heartbeatDone_pc, heartbeatDone_rest]; omega

theorem ka_left_run {s s' : Ka} {evs : List KaEv} (h : Ka.Run cfg snd s evs s') (hi : ¬ Initial s) :
    ¬ Initial s' ∧ kaLeft s' + evs.countP isOwn ≤ kaLeft s + 2 * evs.countP (· = .tick) := by
  induction h with
  | nil => exact ⟨hi, by simp⟩
  | snoc _ hs ih =>
    obtain ⟨h1, h2⟩ := ih
    obtain ⟨h3, h4⟩ := ka_left_step hs h1
    refine ⟨h3, ?_⟩
    rw [List.countP_append, List.countP_append]
    omega

/-- C41, stopping, the part that holds: once the first beacon has been delivered, the goroutine does at most two steps (one send) per
ticker firing, apart from at most six; and once the context has ended it is never stuck before it has returned, provided a send with an
ended context returns.  So after cancellation it returns as soon as no ticker fires any more (in Go, where `select` is random and
sends with an ended context are quick, sooner).  Missing for the full claim: cancellation before the first beacon is delivered, see
`C41_counterexample`. -/
theorem C41_stops_partial {t : Int} {s : Ka} {evs : List KaEv} (h : Ka.Run cfg snd (kaStart t) evs s)
    (hfirst : KaEv.end_ .initial .ok ∈ evs)
    {evs' : List KaEv} {s' : Ka} (h' : Ka.Run cfg snd s evs' s') :
    evs'.countP isOwn ≤ 6 + 2 * evs'.countP (· = .tick) ∧
      (s.ctx.isSome = true → Returns snd → s'.pc = .stopped ∨ ∃ ev s'', isOwn ev = true ∧ Ka.Step cfg snd s' ev s'') := by
  obtain ⟨pre, post, he⟩ := List.append_of_mem hfirst
  obtain ⟨s1, s2, _, h2, h3⟩ := ka_prefix h he
  have hi2 : ¬ Initial s2 := by
    generalize hev : KaEv.end_ .initial .ok = ev at h2
    cases h2 with
    | retryInit => simp [sendResult] at hev; split at hev <;> cases hev
    | doneInit => rintro (h | ⟨b, u, r, h⟩) <;> cases h
    | _ => cases hev
  have hi := (ka_left_run h3 hi2).1
  obtain ⟨hi', hle⟩ := ka_left_run h' hi
  refine ⟨by have := kaLeft_le s; omega, fun hc hret => ?_⟩
  have hc' : s'.ctx.isSome = true := by
    clear hle hi' hi h3 h2 h he hfirst
    induction h' with
    | nil => exact hc
    | snoc _ hs ih =>
      cases hs with
      | cancel e _ hn => simp
      | endHeartbeat => rw [(heartbeatDone_rest _ _).2.1]; exact ih
      | _ => exact ih
  obtain ⟨e, hce⟩ := Option.isSome_iff_exists.1 hc'
  obtain ⟨r, hr⟩ := hret e
  rw [← hce] at hr
  rcases hp : s'.pc with _ | ⟨k, b, u, q⟩ | _ | _
  · exact absurd (.inl hp) hi'
  · right
    cases k with
    | initial => exact absurd (.inr ⟨_, _, _, hp⟩) hi'
    | beacon => exact ⟨_, _, rfl, .endBeacon hp hr⟩
    | heartbeat => exact ⟨_, _, rfl, .endHeartbeat hp hr⟩
  · exact .inr ⟨_, _, rfl, .stop hp hc'⟩
  · exact .inl rfl

/-- C41 does not hold as stated: if the context ends before the first beacon is delivered, the goroutine never returns and never rests,
whatever happens, with every sender that reports the end of the context it is given (as the container's senders do).  Lines 262-268 do
not look at the context. -/
theorem C41_counterexample (hr : Refuses snd) (hret : Returns snd) (t : Int) :
    ∃ evs s, Ka.Run cfg snd (kaStart t) evs s ∧ s.ctx = some .canceled ∧
      ∀ evs' s', Ka.Run cfg snd s evs' s' → s'.pc ≠ .stopped ∧ ∃ ev s'', isOwn ev = true ∧ Ka.Step cfg snd s' ev s'' := by
  refine ⟨_, _, Ka.Run.nil.snoc (.cancel .canceled (.inl rfl) rfl), rfl, ?_⟩
  intro evs' s' h'
  have hinv : Initial s' ∧ s'.ctx = some .canceled := by
    generalize hs0 : ({ kaStart t with ctx := some .canceled, pc := _ } : Ka) = s0 at h'
    induction h' with
    | nil => subst hs0; exact ⟨.inl rfl, rfl⟩
    | snoc _ hs ih =>
      obtain ⟨hi, hc⟩ := ih
      refine ⟨(ka_initial_step hs hi).resolve_right ?_, ?_⟩
      · rintro rfl
        generalize hev : KaEv.end_ .initial .ok = ev at hs
        cases hs with
        | retryInit => simp [sendResult] at hev; split at hev <;> cases hev
        | doneInit _ hn => rw [hc] at hn; exact hr _ hn
        | _ => cases hev
      · cases hs with
        | cancel e _ hn => rw [hc] at hn; cases hn
        | endHeartbeat => rw [(heartbeatDone_rest _ _).2.1]; exact hc
        | _ => exact hc
  obtain ⟨hi, hc⟩ := hinv
  rcases hi with hp | ⟨b, u, q, hp⟩
  · exact ⟨by rw [hp]; simp, _, _, rfl, .beginInit hp⟩
  · obtain ⟨r, hn⟩ := hret .canceled
    cases r with
    | none => exact absurd hn (hr _)
    | some e => exact ⟨by rw [hp]; simp, _, _, rfl, .retryInit hp (by rw [hc]; exact hn)⟩

/-- The sender that is never acknowledged is such a sender. -/
theorem patient_refuses : Refuses patient := by rintro e ⟨e', _, h⟩; cases h
theorem patient_returns : Returns patient := fun e => ⟨some e, e, rfl, rfl⟩

/-! ## C42 -/

theorem ka_ctx {s0 s : Ka} {evs : List KaEv} (h : Ka.Run cfg snd s0 evs s) (h0 : ∀ e, s0.ctx = some e → e.IsCtx) :
    ∀ e, s.ctx = some e → e.IsCtx := by
  induction h with
  | nil => exact h0
  | snoc _ hs ih =>
    cases hs with
    | cancel e he _ => intro e' h; cases h; exact he
    | endHeartbeat => rw [(heartbeatDone_rest _ _).2.1]; exact ih
    | _ => exact ih

theorem sendResult_ended {e : GoErr} {q : Option GoErr} {c : GoErr} : sendResult (some e) q (some c) = .failed e := by
  simp [sendResult]

/-- C42 does not hold as stated: to a sender that is never acknowledged and returns only when the context it was given ends, no keepalive
send ever times out, although requestCtx ends: line 333 passes `ctx`, not `requestCtx`.  Whatever the schedule, no send returns while
`ctx` is live, and none ever returns the timeout error. -/
theorem C42_counterexample {t : Int} {s : Ka} {evs : List KaEv} (h : Ka.Run cfg patient (kaStart t) evs s) :
    (∀ k r, KaEv.end_ k r ∈ evs → r ≠ .failed .sendTimeout) ∧
      (s.ctx = none → ∀ k r, KaEv.end_ k r ∉ evs) := by
  induction h with
  | nil => exact ⟨by simp, by simp⟩
  | @snoc s s' evs ev hr hs ih =>
    have hctx := ka_ctx hr (by simp [kaStart])
    have hsilent : (∀ k r, ev ≠ .end_ k r) → (s'.ctx = none → s.ctx = none) → (∀ k r, KaEv.end_ k r ∈ evs ++ [ev] → r ≠ .failed .sendTimeout) ∧
        (s'.ctx = none → ∀ k r, KaEv.end_ k r ∉ evs ++ [ev]) := by
      intro h1 h2
      refine ⟨fun k r hm => ?_, fun hc k r hm => ?_⟩
      all_goals
        rcases List.mem_append.1 hm with hm | hm
        · first | exact ih.1 k r hm | exact ih.2 (h2 hc) k r hm
        · rw [List.mem_singleton] at hm; exact absurd hm.symm (h1 k r)
    have hend : ∀ k e q, ev = .end_ k (sendResult (some e) q s.ctx) → s.ctx = some e → s'.ctx = s.ctx →
        (∀ k r, KaEv.end_ k r ∈ evs ++ [ev] → r ≠ .failed .sendTimeout) ∧ (s'.ctx = none → ∀ k r, KaEv.end_ k r ∉ evs ++ [ev]) := by
      intro k e q hev hc hc'
      refine ⟨fun k' r hm => ?_, fun hn => by rw [hc', hc] at hn; cases hn⟩
      rcases List.mem_append.1 hm with hm | hm
      · exact ih.1 k' r hm
      · rw [List.mem_singleton, hev, hc, sendResult_ended] at hm
        cases hm
        rcases hctx e hc with h | h <;> simp [h]
    cases hs with
    | retryInit _ hn => obtain ⟨e', hc, he⟩ := hn; cases he; exact hend _ _ _ rfl hc rfl
    | doneInit _ hn => obtain ⟨_, _, he⟩ := hn; cases he
    | endBeacon _ hn => obtain ⟨e', hc, rfl⟩ := hn; exact hend _ _ _ rfl hc rfl
    | endHeartbeat _ hn => obtain ⟨e', hc, rfl⟩ := hn; exact hend _ _ _ rfl hc (heartbeatDone_rest _ _).2.1
    | cancel => exact hsilent (by simp) (by simp)
    | _ => exact hsilent (by simp) (fun h => h)

/-- An execution to which `C42_counterexample` applies: a send that is overdue by any amount of time. -/
example (cfg : KaConfig) (d : Int) (hd : 0 ≤ d) : ∃ evs s b u, Ka.Run cfg patient (kaStart 0) evs s ∧ s.ctx = none ∧
    s.pc = .sending .initial b u (some .deadline) ∧ u = b + cfg.beaconEvery ∧ s.now = u + d := by
  have hpos : 0 < cfg.beaconEvery := by unfold KaConfig.beaconEvery; split <;> omega
  have r1 := Ka.Run.nil (cfg := cfg) (snd := patient) (s := kaStart 0)
  have r2 := r1.snoc (.beginInit rfl)
  have r3 := r2.snoc (.time (0 + cfg.beaconEvery + d) (by show (0 : Int) ≤ _; omega))
  have r4 := r3.snoc (.expire rfl (by show 0 + cfg.beaconEvery ≤ 0 + cfg.beaconEvery + d; omega))
  exact ⟨_, _, _, _, r4, rfl, rfl, rfl, rfl⟩

/-- The delivery timeout of a kind of send (lines 263, 285, 296). -/
def timeoutOf (cfg : KaConfig) (k : KaKind) : Int :=
  if k = .initial then cfg.beaconEvery else min cfg.beaconEvery cfg.heartbeatEvery

theorem deliveryTimeout_min : cfg.deliveryTimeout = min cfg.beaconEvery cfg.heartbeatEvery := by
  unfold KaConfig.deliveryTimeout; split <;> omega

/-- What requestCtx knows. -/
def ReqOK (cfg : KaConfig) (s : Ka) : Prop := ∀ k b u q, s.pc = .sending k b u q → u = b + timeoutOf cfg k ∧ b ≤ s.now ∧
  (s.ctx.isSome = true → q.isSome = true) ∧ ∀ e, q = some e → s.ctx = none → e = .deadline ∧ u ≤ s.now

theorem reqOK_run {t : Int} {s : Ka} {evs : List KaEv} (h : Ka.Run cfg snd (kaStart t) evs s) : ReqOK cfg s := by
  induction h with
  | nil => intro k b u q h; cases h
  | @snoc s s' _ _ _ hs ih =>
    cases hs with
    | time t' ht =>
      intro k b u q h
      obtain ⟨h1, h2, h3, h4⟩ := ih k b u q h
      exact ⟨h1, le_trans h2 ht, h3, fun e he hc => ⟨(h4 e he hc).1, le_trans (h4 e he hc).2 ht⟩⟩
    | cancel e _ hn =>
      intro k b u q h
      dsimp only at h
      split at h
      · rename_i hp; cases h
        obtain ⟨h1, h2, _, _⟩ := ih _ _ _ _ hp
        exact ⟨h1, h2, by simp, by simp⟩
      · rename_i hp
        obtain ⟨h1, h2, _, _⟩ := ih _ _ _ _ h
        refine ⟨h1, h2, fun _ => ?_, by simp⟩
        cases q with
        | none => exact absurd h (hp _ _ _)
        | some => rfl
    | expire hp hu =>
      intro k b u q h; cases h
      obtain ⟨h1, h2, _, _⟩ := ih _ _ _ _ hp
      exact ⟨h1, h2, by simp, fun e he _ => ⟨by cases he; rfl, hu⟩⟩
    | beginInit =>
      intro k b u q h; cases h
      exact ⟨by simp [timeoutOf], le_refl _, fun h => h, fun e he hc => by dsimp only at hc; rw [hc] at he; cases he⟩
    | beginBeacon =>
      intro k b u q h; cases h
      exact ⟨by simp [timeoutOf, deliveryTimeout_min], le_refl _, fun h => h, fun e he hc => by dsimp only at hc; rw [hc] at he; cases he⟩
    | beginHeartbeat =>
      intro k b u q h; cases h
      exact ⟨by simp [timeoutOf, deliveryTimeout_min], le_refl _, fun h => h, fun e he hc => by dsimp only at hc; rw [hc] at he; cases he⟩
    | tickBeacon => exact ih
    | tickHeartbeat => exact ih
    | endHeartbeat => intro k b u q h; rw [heartbeatDone_pc] at h; cases h
    | _ => intro k b u q h; cases h

/-- C42, the part that holds, for every sender that does not itself use the manager's timeout error: a keepalive send returns the timeout
error only after its delivery timeout has passed and with `ctx` still live; and it may return it as soon as requestCtx has ended,
`ctx` is live and the sender gives up with a deadline error.  Missing: nothing makes the sender give up, see `C42_counterexample`. -/
theorem C42_timeout_partial {t : Int} {s : Ka} {evs : List KaEv} (h : Ka.Run cfg snd (kaStart t) evs s)
    (hsnd : ∀ c e, snd c (some e) → e ≠ .sendTimeout) {k : KaKind} {b u : Int} {q : Option GoErr} (hp : s.pc = .sending k b u q) :
    u = b + timeoutOf cfg k ∧
    (∀ s', Ka.Step cfg snd s (.end_ k (.failed .sendTimeout)) s' → s.ctx = none ∧ b + timeoutOf cfg k ≤ s.now) ∧
    (∀ e, snd s.ctx (some e) → e.is .deadline = true → q.isSome = true → s.ctx = none →
      ∃ s', Ka.Step cfg snd s (.end_ k (.failed .sendTimeout)) s') := by
  obtain ⟨h1, h2, h3, h4⟩ := reqOK_run h k b u q hp
  refine ⟨h1, ?_, ?_⟩
  · intro s' hs
    have key : ∀ (r : Option GoErr) q', s.pc = .sending k b u q' → snd s.ctx r → KaRes.failed .sendTimeout = sendResult r q' s.ctx →
        s.ctx = none ∧ b + timeoutOf cfg k ≤ s.now := by
      intro r q' hq hr he
      rw [hp] at hq; cases hq
      cases r with
      | none => cases he
      | some e =>
        simp only [sendResult] at he
        split at he
        · rename_i hb
          simp only [Bool.and_eq_true, Option.isNone_iff_eq_none] at hb
          cases q with
          | none => simp [errorsIs] at hb
          | some e' => exact ⟨hb.2, h1 ▸ (h4 e' rfl hb.2).2⟩
        · cases he; exact absurd rfl (hsnd _ _ hr)
    generalize hev : KaEv.end_ k (.failed .sendTimeout) = ev at hs
    cases hs with
    | retryInit hq hr =>
      rw [KaEv.end_.injEq] at hev; rw [hp] at hq; cases hq; exact key _ _ hp hr hev.2
    | doneInit => cases hev
    | endBeacon hq hr =>
      rw [KaEv.end_.injEq] at hev; rw [hp] at hq; cases hq; exact key _ _ hp hr hev.2
    | endHeartbeat hq hr =>
      rw [KaEv.end_.injEq] at hev; rw [hp] at hq; cases hq; exact key _ _ hp hr hev.2
    | _ => cases hev
  · intro e he hd hq hc
    cases q with
    | none => simp at hq
    | some q =>
      obtain ⟨rfl, _⟩ := h4 q rfl hc
      have hr : sendResult (some e) (some .deadline) s.ctx = .failed .sendTimeout := by
        simp [sendResult, errorsIs, hd, hc]
      rw [← hr]
      cases k with
      | initial => exact ⟨_, .retryInit hp he⟩
      | beacon => exact ⟨_, .endBeacon hp he⟩
      | heartbeat => exact ⟨_, .endHeartbeat hp he⟩

/-! ## C67 -/

/-- A ticker that was started at `t0` with period `p`, after `n` of its ticks have been taken. -/
def TickOK (p t0 now : Int) (n : Nat) (t : Ticker) : Prop :=
  t0 + p * (1 + n + t.pending.toNat) ≤ t.next ∧ t.next - p ≤ now ∧ t0 ≤ now

theorem TickOK.time {p t0 now now' : Int} {n : Nat} {t : Ticker} (h : TickOK p t0 now n t) (hn : now ≤ now') : TickOK p t0 now' n t :=
  ⟨h.1, le_trans h.2.1 hn, le_trans h.2.2 hn⟩

theorem TickOK.fire {p t0 now : Int} {n : Nat} {t : Ticker} (hp : 0 < p) (h : TickOK p t0 now n t) (hn : t.next ≤ now) :
    TickOK p t0 now n (t.fire p now) := by
  obtain ⟨h1, h2, h3⟩ := h
  have hq : 0 ≤ (now - t.next) / p := Int.ediv_nonneg (by omega) (by omega)
  have hm : p * ((now - t.next) / p) ≤ now - t.next := Int.mul_ediv_self_le (by omega)
  refine ⟨?_, ?_, h3⟩
  · simp only [Ticker.fire, Bool.toNat_true, Nat.cast_one]
    have h4 : t0 + p * (1 + n) ≤ t.next := by
      refine le_trans ?_ h1
      have : (0 : Int) ≤ p * t.pending.toNat := Int.mul_nonneg (by omega) (by omega)
      linarith [Int.mul_add p (1 + n) t.pending.toNat]
    have : 0 ≤ p * ((now - t.next) / p) := Int.mul_nonneg (by omega) hq
    linarith
  · simp only [Ticker.fire]
    linarith

theorem TickOK.take {p t0 now : Int} {n : Nat} {t : Ticker} (h : TickOK p t0 now n t) (hp : t.pending = true) :
    TickOK p t0 now (n + 1) { t with pending := false } := by
  obtain ⟨h1, h2, h3⟩ := h
  refine ⟨?_, h2, h3⟩
  simp only [hp, Bool.toNat_true] at h1
  simp only [Bool.toNat_false]
  push_cast at h1 ⊢
  linarith

theorem beaconEvery_pos : 0 < cfg.beaconEvery := by unfold KaConfig.beaconEvery; split <;> omega
theorem heartbeatEvery_pos : 0 < cfg.heartbeatEvery := by unfold KaConfig.heartbeatEvery; split <;> omega

theorem ka_ticks {t : Int} {s : Ka} {evs : List KaEv} (h : Ka.Run cfg snd (kaStart t) evs s) :
    (Initial s ∧ evs.countP (isBegin .beacon) = 0 ∧ evs.countP (isBegin .heartbeat) = 0) ∨
      ¬ Initial s ∧ ∃ t0, t ≤ t0 ∧ TickOK cfg.beaconEvery t0 s.now (evs.countP (isBegin .beacon)) s.beaconTick ∧
        TickOK cfg.heartbeatEvery t0 s.now (evs.countP (isBegin .heartbeat)) s.heartbeatTick := by
  induction h with
  | nil => exact .inl ⟨.inl rfl, rfl, rfl⟩
  | @snoc s s' evs ev hr hs ih =>
    simp only [List.countP_append, List.countP_singleton]
    rcases ih with ⟨hi, h1, h2⟩ | ⟨hi, t0, ht0, h1, h2⟩
    · rcases ka_initial_step hs hi with hi' | rfl
      · left
        refine ⟨hi', ?_⟩
        have : isBegin .beacon ev = false ∧ isBegin .heartbeat ev = false := by
          cases hs with
          | beginBeacon hp => rcases hi with h | ⟨_, _, _, h⟩ <;> rw [hp] at h <;> cases h
          | beginHeartbeat hp => rcases hi with h | ⟨_, _, _, h⟩ <;> rw [hp] at h <;> cases h
          | _ => exact ⟨rfl, rfl⟩
        simp [h1, h2, this]
      · right
        have hnow := ka_now hr
        generalize hev : KaEv.end_ .initial .ok = ev at hs
        cases hs with
        | doneInit =>
          refine ⟨(by rintro (h | ⟨b, u, r, h⟩) <;> cases h), s.now, hnow, ?_, ?_⟩
          · simp [h1, isBegin, TickOK]
          · simp [h2, isBegin, TickOK]
        | retryInit => simp [sendResult] at hev; split at hev <;> cases hev
        | endBeacon hp => rcases hi with h | ⟨_, _, _, h⟩ <;> rw [hp] at h <;> cases h
        | endHeartbeat hp => rcases hi with h | ⟨_, _, _, h⟩ <;> rw [hp] at h <;> cases h
        | _ => cases hev
    · right
      refine ⟨(ka_left_step hs hi).1, t0, ht0, ?_⟩
      cases hs with
      | time t' h => exact ⟨h1.time h, h2.time h⟩
      | tickBeacon h => exact ⟨h1.fire beaconEvery_pos h, h2⟩
      | tickHeartbeat h => exact ⟨h1, h2.fire heartbeatEvery_pos h⟩
      | beginBeacon _ h => exact ⟨h1.take h, h2⟩
      | beginHeartbeat _ h => exact ⟨h1, h2.take h⟩
      | endHeartbeat =>
        obtain ⟨e1, _, e2, e3⟩ := heartbeatDone_rest s (sendResult _ _ s.ctx)
        rw [e1, e2, e3]
        exact ⟨h1, h2⟩
      | doneInit hp => exact absurd (.inr ⟨_, _, _, hp⟩) hi
      | _ => exact ⟨h1, h2⟩

/-- C67: keepalives do not flood: however late timers fire and however slow sends are, the heartbeats sent (and the repeated beacons) are
never more than the full intervals that have passed. -/
theorem C67_rate {t : Int} {s : Ka} {evs : List KaEv} (h : Ka.Run cfg snd (kaStart t) evs s) :
    (evs.countP (isBegin .heartbeat) : Int) * cfg.heartbeatEvery ≤ s.now - t ∧
      (evs.countP (isBegin .beacon) : Int) * cfg.beaconEvery ≤ s.now - t := by
  have hnow : t ≤ s.now := ka_now h
  have key : ∀ {p t0 : Int} {n : Nat} {tk : Ticker}, 0 < p → TickOK p t0 s.now n tk → t ≤ t0 → (n : Int) * p ≤ s.now - t := by
    intro p t0 n tk hp ⟨h1, h2, h3⟩ h4
    have : (0 : Int) ≤ p * tk.pending.toNat := Int.mul_nonneg (by omega) (by omega)
    linarith [Int.mul_add p (1 + n) tk.pending.toNat, Int.mul_add p 1 n, Int.mul_comm p n]
  rcases ka_ticks h with ⟨_, h1, h2⟩ | ⟨_, t0, ht0, h1, h2⟩
  · rw [h1, h2]; simp; omega
  · exact ⟨key heartbeatEvery_pos h2 ht0, key beaconEvery_pos h1 ht0⟩

/-- A ticker at a moment after `t1`, when `n` of its ticks have been taken since `t1`. -/
def WinOK (p t1 now : Int) (n : Nat) (t : Ticker) : Prop :=
  n + t.pending.toNat ≤ 1 ∨ (t1 < t.next ∧ ((n + t.pending.toNat : Nat) : Int) * p ≤ 2 * p + (t.next - t1) ∧ t.next ≤ now + p)

theorem WinOK.time {p t1 now now' : Int} {n : Nat} {t : Ticker} (h : WinOK p t1 now n t) (hn : now ≤ now') : WinOK p t1 now' n t :=
  h.imp id fun ⟨h1, h2, h3⟩ => ⟨h1, h2, by omega⟩

theorem WinOK.fire {p t1 now : Int} {n : Nat} {t : Ticker} (hp : 0 < p) (ht : t1 ≤ now) (h : WinOK p t1 now n t) (hn : t.next ≤ now) :
    WinOK p t1 now n (t.fire p now) := by
  have hm : p * ((now - t.next) / p) ≤ now - t.next := Int.mul_ediv_self_le (by omega)
  have hq : 0 ≤ p * ((now - t.next) / p) := Int.mul_nonneg (by omega) (Int.ediv_nonneg (by omega) (by omega))
  have hlt : now - t.next < p * ((now - t.next) / p) + p := Int.lt_mul_ediv_self_add hp
  have he : p * (1 + (now - t.next) / p) = p + p * ((now - t.next) / p) := by rw [Int.mul_add, Int.mul_one]
  right
  simp only [Ticker.fire, Bool.toNat_true, he]
  refine ⟨by omega, ?_, by omega⟩
  rcases h with h | ⟨h1, h2, h3⟩
  · have : ((n + 1 : Nat) : Int) * p ≤ 2 * p := Int.mul_le_mul_of_nonneg_right (by omega) (by omega)
    omega
  · have h4 : ((n + 1 : Nat) : Int) * p ≤ ((n + t.pending.toNat : Nat) : Int) * p + p := by
      have : ((n + 1 : Nat) : Int) * p ≤ ((n + t.pending.toNat + 1 : Nat) : Int) * p := Int.mul_le_mul_of_nonneg_right (by omega) (by omega)
      refine le_trans this (le_of_eq ?_)
      push_cast
      rw [Int.add_mul _ 1 p, Int.one_mul]
    omega

theorem WinOK.take {p t1 now : Int} {n : Nat} {t : Ticker} (h : WinOK p t1 now n t) (hp : t.pending = true) :
    WinOK p t1 now (n + 1) { t with pending := false } := by
  simpa [WinOK, hp] using h

/-- C67: nor do they burst: in any stretch of time, however long the goroutine or its timers were held up before it, there are at most three more
heartbeats (and three more repeated beacons) than the intervals in that stretch. -/
theorem C67_no_burst {t : Int} {s s' : Ka} {evs evs' : List KaEv} (_h : Ka.Run cfg snd (kaStart t) evs s) (h' : Ka.Run cfg snd s evs' s') :
    (evs'.countP (isBegin .heartbeat) : Int) * cfg.heartbeatEvery ≤ s'.now - s.now + 3 * cfg.heartbeatEvery ∧
      (evs'.countP (isBegin .beacon) : Int) * cfg.beaconEvery ≤ s'.now - s.now + 3 * cfg.beaconEvery := by
  have hnow : s.now ≤ s'.now := ka_now h'
  have key : ∀ {p : Int} {n : Nat} {tk : Ticker}, 0 < p → WinOK p s.now s'.now n tk → (n : Int) * p ≤ s'.now - s.now + 3 * p := by
    intro p n tk hp h
    rcases h with h | ⟨h1, h2, h3⟩
    · have : (n : Int) * p ≤ 1 * p := Int.mul_le_mul_of_nonneg_right (by omega) (by omega)
      omega
    · have : (n : Int) * p ≤ ((n + tk.pending.toNat : Nat) : Int) * p := Int.mul_le_mul_of_nonneg_right (by omega) (by omega)
      omega
  have main : (Initial s' ∧ evs'.countP (isBegin .beacon) = 0 ∧ evs'.countP (isBegin .heartbeat) = 0) ∨
      ¬ Initial s' ∧ WinOK cfg.beaconEvery s.now s'.now (evs'.countP (isBegin .beacon)) s'.beaconTick ∧
        WinOK cfg.heartbeatEvery s.now s'.now (evs'.countP (isBegin .heartbeat)) s'.heartbeatTick := by
    clear key hnow
    induction h' with
    | nil =>
      by_cases hi : Initial s
      · exact .inl ⟨hi, rfl, rfl⟩
      · refine .inr ⟨hi, .inl ?_, .inl ?_⟩
        · cases s.beaconTick.pending <;> simp
        · cases s.heartbeatTick.pending <;> simp
    | @snoc s' s'' evs ev hr hs ih =>
      have hnow := ka_now hr
      simp only [List.countP_append, List.countP_singleton]
      rcases ih with ⟨hi, h1, h2⟩ | ⟨hi, h1, h2⟩
      · rcases ka_initial_step hs hi with hi' | rfl
        · left
          refine ⟨hi', ?_⟩
          have : isBegin .beacon ev = false ∧ isBegin .heartbeat ev = false := by
            cases hs with
            | beginBeacon hp => rcases hi with h | ⟨_, _, _, h⟩ <;> rw [hp] at h <;> cases h
            | beginHeartbeat hp => rcases hi with h | ⟨_, _, _, h⟩ <;> rw [hp] at h <;> cases h
            | _ => exact ⟨rfl, rfl⟩
          simp [h1, h2, this]
        · right
          generalize hev : KaEv.end_ .initial .ok = ev at hs
          cases hs with
          | doneInit =>
            refine ⟨(by rintro (h | ⟨b, u, r, h⟩) <;> cases h), .inl ?_, .inl ?_⟩
            · simp [h1, isBegin]
            · simp [h2, isBegin]
          | retryInit => simp [sendResult] at hev; split at hev <;> cases hev
          | endBeacon hp => rcases hi with h | ⟨_, _, _, h⟩ <;> rw [hp] at h <;> cases h
          | endHeartbeat hp => rcases hi with h | ⟨_, _, _, h⟩ <;> rw [hp] at h <;> cases h
          | _ => cases hev
      · right
        refine ⟨(ka_left_step hs hi).1, ?_⟩
        cases hs with
        | time t' h => exact ⟨h1.time h, h2.time h⟩
        | tickBeacon h => exact ⟨h1.fire beaconEvery_pos hnow h, h2⟩
        | tickHeartbeat h => exact ⟨h1, h2.fire heartbeatEvery_pos hnow h⟩
        | beginBeacon _ h => exact ⟨h1.take h, h2⟩
        | beginHeartbeat _ h => exact ⟨h1, h2.take h⟩
        | endHeartbeat =>
          obtain ⟨e1, _, e2, e3⟩ := heartbeatDone_rest s' (sendResult _ _ s'.ctx)
          rw [e1, e2, e3]
          exact ⟨h1, h2⟩
        | doneInit hp => exact absurd (.inr ⟨_, _, _, hp⟩) hi
        | _ => exact ⟨h1, h2⟩
  rcases main with ⟨_, h1, h2⟩ | ⟨_, h1, h2⟩
  · have a := heartbeatEvery_pos (cfg := cfg)
    have b := beaconEvery_pos (cfg := cfg)
    rw [h1, h2]
    constructor
    · simp only [Nat.cast_zero, Int.zero_mul]; omega
    · simp only [Nat.cast_zero, Int.zero_mul]; omega
  · exact ⟨key heartbeatEvery_pos h2, key beaconEvery_pos h1⟩

/-! ## Instances -/

def exKaSource : Info := { id := "src1", version := 1, type := "ROUTER", address := "mc/sfe.src1", direct := "sfe.src1" }

/-- An execution of a router's manager with the default intervals: beacon, heartbeat after two seconds, which times out in the sender,
cancellation, end.  So the hypotheses of the theorems above are met. -/
example : ∃ evs s, Ka.Run { source := exKaSource } (fun _ _ => True) (kaStart 1700000000000000000) evs s ∧
    KaEv.end_ .initial .ok ∈ evs ∧ (∃ m, KaEv.begin_ .heartbeat "mc/sfe.src1" m ∈ evs) ∧
    KaEv.end_ .heartbeat (.failed .sendTimeout) ∈ evs ∧ s.timeouts = 1 ∧ s.ctx = some .canceled ∧ s.pc = .stopped := by
  have r1 := Ka.Run.nil (cfg := { source := exKaSource }) (snd := fun _ _ => True) (s := kaStart 1700000000000000000)
  have r2 := r1.snoc (.beginInit rfl)
  have r3 := r2.snoc (.retryInit (e := .other "no route") rfl trivial)
  have r4 := r3.snoc (.beginInit rfl)
  have r5 := r4.snoc (.doneInit rfl trivial)
  have r6 := r5.snoc (.time 1700000002000000000 (by decide))
  have r7 := r6.snoc (.tickHeartbeat (by decide) (by simp) (by simp))
  have r8 := r7.snoc (.beginHeartbeat rfl rfl)
  have r9 := r8.snoc (.time 1700000004000000000 (by decide))
  have r10 := r9.snoc (.expire rfl (by decide))
  have r11 := r10.snoc (.endHeartbeat (r := some (.wrap "send error" .deadline)) rfl trivial)
  have r12 := r11.snoc (.cancel .canceled (.inl rfl) rfl)
  have r13 := r12.snoc (.stop rfl rfl)
  exact ⟨_, _, r13, by simp, ⟨_, List.mem_append_left _ (List.mem_append_left _ (List.mem_append_left _ (List.mem_append_left _ (List.mem_append_left _
    (List.mem_append_right _ (List.mem_singleton.2 rfl))))))⟩, List.mem_append_left _ (List.mem_append_left _ (List.mem_append_right _
    (List.mem_singleton.2 rfl))), rfl, rfl, rfl⟩

end Verif.Props
