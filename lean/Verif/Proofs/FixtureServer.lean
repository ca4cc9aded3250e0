import Verif.Spec.FixtureServer

/-!
# Invariants of the fixture server
-/
namespace Verif.Proofs
open Verif Verif.Model Verif.Spec

theorem lastTook_snoc (evs : List FxEv) (ev : FxEv) : lastTook (evs ++ [ev]) = (lastTook [ev]).or (lastTook evs) := by
  induction evs with
  | nil => cases h : lastTook [ev] <;> simp [h, lastTook]
  | cons e evs ih =>
    cases e <;> simp only [List.cons_append, lastTook, ih]
    cases lastTook [ev] <;> simp

theorem live_snoc (evs : List FxEv) (ev : FxEv) : live (evs ++ [ev]) = liveStep (live evs) ev := by
  simp [live]

theorem tookCount_snoc (evs : List FxEv) (ev : FxEv) : tookCount (evs ++ [ev]) = tookCount evs + tookCount [ev] := by
  simp [tookCount]

/-- With the lock. -/
def reqHolds : FxReq → Bool
  | .fxHeld _ | .flBody | .flAnswer => true
  | _ => false

/-- The managers of a configuration, as live ones of a generation. -/
def asLive (g : Nat) (ms : GMap String FixManager) : List (Nat × FixManager) := ms.map fun p => (g, p.2)

/-- What is so at each place of the goroutine of `Start`. -/
def FxPhase (took : Option FxConfig) (lv : List (Nat × FixManager)) (g : Nat) (st : FxStatus) (cur : Option (GMap String FixManager)) : StPC → Prop
  | .waiting | .ended =>
    (g = 0 ∧ took = none ∧ lv = [] ∧ st = .pending ∧ cur = none) ∨
      (1 ≤ g ∧ ∃ cfg cfg' : FxConfig, took = some cfg ∧ cfg'.Perm cfg ∧ st = .running ∧ cur = some (fixManagers cfg' []) ∧ lv.Perm (asLive g (fixManagers cfg' [])))
  | .taken cfg => took = some cfg ∧ 1 ≤ g ∧ (∀ p ∈ lv, p.1 = g - 1) ∧ (g = 1 → lv = []) ∧ ((st = .pending ∧ cur = none) ∨ (st = .running ∧ cur.isSome))
  | .clear cfg | .clearing cfg => took = some cfg ∧ 1 ≤ g ∧ lv = [] ∧ ((st = .pending ∧ cur = none) ∨ (st = .running ∧ cur.isSome))
  | .create cfg => took = some cfg ∧ 1 ≤ g ∧ lv = [] ∧ st = .reconfiguring ∧ cur = none
  | .start todo ms => 1 ≤ g ∧ st = .reconfiguring ∧ cur = none ∧ ∃ cfg cfg' : FxConfig, took = some cfg ∧ cfg'.Perm cfg ∧ ms = fixManagers cfg' [] ∧
      (lv ++ asLive g todo).Perm (asLive g ms)
  | .publish ms | .publishing ms => 1 ≤ g ∧ st = .reconfiguring ∧ cur = none ∧ ∃ cfg cfg' : FxConfig, took = some cfg ∧ cfg'.Perm cfg ∧ ms = fixManagers cfg' [] ∧
      lv.Perm (asLive g ms)

def stHolds : StPC → Bool
  | .clearing _ | .publishing _ => true
  | _ => false

structure FxInv (evs : List FxEv) (s : Fx) : Prop where
  lockStarter : s.lock = some .starter ↔ stHolds s.starter = true
  lockReq : ∀ t, s.lock = some (.req t) ↔ ∃ r, s.reqs[t]? = some r ∧ reqHolds r = true
  lockReplay : ∀ i, s.lock = some (.replay i) ↔ s.replays[i]? = some .held
  ended : s.starter = .ended → s.ctxDone = true
  count : tookCount evs = s.gen
  phase : FxPhase (lastTook evs) (live evs) s.gen s.status s.managers s.starter

theorem fx_free {evs : List FxEv} {s : Fx} (h : FxInv evs s) (hl : s.lock = none) : stHolds s.starter = false ∧ (∀ (t : Nat) (r : FxReq), s.reqs[t]? = some r → reqHolds r = false) ∧
    ∀ i : Nat, s.replays[i]? ≠ some RpPC.held := by
  refine ⟨?_, fun t r hr => ?_, fun i hi => ?_⟩
  · cases hh : stHolds s.starter with
    | false => rfl
    | true => rw [h.lockStarter.2 hh] at hl; cases hl
  · cases hh : reqHolds r with
    | false => rfl
    | true => rw [(h.lockReq t).2 ⟨r, hr, hh⟩] at hl; cases hl
  · rw [(h.lockReplay i).2 hi] at hl; cases hl

theorem set_get {A : Type} {l : List A} {t : Nat} {a b : A} (h : l[t]? = some a) (u : Nat) : (l.set t b)[u]? = if t = u then some b else l[u]? := by
  rw [List.getElem?_set]
  have := (List.getElem?_eq_some_iff.1 h).1
  split
  · rename_i e; subst e; simp
  · rfl

theorem fx_inv {evs : List FxEv} {s : Fx} (h : Fx.Run {} evs s) : FxInv evs s := by
  induction h with
  | nil =>
    exact ⟨by simp [stHolds], by simp, by simp, by simp, rfl, .inl ⟨rfl, rfl, rfl, rfl, rfl⟩⟩
  | snoc _ hs ih =>
    -- the lock after a step of a request that neither takes nor gives it
    have keep : ∀ {s : Fx} {t : Nat} {a b : FxReq}, (∀ t, s.lock = some (.req t) ↔ ∃ r, s.reqs[t]? = some r ∧ reqHolds r = true) → s.reqs[t]? = some a →
        reqHolds a = reqHolds b → ∀ u, s.lock = some (.req u) ↔ ∃ r, (s.reqs.set t b)[u]? = some r ∧ reqHolds r = true := by
      intro s t a b hl ha hab u
      rw [hl, set_get ha]
      by_cases htu : t = u
      · subst htu
        simp only [ha, Option.some.injEq, if_true, exists_eq_left', hab]
      · simp only [htu, if_false]
    have take : ∀ {s : Fx} {t : Nat} {a b : FxReq}, (∀ (t : Nat) (r : FxReq), s.reqs[t]? = some r → reqHolds r = false) → s.reqs[t]? = some a → reqHolds b = true →
        ∀ u, (some (FxWho.req t) = some (.req u)) ↔ ∃ r, (s.reqs.set t b)[u]? = some r ∧ reqHolds r = true := by
      intro s t a b hn ha hb u
      rw [set_get ha]
      by_cases htu : t = u
      · subst htu; simp [hb]
      · simp only [Option.some.injEq, FxWho.req.injEq, htu, if_false, false_iff]
        rintro ⟨r, h1, h2⟩
        rw [hn u r h1] at h2; cases h2
    have give : ∀ {s : Fx} {t : Nat} {a b : FxReq}, (∀ t, s.lock = some (.req t) ↔ ∃ r, s.reqs[t]? = some r ∧ reqHolds r = true) → s.reqs[t]? = some a → reqHolds a = true →
        reqHolds b = false → ∀ u, ((none : Option FxWho) = some (.req u)) ↔ ∃ r, (s.reqs.set t b)[u]? = some r ∧ reqHolds r = true := by
      intro s t a b hl ha hat hb u
      have h0 := (hl t).2 ⟨a, ha, hat⟩
      rw [set_get ha]
      by_cases htu : t = u
      · subst htu; simp [hb]
      · simp only [htu, if_false, reduceCtorEq, false_iff]
        intro h1
        have := (hl u).2 h1
        rw [h0] at this
        simp [htu] at this
    cases hs with
    | @request r hr =>
      refine ⟨ih.lockStarter, fun u => ?_, ih.lockReplay, ih.ended, by simpa [tookCount_snoc, tookCount] using ih.count, by simpa [lastTook_snoc, live_snoc, lastTook, liveStep] using ih.phase⟩
      have hn : reqHolds r = false := by obtain ⟨p, rfl | rfl⟩ := hr <;> rfl
      rw [ih.lockReq]
      simp only [List.getElem?_append]
      split
      · rfl
      · rename_i hlt
        constructor
        · rintro ⟨x, h1, _⟩
          exact absurd (List.getElem?_eq_some_iff.1 h1).1 hlt
        · rintro ⟨x, h1, h2⟩
          rw [List.getElem?_singleton] at h1
          split at h1
          · obtain rfl := Option.some.inj h1
            rw [hn] at h2; cases h2
          · cases h1
    | @fxLock t post hr hl =>
      obtain ⟨f1, f2, f3⟩ := fx_free ih hl
      refine ⟨by simp [f1], take f2 hr rfl, fun i => by simp [f3 i], ih.ended, by simpa [tookCount_snoc, tookCount] using ih.count, by simpa [lastTook_snoc, live_snoc, lastTook, liveStep] using ih.phase⟩
    | @fxRead t post hr =>
      have h0 := (ih.lockReq t).2 ⟨_, hr, rfl⟩
      refine ⟨?_, give ih.lockReq hr rfl (by cases post <;> rfl), fun i => ?_, ih.ended, by simpa [tookCount_snoc, tookCount] using ih.count, by simpa [lastTook_snoc, live_snoc, lastTook, liveStep] using ih.phase⟩
      · have := ih.lockStarter; rw [h0] at this; simpa using this
      · have := ih.lockReplay i; rw [h0] at this; simpa using this
    | @fxBad t st hr =>
      exact ⟨ih.lockStarter, keep ih.lockReq hr rfl, ih.lockReplay, ih.ended, by simpa [tookCount_snoc, tookCount] using ih.count, by simpa [lastTook_snoc, live_snoc, lastTook, liveStep] using ih.phase⟩
    | @fxBody t st cfg hr =>
      exact ⟨ih.lockStarter, keep ih.lockReq hr rfl, ih.lockReplay, ih.ended, by simpa [tookCount_snoc, tookCount] using ih.count, by simpa [lastTook_snoc, live_snoc, lastTook, liveStep] using ih.phase⟩
    | @take t st cfg hr hw =>
      refine ⟨?_, keep ih.lockReq hr rfl, ih.lockReplay, by simp, by simp [tookCount, ← ih.count], ?_⟩
      · have := ih.lockStarter; rw [hw] at this; exact this
      · have hp := ih.phase
        rw [hw] at hp
        simp only [lastTook_snoc, live_snoc, lastTook, liveStep, FxPhase, Nat.le_add_left, Nat.add_sub_cancel, true_and] at hp ⊢
        refine ⟨by simp, ?_⟩
        rcases hp with ⟨h1, h2, h3, h4, h5⟩ | ⟨h1, cfg0, cfg', h2, h3, h4, h5, h6⟩
        · exact ⟨fun p hp => (by rw [h3] at hp; cases hp), fun _ => h3, .inl ⟨h4, h5⟩⟩
        · refine ⟨fun p hp => ?_, fun h => absurd h (by omega), .inr ⟨h4, by rw [h5]; rfl⟩⟩
          have := h6.mem_iff.1 hp
          simp only [asLive, List.mem_map] at this
          obtain ⟨_, _, rfl⟩ := this
          rfl
    | @fxAnswer t a hr =>
      exact ⟨ih.lockStarter, keep ih.lockReq hr rfl, ih.lockReplay, ih.ended, by simpa [tookCount_snoc, tookCount] using ih.count, by simpa [lastTook_snoc, live_snoc, lastTook, liveStep] using ih.phase⟩
    | @flLock t post hr hl =>
      obtain ⟨f1, f2, f3⟩ := fx_free ih hl
      refine ⟨by simp [f1], take f2 hr (by cases post <;> rfl), fun i => by simp [f3 i], ih.ended, by simpa [tookCount_snoc, tookCount] using ih.count, by simpa [lastTook_snoc, live_snoc, lastTook, liveStep] using ih.phase⟩
    | @flBad t hr =>
      exact ⟨ih.lockStarter, keep ih.lockReq hr rfl, ih.lockReplay, ih.ended, by simpa [tookCount_snoc, tookCount] using ih.count, by simpa [lastTook_snoc, live_snoc, lastTook, liveStep] using ih.phase⟩
    | @flBody t k hr hk =>
      refine ⟨ih.lockStarter, keep ih.lockReq hr rfl, fun i => ?_, ih.ended, by simpa [tookCount_snoc, tookCount] using ih.count, by simpa [lastTook_snoc, live_snoc, lastTook, liveStep] using ih.phase⟩
      rw [ih.lockReplay]
      simp only [List.getElem?_append]
      split
      · rfl
      · rename_i hlt
        constructor
        · intro h1
          exact absurd (List.getElem?_eq_some_iff.1 h1).1 hlt
        · intro h1
          have := List.mem_of_getElem? h1
          rw [List.mem_replicate] at this
          cases this.2
    | @flAnswer t hr =>
      have h0 := (ih.lockReq t).2 ⟨_, hr, rfl⟩
      refine ⟨?_, give ih.lockReq hr rfl rfl, fun i => ?_, ih.ended, by simpa [tookCount_snoc, tookCount] using ih.count, by simpa [lastTook_snoc, live_snoc, lastTook, liveStep] using ih.phase⟩
      · have := ih.lockStarter; rw [h0] at this; simpa using this
      · have := ih.lockReplay i; rw [h0] at this; simpa using this
    | @published i hr =>
      refine ⟨ih.lockStarter, ih.lockReq, fun u => ?_, ih.ended, by simpa [tookCount_snoc, tookCount] using ih.count, by simpa [lastTook_snoc, live_snoc, lastTook, liveStep] using ih.phase⟩
      rw [ih.lockReplay, set_get hr]
      by_cases hiu : i = u
      · subst hiu; simp [hr]
      · simp [hiu]
    | @rpLock i hr hl =>
      obtain ⟨f1, f2, f3⟩ := fx_free ih hl
      refine ⟨by simp [f1], fun t => ?_, fun u => ?_, ih.ended, by simpa [tookCount_snoc, tookCount] using ih.count, by simpa [lastTook_snoc, live_snoc, lastTook, liveStep] using ih.phase⟩
      · simp only [Option.some.injEq, reduceCtorEq, false_iff]
        rintro ⟨r, h1, h2⟩
        rw [f2 t r h1] at h2; cases h2
      · rw [set_get hr]
        by_cases hiu : i = u
        · subst hiu; simp
        · simp [hiu, f3 u]
    | @rpDone i hr =>
      have h0 := (ih.lockReplay i).2 hr
      refine ⟨?_, fun t => ?_, fun u => ?_, ih.ended, by simpa [tookCount_snoc, tookCount] using ih.count, by simpa [lastTook_snoc, live_snoc, lastTook, liveStep] using ih.phase⟩
      · have := ih.lockStarter; rw [h0] at this; simpa using this
      · have := ih.lockReq t; rw [h0] at this; simpa using this
      · rw [set_get hr]
        by_cases hiu : i = u
        · subst hiu; simp
        · have := ih.lockReplay u
          rw [h0] at this
          simpa [hiu] using this
    | @first cfg hst hg =>
      have hp := ih.phase
      rw [hst] at hp
      refine ⟨?_, ih.lockReq, ih.lockReplay, by simp, by simpa [tookCount_snoc, tookCount] using ih.count, ?_⟩
      · have := ih.lockStarter; rw [hst] at this; exact this
      · simp only [lastTook_snoc, live_snoc, lastTook, liveStep, FxPhase, Option.none_or] at hp ⊢
        exact ⟨hp.1, hp.2.1, hp.2.2.2.1 hg, hp.2.2.2.2⟩
    | @stop cfg hst hg =>
      have hp := ih.phase
      rw [hst] at hp
      refine ⟨?_, ih.lockReq, ih.lockReplay, by simp, by simpa [tookCount_snoc, tookCount] using ih.count, ?_⟩
      · have := ih.lockStarter; rw [hst] at this; exact this
      · simp only [lastTook_snoc, live_snoc, lastTook, liveStep, FxPhase, Option.none_or] at hp ⊢
        refine ⟨hp.1, hp.2.1, ?_, hp.2.2.2.2⟩
        rw [List.filter_eq_nil_iff]
        intro p hm
        simp [hp.2.2.1 p hm]
    | @clear cfg hst hl =>
      obtain ⟨f1, f2, f3⟩ := fx_free ih hl
      have hp := ih.phase
      rw [hst] at hp
      refine ⟨by simp [stHolds], fun t => ?_, fun i => by simp [f3 i], by simp, by simpa [tookCount_snoc, tookCount] using ih.count, by simpa [lastTook_snoc, live_snoc, lastTook, liveStep, FxPhase] using hp⟩
      simp only [Option.some.injEq, reduceCtorEq, false_iff]
      rintro ⟨r, h1, h2⟩
      rw [f2 t r h1] at h2; cases h2
    | @cleared cfg hst =>
      have h0 := ih.lockStarter.2 (by rw [hst]; rfl)
      have hp := ih.phase
      rw [hst] at hp
      refine ⟨by simp [stHolds], fun t => ?_, fun i => ?_, by simp, by simpa [tookCount_snoc, tookCount] using ih.count, ?_⟩
      · have := ih.lockReq t; rw [h0] at this; simpa using this
      · have := ih.lockReplay i; rw [h0] at this; simpa using this
      · simp only [lastTook_snoc, live_snoc, lastTook, liveStep, FxPhase, Option.none_or] at hp ⊢
        exact ⟨hp.1, hp.2.1, hp.2.2.1, trivial, trivial⟩
    | @create cfg cfg' hst hperm =>
      have hp := ih.phase
      rw [hst] at hp
      refine ⟨?_, ih.lockReq, ih.lockReplay, by simp, by simpa [tookCount_snoc, tookCount] using ih.count, ?_⟩
      · have := ih.lockStarter; rw [hst] at this; exact this
      · simp only [lastTook_snoc, live_snoc, lastTook, liveStep, FxPhase, Option.none_or] at hp ⊢
        exact ⟨hp.2.1, hp.2.2.2.1, hp.2.2.2.2, cfg, cfg', hp.1, hperm, rfl, by rw [hp.2.2.1, List.nil_append]⟩
    | @start todo ms n m l r hst htodo =>
      have hp := ih.phase
      rw [hst] at hp
      refine ⟨?_, ih.lockReq, ih.lockReplay, by simp, by simpa [tookCount_snoc, tookCount] using ih.count, ?_⟩
      · have := ih.lockStarter; rw [hst] at this; exact this
      · simp only [lastTook_snoc, live_snoc, lastTook, liveStep, FxPhase, Option.none_or] at hp ⊢
        obtain ⟨h1, h2, h3, cfg, cfg', h4, h5, h6, h7⟩ := hp
        refine ⟨h1, h2, h3, cfg, cfg', h4, h5, h6, List.Perm.trans ?_ h7⟩
        subst htodo
        simp only [asLive, List.map_append, List.map_cons, List.append_assoc, List.singleton_append]
        exact List.Perm.append_left _ List.perm_middle.symm
    | @startDone ms hst =>
      have hp := ih.phase
      rw [hst] at hp
      refine ⟨?_, ih.lockReq, ih.lockReplay, by simp, by simpa [tookCount_snoc, tookCount] using ih.count, ?_⟩
      · have := ih.lockStarter; rw [hst] at this; exact this
      · simpa [lastTook_snoc, live_snoc, lastTook, liveStep, FxPhase, asLive] using hp
    | @publish ms hst hl =>
      obtain ⟨f1, f2, f3⟩ := fx_free ih hl
      have hp := ih.phase
      rw [hst] at hp
      refine ⟨by simp [stHolds], fun t => ?_, fun i => by simp [f3 i], by simp, by simpa [tookCount_snoc, tookCount] using ih.count, by simpa [lastTook_snoc, live_snoc, lastTook, liveStep, FxPhase] using hp⟩
      simp only [Option.some.injEq, reduceCtorEq, false_iff]
      rintro ⟨r, h1, h2⟩
      rw [f2 t r h1] at h2; cases h2
    | @publishDone ms hst =>
      have h0 := ih.lockStarter.2 (by rw [hst]; rfl)
      have hp := ih.phase
      rw [hst] at hp
      refine ⟨by simp [stHolds], fun t => ?_, fun i => ?_, by simp, by simpa [tookCount_snoc, tookCount] using ih.count, ?_⟩
      · have := ih.lockReq t; rw [h0] at this; simpa using this
      · have := ih.lockReplay i; rw [h0] at this; simpa using this
      · simp only [lastTook_snoc, live_snoc, lastTook, liveStep, FxPhase, Option.none_or] at hp ⊢
        obtain ⟨h1, h2, h3, cfg, cfg', h4, h5, h6, h7⟩ := hp
        exact .inr ⟨h1, cfg, cfg', h4, h5, trivial, by rw [h6], by rw [← h6]; exact h7⟩
    | @ended hst hd =>
      have hp := ih.phase
      rw [hst] at hp
      refine ⟨?_, ih.lockReq, ih.lockReplay, fun _ => hd, by simpa [tookCount_snoc, tookCount] using ih.count, by simpa [lastTook_snoc, live_snoc, lastTook, liveStep, FxPhase] using hp⟩
      have := ih.lockStarter; rw [hst] at this; exact this
    | @shutdown hd =>
      exact ⟨ih.lockStarter, ih.lockReq, ih.lockReplay, fun _ => rfl, by simpa [tookCount_snoc, tookCount] using ih.count, by simpa [lastTook_snoc, live_snoc, lastTook, liveStep] using ih.phase⟩

/-! ## Progress -/

theorem set_sum {A : Type} (f : A → Nat) {b : A} : ∀ {l : List A} {t : Nat} {a : A}, l[t]? = some a → ((l.set t b).map f).sum + f a = (l.map f).sum + f b
  | [], _, _, h => by simp at h
  | x :: l, 0, a, h => by
    simp only [List.getElem?_cons_zero, Option.some.injEq] at h
    subst h
    simp only [List.set_cons_zero, List.map_cons, List.sum_cons]
    omega
  | x :: l, t + 1, a, h => by
    simp only [List.getElem?_cons_succ] at h
    have := set_sum f (b := b) h
    simp only [List.set_cons_succ, List.map_cons, List.sum_cons]
    omega

theorem gmap_set_length {K V : Type} [DecidableEq K] (k : K) (v : V) : ∀ m : GMap K V, (m.set k v).length ≤ m.length + 1
  | [] => by simp [GMap.set]
  | (k', v') :: m => by
    have := gmap_set_length k v m
    simp only [GMap.set]
    split <;> simp only [List.length_cons] <;> omega

theorem fixManagers_length : ∀ (cfg : FxConfig) (acc : GMap String FixManager), (fixManagers cfg acc).length ≤ cfg.length + acc.length
  | [], acc => by simp [fixManagers]
  | (src, st) :: rest, acc => by
    have h1 := fixManagers_length rest (acc.set src.name (fixManagerOf src st))
    have h2 := gmap_set_length src.name (fixManagerOf src st) acc
    simp only [fixManagers, List.length_cons]
    omega

/-- How many steps the goroutine of `Start` can make by itself. -/
def stWeight : StPC → Nat
  | .ended => 0
  | .waiting => 1
  | .publishing _ => 2
  | .publish _ => 3
  | .start todo _ => 4 + todo.length
  | .create cfg => 5 + cfg.length
  | .clearing cfg => 6 + cfg.length
  | .clear cfg => 7 + cfg.length
  | .taken cfg => 8 + cfg.length

/-- How many steps follow from a request as it is. -/
def reqWeight : FxReq → Nat
  | .fxAnswer _ | .flLock _ => 1
  | .fxHeld _ => 2
  | .fxLock _ => 3
  | .fxSend _ cfg => 9 + cfg.length
  | _ => 0

def rpWeight : RpPC → Nat
  | .lock => 2
  | .held => 1
  | _ => 0

def fxWeight (s : Fx) : Nat := stWeight s.starter + (s.reqs.map reqWeight).sum + (s.replays.map rpWeight).sum

theorem fx_decreases {s s' : Fx} {ev : FxEv} (h : Fx.Step s ev s') (hi : ev.internal = true) : fxWeight s' < fxWeight s := by
  cases h with
  | request | fxBad | fxBody | flBad | flBody | published | shutdown => cases hi
  | flAnswer => cases hi
  | @fxLock t post hr hl =>
    have := set_sum reqWeight (b := .fxHeld post) hr
    simp only [fxWeight, reqWeight] at this ⊢
    omega
  | @fxRead t post hr =>
    have := set_sum reqWeight (b := if post then .fxBody s.status else .fxAnswer (.status s.status)) hr
    simp only [fxWeight] at this ⊢
    cases post <;> simp [reqWeight] at this ⊢ <;> omega
  | @take t st cfg hr hw =>
    have := set_sum reqWeight (b := .fxAnswer (.status st)) hr
    simp only [fxWeight, reqWeight, hw, stWeight] at this ⊢
    omega
  | @fxAnswer t a hr =>
    have := set_sum reqWeight (b := .done) hr
    simp only [fxWeight, reqWeight] at this ⊢
    omega
  | @flLock t post hr hl =>
    have := set_sum reqWeight (b := if post then .flBody else .flAnswer) hr
    simp only [fxWeight] at this ⊢
    cases post <;> simp [reqWeight] at this ⊢ <;> omega
  | @rpLock i hr hl =>
    have := set_sum rpWeight (b := .held) hr
    simp only [fxWeight, rpWeight] at this ⊢
    omega
  | @rpDone i hr =>
    have := set_sum rpWeight (b := .done) hr
    simp only [fxWeight, rpWeight] at this ⊢
    omega
  | @create cfg cfg' hst hp =>
    have h1 := fixManagers_length cfg' []
    have h2 := hp.length_eq
    simp only [fxWeight, hst, stWeight, List.length_nil] at h1 ⊢
    omega
  | @start todo ms n m l r hst htodo =>
    subst htodo
    simp only [fxWeight, hst, stWeight, List.length_append, List.length_cons]
    omega
  | first hst | stop hst | clear hst | cleared hst | startDone hst | publish hst | publishDone hst | ended hst =>
    simp only [fxWeight, hst, stWeight, List.length_nil] <;> omega

theorem fx_internal_bound {s s' : Fx} {evs : List FxEv} (h : Fx.Run s evs s') (hi : ∀ ev ∈ evs, ev.internal = true) : evs.length + fxWeight s' ≤ fxWeight s := by
  induction h with
  | nil => simp
  | snoc _ hs ih =>
    have h1 := ih fun ev hev => hi ev (List.mem_append_left _ hev)
    have h2 := fx_decreases hs (hi _ (by simp))
    simp only [List.length_append, List.length_singleton]
    omega

theorem fx_enabled {evs : List FxEv} {s : Fx} (h : FxInv evs s) (hc : s.ctxDone = false) {t : Nat} {r : FxReq} (hr : s.reqs[t]? = some r) (hn : r ≠ .done) (hf : r ≠ .fxAnswer .flows) :
    (∃ ev s', Fx.Step s ev s' ∧ ev.internal = true) ∨ (∃ st, r = .fxBody st) ∨ FlowsWaits s := by
  cases hl : s.lock with
  | some w =>
    cases w with
    | starter =>
      have := h.lockStarter.1 hl
      cases hst : s.starter with
      | clearing cfg => exact .inl ⟨_, _, .cleared hst, rfl⟩
      | publishing ms => exact .inl ⟨_, _, .publishDone hst, rfl⟩
      | _ => rw [hst] at this; cases this
    | req u =>
      obtain ⟨r', h1, h2⟩ := (h.lockReq u).1 hl
      cases r' with
      | fxHeld post => exact .inl ⟨_, _, .fxRead h1, rfl⟩
      | flBody => exact .inr (.inr ⟨u, hl, .inl h1⟩)
      | flAnswer => exact .inr (.inr ⟨u, hl, .inr h1⟩)
      | _ => cases h2
    | replay i => exact .inl ⟨_, _, .rpDone ((h.lockReplay i).1 hl), rfl⟩
  | none =>
    obtain ⟨f1, f2, f3⟩ := fx_free h hl
    cases r with
    | fxLock post => exact .inl ⟨_, _, .fxLock hr hl, rfl⟩
    | fxHeld post => cases f2 t _ hr
    | fxBody st => exact .inr (.inl ⟨st, rfl⟩)
    | flLock post => exact .inl ⟨_, _, .flLock hr hl, rfl⟩
    | flBody => cases f2 t _ hr
    | flAnswer => cases f2 t _ hr
    | done => exact absurd rfl hn
    | fxAnswer a =>
      by_cases ha : a = .flows
      · exact absurd (ha ▸ rfl) hf
      · exact .inl ⟨_, _, .fxAnswer hr, by simpa [FxEv.internal] using ha⟩
    | fxSend st cfg =>
      left
      cases hst : s.starter with
      | waiting => exact ⟨_, _, .take hr hst, rfl⟩
      | taken cfg =>
        by_cases hg : s.gen = 1
        · exact ⟨_, _, .first hst hg, rfl⟩
        · exact ⟨_, _, .stop hst hg, rfl⟩
      | clear cfg => exact ⟨_, _, .clear hst hl, rfl⟩
      | clearing cfg => exact ⟨_, _, .cleared hst, rfl⟩
      | create cfg => exact ⟨_, _, .create hst (List.Perm.refl _), rfl⟩
      | start todo ms =>
        cases todo with
        | nil => exact ⟨_, _, .startDone hst, rfl⟩
        | cons p todo => exact ⟨_, _, .start (l := []) hst rfl, rfl⟩
      | publish ms => exact ⟨_, _, .publish hst hl, rfl⟩
      | publishing ms => exact ⟨_, _, .publishDone hst, rfl⟩
      | ended => rw [h.ended hst] at hc; cases hc

/-! ## The story of a request -/

/-- What has been seen of a request whose handler is at this place. -/
def StorySoFar (t : Nat) : Option FxReq → List FxEv → Prop
  | none, l => l = []
  | some (.fxLock _), l | some (.fxHeld _), l | some (.flLock _), l | some (.fxBody _), l | some .flBody, l => l = [.request t]
  | some (.fxSend _ cfg), l => l = [.request t, .body t (some cfg)]
  | some (.fxAnswer a), l => Story t (l ++ [.answered t a]) ∧ a ≠ .flows
  | some .flAnswer, l => Story t (l ++ [.answered t .flows])
  | some .done, l => Story t l

theorem story_update {s : Fx} {evs : List FxEv} {ev : FxEv} {t : Nat} {a b : FxReq} (h : s.reqs[t]? = some a) (ih : ∀ u, StorySoFar u s.reqs[u]? (evs.filter (about u)))
    (hev : ∀ u, t ≠ u → about u ev = false)
    (hnew : StorySoFar t (some a) (evs.filter (about t)) → StorySoFar t (some b) (evs.filter (about t) ++ [ev].filter (about t))) :
    ∀ u, StorySoFar u (s.reqs.set t b)[u]? ((evs ++ [ev]).filter (about u)) := by
  intro u
  rw [set_get h, List.filter_append]
  by_cases htu : t = u
  · subst htu
    rw [if_pos rfl]
    have := ih t
    rw [h] at this
    exact hnew this
  · rw [if_neg htu]
    simp only [List.filter_cons, hev u htu, List.filter_nil, Bool.false_eq_true, if_false, List.append_nil]
    exact ih u

theorem story_same {s : Fx} {evs : List FxEv} {ev : FxEv} (ih : ∀ u, StorySoFar u s.reqs[u]? (evs.filter (about u))) (hev : ∀ u, about u ev = false) :
    ∀ u, StorySoFar u s.reqs[u]? ((evs ++ [ev]).filter (about u)) := by
  intro u
  rw [List.filter_append]
  simp only [List.filter_cons, hev u, List.filter_nil, Bool.false_eq_true, if_false, List.append_nil]
  exact ih u

theorem fx_story {evs : List FxEv} {s : Fx} (h : Fx.Run {} evs s) : ∀ t, StorySoFar t s.reqs[t]? (evs.filter (about t)) := by
  induction h with
  | nil => intro t; simp [StorySoFar]
  | snoc _ hs ih =>
    cases hs with
    | @request r hr =>
      intro u
      rw [List.filter_append, List.getElem?_append]
      have := ih u
      split
      · rename_i hlt
        have hne : ¬ List.length _ = u := fun e => absurd e (Nat.ne_of_gt hlt)
        simpa [about, hne] using this
      · rename_i hlt
        rw [List.getElem?_eq_none (Nat.le_of_not_lt hlt)] at this
        simp only [StorySoFar] at this
        rw [this, List.getElem?_singleton]
        split
        · rename_i h0
          have hu : List.length _ = u := Nat.le_antisymm (Nat.le_of_not_lt hlt) (by omega)
          obtain ⟨p, rfl | rfl⟩ := hr <;> simp [about, hu, StorySoFar]
        · rename_i h0
          have hu : ¬ List.length _ = u := fun e => h0 (Nat.sub_eq_zero_of_le (Nat.le_of_eq e.symm))
          simp [about, hu, StorySoFar]
    | @fxLock t post hr hl => exact story_update hr ih (by simp [about]) (by simp [StorySoFar, about])
    | @fxRead t post hr =>
      refine story_update hr ih (by simp [about]) ?_
      intro h0
      simp only [StorySoFar] at h0
      cases post
      · simp only [h0, StorySoFar]; exact ⟨Story.asked _, by simp⟩
      · simp [h0, about, StorySoFar]
    | @fxBad t st hr =>
      refine story_update hr ih (by simp [about]) ?_
      intro h0
      simp only [StorySoFar] at h0
      simp only [h0, StorySoFar, about, List.filter_cons, decide_true, if_true, List.filter_nil]
      exact ⟨Story.bad st, by simp⟩
    | @fxBody t st cfg hr => exact story_update hr ih (by simp [about]) (by intro h0; simp only [StorySoFar] at h0; simp [h0, StorySoFar, about])
    | @take t st cfg hr hw =>
      refine story_update hr ih (by simp [about]) ?_
      intro h0
      simp only [StorySoFar] at h0
      simp only [h0, StorySoFar, about, List.filter_cons, decide_true, if_true, List.filter_nil]
      exact ⟨Story.upload st cfg, by simp⟩
    | @fxAnswer t a hr =>
      refine story_update hr ih (by simp [about]) ?_
      intro h0
      simp only [StorySoFar] at h0
      simp only [StorySoFar, about, List.filter_cons, decide_true, if_true, List.filter_nil]
      exact h0.1
    | @flLock t post hr hl =>
      refine story_update hr ih (by simp [about]) ?_
      intro h0
      simp only [StorySoFar] at h0
      cases post
      · simp only [h0, StorySoFar]; exact Story.flows
      · simp [h0, about, StorySoFar]
    | @flBad t hr =>
      refine story_update hr ih (by simp [about]) ?_
      intro h0
      simp only [StorySoFar] at h0
      simp only [h0, StorySoFar, about, List.filter_cons, decide_true, if_true, List.filter_nil]
      exact Story.replay false
    | @flBody t k hr hk =>
      refine story_update (s := { (_ : Fx) with replays := _ }) hr ih (by simp [about]) ?_
      intro h0
      simp only [StorySoFar] at h0
      simp only [h0, StorySoFar, about, List.filter_cons, decide_true, if_true, List.filter_nil]
      exact Story.replay true
    | @flAnswer t hr =>
      refine story_update hr ih (by simp [about]) ?_
      intro h0
      simp only [StorySoFar] at h0
      simp only [StorySoFar, about, List.filter_cons, decide_true, if_true, List.filter_nil]
      exact h0
    | published | rpLock | rpDone | first | stop | clear | cleared | create | start | startDone | publish | publishDone | ended | shutdown =>
      exact story_same ih (fun _ => rfl)

theorem fx_ctx {evs : List FxEv} {s : Fx} (h : Fx.Run {} evs s) (hn : FxEv.shutdown ∉ evs) : s.ctxDone = false := by
  induction h with
  | nil => rfl
  | snoc _ hs ih =>
    have ih := ih fun hm => hn (List.mem_append_left _ hm)
    cases hs with
    | shutdown => exact absurd (by simp) hn
    | _ => exact ih

/-! ## The status in an answer -/

/-- The status a handler has read. -/
def statusRead : FxReq → Option FxStatus
  | .fxBody st | .fxSend st _ | .fxAnswer (.status st) | .fxAnswer (.bad st) => some st
  | _ => none

/-- The status in an answer. -/
def statusOf : FxAnswer → Option FxStatus
  | .status st | .bad st => some st
  | .flows => none

theorem seen_snoc {evs : List FxEv} {s s' : Fx} {ev : FxEv} {t : Nat} {st : FxStatus} (hs : Fx.Step s ev s') (h : StatusSeen evs s t st) : StatusSeen (evs ++ [ev]) s' t st := by
  obtain ⟨evs1, evs2, s1, h1, h2, h3, h4, h5⟩ := h
  exact ⟨evs1, evs2 ++ [ev], s1, by rw [h1, List.append_assoc], h2, .snoc h3 hs, h4, h5⟩

theorem seen_now {evs : List FxEv} {s : Fx} {t : Nat} (h : Fx.Run {} evs s) (ht : FxEv.request t ∈ evs) : StatusSeen evs s t s.status :=
  ⟨evs, [], s, by simp, h, .nil, ht, rfl⟩

theorem requested {evs : List FxEv} {s : Fx} (h : Fx.Run {} evs s) {t : Nat} {r : FxReq} (hr : s.reqs[t]? = some r) : FxEv.request t ∈ evs := by
  have := fx_story h t
  rw [hr] at this
  have hm : FxEv.request t ∈ evs.filter (about t) := by
    generalize evs.filter (about t) = l at this
    cases r with
    | fxLock | fxHeld | flLock | fxBody | flBody | fxSend => simp only [StorySoFar] at this; simp [this]
    | fxAnswer a =>
      have h1 := this.1
      generalize hx : l ++ [FxEv.answered t a] = y at h1
      cases h1 <;> rcases l with _ | ⟨x, l⟩ <;> simp_all
    | flAnswer =>
      simp only [StorySoFar] at this
      generalize hx : l ++ [FxEv.answered t .flows] = y at this
      cases this <;> rcases l with _ | ⟨x, l⟩ <;> simp_all
    | done => simp only [StorySoFar] at this; cases this <;> simp
  exact (List.mem_filter.1 hm).1

theorem fx_seen {evs : List FxEv} {s : Fx} (h : Fx.Run {} evs s) :
    (∀ t r st, s.reqs[t]? = some r → statusRead r = some st → StatusSeen evs s t st) ∧ (∀ t a st, FxEv.answered t a ∈ evs → statusOf a = some st → StatusSeen evs s t st) := by
  induction h with
  | nil => simp
  | @snoc s' s'' evs ev hrun hs ih =>
    have keepA : (∀ t a, ev ≠ .answered t a) → ∀ t a st, FxEv.answered t a ∈ evs ++ [ev] → statusOf a = some st → StatusSeen (evs ++ [ev]) s'' t st := by
      intro hne t a st hm ha
      rcases List.mem_append.1 hm with hm | hm
      · exact seen_snoc hs (ih.2 t a st hm ha)
      · exact absurd (List.mem_singleton.1 hm).symm (hne t a)
    have keepR : s''.reqs = s'.reqs → ∀ t r st, s''.reqs[t]? = some r → statusRead r = some st → StatusSeen (evs ++ [ev]) s'' t st := by
      intro he t r st hr hst
      rw [he] at hr
      exact seen_snoc hs (ih.1 t r st hr hst)
    have setR : ∀ {u : Nat} {a b : FxReq}, s'.reqs[u]? = some a → s''.reqs = s'.reqs.set u b → (∀ st, statusRead b = some st → statusRead a = some st ∨ st = s'.status) →
        ∀ t r st, s''.reqs[t]? = some r → statusRead r = some st → StatusSeen (evs ++ [ev]) s'' t st := by
      intro u a b hu he hb t r st hr hst
      rw [he, set_get hu] at hr
      by_cases hut : u = t
      · subst hut
        rw [if_pos rfl] at hr
        obtain rfl := Option.some.inj hr
        rcases hb st hst with h1 | rfl
        · exact seen_snoc hs (ih.1 u a st hu h1)
        · exact seen_snoc hs (seen_now hrun (requested hrun hu))
      · rw [if_neg hut] at hr
        exact seen_snoc hs (ih.1 t r st hr hst)
    cases hs with
    | @request r hr =>
      refine ⟨fun t r' st hr' hst => ?_, keepA (by simp)⟩
      rw [List.getElem?_append] at hr'
      split at hr'
      · exact seen_snoc (.request hr) (ih.1 t r' st hr' hst)
      · rw [List.getElem?_singleton] at hr'
        split at hr'
        · obtain rfl := Option.some.inj hr'
          obtain ⟨p, rfl | rfl⟩ := hr <;> cases hst
        · cases hr'
    | @fxLock t post hr hl => exact ⟨setR hr rfl (by simp [statusRead]), keepA (by simp)⟩
    | @fxRead t post hr => exact ⟨setR hr rfl (by cases post <;> simp [statusRead]), keepA (by simp)⟩
    | @fxBad t st hr => exact ⟨setR hr rfl (by simp [statusRead]), keepA (by simp)⟩
    | @fxBody t st cfg hr => exact ⟨setR hr rfl (by simp [statusRead]), keepA (by simp)⟩
    | @take t st cfg hr hw => exact ⟨setR hr rfl (by simp [statusRead]), keepA (by simp)⟩
    | @fxAnswer t a hr =>
      refine ⟨setR hr rfl (by simp [statusRead]), fun u a' st hm ha => ?_⟩
      rcases List.mem_append.1 hm with hm | hm
      · exact seen_snoc (.fxAnswer hr) (ih.2 u a' st hm ha)
      · obtain ⟨rfl, rfl⟩ : u = t ∧ a' = a := by simpa using hm
        exact seen_snoc (.fxAnswer hr) (ih.1 u _ st hr (by cases a' <;> simp_all [statusOf, statusRead]))
    | @flLock t post hr hl => exact ⟨setR hr rfl (by cases post <;> simp [statusRead]), keepA (by simp)⟩
    | @flBad t hr => exact ⟨setR hr rfl (by simp [statusRead]), keepA (by simp)⟩
    | @flBody t k hr hk => exact ⟨setR hr rfl (by simp [statusRead]), keepA (by simp)⟩
    | @flAnswer t hr =>
      refine ⟨setR hr rfl (by simp [statusRead]), fun u a' st hm ha => ?_⟩
      rcases List.mem_append.1 hm with hm | hm
      · exact seen_snoc (.flAnswer hr) (ih.2 u a' st hm ha)
      · obtain ⟨rfl, rfl⟩ : u = t ∧ a' = .flows := by simpa using hm
        cases ha
    | published | rpLock | rpDone | first | stop | clear | cleared | create | start | startDone | publish | publishDone | ended | shutdown =>
      exact ⟨keepR rfl, keepA (by simp)⟩

end Verif.Proofs
