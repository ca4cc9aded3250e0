import Verif.Proofs.FixtureServer

/-!
# C88, C89: uploads to the fixture server, and its answers
-/
namespace Verif.Props
open Verif Verif.Model Verif.Spec Verif.Proofs

/-! ## C88 -/

/-- C88: the managers that run are those of one upload: the last one received, or, until they have been told to stop, the one before it. -/
theorem C88_one_upload {evs : List FxEv} {s : Fx} (h : Fx.Run {} evs s) : (∀ p ∈ live evs, p.1 = tookCount evs) ∨ (∀ p ∈ live evs, p.1 + 1 = tookCount evs) := by
  have hi := fx_inv h
  rw [hi.count]
  have hp := hi.phase
  cases hst : s.starter <;> rw [hst] at hp <;> simp only [FxPhase] at hp
  case waiting | ended =>
    rcases hp with hp | ⟨_, cfg, cfg', _, _, _, _, hp⟩
    · simp [hp.2.2.1]
    · left; intro p hm
      have := hp.mem_iff.1 hm
      simp only [asLive, List.mem_map] at this
      obtain ⟨_, _, rfl⟩ := this
      rfl
  case taken cfg =>
    right; intro p hm
    have := hp.2.2.1 p hm
    omega
  case clear | clearing => simp [hp.2.2.1]
  case create => simp [hp.2.2.1]
  case start todo ms =>
    left; intro p hm
    obtain ⟨_, _, _, cfg, cfg', _, _, _, hp⟩ := hp
    have := hp.mem_iff.1 (List.mem_append_left _ hm)
    simp only [asLive, List.mem_map] at this
    obtain ⟨_, _, rfl⟩ := this
    rfl
  case publish ms | publishing ms =>
    left; intro p hm
    obtain ⟨_, _, _, cfg, cfg', _, _, _, hp⟩ := hp
    have := hp.mem_iff.1 hm
    simp only [asLive, List.mem_map] at this
    obtain ⟨_, _, rfl⟩ := this
    rfl

/-- C88: when the goroutine of `Start` waits for an upload, the last one received is what is served: the status says so, /flows sees its managers, and each of them
runs, once, and no other does.  (Which managers these are: `C72_managers_partial`.)  Before the first upload nothing runs. -/
theorem C88_settled_partial {evs : List FxEv} {s : Fx} (h : Fx.Run {} evs s) (hw : s.starter = .waiting) :
    (lastTook evs = none → s.status = .pending ∧ s.managers = none ∧ live evs = []) ∧
    (∀ cfg, lastTook evs = some cfg → s.status = .running ∧
      ∃ cfg', cfg'.Perm cfg ∧ s.managers = some (fixManagers cfg' []) ∧ ((live evs).map Prod.snd).Perm ((fixManagers cfg' []).map Prod.snd)) := by
  have hp := (fx_inv h).phase
  rw [hw] at hp
  simp only [FxPhase] at hp
  rcases hp with ⟨_, h2, h3, h4, h5⟩ | ⟨_, cfg, cfg', h2, h3, h4, h5, h6⟩
  · rw [h2]
    exact ⟨fun _ => ⟨h4, h5, h3⟩, by simp⟩
  · rw [h2]
    refine ⟨by simp, fun c hc => ?_⟩
    obtain rfl := Option.some.inj hc
    refine ⟨h4, cfg', h3, h5, ?_⟩
    have := h6.map Prod.snd
    rw [asLive, List.map_map] at this
    exact this

/-- C88: /flows finds managers exactly while the status is "running". -/
theorem C88_status {evs : List FxEv} {s : Fx} (h : Fx.Run {} evs s) : s.managers.isSome = true ↔ s.status = .running := by
  have hp := (fx_inv h).phase
  cases hst : s.starter <;> rw [hst] at hp <;> simp only [FxPhase] at hp
  case waiting | ended =>
    rcases hp with ⟨_, _, _, h4, h5⟩ | ⟨_, cfg, cfg', _, _, h4, h5, _⟩ <;> simp [h4, h5]
  case taken => rcases hp.2.2.2.2 with ⟨h4, h5⟩ | ⟨h4, h5⟩ <;> simp [h4, h5]
  case clear | clearing => rcases hp.2.2.2 with ⟨h4, h5⟩ | ⟨h4, h5⟩ <;> simp [h4, h5]
  case create => simp [hp.2.2.2.1, hp.2.2.2.2]
  case start | publish | publishing => simp [hp.2.1, hp.2.2.1]

/-- C88: replays are begun by requests for /flows only, and only while the configuration that was received last runs. -/
theorem C88_replays {evs : List FxEv} {s s' : Fx} {ev : FxEv} (h : Fx.Run {} evs s) (hs : Fx.Step s ev s') (hn : s'.replays.length ≠ s.replays.length) :
    s.status = .running ∧ ∃ t, ev = .flowsBody t true := by
  rw [← C88_status h]
  cases hs <;> simp at hn ⊢
  rename_i h1
  cases hm : s.managers with
  | none => exact absurd (h1 hm) hn
  | some _ => rfl

/-- C88: the status in an answer is one the server had after the request came in. -/
theorem C88_answer {evs : List FxEv} {s : Fx} (h : Fx.Run {} evs s) {t : Nat} {a : FxAnswer} {st : FxStatus} (hm : FxEv.answered t a ∈ evs) (ha : a = .status st ∨ a = .bad st) :
    StatusSeen evs s t st := (fx_seen h).2 t a st hm (by rcases ha with rfl | rfl <;> rfl)

theorem fx_trans {s s' s'' : Fx} {evs evs' : List FxEv} (h : Fx.Run s evs s') (h' : Fx.Run s' evs' s'') : Fx.Run s (evs ++ evs') s'' := by
  induction h' with
  | nil => simpa using h
  | snoc _ hs ih => rw [← List.append_assoc]; exact .snoc ih hs

theorem start_all (ms : GMap String FixManager) : ∀ (todo : GMap String FixManager) (s : Fx), s.starter = .start todo ms →
    ∃ evs, Fx.Run s evs { s with starter := .start [] ms } ∧ lastTook evs = none ∧ FxEv.shutdown ∉ evs
  | [], s, h => ⟨[], by rw [← h]; exact .nil, rfl, by simp⟩
  | (n, m) :: todo, s, h => by
    obtain ⟨evs, h1, h2, h3⟩ := start_all ms todo { s with starter := .start todo ms } rfl
    refine ⟨[.started s.gen m] ++ evs, fx_trans (.snoc .nil (.start (l := []) h rfl)) h1, by simpa [lastTook] using h2, by simpa using h3⟩

/-- One more upload, from a server that waits for it. -/
theorem upload_once (cfg : FxConfig) {s : Fx} (hw : s.starter = .waiting) (hl : s.lock = none) :
    ∃ evs s', Fx.Run s evs s' ∧ s'.starter = .waiting ∧ s'.lock = none ∧ s'.containers = s.containers + cfg.length ∧ lastTook evs = some cfg ∧ FxEv.shutdown ∉ evs := by
  obtain ⟨stat, hstat⟩ : ∃ x, x = s.status := ⟨_, rfl⟩
  have e : ∀ r : FxReq, (s.reqs ++ [r])[s.reqs.length]? = some r := fun r => by simp
  have e2 : ∀ r r' : FxReq, (s.reqs ++ [r]).set s.reqs.length r' = s.reqs ++ [r'] := fun r r' => by simp
  let s1 : Fx := { s with reqs := s.reqs ++ [.fxLock true] }
  let s2 : Fx := { s1 with lock := some (.req s.reqs.length), reqs := s.reqs ++ [.fxHeld true] }
  let s3 : Fx := { s2 with lock := none, reqs := s.reqs ++ [.fxBody s.status] }
  let s4 : Fx := { s3 with reqs := s.reqs ++ [.fxSend s.status cfg] }
  let s5 : Fx := { s4 with reqs := s.reqs ++ [.fxAnswer (.status s.status)], starter := .taken cfg, gen := s.gen + 1 }
  let s6 : Fx := { s5 with starter := .clear cfg }
  let s7 : Fx := { s6 with starter := .clearing cfg, lock := some .starter }
  let s8 : Fx := { s7 with starter := .create cfg, lock := none, status := .reconfiguring, managers := none }
  let s9 : Fx := { s8 with starter := .start (fixManagers cfg []) (fixManagers cfg []), containers := s.containers + cfg.length }
  let s10 : Fx := { s9 with starter := .start [] (fixManagers cfg []) }
  let s11 : Fx := { s10 with starter := .publish (fixManagers cfg []) }
  let s12 : Fx := { s11 with starter := .publishing (fixManagers cfg []), lock := some .starter }
  let s13 : Fx := { s12 with starter := .waiting, lock := none, status := .running, managers := some (fixManagers cfg []) }
  have t1 : Fx.Step s (.request s.reqs.length) s1 := .request ⟨true, .inl rfl⟩
  have t2 : Fx.Step s1 .tau s2 := by have := Fx.Step.fxLock (s := s1) (e (.fxLock true)) hl; simpa [s1, s2, e2] using this
  have t3 : Fx.Step s2 .tau s3 := by have := Fx.Step.fxRead (s := s2) (e (.fxHeld true)); simpa [s1, s2, s3, e2] using this
  have t4 : Fx.Step s3 (.body s.reqs.length (some cfg)) s4 := by have := Fx.Step.fxBody (s := s3) (cfg := cfg) (e (.fxBody s.status)); simpa [s1, s2, s3, s4, e2] using this
  have t5 : Fx.Step s4 (.took s.reqs.length cfg) s5 := by have := Fx.Step.take (s := s4) (e (.fxSend s.status cfg)) hw; simpa [s1, s2, s3, s4, s5, e2] using this
  have t6 : ∃ ev, Fx.Step s5 ev s6 ∧ lastTook [ev] = none ∧ ev ≠ .shutdown := by
    by_cases hg : s5.gen = 1
    · exact ⟨_, .first rfl hg, rfl, by simp⟩
    · exact ⟨_, .stop rfl hg, rfl, by simp⟩
  obtain ⟨ev6, t6, h6, h6'⟩ := t6
  have t7 : Fx.Step s6 .tau s7 := .clear rfl rfl
  have t8 : Fx.Step s7 .tau s8 := .cleared rfl
  have t9 : Fx.Step s8 .tau s9 := .create rfl (List.Perm.refl _)
  obtain ⟨evs, t10, h10, h10'⟩ := start_all (fixManagers cfg []) _ s9 rfl
  have t11 : Fx.Step s10 .tau s11 := .startDone rfl
  have t12 : Fx.Step s11 .tau s12 := .publish rfl rfl
  have t13 : Fx.Step s12 .tau s13 := .publishDone rfl
  have r1 : Fx.Run s [.request s.reqs.length, .tau, .tau, .body s.reqs.length (some cfg), .took s.reqs.length cfg, ev6, .tau, .tau, .tau] s9 :=
    .snoc (evs := [_, _, _, _, _, _, _, _]) (.snoc (evs := [_, _, _, _, _, _, _]) (.snoc (evs := [_, _, _, _, _, _]) (.snoc (evs := [_, _, _, _, _]) (.snoc (evs := [_, _, _, _])
      (.snoc (evs := [_, _, _]) (.snoc (evs := [_, _]) (.snoc (evs := [_]) (.snoc (evs := []) .nil t1) t2) t3) t4) t5) t6) t7) t8) t9
  have r2 : Fx.Run s10 [.tau, .tau, .tau] s13 := .snoc (evs := [_, _]) (.snoc (evs := [_]) (.snoc (evs := []) .nil t11) t12) t13
  refine ⟨_, s13, fx_trans r1 (fx_trans t10 r2), rfl, rfl, rfl, ?_, ?_⟩
  · have h7 : lastTook (evs ++ [.tau, .tau, .tau]) = none := by
      have : evs ++ [FxEv.tau, .tau, .tau] = ((evs ++ [.tau]) ++ [.tau]) ++ [.tau] := by simp
      rw [this, lastTook_snoc, lastTook_snoc, lastTook_snoc, h10]; rfl
    have h8 : lastTook (ev6 :: .tau :: .tau :: .tau :: (evs ++ [.tau, .tau, .tau])) = none := by
      cases ev6 <;> simp_all [lastTook]
    simp only [List.cons_append, List.nil_append, lastTook, h8, Option.none_or]
  · simp [h10', Ne.symm h6']

/-- … and then any number can begin. -/
theorem C88_replays_begin (cfg : FxConfig) (k : Nat) : ∃ evs s ev s', Fx.Run {} evs s ∧ Fx.Step s ev s' ∧ s'.replays.length = s.replays.length + k := by
  obtain ⟨evs, s, h1, h2, h3, _, h4, _⟩ := upload_once cfg (s := {}) rfl rfl
  obtain ⟨_, cfg', _, hm, _⟩ := (C88_settled_partial h1 h2).2 cfg h4
  have e : ∀ r : FxReq, (s.reqs ++ [r])[s.reqs.length]? = some r := fun r => by simp
  have r1 : Fx.Run {} (evs ++ [.request s.reqs.length]) { s with reqs := s.reqs ++ [.flLock true] } := .snoc h1 (.request ⟨true, .inr rfl⟩)
  have r2 := Fx.Run.snoc r1 (.flLock (e (.flLock true)) h3)
  refine ⟨_, _, _, _, r2, .flBody (t := s.reqs.length) (k := k) (by simp) (fun hn => ?_), ?_⟩
  · rw [show s.managers = none from hn] at hm; cases hm
  · simp

theorem lastTook_append (evs evs' : List FxEv) {cfg : FxConfig} (h : lastTook evs' = some cfg) : lastTook (evs ++ evs') = some cfg := by
  induction evs with
  | nil => exact h
  | cons e evs ih => cases e <;> simp [lastTook, ih]

/-- C88, what does not hold: that the connections of replaced managers are closed.  After `n` uploads of the same configuration its managers run once, with a connection
each, and the connections of all the uploads are open. -/
theorem C88_neg_containers (cfg : FxConfig) (n : Nat) : ∃ evs s, Fx.Run {} evs s ∧ FxEv.shutdown ∉ evs ∧ s.starter = .waiting ∧ s.containers = n * cfg.length ∧
    (n ≠ 0 → ∃ cfg', cfg'.Perm cfg ∧ ((live evs).map Prod.snd).Perm ((fixManagers cfg' []).map Prod.snd)) := by
  have key : ∃ evs s, Fx.Run {} evs s ∧ FxEv.shutdown ∉ evs ∧ s.starter = .waiting ∧ s.lock = none ∧ s.containers = n * cfg.length ∧ (n ≠ 0 → lastTook evs = some cfg) := by
    induction n with
    | zero => exact ⟨[], {}, .nil, by simp, rfl, rfl, by simp, by simp⟩
    | succ n ih =>
      obtain ⟨evs, s, h1, h2, h3, h4, h5, h6⟩ := ih
      obtain ⟨evs', s', g1, g2, g3, g4, g5, g6⟩ := upload_once cfg h3 h4
      refine ⟨evs ++ evs', s', fx_trans h1 g1, by simp [h2, g6], g2, g3, by rw [g4, h5, Nat.succ_mul], fun _ => lastTook_append _ _ g5⟩
  obtain ⟨evs, s, h1, h2, h3, h4, h5, h6⟩ := key
  refine ⟨evs, s, h1, h2, h3, h5, fun hn => ?_⟩
  obtain ⟨_, cfg', c1, _, c2⟩ := (C88_settled_partial h1 h3).2 cfg (h6 hn)
  exact ⟨cfg', c1, c2⟩

/-! ## C89 -/

/-- C89: what is to be seen of a request is the beginning of a story; so a request is answered at most once, an upload that has been read is answered
only after the goroutine of `Start` has received it, and with the error only if it could not be read. -/
theorem C89_story {evs : List FxEv} {s : Fx} (h : Fx.Run {} evs s) (t : Nat) : ∃ rest, Story t (evs.filter (about t) ++ rest) := by
  have := fx_story h t
  generalize evs.filter (about t) = l at this
  cases hr : s.reqs[t]? with
  | none => rw [hr] at this; simp only [StorySoFar] at this; subst this; exact ⟨_, Story.flows⟩
  | some r =>
    rw [hr] at this
    cases r <;> simp only [StorySoFar] at this
    case fxLock | fxHeld | flLock | fxBody | flBody => subst this; exact ⟨[.answered t .flows], Story.flows⟩
    case fxSend st cfg => subst this; exact ⟨[.took t cfg, .answered t (.status st)], Story.upload st cfg⟩
    case fxAnswer a => exact ⟨_, this.1⟩
    case flAnswer => exact ⟨_, this⟩
    case done => exact ⟨[], by simpa using this⟩

/-- C89: left alone, the server comes to rest. -/
theorem C89_rest (s : Fx) : ∃ n, ∀ evs s', Fx.Run s evs s' → (∀ ev ∈ evs, ev.internal = true) → evs.length ≤ n :=
  ⟨fxWeight s, fun evs s' h hi => by have := fx_internal_bound h hi; omega⟩

/-- C89: when it is at rest, has not been shut down and no handler of /flows has the lock and waits for its client, each request has been answered, or its client has not sent
the body of an upload yet. -/
theorem C89_answered_partial {evs : List FxEv} {s : Fx} (h : Fx.Run {} evs s) (hd : FxEv.shutdown ∉ evs) (hrest : ∀ ev s', Fx.Step s ev s' → ev.internal = false) (hf : ¬ FlowsWaits s)
    {t : Nat} (ht : FxEv.request t ∈ evs) : Story t (evs.filter (about t)) ∨ (evs.filter (about t) = [.request t] ∧ ∃ st, s.reqs[t]? = some (.fxBody st)) := by
  have hst := fx_story h t
  cases hr : s.reqs[t]? with
  | none =>
    rw [hr] at hst
    simp only [StorySoFar] at hst
    have : FxEv.request t ∈ evs.filter (about t) := List.mem_filter.2 ⟨ht, by simp [about]⟩
    rw [hst] at this; cases this
  | some r =>
    by_cases hn : r = .done
    · subst hn
      rw [hr] at hst
      exact .inl hst
    · have hfl : r ≠ .fxAnswer .flows := by
        rintro rfl
        rw [hr] at hst
        exact hst.2 rfl
      rcases fx_enabled (fx_inv h) (fx_ctx h hd) hr hn hfl with ⟨ev, s', h1, h2⟩ | ⟨st, rfl⟩ | h3
      · rw [hrest ev s' h1] at h2; cases h2
      · rw [hr] at hst
        exact .inr ⟨hst, st, rfl⟩
      · exact absurd h3 hf

/-- While a client that has asked for a replay does not send the body of its request, no request that comes in is answered. -/
theorem C89_slow_client {evs : List FxEv} {s : Fx} (h : Fx.Run {} evs s) {t : Nat} (ht : s.reqs[t]? = some .flBody) {evs' : List FxEv} {s' : Fx} (h' : Fx.Run s evs' s')
    (hb : ∀ ev ∈ evs', byFlowsClient t ev = false) {u : Nat} (hu : FxEv.request u ∈ evs') (a : FxAnswer) : FxEv.answered u a ∉ evs' := by
  have key : s'.reqs[t]? = some .flBody ∧ s.reqs.length ≤ s'.reqs.length ∧ (∀ u r, s.reqs.length ≤ u → s'.reqs[u]? = some r → ∃ post, r = .fxLock post ∨ r = .flLock post) ∧
      (∀ u, FxEv.request u ∈ evs' → s.reqs.length ≤ u) ∧ (∀ u a, s.reqs.length ≤ u → FxEv.answered u a ∉ evs') := by
    clear hu
    induction h' with
    | nil =>
      refine ⟨ht, Nat.le_refl _, fun u r hu hr => ?_, by simp, by simp⟩
      rw [List.getElem?_eq_none hu] at hr; cases hr
    | @snoc s1 s2 evs' ev hrun hs ih =>
      obtain ⟨i1, i2, i3, i4, i5⟩ := ih fun ev hev => hb ev (List.mem_append_left _ hev)
      have hev := hb ev (by simp)
      have hi := fx_inv (fx_trans h hrun)
      have hl : s1.lock = some (.req t) := (hi.lockReq t).2 ⟨_, i1, rfl⟩
      have quiet : (∀ u, ev ≠ .request u) → (∀ u a, ev ≠ .answered u a) → (∀ u, FxEv.request u ∈ evs' ++ [ev] → s.reqs.length ≤ u) ∧ (∀ u a, s.reqs.length ≤ u → FxEv.answered u a ∉ evs' ++ [ev]) := by
        intro q1 q2
        refine ⟨fun u hm => ?_, fun u a hu hm => ?_⟩
        · rcases List.mem_append.1 hm with hm | hm
          · exact i4 u hm
          · exact absurd (List.mem_singleton.1 hm).symm (q1 u)
        · rcases List.mem_append.1 hm with hm | hm
          · exact i5 u a hu hm
          · exact absurd (List.mem_singleton.1 hm).symm (q2 u a)
      have upd : ∀ {v : Nat} {x y : FxReq}, s1.reqs[v]? = some x → x ≠ .flBody → (∀ post, x ≠ .fxLock post ∧ x ≠ .flLock post) → v < s.reqs.length ∧ (s1.reqs.set v y)[t]? = some .flBody ∧
          s.reqs.length ≤ (s1.reqs.set v y).length ∧ (∀ u r, s.reqs.length ≤ u → (s1.reqs.set v y)[u]? = some r → ∃ post, r = .fxLock post ∨ r = .flLock post) := by
        intro v x y hv hx1 hx2
        have hvt : v ≠ t := by rintro rfl; rw [i1] at hv; exact hx1 (Option.some.inj hv).symm
        have hvl : v < s.reqs.length := by
          refine Nat.lt_of_not_le fun hle => ?_
          obtain ⟨post, hp⟩ := i3 v x hle hv
          rcases hp with hp | hp
          · exact (hx2 post).1 hp
          · exact (hx2 post).2 hp
        refine ⟨hvl, by rw [set_get hv, if_neg hvt]; exact i1, by simpa using i2, fun u r hu hr => ?_⟩
        rw [set_get hv, if_neg (by omega)] at hr
        exact i3 u r hu hr
      cases hs with
      | @request r hr =>
        refine ⟨?_, by simp; omega, fun u r' hu hr' => ?_, fun u hm => ?_, fun u a hu hm => ?_⟩
        · rw [List.getElem?_append_left (List.getElem?_eq_some_iff.1 i1).1]; exact i1
        · rw [List.getElem?_append] at hr'
          split at hr'
          · exact i3 u r' hu hr'
          · rw [List.getElem?_singleton] at hr'
            split at hr'
            · obtain rfl := Option.some.inj hr'
              exact hr
            · cases hr'
        · rcases List.mem_append.1 hm with hm | hm
          · exact i4 u hm
          · have : u = s1.reqs.length := by simpa using hm
            omega
        · rcases List.mem_append.1 hm with hm | hm
          · exact i5 u a hu hm
          · simp at hm
      | fxLock _ hn | flLock _ hn | rpLock _ hn | clear _ hn | publish _ hn => rw [hl] at hn; cases hn
      | fxRead hr | fxBad hr | fxBody hr | take hr =>
        obtain ⟨_, u1, u2, u3⟩ := upd hr (by simp) (by simp)
        exact ⟨u1, u2, u3, quiet (by simp) (by simp)⟩
      | @fxAnswer v b hr =>
        obtain ⟨u0, u1, u2, u3⟩ := upd (y := .done) hr (by simp) (by simp)
        refine ⟨u1, u2, u3, fun u hm => ?_, fun u a hu hm => ?_⟩
        · rcases List.mem_append.1 hm with hm | hm
          · exact i4 u hm
          · simp at hm
        · rcases List.mem_append.1 hm with hm | hm
          · exact i5 u a hu hm
          · have : u = v := (by simpa using hm : u = v ∧ a = b).1
            omega
      | @flAnswer v hr =>
        have := (hi.lockReq v).2 ⟨_, hr, rfl⟩
        rw [hl] at this
        obtain rfl : t = v := by simpa using this
        rw [i1] at hr; cases hr
      | @flBad v hr | @flBody v k hr =>
        have := (hi.lockReq v).2 ⟨_, hr, rfl⟩
        rw [hl] at this
        obtain rfl : t = v := by simpa using this
        simp [byFlowsClient] at hev
      | published | rpDone | first | stop | cleared | create | start | startDone | publishDone | ended | shutdown =>
        exact ⟨i1, i2, i3, quiet (by simp) (by simp)⟩
  exact key.2.2.2.2 u a (key.2.2.2.1 u hu)

/-- C89, what does not hold: that a client cannot keep others from being served: a single request does. -/
theorem C89_neg_slow_client : ∃ evs s, Fx.Run {} evs s ∧ ∀ evs' s', Fx.Run s evs' s' → (∀ ev ∈ evs', byFlowsClient 0 ev = false) → ∀ t a, FxEv.request t ∈ evs' → FxEv.answered t a ∉ evs' :=
  ⟨[.request 0, .tau], { lock := some (.req 0), reqs := [.flBody] }, .snoc (evs := [_]) (.snoc (evs := []) .nil (.request ⟨true, .inr rfl⟩)) (.flLock (t := 0) (post := true) rfl rfl),
    fun _ _ h hb _ a ht => C89_slow_client (.snoc (evs := [_]) (.snoc (evs := []) .nil (.request ⟨true, .inr rfl⟩)) (.flLock (t := 0) (post := true) rfl rfl)) (t := 0) rfl h hb ht a⟩

/-- C89, what does not hold: that an upload is answered when the tool shuts down: the goroutine of `Start` has returned, and the handler waits for ever. -/
theorem C89_neg_shutdown (cfg : FxConfig) : ∃ evs s, Fx.Run {} evs s ∧ FxEv.body 0 (some cfg) ∈ evs ∧ ∀ evs' s', Fx.Run s evs' s' → ∀ a, FxEv.answered 0 a ∉ evs' := by
  refine ⟨[.request 0, .tau, .tau, .body 0 (some cfg), .shutdown, .tau], { ctxDone := true, starter := .ended, reqs := [.fxSend .pending cfg] },
    .snoc (evs := [_, _, _, _, _]) (.snoc (evs := [_, _, _, _]) (.snoc (evs := [_, _, _]) (.snoc (evs := [_, _]) (.snoc (evs := [_]) (.snoc (evs := []) .nil
      (.request ⟨true, .inl rfl⟩)) (.fxLock (t := 0) (post := true) rfl rfl)) (.fxRead (t := 0) (post := true) rfl)) (.fxBody (t := 0) rfl)) (.shutdown rfl)) (.ended rfl rfl), by simp, ?_⟩
  intro evs' s' h
  have key : s'.starter = .ended ∧ s'.reqs[0]? = some (.fxSend .pending cfg) ∧ ∀ a, FxEv.answered 0 a ∉ evs' := by
    induction h with
    | nil => exact ⟨rfl, rfl, by simp⟩
    | @snoc s1 s2 evs ev _ hs ih =>
      obtain ⟨h1, h2, h3⟩ := ih
      have quiet : (∀ a, ev ≠ .answered 0 a) → ∀ a, FxEv.answered 0 a ∉ evs ++ [ev] := by
        intro q a hm
        rcases List.mem_append.1 hm with hm | hm
        · exact h3 a hm
        · exact q a (List.mem_singleton.1 hm).symm
      have upd : ∀ {v : Nat} {x y : FxReq}, s1.reqs[v]? = some x → (∀ st c, x ≠ .fxSend st c) → v ≠ 0 ∧ (s1.reqs.set v y)[0]? = some (.fxSend .pending cfg) := by
        intro v x y hv hx
        have hv0 : v ≠ 0 := by rintro rfl; rw [h2] at hv; exact hx _ _ (Option.some.inj hv).symm
        exact ⟨hv0, by rw [set_get hv, if_neg hv0]; exact h2⟩
      cases hs with
      | request hr =>
        refine ⟨h1, ?_, quiet (by simp)⟩
        rw [List.getElem?_append_left (List.getElem?_eq_some_iff.1 h2).1]; exact h2
      | take hr hw => rw [h1] at hw; cases hw
      | fxLock hr | fxRead hr | fxBad hr | fxBody hr | flLock hr | flBad hr | flBody hr => exact ⟨h1, (upd hr (by simp)).2, quiet (by simp)⟩
      | fxAnswer hr | flAnswer hr =>
        have := upd (y := .done) hr (by simp)
        exact ⟨h1, this.2, quiet (by simp [this.1])⟩
      | published | rpLock | rpDone | shutdown => exact ⟨h1, h2, quiet (by simp)⟩
      | first hst | stop hst | clear hst | cleared hst | create hst | start hst | startDone hst | publish hst | publishDone hst | ended hst => rw [h1] at hst; cases hst
  exact key.2.2

/-- A server with one upload, asked for its status: the hypotheses of the theorems above are met. -/
example : ∃ evs s, Fx.Run {} evs s ∧ FxEv.shutdown ∉ evs ∧ s.starter = .waiting ∧ lastTook evs = some [(⟨"1", "ROUTER", "r1"⟩, (fixtureStoreOf []).1)] ∧ s.containers = 1 := by
  obtain ⟨evs, s, h1, h2, _, h3, h4, h5⟩ := upload_once [(⟨"1", "ROUTER", "r1"⟩, (fixtureStoreOf []).1)] (s := {}) rfl rfl
  exact ⟨evs, s, h1, h5, h2, h4, h3⟩

end Verif.Props
