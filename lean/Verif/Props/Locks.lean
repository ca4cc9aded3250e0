import Verif.Proofs.Locks

/-!
# C93 and C94: locks and data races
-/
namespace Verif.Props
open Verif.Model Verif.Spec Verif.Proofs

/-- C93: however many goroutines make whatever calls on whatever objects, two of them never get to touch a variable at once, one of them writing, unless the variable is the
generation of a link, the state of a BackOff, a registry of stores, or one of the three local variables `cancel`, `src` and `err` of the commands. -/
theorem C93_only_these {gs : List (List Call × List LAct)} (hf : Follows gs) {ths : List LThread} (hr : LReach (begun gs) ths) {x : Cell} (hx : Race ths x) :
    (∃ l, x = .currGen l) ∨ (∃ b, x = .backOff b) ∨ (∃ g, x = .reg g) ∨ (∃ p, x = .cancel p) ∨ (∃ f, x = .src f) ∨ (∃ v, x = .err v) := by
  have := race_loose (lk_reach hr (lk_begun hf)) hx
  cases x <;> simp_all [looseAt]

/-- C93: the generation of a link is only read without the lock: in a race on it one access is a read outside the lock (container.go:349). -/
theorem C93_generation_read {gs : List (List Call × List LAct)} (hf : Follows gs) {ths : List LThread} (hr : LReach (begun gs) ths) {l : Nat} (hx : Race ths (.currGen l)) :
    ∃ (i : Nat) (h : List (Mutex × LMode)) (t : List LAct), ths[i]? = some ⟨h, .read (.currGen l) :: t⟩ ∧ ∀ m, (Mutex.link l, m) ∉ h := by
  have hi := lk_reach hr (lk_begun hf)
  obtain ⟨i, j, h1, h2, a, b, ti, tj, hij, hgi, hgj, ha, hb, hw⟩ := hx
  -- a writer holds the lock exclusively
  have writer : ∀ (k : Nat) (h : List (Mutex × LMode)) (t : List LAct), ths[k]? = some ⟨h, .write (.currGen l) :: t⟩ → (Mutex.link l, LMode.exclusive) ∈ h := by
    intro k h t hk
    obtain ⟨w, hw, hl⟩ := lk_access (hi.ok k _ hk) (x := .currGen l) (.inr rfl)
    have : w = true := hw.mpr rfl
    subst this
    rcases hl with hl | ⟨l', hl', p, hp, e, he⟩
    · simp [looseAt] at hl
    · simp only [guardOf, Option.some.injEq] at hl'
      obtain ⟨p1, p2⟩ := p
      have he := he rfl
      simp only at e he
      rw [e, he, ← hl'] at hp; exact hp
  have two : ∀ (k k' : Nat) (h h' : List (Mutex × LMode)) (a : LAct) (t t' : List LAct), k ≠ k' → ths[k]? = some ⟨h, .write (.currGen l) :: t⟩ →
      ths[k']? = some ⟨h', a :: t'⟩ → TouchesCell a (.currGen l) →
      ∃ (i : Nat) (h : List (Mutex × LMode)) (t : List LAct), ths[i]? = some ⟨h, .read (.currGen l) :: t⟩ ∧ ∀ m, (Mutex.link l, m) ∉ h := by
    intro k k' h h' a t t' hkk hk hk' ht
    have hm := writer k h t hk
    have no : ∀ m, (Mutex.link l, m) ∉ h' := by
      intro m hm'
      have := hi.excl k k' _ _ hkk hk hk' _ hm _ hm' rfl
      cases this.1
    rcases ht with rfl | rfl
    · exact ⟨k', h', t', hk', no⟩
    · exact absurd (writer k' h' t' hk') (no _)
  rcases hw with rfl | rfl
  · exact two i j _ _ _ _ _ hij hgi hgj hb
  · exact two j i _ _ _ _ _ hij.symm hgj hgi ha

/-- C93, partial: with the restriction that no two goroutines use the same link (other than to close it) or the same BackOff, that a registry is filled before dispatchers are made
from it, and that the three local variables are not shared, there is no data race at all. -/
theorem C93_no_race_partial {gs : List (List Call × List LAct)} (hf : Follows gs) (ha : Apart gs) {ths : List LThread} (hr : LReach (begun gs) ths) (x : Cell) :
    ¬ Race ths x := by
  intro hx
  have hl : Loose x := race_loose (lk_reach hr (lk_begun hf)) hx
  obtain ⟨i, j, h1, h2, a, b, ti, tj, hij, hgi, hgj, hta, htb, hw⟩ := hx
  have start : ∀ (k : Nat) (h : List (Mutex × LMode)) (a : LAct) (t : List LAct), ths[k]? = some ⟨h, a :: t⟩ → ∃ g, gs[k]? = some g ∧ a ∈ g.2 := by
    intro k h a t hk
    obtain ⟨th, h1, h2⟩ := todo_suffix hr k _ hk
    simp only [begun, List.getElem?_map, Option.map_eq_some_iff] at h1
    obtain ⟨g, hg, rfl⟩ := h1
    exact ⟨g, hg, h2 a (by simp)⟩
  have touch : ∀ (k : Nat) (h : List (Mutex × LMode)) (a : LAct) (t : List LAct), ths[k]? = some ⟨h, a :: t⟩ → TouchesCell a x →
      ∃ g, gs[k]? = some g ∧ ∃ c ∈ g.1, ∃ w, (x, w) ∈ bare c ∧ (a = .write x → w = true) := by
    intro k h a t hk ht
    obtain ⟨g, hg, hm⟩ := start k h a t hk
    have := runs_covers (hf g (List.mem_of_getElem? hg)) a hm x hl
    refine ⟨g, hg, ?_⟩
    rcases ht with rfl | rfl
    · obtain ⟨c, hc, w, hw⟩ := this.2 rfl
      exact ⟨c, hc, w, hw, by intro e; cases e⟩
    · obtain ⟨c, hc, hw⟩ := this.1 rfl
      exact ⟨c, hc, true, hw, fun _ => rfl⟩
  obtain ⟨gi, hgi', c, hc, w, hcw, hww⟩ := touch i _ _ _ hgi hta
  obtain ⟨gj, hgj', c', hc', w', hcw', hww'⟩ := touch j _ _ _ hgj htb
  have := ha i j gi gj hij hgi' hgj' c hc c' hc' x w w' hcw hcw'
  rcases hw with e | e
  · rw [this.1] at hww; cases hww e
  · rw [this.2] at hww'; cases hww' e

/-! ### What is touched -/

/-- Which variables each call reads and writes, on some course: exactly those of the table. -/
theorem C93_accesses (c : Call) (x : Cell) : (MayDo c (.read x) ↔ x ∈ readsOf c) ∧ (MayDo c (.write x) ↔ x ∈ writesOf c) := by
  unfold MayDo
  rw [← has_tr, ← has_tr]
  cases c
  case serveFlows f ms =>
    simp only [Call.prog, serveFlowsLk, progHas, has_serveStores]
    simp only [mapIndexLk, progHas, readsOf, writesOf]
    cases x <;> simp
  case containerRun c b h =>
    cases h <;>
    simp [Call.prog, containerRunLk, attemptLk, notifyLk, publishSessionLk, ErrHandler.prog, progHas, readsOf, writesOf, handlerReads] <;> cases x <;> simp
  all_goals
    simp [Call.prog, onSessionErrorLk, awaitNextSessionLk, newLinkLk, awaitSessionLk, handleErrorLk, getReceiverLk, getSenderLk, withReceiverLk, withSenderLk, nextLk, acceptLk,
      sendLk, closeLinkLk, clientStartLk, onHeartbeatLk, onRecordLk, getHandlersLk, listenLk, clientCloseLk, discoveryGetLk, discoveryAddLk, discoveryForgetLk, discoveryListLk,
      discoveryObserveLk, discoveryLastSeenLk, unindexLk, reindexLk, mapPatchLk, mapDeleteLk, mapGetLk, mapReplaceLk, mapListLk, mapIndexValuesLk, mapIndexLk, routerGetLk,
      multicastSendLk, multicastSubscribeLk, registerLk, encodeLk, decodeLk, fixtureRunLk, serveFixtureLk, fakeFlowLk, registerStoreLk, newDispatcherLk, commandEndLk, forwardLk,
      captureEndLk, progHas, readsOf, writesOf] <;> try (cases x <;> simp)

/-- What belongs together is written together: as often in every course of every call. -/
theorem C93_pairs (c : Call) {t : List LAct} (ht : c.prog.Tr t) {x y : Cell} (h : Pairs x y) : writesIn t x = writesIn t y := by
  refine even_tr ht ?_
  clear ht
  unfold Pairs at h
  cases c
  case serveFlows f ms =>
    simp only [Call.prog, serveFlowsLk, progEven, even_serveStores]
    split at h <;> simp [writesIn] at *
  case containerRun c b h' =>
    cases h' <;>
    simp only [Call.prog, containerRunLk, attemptLk, notifyLk, publishSessionLk, ErrHandler.prog, progEven] <;> split at h <;> simp_all [writesIn, List.countP_cons]
  all_goals
    simp only [Call.prog, onSessionErrorLk, awaitNextSessionLk, newLinkLk, awaitSessionLk, handleErrorLk, getReceiverLk, getSenderLk, withReceiverLk, withSenderLk, nextLk, acceptLk,
      sendLk, closeLinkLk, clientStartLk, onHeartbeatLk, onRecordLk, getHandlersLk, listenLk, clientCloseLk, discoveryGetLk, discoveryAddLk, discoveryForgetLk, discoveryListLk,
      discoveryObserveLk, discoveryLastSeenLk, unindexLk, reindexLk, mapPatchLk, mapDeleteLk, mapGetLk, mapReplaceLk, mapListLk, mapIndexValuesLk, mapIndexLk, routerGetLk,
      multicastSendLk, multicastSubscribeLk, registerLk, encodeLk, decodeLk, fixtureRunLk, serveFixtureLk, fakeFlowLk, registerStoreLk, newDispatcherLk, commandEndLk, forwardLk,
      captureEndLk, progEven] <;> split at h <;> simp_all [writesIn, List.countP_cons]

/-- A link that is attached is kept together with the generation of its session: on every course as often, and on some course once. -/
theorem C93_attached (l : Nat) :
    (∀ t, (getReceiverLk l).Tr t → writesIn t (.rcv l) = writesIn t (.rcvGen l)) ∧ (∃ t, (getReceiverLk l).Tr t ∧ writesIn t (.rcv l) = 1) ∧
    (∀ t, (getSenderLk l).Tr t → writesIn t (.snd l) = writesIn t (.sndGen l)) ∧ ∃ t, (getSenderLk l).Tr t ∧ writesIn t (.snd l) = 1 := by
  refine ⟨fun t ht => even_tr ht ?_, ⟨_, .seq .acts (.seq (.altR .acts) (.seq (.altR (.seq .acts (.altR .acts))) .acts)), ?_⟩, fun t ht => even_tr ht ?_, ⟨_, .seq .acts (.seq (.altR .acts) (.seq (.altR (.seq .acts (.altR .acts))) .acts)), ?_⟩⟩
  · simp [getReceiverLk, progEven, writesIn]
  · simp [writesIn]
  · simp [getSenderLk, progEven, writesIn]
  · simp [writesIn]

/-- Every course of `Replace` writes both the items and the indices, also with an empty list. -/
theorem C93_replace (m : Nat) {t : List LAct} (ht : (Call.mapReplace m).prog.Tr t) : 1 ≤ writesIn t (.items m) ∧ 1 ≤ writesIn t (.indicies m) := by
  simp only [Call.prog, mapReplaceLk] at ht
  cases ht with
  | seq h1 h2 =>
    cases h1
    cases h2 with
    | seq h2 h3 =>
      cases h3 with
      | seq h3 h4 =>
        cases h3
        simp [writesIn, List.countP_append]
        omega

/-- A `sync.Mutex` is never held by two: only the two locks that are of type `sync.RWMutex` are taken shared. -/
theorem C94_mutex (c : Call) (l : Mutex) (h : MayDo c (.acquire l .shared)) : IsRW l := by
  unfold MayDo at h
  rw [← has_tr] at h
  cases c
  case serveFlows f ms =>
    simp only [Call.prog, serveFlowsLk, progHas, has_serveStores] at h
    simp only [mapIndexLk, progHas] at h
    cases l <;> simp [IsRW] at *
  case containerRun c b h' =>
    cases h' <;>
    simp [Call.prog, containerRunLk, attemptLk, notifyLk, publishSessionLk, ErrHandler.prog, progHas] at h
  all_goals
    simp [Call.prog, onSessionErrorLk, awaitNextSessionLk, newLinkLk, awaitSessionLk, handleErrorLk, getReceiverLk, getSenderLk, withReceiverLk, withSenderLk, nextLk, acceptLk,
      sendLk, closeLinkLk, clientStartLk, onHeartbeatLk, onRecordLk, getHandlersLk, listenLk, clientCloseLk, discoveryGetLk, discoveryAddLk, discoveryForgetLk, discoveryListLk,
      discoveryObserveLk, discoveryLastSeenLk, unindexLk, reindexLk, mapPatchLk, mapDeleteLk, mapGetLk, mapReplaceLk, mapListLk, mapIndexValuesLk, mapIndexLk, routerGetLk,
      multicastSendLk, multicastSubscribeLk, registerLk, encodeLk, decodeLk, fixtureRunLk, serveFixtureLk, fakeFlowLk, registerStoreLk, newDispatcherLk, commandEndLk, forwardLk,
      captureEndLk, progHas] at h <;> first | (subst h; trivial) | (rcases h with h | h <;> subst h <;> trivial)

/-- `RegisterStore` always writes to the registry, and twice if it makes it first. -/
theorem C93_registers (g : Nat) : (∀ t, (Call.registerStore g).prog.Tr t → 1 ≤ writesIn t (.reg g)) ∧ ∃ t, (Call.registerStore g).prog.Tr t ∧ writesIn t (.reg g) = 2 := by
  constructor
  · intro t ht
    simp only [Call.prog, registerStoreLk] at ht
    cases ht with
    | seq h1 h2 =>
      cases h2 with
      | seq h2 h3 =>
        cases h3
        simp [writesIn, List.countP_append]
        omega
  · exact ⟨_, .seq .acts (.seq (.altR .acts) .acts), by simp [writesIn]⟩

/-- What a capture does at its end it does to the variable `err` each time: as many writes as reads. -/
theorem C93_capture_end (v : Nat) {t : List LAct} (ht : (Call.captureEnd v).prog.Tr t) : writesIn t (.err v) = t.countP (fun a => decide (a = .read (.err v))) := by
  simp only [Call.prog, captureEndLk] at ht
  have one : ∀ {p : LProg} {t : List LAct}, LProg.Tr (.opt p) t → (∀ {t}, p.Tr t → writesIn t (.err v) = t.countP (fun a => decide (a = .read (.err v)))) →
      writesIn t (.err v) = t.countP (fun a => decide (a = .read (.err v))) := by
    intro p t h hp
    cases h with
    | altL h => cases h; rfl
    | altR h => exact hp h
  have two : ∀ {p : LProg} {t : List LAct}, LProg.Tr (.seq (.acts [.write (.err v), .read (.err v), .other]) p) t →
      (∀ {t}, p.Tr t → writesIn t (.err v) = t.countP (fun a => decide (a = .read (.err v)))) → writesIn t (.err v) = t.countP (fun a => decide (a = .read (.err v))) := by
    intro p t h hp
    cases h with
    | seq h1 h2 =>
      cases h1
      have := hp h2
      simp only [writesIn] at this
      simp [writesIn, this]
  cases ht with
  | seq h1 h2 =>
    cases h1
    have := one h2 fun h => two h fun h => one h fun h => two h fun h => one h fun h => by cases h; simp [writesIn]
    simp only [writesIn] at this
    simp [writesIn, this]

example : ¬ MayDo (.closeLink 3) (.write (.currGen 3)) ∧ MayDo (.closeLink 3) (.write (.rcv 3)) :=
  ⟨fun h => absurd ((C93_accesses _ _).2.mp h) (by decide), (C93_accesses _ _).2.mpr (by decide)⟩

example : ∃ t, (Call.fixtureRun 0).prog.Tr t ∧ writesIn t (.status 0) = 2 ∧ writesIn t (.managers 0) = 2 := by
  have : ∃ t, (Call.fixtureRun 0).prog.Tr t ∧ writesIn t (.status 0) = 2 :=
    ⟨_, .starCons (.seq .acts (.seq .starNil (.seq .starNil .acts))) .starNil, by decide⟩
  obtain ⟨t, ht, h⟩ := this
  exact ⟨t, ht, h, (C93_pairs _ ht (x := .status 0) (y := .managers 0) rfl).symm.trans h⟩

/-! ### Races there are -/

theorem lreach_cons {a b c : List LThread} (h : LStep a b) (hr : LReach b c) : LReach a c := by
  induction hr with
  | refl => exact .step .refl h
  | step _ hs ih => exact .step ih hs

/-- the goroutine `i` goes on -/
theorem lgo {ths ths' : List LThread} (i : Nat) (held : List (Mutex × LMode)) (a : LAct) (todo : List LAct) (h : ths[i]? = some ⟨held, a :: todo⟩) (hf : a.free ths)
    (e : ths' = ths.set i ⟨a.after held, todo⟩) : LStep ths ths' := by subst e; exact .step h hf

/-- A course of `Send` whose send fails: container.go:293-311 with a session, 372-384 with a new sender, 335, 341-356. -/
def sendFails (l : Nat) : List LAct :=
  [.acquire (.link l) .exclusive, .read (.curr l), .read (.currGen l), .read (.closed l), .release (.link l)] ++
  [.acquire (.link l) .exclusive, .read (.snd l), .read (.curr l), .other, .read (.currGen l), .write (.snd l), .write (.sndGen l), .read (.snd l), .read (.sndGen l), .release (.link l)] ++
  [.other] ++
  [.read (.currGen l), .other, .acquire (.link l) .exclusive, .write (.curr l), .write (.rcv l), .write (.snd l), .release (.link l)] ++ [.other]

/-- A course of `Send` that has to wait for a session first: container.go:303-309. -/
def sendWaits (l c : Nat) : List LAct :=
  [.acquire (.link l) .exclusive, .read (.curr l), .read (.currGen l), .read (.closed l), .release (.link l)] ++
  [.acquire (.container c) .exclusive, .read (.sess c), .read (.gen c), .read (.hasNext c), .release (.container c), .other] ++
  [.acquire (.link l) .exclusive, .write (.curr l), .write (.currGen l), .release (.link l)] ++
  [.acquire (.link l) .exclusive, .read (.snd l), .read (.curr l), .other, .release (.link l)] ++ [.other]

open LProg in
theorem getSender_fails (l : Nat) : (getSenderLk l).Tr ([.acquire (.link l) .exclusive, .read (.snd l), .read (.curr l), .other, .release (.link l)]) :=
  .seq .acts (.seq (.altL .acts) (.seq (.altR (.seq .acts (.altL .acts))) .acts))

open LProg in
theorem sendFails_tr (l c : Nat) : (Call.send l c).prog.Tr (sendFails l) := by
  have h1 : (awaitSessionLk l c).Tr _ := .seq .acts (.altL .acts)
  have h2 : (getSenderLk l).Tr _ := .seq .acts (.seq (.altL .acts) (.seq (.altR (.seq .acts (.altR .acts))) .acts))
  have h3 : (handleErrorLk l).Tr _ := .altR .acts
  have h4 : (withSenderLk l c).Tr _ := .seq h1 (.altR (.seq h2 (.altR (.seq .acts (.altR h3)))))
  have h5 : (sendLk l c).Tr _ := .seq h4 .acts
  simpa [Call.prog, sendFails] using h5

open LProg in
theorem sendWaits_tr (l c : Nat) : (Call.send l c).prog.Tr (sendWaits l c) := by
  have h0 : (awaitNextSessionLk c).Tr _ := .seq .acts .starNil
  have h1 : (awaitSessionLk l c).Tr _ := .seq .acts (.altR (.seq h0 (.altR .acts)))
  have h3 : (handleErrorLk l).Tr [] := .altL .acts
  have h4 : (withSenderLk l c).Tr _ := .seq h1 (.altR (.seq (getSender_fails l) (.altL h3)))
  have h5 : (sendLk l c).Tr _ := .seq h4 .acts
  simpa [Call.prog, sendWaits] using h5

/-- the free condition holds when nobody holds the lock -/
theorem free_of_none {ths : List LThread} {l : Mutex} {m : LMode} (h : ths.all (fun th => th.held.all (fun p => p.1 ≠ l)) = true) : (LAct.acquire l m).free ths := by
  intro th hth p hp e
  simp only [List.all_eq_true] at h
  have := h th hth p hp
  simp [e] at this

/-- the action can be done, decided for locks nobody holds -/
def canGo (ths : List LThread) : LAct → Bool
  | .acquire l _ => ths.all (fun th => th.held.all (fun p => p.1 ≠ l))
  | _ => true

/-- run goroutine `i` for `n` actions, if it can -/
def lrun : List LThread → List (Nat × Nat) → Option (List LThread)
  | ths, [] => some ths
  | ths, (i, n) :: rest => match go ths i n with
    | some ths' => lrun ths' rest
    | none => none
where
  go : List LThread → Nat → Nat → Option (List LThread)
  | ths, _, 0 => some ths
  | ths, i, n + 1 => match ths[i]? with
    | some ⟨h, a :: t⟩ =>
      if canGo ths a then go (ths.set i ⟨a.after h, t⟩) i n else none
    | _ => none

theorem lrun_go {ths ths' : List LThread} {i n : Nat} (h : lrun.go ths i n = some ths') : LReach ths ths' := by
  induction n generalizing ths with
  | zero => simp only [lrun.go, Option.some.injEq] at h; subst h; exact .refl
  | succ n ih =>
    simp only [lrun.go] at h
    split at h
    · next hd a t e =>
      split at h
      · next hf =>
        refine lreach_cons (.step e ?_) (ih h)
        cases a <;> first | trivial | exact free_of_none hf
      · cases h
    · cases h

theorem lrun_reach {ths ths' : List LThread} {is : List (Nat × Nat)} (h : lrun ths is = some ths') : LReach ths ths' := by
  induction is generalizing ths with
  | nil => simp only [lrun, Option.some.injEq] at h; subst h; exact .refl
  | cons p is ih =>
    obtain ⟨i, n⟩ := p
    simp only [lrun] at h
    split at h
    · next e =>
      have h1 := lrun_go e
      have h2 := ih h
      clear e h ih
      induction h2 with
      | refl => exact h1
      | step _ hs ih => exact .step ih hs
    · cases h

/-- a race at the heads of two goroutines, decided -/
def raceAt (ths : List LThread) (i j : Nat) (x : Cell) : Bool :=
  match ths[i]?, ths[j]? with
  | some ⟨_, a :: _⟩, some ⟨_, b :: _⟩ => i ≠ j && (a = .read x || a = .write x) && (b = .read x || b = .write x) && (a = .write x || b = .write x)
  | _, _ => false

theorem race_of {ths : List LThread} {x : Cell} (i j : Nat) (h : raceAt ths i j x = true) : Race ths x := by
  simp only [raceAt] at h
  split at h
  · next hi a ti hj b tj e1 e2 =>
    simp only [Bool.and_eq_true, Bool.or_eq_true, decide_eq_true_eq] at h
    exact ⟨i, j, hi, hj, a, b, ti, tj, h.1.1.1, e1, e2, h.1.1.2, h.1.2, h.2⟩
  · cases h

/-- C93 does not hold without the restriction: two goroutines that send on one link.  The second one's send has failed and its next send is about to record the session it waited for
(container.go:308), while the first one's send has failed too and it reads the generation for its report (349). -/
theorem C93_link_race : ∃ gs ths, Follows gs ∧ gs.map (·.1) = [[Call.send 7 1], [Call.send 7 1, Call.send 7 1]] ∧ LReach (begun gs) ths ∧ Race ths (.currGen 7) := by
  refine ⟨[([.send 7 1], sendFails 7), ([.send 7 1, .send 7 1], sendFails 7 ++ (sendWaits 7 1))],
    ((lrun (begun [([.send 7 1], sendFails 7), ([.send 7 1, .send 7 1], sendFails 7 ++ (sendWaits 7 1))]) [(0, 5), (1, 5), (0, 11), (1, 19), (1, 13)]).getD []), ?_, rfl, ?_, ?_⟩
  · intro g hg
    simp only [List.mem_cons, List.not_mem_nil, or_false] at hg
    rcases hg with rfl | rfl
    · have := Runs.cons (sendFails_tr 7 1) .nil
      simpa using this
    · have := Runs.cons (sendFails_tr 7 1) (Runs.cons (sendWaits_tr 7 1) .nil)
      simpa using this
  · refine lrun_reach (is := [(0, 5), (1, 5), (0, 11), (1, 19), (1, 13)]) ?_
    decide +kernel
  · exact race_of 0 1 (by decide +kernel)

/-- The shortest life of a container: one failed dial, its error is not retried, and the handler of the command calls `cancel()`. -/
def containerFails (c b : Nat) (h : List LAct) : List LAct :=
  [.write (.backOff b), .other, .write (.backOff b), .acquire (.container c) .exclusive, .read (.errorHandlers c)] ++ h ++ [.release (.container c), .other]

open LProg in
theorem containerFails_tr (c b : Nat) (h : ErrHandler) {t : List LAct} (ht : h.prog.Tr t) : (Call.containerRun c b h).prog.Tr (containerFails c b t) := by
  have h1 : (attemptLk c b).Tr _ := .seq .acts (.altL .acts)
  have h2 : (notifyLk c h).Tr _ := .seq .acts (.seq (.starCons ht .starNil) .acts)
  have h3 : (containerRunLk c b h).Tr _ := .seq .acts (.seq .starNil (.seq h1 (.seq (.altR .acts) (.seq (.altR h2) .acts))))
  simpa [Call.prog, containerFails] using h3

/-- Two goroutines that have to get to a race with one call each. -/
theorem race_between {c c' : Call} {t t' : List LAct} (ht : c.prog.Tr t) (ht' : c'.prog.Tr t') (n n' : Nat) {ths : List LThread} {x : Cell}
    (hrun : lrun (begun [([c], t), ([c'], t')]) [(0, n), (1, n')] = some ths) (hx : Race ths x) :
    ∃ gs ths, Follows gs ∧ gs.map (·.1) = [[c], [c']] ∧ LReach (begun gs) ths ∧ Race ths x := by
  refine ⟨[([c], t), ([c'], t')], ths, ?_, rfl, lrun_reach hrun, hx⟩
  intro g hg
  simp only [List.mem_cons, List.not_mem_nil, or_false] at hg
  rcases hg with rfl | rfl
  · have := Runs.cons ht .nil
    simpa using this
  · have := Runs.cons ht' .nil
    simpa using this

/-- C93 does not hold without the restriction: two containers made by one factory with a BackOff in its configuration share its state (factory.go:38-40). -/
theorem C93_backoff_race : ∃ gs ths, Follows gs ∧ gs.map (·.1) = [[Call.containerRun 1 5 .logs], [Call.containerRun 2 5 .logs]] ∧ LReach (begun gs) ths ∧ Race ths (.backOff 5) := by
  refine race_between (containerFails_tr 1 5 .logs .acts) (containerFails_tr 2 5 .logs .acts) 0 0 rfl ?_
  exact race_of 0 1 (by decide +kernel)

/-- C93 does not hold without the restriction: a command that is ending assigns `cancel` while the handler of its container calls it (serve.go:116 and 199, fixture.go:58 and 65). -/
theorem C93_cancel_race : ∃ gs ths, Follows gs ∧ gs.map (·.1) = [[Call.containerRun 1 5 (.cancels 0)], [Call.commandEnd 0]] ∧ LReach (begun gs) ths ∧ Race ths (.cancel 0) := by
  refine race_between (containerFails_tr 1 5 (.cancels 0) (.altL .acts)) (c' := .commandEnd 0) .acts 5 1 rfl ?_
  exact race_of 0 1 (by decide +kernel)

/-- C93 does not hold without the restriction: the loop over the sources of a fixture assigns `src` while the handler of an earlier container names it (fixture.go:105 and 110). -/
theorem C93_source_race : ∃ gs ths, Follows gs ∧ gs.map (·.1) = [[Call.containerRun 1 5 (.namesSource 0)], [Call.fixtureRun 0]] ∧ LReach (begun gs) ths ∧ Race ths (.src 0) := by
  have h : (Call.fixtureRun 0).prog.Tr _ := .starCons (.seq .acts (.seq (.starCons .acts (.starCons .acts .starNil)) (.seq .starNil .acts))) .starNil
  refine race_between (containerFails_tr 1 5 (.namesSource 0) .acts) h 5 8 rfl ?_
  exact race_of 0 1 (by decide +kernel)

/-- C93 does not hold without the restriction: the goroutine of the port forward and the capture itself assign the same `err` (vancap/main.go:232 and 244). -/
theorem C93_err_race : ∃ gs ths, Follows gs ∧ gs.map (·.1) = [[Call.forward 0], [Call.captureEnd 0]] ∧ LReach (begun gs) ths ∧ Race ths (.err 0) := by
  have h : (Call.forward 0).prog.Tr _ := .seq .acts (.altL .acts)
  have h' : (Call.captureEnd 0).prog.Tr _ := .seq .acts (.altR (.seq .acts (.altL .acts)))
  refine race_between h h' 1 1 rfl ?_
  exact race_of 0 1 (by decide +kernel)

/-- C93 does not hold without the restriction: a store is registered while a dispatcher is made (dispatch.go:25 and 31). -/
theorem C93_registry_race : ∃ gs ths, Follows gs ∧ gs.map (·.1) = [[Call.registerStore 0], [Call.newDispatcher 0]] ∧ LReach (begun gs) ths ∧ Race ths (.reg 0) := by
  have h : (Call.registerStore 0).prog.Tr _ := .seq .acts (.seq (.altL .acts) .acts)
  have h' : (Call.newDispatcher 0).prog.Tr _ := .seq .acts .starNil
  refine race_between h h' 2 0 rfl ?_
  exact race_of 0 1 (by decide +kernel)

/-! ## C94 -/

/-- C94: on every course a call can take, a lock is released as often as it is taken, at no point more often than taken, and never taken again before it is released. -/
theorem C94_balanced {c : Call} {t : List LAct} (ht : c.prog.Tr t) (l : Mutex) :
    balance l t = 0 ∧ ∀ u v, t = u ++ v → balance l u = 0 ∨ balance l u = 1 := by
  have hc := chk_sound ht (chk_call c)
  refine ⟨?_, ?_⟩
  · have := balance_ok hc l
    simp only [heldCount, List.any_nil, Bool.false_eq_true, if_false] at this
    omega
  · rintro u v rfl
    obtain ⟨h1, e⟩ := chkActs_prefix hc
    have := balance_ok e l
    simp only [heldCount, List.any_nil, Bool.false_eq_true, if_false] at this
    split at this <;> omega

/-- C94: locks alone never bring the goroutines to a standstill: whatever calls any number of goroutines make, and whatever has happened, if one of them is not done then one of
them can go on, even if a waiting writer keeps new readers out. -/
theorem C94_no_deadlock {gs : List (List Call × List LAct)} (hf : Follows gs) {ths : List LThread} (hr : LReach (begun gs) ths) (hn : ∃ th ∈ ths, th.todo ≠ []) :
    ∃ (i : Nat) (h : List (Mutex × LMode)) (a : LAct) (t : List LAct), ths[i]? = some ⟨h, a :: t⟩ ∧ FreeStrict ths a ∧ LStep ths (ths.set i ⟨a.after h, t⟩) := by
  obtain ⟨⟨h, todo⟩, hm, hne⟩ := hn
  obtain ⟨i, hi⟩ := List.getElem?_of_mem hm
  cases todo with
  | nil => exact absurd rfl hne
  | cons a t =>
    obtain ⟨j, h, a, t, hj, hs⟩ := lk_progress (lk_reach hr (lk_begun hf)) hi
    exact ⟨j, h, a, t, hj, hs, .step hj hs.1⟩

/-- C94: when all are done, no lock is held. -/
theorem C94_all_released {gs : List (List Call × List LAct)} (hf : Follows gs) {ths : List LThread} (hr : LReach (begun gs) ths) (hd : ∀ th ∈ ths, th.todo = []) :
    ∀ th ∈ ths, th.held = [] := by
  intro th hm
  obtain ⟨i, hi⟩ := List.getElem?_of_mem hm
  have := (lk_reach hr (lk_begun hf)).ok i th hi
  rw [hd th hm] at this
  simpa [chkActs] using this

/-! ### Examples -/

theorem follows_three {cs cs' cs'' : List Call} {t t' t'' : List LAct} (h : Runs cs t) (h' : Runs cs' t') (h'' : Runs cs'' t'') :
    Follows [(cs, t), (cs', t'), (cs'', t'')] := by
  intro g hg
  simp only [List.mem_cons, List.not_mem_nil, or_false] at hg
  rcases hg with rfl | rfl | rfl
  · exact h
  · exact h'
  · exact h''

/-- Two goroutines list and patch one store, and a third asks for the flows of that store: they follow their calls and are apart. -/
example : ∃ gs, Follows gs ∧ Apart gs ∧ gs.map (·.1) = [[Call.mapList 3], [Call.mapPatch 3, Call.send 7 1], [Call.serveFlows 0 [3], Call.closeLink 7]] := by
  have h1 : (Call.mapList 3).prog.Tr _ := .seq .acts (.seq .starNil .acts)
  have h2 : (Call.mapPatch 3).prog.Tr _ := .seq .acts (.seq (.altL .acts) .acts)
  have h3 : (mapIndexLk 3).Tr _ := .seq .acts (.seq (.altL .acts) .acts)
  have h4 : (Call.serveFlows 0 [3]).prog.Tr _ := .seq .acts (.seq (.seq h3 (.seq .acts .acts)) (.seq .acts (.seq .starNil (.seq (.altL .acts) .acts))))
  have h5 : (Call.closeLink 7).prog.Tr _ := .acts
  refine ⟨_, follows_three (Runs.cons h1 .nil) (Runs.cons h2 (.cons (sendFails_tr 7 1) .nil)) (Runs.cons h4 (.cons h5 .nil)), ?_, rfl⟩
  · intro i j gi gj hij hi hj c hc c' hc' x w w' hx hx'
    match i, j with
    | 0, _ => simp only [List.getElem?_cons_zero, Option.some.injEq] at hi; subst hi; simp at hc; subst hc; simp [bare] at hx
    | 1, 0 => simp at hj; subst hj; simp at hc'; subst hc'; simp [bare] at hx'
    | 1, 1 => exact absurd rfl hij
    | 1, 2 => simp at hj; subst hj; simp at hc'; rcases hc' with rfl | rfl <;> simp [bare] at hx'
    | 1, n + 3 => simp at hj
    | 2, _ => simp at hi; subst hi; simp at hc; rcases hc with rfl | rfl <;> simp [bare] at hx
    | n + 3, _ => simp at hi

end Verif.Props
