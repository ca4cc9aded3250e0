import Verif.Spec.Replay
import Verif.Proofs.FixtureServer

/-!
# C90: a replay ends
-/
namespace Verif.Props
open Verif Verif.Model Verif.Spec Verif.Proofs

/-- C90: the number in the answers of /flows is that of the flows of the replays that have ended. -/
theorem C90_count {evs : List RqEv} {s : Rq} (h : Rq.Run {} evs s) : s.processed = flowsReplayed evs := by
  induction h with
  | nil => rfl
  | snoc _ hs ih => cases hs <;> simp [flowsReplayed] at ih ⊢ <;> omega

/-- C90: a replay ends once, and only one that was begun with this number of flows. -/
theorem C90_once {evs : List RqEv} {s : Rq} (h : Rq.Run {} evs s) : evs.Pairwise (fun a b => ∀ i f g, a = .finished i f → b ≠ .finished i g) ∧
    ∀ i f, RqEv.finished i f ∈ evs → RqEv.replay i f ∈ evs := by
  have key : evs.Pairwise (fun a b => ∀ i f g, a = .finished i f → b ≠ .finished i g) ∧ (∀ i f, RqEv.finished i f ∈ evs → RqEv.replay i f ∈ evs ∧ ∃ r, s.replays[i]? = some r ∧ r.done = true) ∧
      ∀ (i : Nat) (r : RqReplay), s.replays[i]? = some r → RqEv.replay i r.flows ∈ evs := by
    induction h with
    | nil => simp
    | @snoc s1 s2 evs ev _ hs ih =>
      obtain ⟨h1, h2, h3⟩ := ih
      have quiet : (∀ i f, ev ≠ .finished i f) → (evs ++ [ev]).Pairwise (fun a b => ∀ i f g, a = .finished i f → b ≠ .finished i g) := by
        intro q
        rw [List.pairwise_append]
        exact ⟨h1, by simp, fun a _ b hb i f g _ => by rw [List.mem_singleton.1 hb]; exact q i g⟩
      have keep : (∀ i f, ev ≠ .finished i f) → (∀ (i : Nat) r, s1.replays[i]? = some r → r.done = true → s2.replays[i]? = some r) →
          ∀ i f, RqEv.finished i f ∈ evs ++ [ev] → RqEv.replay i f ∈ evs ++ [ev] ∧ ∃ r, s2.replays[i]? = some r ∧ r.done = true := by
        intro q hk i f hm
        rcases List.mem_append.1 hm with hm | hm
        · obtain ⟨a, r, b, c⟩ := h2 i f hm
          exact ⟨List.mem_append_left _ a, r, hk i r b c, c⟩
        · exact absurd (List.mem_singleton.1 hm).symm (q i f)
      cases hs with
      | manager | serve | cancel | «return» =>
        exact ⟨quiet (by simp), keep (by simp) (fun _ _ h _ => h), fun i r hr => List.mem_append_left _ (h3 i r hr)⟩
      | @replay todo flows hin =>
        refine ⟨quiet (by simp), keep (by simp) (fun i r h _ => ?_), fun i r hr => ?_⟩
        · show (s1.replays ++ _)[i]? = _
          rw [List.getElem?_append_left (List.getElem?_eq_some_iff.1 h).1]; exact h
        · replace hr : (s1.replays ++ _)[i]? = _ := hr
          rw [List.getElem?_append] at hr
          split at hr
          · exact List.mem_append_left _ (h3 i r hr)
          · rename_i hlt
            rw [List.getElem?_singleton] at hr
            split at hr
            · obtain rfl := Option.some.inj hr
              have : s1.replays.length = i := by omega
              simp [this]
            · cases hr
      | @publish i m todo flows g hr hg hq =>
        refine ⟨quiet (by simp), keep (by simp) (fun j r h hd => ?_), fun j r h => ?_⟩
        · show (s1.replays.set i _)[j]? = _
          rw [set_get hr]
          split
          · rename_i e; subst e; rw [hr] at h; obtain rfl := Option.some.inj h; cases hd
          · exact h
        · replace h : (s1.replays.set i _)[j]? = _ := h
          rw [set_get hr] at h
          split at h
          · rename_i e; subst e
            obtain rfl := Option.some.inj h
            have := h3 i _ hr
            exact List.mem_append_left _ this
          · exact List.mem_append_left _ (h3 j r h)
      | @finish i flows hr =>
        refine ⟨?_, fun j f hm => ?_, fun j r h => ?_⟩
        · rw [List.pairwise_append]
          refine ⟨h1, by simp, fun a ha b hb j f g he => ?_⟩
          subst he
          rw [List.mem_singleton.1 hb]
          intro he
          obtain ⟨rfl, rfl⟩ : i = j ∧ flows = g := by simpa using he
          obtain ⟨_, r, hr', hd⟩ := h2 i f ha
          rw [hr] at hr'; obtain rfl := Option.some.inj hr'; cases hd
        · rcases List.mem_append.1 hm with hm | hm
          · obtain ⟨a, r, b, c⟩ := h2 j f hm
            refine ⟨List.mem_append_left _ a, ?_⟩
            show ∃ r, (s1.replays.set i _)[j]? = some r ∧ _
            rw [set_get hr]
            split
            · exact ⟨_, rfl, rfl⟩
            · exact ⟨r, b, c⟩
          · obtain ⟨rfl, rfl⟩ : j = i ∧ f = flows := by simpa using hm
            refine ⟨List.mem_append_left _ (h3 j _ hr), ?_⟩
            show ∃ r, (s1.replays.set j _)[j]? = some r ∧ _
            rw [set_get hr, if_pos rfl]
            exact ⟨_, rfl, rfl⟩
        · replace h : (s1.replays.set i _)[j]? = _ := h
          rw [set_get hr] at h
          split at h
          · rename_i e; subst e
            obtain rfl := Option.some.inj h
            have := h3 i _ hr
            exact List.mem_append_left _ this
          · exact List.mem_append_left _ (h3 j r h)
  exact ⟨key.1, fun i f hm => (key.2.1 i f hm).1⟩

def rpTodo (r : RqReplay) : Nat := 2 * r.todo.length + if r.done then 0 else 1

def rqWeight (s : Rq) : Nat := (s.replays.map rpTodo).sum + (s.managers.map RqManager.queue).sum

theorem rq_decreases {s s' : Rq} {ev : RqEv} (h : Rq.Step s ev s') (hi : ev.internal = true) : rqWeight s' < rqWeight s := by
  cases h with
  | manager | replay | cancel | «return» => cases hi
  | @publish i m todo flows g hr hg hq =>
    have h1 := set_sum rpTodo (b := { todo := todo, flows := flows }) hr
    have h2 := set_sum RqManager.queue (b := { g with queue := g.queue + 1 }) hg
    simp only [rqWeight, rpTodo, List.length_cons] at h1 h2 ⊢
    simp only [Bool.false_eq_true, if_false] at h1
    omega
  | @serve m g hg hq hr =>
    have h2 := set_sum RqManager.queue (b := { g with queue := g.queue - 1 }) hg
    simp only [rqWeight] at h2 ⊢
    omega
  | @finish i flows hr =>
    have h1 := set_sum rpTodo (b := { todo := [], flows := flows, done := true }) hr
    simp only [rqWeight, rpTodo] at h1 ⊢
    simp only [Bool.false_eq_true, if_false, if_true] at h1
    omega

theorem rq_range {evs : List RqEv} {s : Rq} (h : Rq.Run {} evs s) : (∀ r ∈ s.replays, ∀ m ∈ r.todo, m < s.managers.length) ∧ (∀ r ∈ s.replays, r.done = true → r.todo = []) := by
  induction h with
  | nil => simp
  | snoc _ hs ih =>
    obtain ⟨h1, h2⟩ := ih
    cases hs with
    | manager => exact ⟨fun r hr m hm => by have := h1 r hr m hm; simp; omega, h2⟩
    | replay hin =>
      refine ⟨fun r hr m hm => ?_, fun r hr hd => ?_⟩
      · rcases List.mem_append.1 hr with hr | hr
        · exact h1 r hr m hm
        · rw [List.mem_singleton.1 hr] at hm; exact hin m hm
      · rcases List.mem_append.1 hr with hr | hr
        · exact h2 r hr hd
        · rw [List.mem_singleton.1 hr] at hd; cases hd
    | publish hr hg hq =>
      have hmem := List.mem_of_getElem? hr
      refine ⟨fun r hr' m hm => ?_, fun r hr' hd => ?_⟩
      · simp only [List.length_set]
        rcases List.mem_or_eq_of_mem_set hr' with h | rfl
        · exact h1 r h m hm
        · exact h1 _ hmem m (List.mem_cons_of_mem _ hm)
      · rcases List.mem_or_eq_of_mem_set hr' with h | rfl
        · exact h2 r h hd
        · cases hd
    | serve | cancel | «return» => exact ⟨fun r hr m hm => by simpa using h1 r hr m hm, h2⟩
    | finish hr =>
      refine ⟨fun r hr' m hm => ?_, fun r hr' hd => ?_⟩
      · rcases List.mem_or_eq_of_mem_set hr' with h | rfl
        · exact h1 r h m hm
        · cases hm
      · rcases List.mem_or_eq_of_mem_set hr' with h | rfl
        · exact h2 r h hd
        · rfl

/-- C90: replays and managers come to rest when nothing comes from outside. -/
theorem C90_rest (s : Rq) : ∃ n, ∀ evs s', Rq.Run s evs s' → (∀ ev ∈ evs, ev.internal = true) → evs.length ≤ n := by
  refine ⟨rqWeight s, fun evs s' h hi => ?_⟩
  have : evs.length + rqWeight s' ≤ rqWeight s := by
    induction h with
    | nil => simp
    | snoc _ hs ih =>
      have h1 := ih fun ev hev => hi ev (List.mem_append_left _ hev)
      have h2 := rq_decreases hs (hi _ (by simp))
      simp only [List.length_append, List.length_singleton]
      omega
  omega

/-- C90, for the time in which no manager is replaced: when everything is at rest, every replay has ended, and all their flows are counted. -/
theorem C90_ends_partial {evs : List RqEv} {s : Rq} (h : Rq.Run {} evs s) (hn : ∀ m, RqEv.returned m ∉ evs) (hrest : ∀ ev s', Rq.Step s ev s' → ev.internal = false) {i flows : Nat}
    (hi : RqEv.replay i flows ∈ evs) : RqEv.finished i flows ∈ evs := by
  have hret : ∀ g ∈ s.managers, g.returned = false := by
    clear hrest hi
    induction h with
    | nil => simp
    | snoc _ hs ih =>
      have ih := ih fun m hm => hn m (List.mem_append_left _ hm)
      cases hs with
      | manager =>
        intro g hg
        rcases List.mem_append.1 hg with hg | hg
        · exact ih g hg
        · rw [List.mem_singleton.1 hg]
      | @«return» m => exact absurd (by simp) (hn m)
      | replay | finish => exact ih
      | publish _ hg _ | serve hg _ _ | cancel hg _ =>
        intro g' hg'
        rcases List.mem_or_eq_of_mem_set hg' with h | rfl
        · exact ih g' h
        · have := ih _ (List.mem_of_getElem? hg)
          exact this
  have hstory : ∃ r, s.replays[i]? = some r ∧ r.flows = flows ∧ (r.done = true → RqEv.finished i flows ∈ evs) := by
    clear hrest hn hret
    induction h with
    | nil => cases hi
    | @snoc s1 s2 evs ev _ hs ih =>
      have mono : (∃ r, s1.replays[i]? = some r ∧ r.flows = flows ∧ (r.done = true → RqEv.finished i flows ∈ evs)) → s2.replays = s1.replays →
          ∃ r, s2.replays[i]? = some r ∧ r.flows = flows ∧ (r.done = true → RqEv.finished i flows ∈ evs ++ [ev]) := by
        rintro ⟨r, a, b, c⟩ he
        exact ⟨r, by rw [he]; exact a, b, fun hd => List.mem_append_left _ (c hd)⟩
      cases hs with
      | manager | serve | cancel | «return» => exact mono (ih (by simpa using hi)) rfl
      | @replay todo f hin =>
        rcases List.mem_append.1 hi with hm | hm
        · obtain ⟨r, a, b, c⟩ := ih hm
          refine ⟨r, ?_, b, fun hd => List.mem_append_left _ (c hd)⟩
          show (s1.replays ++ _)[i]? = _
          rw [List.getElem?_append_left (List.getElem?_eq_some_iff.1 a).1]; exact a
        · obtain ⟨rfl, rfl⟩ : i = s1.replays.length ∧ flows = f := by simpa using hm
          exact ⟨{ todo := todo, flows := flows }, by simp, rfl, by simp⟩
      | @publish j m todo f g hr hg hq =>
        obtain ⟨r, a, b, c⟩ := ih (by simpa using hi)
        show ∃ r, (s1.replays.set j _)[i]? = some r ∧ _
        rw [set_get hr]
        split
        · rename_i e; subst e
          rw [hr] at a; obtain rfl := Option.some.inj a
          exact ⟨_, rfl, b, by simp⟩
        · exact ⟨r, a, b, fun hd => List.mem_append_left _ (c hd)⟩
      | @finish j f hr =>
        obtain ⟨r, a, b, c⟩ := ih (by simpa using hi)
        show ∃ r, (s1.replays.set j _)[i]? = some r ∧ _
        rw [set_get hr]
        split
        · rename_i e; subst e
          rw [hr] at a; obtain rfl := Option.some.inj a
          exact ⟨_, rfl, b, fun _ => by simp at b; simp [b]⟩
        · exact ⟨r, a, b, fun hd => List.mem_append_left _ (c hd)⟩
  obtain ⟨⟨todo, f, done⟩, h1, rfl, h3⟩ := hstory
  cases done with
  | true => exact h3 rfl
  | false =>
    cases todo with
    | nil => have := hrest _ _ (.finish h1); cases this
    | cons m todo =>
      have hlt := (rq_range h).1 _ (List.mem_of_getElem? h1) m List.mem_cons_self
      have hg := List.getElem?_eq_getElem hlt
      by_cases hq : (s.managers[m]).queue < changeQueueCap
      · have := hrest _ _ (.publish h1 hg hq); cases this
      · have := hrest _ _ (.serve hg (by simp only [changeQueueCap] at hq; omega) (hret _ (List.getElem_mem hlt)))
        cases this

theorem rq_trans {s s' s'' : Rq} {evs evs' : List RqEv} (h : Rq.Run s evs s') (h' : Rq.Run s' evs' s'') : Rq.Run s (evs ++ evs') s'' := by
  induction h' with
  | nil => simpa using h
  | snoc _ hs ih => rw [← List.append_assoc]; exact .snoc ih hs

/-- Once `serve` of a manager has returned and its queue has not enough room for what a replay has still to publish there, the replay never ends. -/
theorem C90_stuck {s : Rq} {i m : Nat} {r : RqReplay} {g : RqManager} (hr : s.replays[i]? = some r) (hd : r.done = false) (hg : s.managers[m]? = some g) (hret : g.returned = true) (hcap : g.queue ≤ changeQueueCap)
    (hroom : changeQueueCap < g.queue + r.todo.count m) {evs : List RqEv} {s' : Rq} (h : Rq.Run s evs s') (f : Nat) : RqEv.finished i f ∉ evs := by
  have key : (∃ r g, s'.replays[i]? = some r ∧ r.done = false ∧ s'.managers[m]? = some g ∧ g.returned = true ∧ g.queue ≤ changeQueueCap ∧ changeQueueCap < g.queue + r.todo.count m) ∧ ∀ f, RqEv.finished i f ∉ evs := by
    induction h with
    | nil => exact ⟨⟨r, g, hr, hd, hg, hret, hcap, hroom⟩, by simp⟩
    | @snoc s1 s2 evs ev _ hs ih =>
      obtain ⟨⟨r, g, a1, a2, a3, a4, a6, a5⟩, b⟩ := ih
      have quiet : (∀ f, ev ≠ .finished i f) → ∀ f, RqEv.finished i f ∉ evs ++ [ev] := by
        intro q f hm
        rcases List.mem_append.1 hm with hm | hm
        · exact b f hm
        · exact q f (List.mem_singleton.1 hm).symm
      cases hs with
      | manager =>
        refine ⟨⟨r, g, a1, a2, ?_, a4, a6, a5⟩, quiet (by simp)⟩
        show (s1.managers ++ _)[m]? = _
        rw [List.getElem?_append_left (List.getElem?_eq_some_iff.1 a3).1]; exact a3
      | replay =>
        refine ⟨⟨r, g, ?_, a2, a3, a4, a6, a5⟩, quiet (by simp)⟩
        show (s1.replays ++ _)[i]? = _
        rw [List.getElem?_append_left (List.getElem?_eq_some_iff.1 a1).1]; exact a1
      | @publish j m' todo fl g' hr' hg' hq =>
        refine ⟨?_, quiet (by simp)⟩
        show ∃ r g, (s1.replays.set j _)[i]? = some r ∧ _ ∧ (s1.managers.set m' _)[m]? = some g ∧ _
        rw [set_get hr', set_get hg']
        by_cases hj : j = i
        · subst hj
          rw [hr'] at a1; obtain rfl := Option.some.inj a1
          rw [if_pos rfl]
          by_cases hm : m' = m
          · subst hm
            rw [hg'] at a3; obtain rfl := Option.some.inj a3
            rw [if_pos rfl]
            refine ⟨_, _, rfl, rfl, rfl, a4, hq, ?_⟩
            simp only [List.count_cons_self] at a5 ⊢
            omega
          · rw [if_neg hm]
            refine ⟨_, _, rfl, rfl, a3, a4, a6, ?_⟩
            simp only [List.count_cons_of_ne hm] at a5
            exact a5
        · rw [if_neg hj]
          by_cases hm : m' = m
          · subst hm
            rw [hg'] at a3; obtain rfl := Option.some.inj a3
            rw [if_pos rfl]
            refine ⟨_, _, a1, a2, rfl, a4, hq, ?_⟩
            simp only
            omega
          · rw [if_neg hm]
            exact ⟨_, _, a1, a2, a3, a4, a6, a5⟩
      | @serve m' g' hg' hq hr' =>
        refine ⟨⟨r, g, a1, a2, ?_, a4, a6, a5⟩, quiet (by simp)⟩
        show (s1.managers.set m' _)[m]? = _
        rw [set_get hg', if_neg]
        · exact a3
        · rintro rfl
          rw [hg'] at a3; obtain rfl := Option.some.inj a3
          rw [a4] at hr'; cases hr'
      | @cancel m' g' hg' hc =>
        refine ⟨?_, quiet (by simp)⟩
        show ∃ r g, s1.replays[i]? = some r ∧ _ ∧ (s1.managers.set m' _)[m]? = some g ∧ _
        rw [set_get hg']
        by_cases hm : m' = m
        · subst hm
          rw [hg'] at a3; obtain rfl := Option.some.inj a3
          rw [if_pos rfl]
          exact ⟨_, _, a1, a2, rfl, a4, a6, a5⟩
        · rw [if_neg hm]
          exact ⟨_, _, a1, a2, a3, a4, a6, a5⟩
      | @«return» m' g' hg' hc hr' =>
        refine ⟨⟨r, g, a1, a2, ?_, a4, a6, a5⟩, quiet (by simp)⟩
        show (s1.managers.set m' _)[m]? = _
        rw [set_get hg', if_neg]
        · exact a3
        · rintro rfl
          rw [hg'] at a3; obtain rfl := Option.some.inj a3
          rw [a4] at hr'; cases hr'
      | @finish j fl hr' =>
        have hji : j ≠ i := by
          rintro rfl
          rw [hr'] at a1; obtain rfl := Option.some.inj a1
          simp only [List.count_nil] at a5
          omega
        refine ⟨⟨r, g, ?_, a2, a3, a4, a6, a5⟩, quiet (by simp [hji])⟩
        show (s1.replays.set j _)[i]? = _
        rw [set_get hr', if_neg hji]; exact a1
  exact key.2 f

theorem count_rounds (env : FakeEnv) : ∀ (n : Nat) (srv cli : List (Mem GoTime)), (((fakeRounds env n srv cli).map Prod.fst).count .server = n * srv.length) ∧
    (((fakeRounds env n srv cli).map Prod.fst).count .client = n * cli.length)
  | 0, _, _ => by simp [fakeRounds]
  | n + 1, srv, cli => by
    obtain ⟨h1, h2⟩ := count_rounds env n (fakeRound (if n = 0 then some env.endAt else none) srv).1 (fakeRound (if n = 0 then some env.endAt else none) cli).1
    have e : ∀ (l : List RecordUpdate) (a b : Side), ((l.map fun u => (a, u)).map Prod.fst).count b = if a = b then l.length else 0 := by
      intro l a b
      simp only [List.map_map, Function.comp_def, List.map_const', List.count_replicate, beq_iff_eq]
    have l1 : ∀ (t : Option GoTime) (l : List (Mem GoTime)), (fakeRound t l).1.length = l.length ∧ (fakeRound t l).2.length = l.length := fun t l => by simp [fakeRound]
    simp only [fakeRounds, List.map_append, List.count_append, e, h1, h2, l1]
    constructor
    · simp [Nat.succ_mul, Nat.add_comm]
    · simp [Nat.succ_mul, Nat.add_comm]

/-- A replay of n flows publishes 5 n updates on each side (fixture.go:240 asks for 4 increments). -/
theorem fake_count {env : FakeEnv} {og : FlowPair} {a b : Bool} {flows : Int} {l : List (Side × RecordUpdate)} (h : fakeFlow env og a b flows 4 = .ok l) :
    0 ≤ flows ∧ (l.map Prod.fst).count .server = 5 * flows.toNat ∧ (l.map Prod.fst).count .client = 5 * flows.toNat := by
  unfold fakeFlow at h
  obtain ⟨s, _, h⟩ := Res.bind_eq_ok.1 h
  obtain ⟨c, _, h⟩ := Res.bind_eq_ok.1 h
  split at h
  · cases h
  · rename_i hf
    simp only at h
    split at h
    · cases h
    · obtain rfl := Res.ok.inj h
      have e : ∀ (l : List (Mem GoTime)) (a b : Side), ((l.map fun m => (a, ({ curr := flowRec m } : RecordUpdate))).map Prod.fst).count b = if a = b then l.length else 0 := by
        intro l a b
        simp only [List.map_map, Function.comp_def, List.map_const', List.count_replicate, beq_iff_eq]
      obtain ⟨h1, h2⟩ := count_rounds env 4 ((List.range flows.toNat).map (fakeServer env s 4)) ((List.range flows.toNat).map (fakeClient env c 4))
      simp only [List.map_append, List.count_append, e, h1, h2, List.length_map, List.length_range]
      refine ⟨by omega, ?_, ?_⟩ <;> simp <;> omega

/-- Where the updates of a replay go, with the server's manager first. -/
def sideIndex : Side → Nat
  | .server => 0
  | .client => 1

theorem count_side : ∀ l : List (Side × RecordUpdate), (l.map fun u => sideIndex u.1).count 0 = (l.map Prod.fst).count .server
  | [] => rfl
  | (a, u) :: l => by
    have ih := count_side l
    cases a
    · simp only [List.map_cons, sideIndex, List.count_cons_self]
      exact congrArg (· + 1) ih
    · simp only [List.map_cons]
      rw [List.count_cons_of_ne (by decide), List.count_cons_of_ne (by decide)]
      exact ih

/-- C90, what does not hold: that a replay ends when another configuration is uploaded while it runs.  With 52 flows or more it waits for ever in `PublishUpdate` if the manager of the server's
side has returned before it has served any of its updates; its flows are never counted. -/
theorem C90_neg_replaced {env : FakeEnv} {og : FlowPair} {flows : Int} {l : List (Side × RecordUpdate)} (h : fakeFlow env og true true flows 4 = .ok l) (hf : 52 ≤ flows) :
    ∃ evs s, Rq.Run {} evs s ∧ RqEv.replay 0 flows.toNat ∈ evs ∧ s.replays = [{ todo := l.map fun u => sideIndex u.1, flows := flows.toNat }] ∧
      ∀ evs' s', Rq.Run s evs' s' → ∀ f, RqEv.finished 0 f ∉ evs' := by
  obtain ⟨_, h1, _⟩ := fake_count h
  refine ⟨[.manager, .manager, .replay 0 flows.toNat, .cancelled 0, .returned 0], { managers := [{ cancelled := true, returned := true }, {}], replays := [{ todo := l.map fun u => sideIndex u.1, flows := flows.toNat }] },
    .snoc (evs := [_, _, _, _]) (.snoc (evs := [_, _, _]) (.snoc (evs := [_, _]) (.snoc (evs := [_]) (.snoc (evs := []) .nil .manager) .manager) (.replay ?_)) (.cancel (m := 0) (g := {}) rfl rfl))
      (.return (m := 0) (g := { cancelled := true }) rfl rfl rfl), by simp, rfl, fun evs' s' h' f => ?_⟩
  · intro m hm
    obtain ⟨u, _, rfl⟩ := List.mem_map.1 hm
    cases u.1 <;> simp [sideIndex]
  · refine C90_stuck (s := { managers := [{ cancelled := true, returned := true }, {}], replays := [{ todo := l.map fun u => sideIndex u.1, flows := flows.toNat }] }) (m := 0) rfl rfl rfl rfl (by simp) ?_ h' f
    simp only [count_side, h1, changeQueueCap]
    omega

/-- There are such replays. -/
example : ∃ l, fakeFlow { srvID := "a", cliID := "b", start := ⟨0, 0⟩, endAt := ⟨1, 0⟩ } { server := { (default : Entry (GoRec GoTime)) with record := flowRec (zeroMem vanEnv flowDecls) }, client := { (default : Entry (GoRec GoTime)) with record := flowRec (zeroMem vanEnv flowDecls) } }
    true true 100 4 = .ok l := ⟨_, rfl⟩

end Verif.Props
