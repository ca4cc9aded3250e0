import Verif.Props.PerSource

/-!
# C44, C110: a client whose `Close` does not have the lock yet can be closed, and everything of a source can be released when the tool's context has ended
-/
namespace Verif.Props
open Verif Verif.Model Verif.Spec

variable {reg : Registry} {cmd : DiscCmd} {o : ToolOpts}

theorem winding_append {a b : List ClEv} (ha : Winding a) (hb : Winding b) : Winding (a ++ b) := by
  intro ev hev
  rcases List.mem_append.1 hev with h | h
  · exact ha ev h
  · exact hb ev h

theorem closing_finishes (n : Nat) : ∀ {s : Client} {c : Nat}, ClInv s → s.crashed = false → s.closers[c]? = some .waiting →
    (∀ (l : Nat) (x : Listener), s.listeners[l]? = some x → Settled x.pc) → (s.listeners.map stepsLeft).sum = n →
    ∃ evs' s', Client.Run reg s evs' s' ∧ Winding evs' ∧ s'.crashed = false ∧ s'.closers[c]? = some .returned ∧ ∀ x ∈ s'.listeners, x.pc = .finished := by
  induction n using Nat.strongRecOn with
  | ind n ih =>
    intro s c hinv hcr hc hset hn
    have go : ∀ {l : Nat} {x : Listener} {pc : LPC} {wg : Nat} {ev : ClEv}, s.listeners[l]? = some x →
        stepsLeft { x with pc := pc } < stepsLeft x → Settled pc → Winding [ev] →
        Client.Step reg s ev { s.at l pc with wg := wg } →
        ∃ evs' s', Client.Run reg s evs' s' ∧ Winding evs' ∧ s'.crashed = false ∧ s'.closers[c]? = some .returned ∧ ∀ x ∈ s'.listeners, x.pc = .finished := by
      intro l x pc wg ev hx hlt hset' hqe hstep
      have hsum := sum_modify stepsLeft (fun x => { x with pc := pc }) s.listeners l x hx
      have hlt' : (({ s.at l pc with wg := wg } : Client).listeners.map stepsLeft).sum < n := by
        show (List.map stepsLeft (s.listeners.modify l fun x => { x with pc := pc })).sum < n
        omega
      obtain ⟨evs', s', hr, hq, hret⟩ := ih _ hlt' (clInv_step hinv hstep) (by exact hcr) (by exact hc)
        (by exact settled_modify hset hx hset') rfl
      exact ⟨[ev] ++ evs', s', client_run_trans (Client.Run.nil.snoc hcr hstep) hr, winding_append hqe hq, hret⟩
    by_cases hw : s.wg = 0
    · refine ⟨_, _, Client.Run.nil.snoc hcr (.closeReturn hc hw), ?_, hcr, by simp [(List.getElem?_eq_some_iff.1 hc).1], ?_⟩
      · intro ev hev; simp at hev; subst hev; simp [ClEv.inner]
      · intro x hx
        obtain ⟨l, hl⟩ := List.getElem?_of_mem hx
        cases hp : x.pc with
        | finished => rfl
        | _ => have := live_pos (s := s) hl (by simp [unfinished, hp]); rw [← hinv.wg] at this; omega
    · rw [hinv.wg] at hw
      have : ∃ (l : Nat) (x : Listener), s.listeners[l]? = some x ∧ unfinished x = true := by
        obtain ⟨x, hx, hpos⟩ := sum_pos_exists (fun x : Listener => (unfinished x).toNat) s.listeners (Nat.pos_of_ne_zero hw)
        obtain ⟨l, hl⟩ := List.getElem?_of_mem hx
        refine ⟨l, x, hl, ?_⟩
        cases hu : unfinished x with
        | false => simp [hu] at hpos
        | true => rfl
      obtain ⟨l, x, hx, hu⟩ := this
      have hs := hset l x hx
      cases hp : x.pc with
      | adding | accepting | fetching => rw [hp] at hs; exact hs.elim
      | finished => simp [unfinished, hp] at hu
      | receiving =>
        have hctx := hinv.ended (by rw [(hinv.holder c).1 hc]; rfl) l x hx (by simp [hp])
        obtain ⟨e, he⟩ := Option.isSome_iff_exists.1 hctx
        exact go hx (pc := .finished) (ev := .failed l e) (by simp [stepsLeft, hp]) trivial (by simp [Winding, ClEv.inner])
          (.nextEnded e hx hp (by rw [he]; exact is_refl e))
      | calling d hs' =>
        cases hs' with
        | nil => exact go hx (pc := .receiving) (wg := s.wg) (ev := .tau) (by simp [stepsLeft, hp]) trivial (by simp [Winding, ClEv.inner]) (.again hx hp)
        | cons hh hs' =>
          exact go hx (pc := .calling d hs') (wg := s.wg) (ev := .call l hh d) (by simp [stepsLeft, hp]) trivial (by simp [Winding, ClEv.inner]) (.call hx hp)

/-- A listener between `wg.Add` and the lookup of handlers. -/
def unsettled (x : Listener) : Nat :=
  match x.pc with
  | .receiving | .calling _ _ | .finished => 0
  | _ => 1

theorem settle_all (n : Nat) : ∀ {s : Client}, ClInv s → s.crashed = false → s.lock = none → (s.listeners.map unsettled).sum = n →
    ∃ evs' s', Client.Run reg s evs' s' ∧ Winding evs' ∧ s'.crashed = false ∧ s'.lock = none ∧ s'.closers = s.closers ∧ s'.doneClosed = s.doneClosed ∧
      ∀ (l : Nat) (x : Listener), s'.listeners[l]? = some x → Settled x.pc := by
  induction n using Nat.strongRecOn with
  | ind n ih =>
    intro s hinv hcr hlk hn
    by_cases h0 : 0 < (s.listeners.map unsettled).sum
    · obtain ⟨x, hm, hpos⟩ := sum_pos_exists unsettled s.listeners h0
      obtain ⟨l, hx⟩ := List.getElem?_of_mem hm
      have go : ∀ {pc : LPC} {wg : Nat} {ev : ClEv}, Settled pc → Winding [ev] → Client.Step reg s ev { s.at l pc with wg := wg } →
          ∃ evs' s', Client.Run reg s evs' s' ∧ Winding evs' ∧ s'.crashed = false ∧ s'.lock = none ∧ s'.closers = s.closers ∧ s'.doneClosed = s.doneClosed ∧
            ∀ (l : Nat) (x : Listener), s'.listeners[l]? = some x → Settled x.pc := by
        intro pc wg ev hset' hqe hstep
        have hsum := sum_modify unsettled (fun x => { x with pc := pc }) s.listeners l x hx
        have hz : unsettled { x with pc := pc } = 0 := by cases pc <;> simp_all [Settled, unsettled]
        have hlt' : (({ s.at l pc with wg := wg } : Client).listeners.map unsettled).sum < n := by
          show (List.map unsettled (s.listeners.modify l fun x => { x with pc := pc })).sum < n
          omega
        obtain ⟨evs', s', hr, hq, h1, h2, h3, h4, h5⟩ := ih _ hlt' (clInv_step hinv hstep) (by exact hcr) (by exact hlk) rfl
        exact ⟨[ev] ++ evs', s', client_run_trans (Client.Run.nil.snoc hcr hstep) hr, winding_append hqe hq, h1, h2, h3, h4, h5⟩
      cases hp : x.pc with
      | receiving | calling | finished => simp [unsettled, hp] at hpos
      | adding => exact go (pc := .receiving) (wg := s.wg) (ev := .tau) trivial (by simp [Winding, ClEv.inner]) (.listenStart hx hp hlk)
      | accepting m =>
        by_cases he : errorsIs (some (.other "detached")) x.ctx = true
        · exact go (pc := .finished) (ev := .failed l _) trivial (by simp [Winding, ClEv.inner]) (.acceptEnded _ hx hp he)
        · exact go (pc := .receiving) (wg := s.wg) (ev := .failed l _) trivial (by simp [Winding, ClEv.inner]) (.acceptError _ hx hp (by simpa using he))
      | fetching d => exact go (pc := .calling d (s.handlersFor d)) (wg := s.wg) (ev := .fetched l) trivial (by simp [Winding, ClEv.inner]) (.fetch hx hp hlk)
    · refine ⟨[], s, .nil, by simp [Winding], hcr, hlk, rfl, rfl, ?_⟩
      intro l x hx
      have hz := sum_modify unsettled (fun x => { x with pc := .finished }) s.listeners l x hx
      have hz' : unsettled { x with pc := .finished } = 0 := rfl
      have hle : unsettled x = 0 := by omega
      cases hp : x.pc <;> simp_all [Settled, unsettled]

/-- **C44.** As long as no `Close` has the lock, a first `Close` that has been called can return, whatever the listeners are doing: without further messages, and with nothing but steps
of the listeners and of `Close`; all listeners have finished then. -/
theorem C44_can_return {evs : List ClEv} {s : Client} (h : Client.Run reg {} evs s) (hcr : s.crashed = false) {c : Nat} (hc : s.closers[c]? = some .locking)
    (hlk : s.lock = none) (hd : s.doneClosed = false) :
    ∃ evs' s', Client.Run reg s evs' s' ∧ Winding evs' ∧ s'.crashed = false ∧ s'.closers[c]? = some .returned ∧ ∀ x ∈ s'.listeners, x.pc = .finished := by
  have hinv := clInv_run h clInv_start
  obtain ⟨e1, s1, r1, w1, c1, l1, k1, d1, set1⟩ := settle_all (reg := reg) _ hinv hcr hlk rfl
  have st : Client.Step reg s1 .tau _ := .closeLock (c := c) (by rw [k1]; exact hc) l1 (by rw [d1]; exact hd)
  have hinv1 := clInv_step (clInv_run r1 hinv) st
  obtain ⟨e2, s2, r2, w2, rest⟩ := closing_finishes (reg := reg) (c := c) _ hinv1 (by exact c1)
    (by
      have hlt := (List.getElem?_eq_some_iff.1 hc).1
      simp [k1, hlt])
    (by
      intro l x hx
      simp only [List.getElem?_map, Option.map_eq_some_iff] at hx
      obtain ⟨y, hy, rfl⟩ := hx
      have := set1 l y hy
      unfold Listener.cleanup
      split <;> exact this) rfl
  refine ⟨e1 ++ [.tau] ++ e2, s2, client_run_trans (r1.snoc c1 st) r2, winding_append (winding_append w1 (by simp [Winding, ClEv.inner])) w2, rest⟩

/-- What a client does by itself the tool does. -/
theorem lift_client {s : ToolRes} {k : Nat} {r : SrcRes} (hall : ∀ r ∈ s.srcs, r.client.crashed = false) (hk : s.srcs[k]? = some r) {evs : List ClEv} {c' : Client}
    (h : Client.Run reg r.client evs c') (hi : ∀ ev ∈ evs, ev.inner = true) (hc' : c'.crashed = false) :
    ∃ s', ToolRes.Run reg cmd o s (evs.map (.client k)) s' ∧ s' = s.upd k (fun r => { r with client := c' }) := by
  generalize hcl : r.client = c at h
  induction h with
  | nil =>
    subst hcl
    refine ⟨s, .nil, ?_⟩
    have : s.srcs.modify k (fun r' => { r' with client := r.client }) = s.srcs := by
      apply List.ext_getElem?
      intro i
      rw [List.getElem?_modify]
      by_cases e : k = i
      · subst e; simp [hk]
      · simp [e]
    show s = { s with srcs := s.srcs.modify k _ }
    rw [this]
  | @snoc c1 c2 e1 ev hr hcr hs ih =>
    subst hcl
    obtain ⟨s1, hr1, rfl⟩ := ih (fun ev hev => hi ev (List.mem_append_left _ hev)) hcr
    have hget : (s.upd k fun r => { r with client := c1 }).srcs[k]? = some { r with client := c1 } := by rw [upd_get, if_pos rfl, hk]; rfl
    have hst : ToolRes.Step reg cmd o (s.upd k fun r => { r with client := c1 }) (.client k ev) _ :=
      .client hget (hi ev (List.mem_append_right _ (List.mem_singleton.2 rfl))) hs
    have hall1 : ∀ r ∈ (s.upd k fun r => { r with client := c1 }).srcs, r.client.crashed = false := by
      intro x hx
      obtain ⟨i, hi'⟩ := List.getElem?_of_mem hx
      rw [upd_get] at hi'
      split at hi'
      · obtain ⟨y, hy, rfl⟩ := Option.map_eq_some_iff.1 hi'
        exact hcr
      · exact hall x (List.mem_of_getElem? hi')
    refine ⟨_, by rw [List.map_append]; exact hr1.snoc hall1 hst, ?_⟩
    · simp only [ToolRes.upd]
      congr 1
      apply List.ext_getElem?
      intro i
      simp only [List.getElem?_modify]
      by_cases e : k = i
      · subst e; simp [hk]
      · simp [e]

/-- **C110.** When the tool's context has ended, everything that was started for a source can be released: its container can end, its watch can end and close the client, whatever the listeners
are doing, as long as the watch has not done so before.  (If the watch has forgotten the source before, the container can end, `C110_shutdown`; whether `Close` returns is C44.) -/
theorem C110_can_release {s : ToolRes} {evs : List TrEv} (h : ToolRes.Run reg cmd o {} evs s) (hall : ∀ r ∈ s.srcs, r.client.crashed = false) (hx : s.ctx.isSome = true)
    {k : Nat} {r : SrcRes} (hk : s.srcs[k]? = some r) (hw : r.watch = .watching) :
    ∃ evs' s' r', ToolRes.Run reg cmd o s evs' s' ∧ s'.srcs[k]? = some r' ∧ Released r' ∧ r'.source = r.source := by
  have hcl := client_proj h hk
  have hinv := clInv_run hcl clInv_start
  have hn0 : r.client.closers = [] := by
    have := closers_watch h hk
    rw [hw] at this
    simpa using this
  have hlk : r.client.lock = none := by
    cases hl : r.client.lock with
    | none => rfl
    | some c => have := (hinv.holder c).2 hl; simp [hn0] at this
  have hdc : r.client.doneClosed = false := by
    cases hd : r.client.doneClosed with
    | false => rfl
    | true => obtain ⟨c, pc, hc, _⟩ := hinv.done hd; simp [hn0] at hc
  have hcrash : ∀ {s : ToolRes} {f : SrcRes → SrcRes}, (∀ r ∈ s.srcs, r.client.crashed = false) → (∀ r, (f r).client.crashed = r.client.crashed) →
      ∀ r ∈ (s.upd k f).srcs, r.client.crashed = false := by
    intro s f hs hf x hx
    obtain ⟨i, hi⟩ := List.getElem?_of_mem hx
    rw [upd_get] at hi
    split at hi
    · obtain ⟨y, hy, rfl⟩ := Option.map_eq_some_iff.1 hi
      rw [hf]; exact hs y (List.mem_of_getElem? hy)
    · exact hs x (List.mem_of_getElem? hi)
  -- the container ends
  obtain ⟨e1, s1, r1, run1, hk1, hc1, hcl1, hw1, hsrc1, hall1, hx1⟩ : ∃ e1 s1 r1, ToolRes.Run reg cmd o s e1 s1 ∧ s1.srcs[k]? = some r1 ∧ r1.ctr = false ∧ r1.client = r.client ∧
      r1.watch = .watching ∧ r1.source = r.source ∧ (∀ r ∈ s1.srcs, r.client.crashed = false) ∧ s1.ctx.isSome = true := by
    cases hc : r.ctr with
    | false => exact ⟨[], s, r, .nil, hk, hc, rfl, hw, rfl, hall, hx⟩
    | true =>
      refine ⟨_, _, { r with ctr := false }, ToolRes.Run.nil.snoc hall (.ctrEnded hk hc hx), ?_, rfl, rfl, hw, rfl, hcrash hall (fun _ => rfl), hx⟩
      rw [upd_get, if_pos rfl, hk]; rfl
  -- the watch closes the client
  have st2 : ToolRes.Step reg cmd o s1 (.watchEnded k) _ := .watchEnded hk1 hw1 hx1
  have run2 := run1.snoc hall1 st2
  have hk2 : (s1.upd k fun r => { r with watch := .cancelled, client := { r.client with closers := r.client.closers ++ [.locking] } }).srcs[k]? =
      some { r1 with watch := .cancelled, client := { r1.client with closers := r1.client.closers ++ [.locking] } } := by rw [upd_get, if_pos rfl, hk1]; rfl
  have hcr : r.client.crashed = false := hall r (List.mem_of_getElem? hk)
  obtain ⟨e3, c3, run3, w3, cr3, ret3, fin3⟩ := C44_can_return (reg := reg) (hcl.snoc hcr .close) hcr (c := 0) (by simp [hn0]) hlk hdc
  have hall2 := hcrash (s := s1) (f := fun r => { r with watch := .cancelled, client := { r.client with closers := r.client.closers ++ [.locking] } }) hall1 (fun _ => rfl)
  obtain ⟨s4, run4, rfl⟩ := lift_client (reg := reg) (cmd := cmd) (o := o) hall2 hk2 (evs := e3) (c' := c3) (by simpa [hcl1] using run3) (fun ev hev => (w3 ev hev).1) cr3
  exact ⟨_, _, { r1 with watch := .cancelled, client := c3 }, tool_run_append run2 run4, by rw [upd_get, if_pos rfl, hk2]; rfl, ⟨hc1, ret3, fin3⟩, hsrc1⟩

/-- The listener whose `Listen` the handler is in exists. -/
theorem listening_exists {s : ToolRes} {evs : List TrEv} (h : ToolRes.Run reg cmd o {} evs s) {k l : Nat} {todo : List HOp} (hh : s.handler = .listening k l todo) {r : SrcRes}
    (hk : s.srcs[k]? = some r) : ∃ x, r.client.listeners[l]? = some x := by
  suffices l < r.client.listeners.length from ⟨_, List.getElem?_eq_getElem this⟩
  generalize hs0 : ({} : ToolRes) = s0 at h
  induction h generalizing r with
  | nil => subst hs0; simp at hk
  | @snoc s1 s2 evs1 ev hrun hc hs ih =>
    cases hs with
    | beacon | stopped | cancel => first | exact ih hh hk | cases hh
    | unknown | returned | forgotten | listened | discovered | watched | onRecord | onHeartbeat | goFlush => first | exact ih hh hk | cases hh
    | @listen k' r' a t hh' hk' =>
      cases hh
      rw [upd_get, if_pos rfl, hk'] at hk
      cases hk
      simp
    | @client k' r' ev' c' hk' hin hst =>
      rw [upd_get] at hk
      split at hk
      · subst k'
        rw [hk'] at hk; cases hk
        have := ih hh hk'
        have hi := (inner_same hin hst).1
        rw [hi]; exact this
      · exact ih hh hk
    | _ =>
      rw [upd_get] at hk
      split at hk
      · obtain ⟨r0, h0, rfl⟩ := Option.map_eq_some_iff.1 hk
        have := ih hh h0
        simpa using this
      · exact ih hh hk

/-- **C110.** The handler of discoveries goes on: it takes the next source, and in the handling of one it can do its next step unless `Close` has the lock of the client; a call of `Listen` it waits
for can return or needs that lock. -/
theorem C110_handler_goes_on {s : ToolRes} {evs : List TrEv} (h : ToolRes.Run reg cmd o {} evs s) :
    (s.handler = .idle → s.discovered ≠ [] → ∃ s', ToolRes.Step reg cmd o s (.discovered s.srcs.length) s') ∧
    (s.handler = .idle → ∀ i rest, s.forgotten = i :: rest → ∃ s', ToolRes.Step reg cmd o s (.forgotten i) s' ∧ s'.forgotten = rest) ∧
    (s.handler = .idle → ∃ s', ToolRes.Step reg cmd o s .stopped s' ∧ s'.handler = .ended) ∧
    ∀ k, Busy k s.handler → ∃ r, s.srcs[k]? = some r ∧ (r.client.lock = none → ∃ ev s', ToolRes.Step reg cmd o s ev s' ∧ s'.srcs.length = s.srcs.length ∧
      (ev = .watched k ∨ ev = .unknown k ∨ (∃ op, ev = .did k op) ∨ (∃ l, ev = .listened k l) ∨ ev = .returned k ∨ ev = .client k .tau)) := by
  refine ⟨?_, ?_, ?_, ?_⟩
  · intro hi hd
    cases hq : s.discovered with
    | nil => exact absurd hq hd
    | cons i rest => exact ⟨_, .discovered hi hq⟩
  · intro hi i rest hf
    exact ⟨_, .forgotten hi hf, rfl⟩
  · intro hi
    exact ⟨_, .stopped hi, rfl⟩
  · intro k hb
    have hlt := ((toolHandlerInv h).busy k hb).1
    refine ⟨s.srcs[k], List.getElem?_eq_getElem hlt, fun hlk => ?_⟩
    have hk : s.srcs[k]? = some s.srcs[k] := List.getElem?_eq_getElem hlt
    have hl : ∀ f, (s.upd k f).srcs.length = s.srcs.length := fun f => by simp [ToolRes.upd]
    cases hh : s.handler with
    | idle | ended => rw [hh] at hb; exact hb.elim
    | making k' =>
      rw [hh] at hb; cases hb
      cases hq : s.known.get? s.srcs[k].source.id with
      | none => exact ⟨_, _, .unknown hh hk hq, rfl, .inr (.inl rfl)⟩
      | some i => exact ⟨_, _, .watched hh hk hq hlk, hl _, .inl rfl⟩
    | doing k' todo =>
      rw [hh] at hb; cases hb
      cases todo with
      | nil => exact ⟨_, _, .returned hh, rfl, by simp⟩
      | cons op todo =>
        cases op with
        | onRecord => exact ⟨_, _, .onRecord hh hk hlk, hl _, by simp⟩
        | onHeartbeat => exact ⟨_, _, .onHeartbeat hh hk hlk, hl _, by simp⟩
        | listen a => exact ⟨_, _, .listen hh hk, hl _, by simp⟩
        | goFlush => exact ⟨_, _, .goFlush hh, hl _, by simp⟩
    | listening k' l todo =>
      rw [hh] at hb; cases hb
      obtain ⟨x, hx⟩ : ∃ x, s.srcs[k].client.listeners[l]? = some x := listening_exists h hh hk
      by_cases hp : x.pc = .adding
      · exact ⟨_, _, .client hk rfl (.listenStart hx hp hlk), hl _, by simp⟩
      · exact ⟨_, _, .listened hh hk hx hp, rfl, by simp⟩

/-- `vanflow-tool log -heartbeat -flush` discovers a router; its container gives up; then the tool is interrupted. -/
theorem C110_log_example : ∃ evs s r, ToolRes.Run vanRegistry .log { heartbeat := true, flush := true, flow := false, logs := false } {} evs s ∧ s.srcs[0]? = some r ∧
    TrEv.gaveUp 0 ∈ evs ∧ TrEv.cancel ∈ evs ∧ s.handler = .ended ∧
    r.client.recordHandlers = [0, 1, 2] ∧ r.client.heartbeatHandlers = [0, 1, 2] ∧ Released r := by
  have r0 := ToolRes.Run.nil (reg := vanRegistry) (cmd := .log) (o := { heartbeat := true, flush := true, flow := false, logs := false }) (s := {})
  have r1 := r0.snoc (by simp) (.beacon leakSource rfl)
  have r2 := r1.snoc (by simp) (.discovered (i := leakSource) (rest := []) rfl rfl)
  have r3 := r2.snoc (by simp) (.watched (k := 0) (r := { source := leakSource }) (i := leakSource) rfl rfl rfl rfl)
  have r4 := r3.snoc (by simp [ToolRes.upd]) (.onHeartbeat (k := 0) rfl rfl rfl)
  have r5 := r4.snoc (by simp [ToolRes.upd]) (.onRecord (k := 0) rfl rfl rfl)
  have r6 := r5.snoc (by simp [ToolRes.upd]) (.goFlush (k := 0) rfl)
  have r7 := r6.snoc (by simp [ToolRes.upd]) (.flushRecord (k := 0) rfl rfl rfl)
  have r8 := r7.snoc (by simp [ToolRes.upd]) (.listen (k := 0) rfl rfl)
  have r9 := r8.snoc (by simp [ToolRes.upd]) (.flushHeartbeat (k := 0) rfl rfl rfl)
  have r10 := r9.snoc (by simp [ToolRes.upd]) (.client (k := 0) (ev := .tau) rfl rfl (.listenStart (l := 0) rfl rfl rfl))
  have r11 := r10.snoc (by simp [ToolRes.upd, Client.at]) (.listened (k := 0) (l := 0) rfl rfl rfl (by simp))
  have r12 := r11.snoc (by simp [ToolRes.upd, Client.at]) (.returned (k := 0) rfl)
  have r13 := r12.snoc (by simp [ToolRes.upd, Client.at]) (.gaveUp (k := 0) rfl rfl)
  have r14 := r13.snoc (by simp [ToolRes.upd, Client.at]) (.cancel .canceled (by decide) rfl)
  have r15 := r14.snoc (by simp [ToolRes.upd, Client.at]) (.stopped rfl)
  have r16 := r15.snoc (by simp [ToolRes.upd, Client.at]) (.listenerCtx (k := 0) (l := 0) rfl rfl rfl rfl)
  have r17 := r16.snoc (by simp [ToolRes.upd, Client.at]) (.client (k := 0) (ev := .failed 0 .canceled) rfl rfl (.nextEnded .canceled rfl rfl rfl))
  have r18 := r17.snoc (by simp [ToolRes.upd, Client.at]) (.watchEnded (k := 0) rfl rfl rfl)
  have r19 := r18.snoc (by simp [ToolRes.upd, Client.at]) (.client (k := 0) (ev := .tau) rfl rfl (.closeLock (c := 0) rfl rfl rfl))
  have r20 := r19.snoc (by simp [ToolRes.upd, Client.at]) (.client (k := 0) (ev := .closeReturned 0) rfl rfl (.closeReturn rfl rfl))
  refine ⟨_, _, _, r20, rfl, by simp, by simp, rfl, rfl, rfl, rfl, rfl, ?_⟩
  intro x hx
  simp [Client.at, Listener.cleanup] at hx
  subst hx; rfl

/-- Non-vacuity of `C110_can_release`: the router of `C110_leak` has been discovered and the tool is interrupted. -/
example : ∃ evs s r, ToolRes.Run vanRegistry .serve {} {} evs s ∧ (∀ r ∈ s.srcs, r.client.crashed = false) ∧ s.ctx.isSome = true ∧ s.srcs[0]? = some r ∧ r.watch = .watching ∧
    r.ctr = true := by
  have r0 := ToolRes.Run.nil (reg := vanRegistry) (cmd := .serve) (o := {}) (s := {})
  have r1 := r0.snoc (by simp) (.beacon leakSource rfl)
  have r2 := r1.snoc (by simp) (.discovered (i := leakSource) (rest := []) rfl rfl)
  have r3 := r2.snoc (by simp) (.watched (k := 0) (r := { source := leakSource }) (i := leakSource) rfl rfl rfl rfl)
  have r4 := r3.snoc (by simp [ToolRes.upd]) (.cancel .canceled (by decide) rfl)
  exact ⟨_, _, _, r4, by simp [ToolRes.upd], rfl, rfl, rfl, rfl⟩

end Verif.Props
