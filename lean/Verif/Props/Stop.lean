import Verif.Props.Flush
import Verif.Spec.Stop

/-!
# C99: a manager whose context ends stops
-/
namespace Verif.Props
open Verif Verif.Model Verif.Spec Verif.Proofs

/-- A continue token that a listing returned. -/
def OwnTok (cont : String) : Prop := cont = "" ∨ ∃ nonce off, cont = encodeContinue nonce off

/-- What a flush under way has left. -/
def FlushOk (n : Nat) : ServePC → Prop
  | .flushing q cont => q.length ≤ n ∧ OwnTok cont
  | .sendFlush q cont _ => q.length ≤ n ∧ OwnTok cont
  | _ => True

/-- A listing by a token of a listing does not fail, and a page without entries is the last. -/
theorem list_own {R : Type} (c : Cache R) {limit nonce : Int} {cont : String} (h : OwnTok cont) :
    (∀ e, c.list (some { limit := limit, cont := cont }) nonce ≠ .err e) ∧
    ∀ r, c.list (some { limit := limit, cont := cont }) nonce = .ok r → OwnTok r.cont ∧ (r.entries = [] → r.cont = "") := by
  simp only [Cache.list, applySelector]
  split
  · exact ⟨by simp, by simp⟩
  · have hd : ∃ o, (if cont ≠ "" then decodeContinue cont else .ok 0) = .ok o := by
      rcases h with rfl | ⟨n, o, rfl⟩
      · exact ⟨0, by simp⟩
      · rw [if_pos (encodeContinue_ne _ _), decodeContinue_encode]; exact ⟨_, rfl⟩
    obtain ⟨o, ho⟩ := hd
    simp only [ho, Res.bind_ok]
    split
    · exact ⟨by simp, by simp⟩
    · generalize (if o ≥ ((sortSlice (selLess c.keyFunc 0) (List.map VC.resource c.storage.list)).length : Int) then []
        else (sortSlice (selLess c.keyFunc 0) (List.map VC.resource c.storage.list)).drop o.toNat) = w
      split
      · rename_i hw
        refine ⟨by simp, fun r hr => ?_⟩
        simp only [Res.ok.injEq] at hr
        subst hr
        refine ⟨.inr ⟨_, _, rfl⟩, fun hnil => ?_⟩
        have := congrArg List.length hnil
        simp only [List.length_take, List.length_nil] at this
        omega
      · refine ⟨by simp, fun r hr => ?_⟩
        simp only [Res.ok.injEq] at hr
        subst hr
        exact ⟨.inl rfl, fun _ => rfl⟩

theorem flushOk_step {cfg : MgrConfig} {s s' : Mgr} {ev : MgrEv} (h : FlushOk cfg.numStores s.pc) (hs : Mgr.Step cfg s ev s') :
    FlushOk cfg.numStores s'.pc := by
  cases hs with
  | publish u hcap | storeOp i op | flushReceived | receiveError | cancel | takeMsg | sndStop | pageError nonce hpc hl | send hsq he | skip hsq he | sendFail hsq he => exact h
  | stop hpc hcan | stopUpdate hpc hcan | stopFlush hpc hcan | diffPanic hpc hd | pagePanic nonce hpc hl | sendPanic hq he
    | queueUpdate hpc hcap | flushEnd hpc => trivial
  | take hpc hq => simp only; split <;> trivial
  | buffer hpc hq => simp only; split <;> [split; skip] <;> trivial
  | bufferTimeout hpc => simp only; split <;> trivial
  | diff hpc hd => simp only; split <;> trivial
  | takeFlush hpc hq => simp only; split <;> trivial
  | drain hpc hq => simp only; split <;> [split; skip] <;> trivial
  | drainTimeout hpc => simp only; split <;> trivial
  | flushBegin hpc => exact ⟨by simp, .inl rfl⟩
  | @page i queue cont res nonce hpc hl =>
    rw [hpc] at h
    obtain ⟨h1, h2⟩ := h
    obtain ⟨g1, _⟩ := (list_own _ h2).2 _ hl
    have h3 : (if res.cont = "" then queue else i :: queue).length ≤ cfg.numStores := by
      simp only [List.length_cons] at h1
      split
      · omega
      · simpa using h1
    simp only
    split <;> exact ⟨h3, g1⟩
  | queueFlush hpc hcap => rw [hpc] at h; exact h

theorem flushOk_run {cfg : MgrConfig} {s0 s : Mgr} {evs : List MgrEv} (h0 : s0.pc = .idle) (h : Mgr.Run cfg s0 evs s) :
    FlushOk cfg.numStores s.pc := by
  induction h with
  | nil => rw [h0]; trivial
  | snoc _ hs ih => exact flushOk_step ih hs

theorem cancelled_step {cfg : MgrConfig} {s s' : Mgr} {ev : MgrEv} (hs : Mgr.Step cfg s ev s') :
    (s'.cancelled = true ↔ s.cancelled = true ∨ ev = .cancel) := by
  cases hs <;> simp

theorem cancelled_run {cfg : MgrConfig} {s0 s : Mgr} {evs : List MgrEv} (h : Mgr.Run cfg s0 evs s) :
    s.cancelled = true ↔ s0.cancelled = true ∨ .cancel ∈ evs := by
  induction h with
  | nil => simp
  | snoc _ hs ih =>
    rw [cancelled_step hs, ih, List.mem_append, List.mem_singleton, or_assoc]
    constructor
    · rintro (h | h | h)
      · exact .inl h
      · exact .inr (.inl h)
      · exact .inr (.inr h.symm)
    · rintro (h | h | h)
      · exact .inl h
      · exact .inr (.inl h)
      · exact .inr (.inr h.symm)

/-- How many moves remain until the goroutine waits again. -/
def toSelect (n : Nat) : ServePC → Nat
  | .batch _ => 1
  | .flushStart => n + 2
  | .flushing q _ => q.length + 1
  | _ => 0

theorem move_down {cfg : MgrConfig} {s s' : Mgr} {ev : MgrEv} (hf : FlushOk cfg.numStores s.pc) (hs : Mgr.Step cfg s ev s') (hne : s'.pc ≠ s.pc)
    (hend : ¬ Ended s.pc) (hsel : ¬ AtSelect s.pc) :
    toSelect cfg.numStores s'.pc + 1 ≤ toSelect cfg.numStores s.pc := by
  cases hs with
  | publish u hcap | storeOp i op | flushReceived | receiveError | cancel | takeMsg | sndStop | pageError nonce hpc hl | send hsq he | skip hsq he | sendFail hsq he =>
    exact absurd rfl hne
  | stop hpc | stopUpdate hpc | stopFlush hpc | take hpc | buffer hpc | bufferTimeout hpc | queueUpdate hpc | takeFlush hpc | drain hpc
    | drainTimeout hpc | queueFlush hpc => rw [hpc] at hsel; exact absurd trivial hsel
  | diffPanic hpc hd | pagePanic nonce hpc hl => simp [hpc, toSelect]
  | sendPanic hq he =>
    revert hend hsel
    cases s.pc <;> simp [toSelect, Ended, AtSelect]
  | diff hpc hd => simp only [hpc]; split <;> simp [toSelect]
  | flushBegin hpc => simp [hpc, toSelect]
  | flushEnd hpc => simp [hpc, toSelect]
  | @page i queue cont res nonce hpc hl =>
    rw [hpc] at hf
    obtain ⟨_, g2⟩ := (list_own _ hf.2).2 _ hl
    simp only [hpc]
    split
    · rename_i he
      rw [g2 (List.length_eq_zero_iff.1 he)]
      simp [toSelect]
    · simp [toSelect]

theorem toSelect_le {n : Nat} {pc : ServePC} (h : FlushOk n pc) : toSelect n pc ≤ n + 2 := by
  cases pc <;> simp only [toSelect, FlushOk] at h ⊢ <;> omega

theorem ended_step {cfg : MgrConfig} {s s' : Mgr} {ev : MgrEv} (h : Ended s.pc) (hs : Mgr.Step cfg s ev s') : Ended s'.pc := by
  cases hs with
  | publish | storeOp | flushReceived | receiveError | cancel | takeMsg | sndStop | send | skip | sendFail => exact h
  | sendPanic => trivial
  | stop hpc | stopUpdate hpc | stopFlush hpc | take hpc | buffer hpc | bufferTimeout hpc | queueUpdate hpc | takeFlush hpc | drain hpc
    | drainTimeout hpc | queueFlush hpc | diffPanic hpc | diff hpc | flushBegin hpc | flushEnd hpc => rw [hpc] at h; exact h.elim
  | page _ hpc | pageError _ hpc | pagePanic _ hpc => rw [hpc] at h; exact h.elim

theorem ended_toSelect {n : Nat} {pc : ServePC} (h : Ended pc) : toSelect n pc = 0 := by
  cases pc <;> first | rfl | exact h.elim

/-- **C99 (the way out).** When the context of a manager has ended, its goroutine has ended too, or it waits and can stop right there, or it can move on;
whatever is queued, whatever the stores hold, and whether or not anybody takes its messages. -/
theorem C99_way_out {cfg : MgrConfig} {s0 s : Mgr} {evs : List MgrEv} (h0 : s0.pc = .idle) (h : Mgr.Run cfg s0 evs s) (hc : .cancel ∈ evs) :
    Ended s.pc ∨ (AtSelect s.pc ∧ ∃ s', Mgr.Step cfg s .tau s' ∧ s'.pc = .stopped) ∨
    (¬ AtSelect s.pc ∧ ∃ ev s', Mgr.Step cfg s ev s' ∧ s'.pc ≠ s.pc ∧ Internal ev) := by
  have hcan : s.cancelled = true := (cancelled_run h).2 (.inr hc)
  have hf := flushOk_run h0 h
  cases hp : s.pc with
  | stopped | crashed => exact .inl trivial
  | idle => exact .inr (.inl ⟨trivial, _, .stop hp hcan, rfl⟩)
  | sendUpdate msg => exact .inr (.inl ⟨trivial, _, .stopUpdate hp hcan, rfl⟩)
  | sendFlush q cont msg => exact .inr (.inl ⟨trivial, _, .stopFlush hp hcan, rfl⟩)
  | buffering buf => exact .inr (.inl ⟨trivial, _, .bufferTimeout hp, by simp [hcan]⟩)
  | draining n => exact .inr (.inl ⟨trivial, _, .drainTimeout hp, by simp [hcan]⟩)
  | flushStart => exact .inr (.inr ⟨id, _, _, .flushBegin hp, by simp, trivial⟩)
  | batch buf =>
    cases hd : diffBatch buf with
    | ok msg => exact .inr (.inr ⟨id, _, _, .diff hp hd, by simp only; split <;> simp, trivial⟩)
    | err e => exact absurd hd (diffBatch_ne_err buf e)
    | panic e => exact .inr (.inr ⟨id, _, _, .diffPanic hp hd, by simp, trivial⟩)
  | flushing q cont =>
    cases q with
    | nil => exact .inr (.inr ⟨id, _, _, .flushEnd hp, by simp, trivial⟩)
    | cons i q =>
      rw [hp] at hf
      obtain ⟨g1, g2⟩ := list_own (limit := cfg.flushBatchSize) (nonce := 0) (s.stores i) hf.2
      cases hl : (s.stores i).list (some { limit := cfg.flushBatchSize, cont := cont }) 0 with
      | err e => exact absurd hl (g1 e)
      | panic e => exact .inr (.inr ⟨id, _, _, .pagePanic 0 hp hl, by simp, trivial⟩)
      | ok r =>
        refine .inr (.inr ⟨id, _, _, .page 0 hp hl, ?_, trivial⟩)
        simp only
        split
        · rename_i he
          rw [(g2 r hl).2 (List.length_eq_zero_iff.1 he)]
          intro hx
          simp only [ServePC.flushing.injEq, if_true] at hx
          have := congrArg List.length hx.1
          simp at this
        · simp

/-- **C99 (soon).** Between two chances to stop the goroutine moves at most `numStores + 2` times, whatever the publishers, the stores, the sender and
the network do: of any number of moves, all but that many per chance passed up are chances passed up. -/
theorem C99_soon {cfg : MgrConfig} {s0 s s' : Mgr} {evs : List MgrEv} {moves passed : Nat} (h0 : s0.pc = .idle) (h : Mgr.Run cfg s0 evs s)
    (hm : Moves cfg s moves passed s') : moves ≤ (passed + 1) * (cfg.numStores + 3) := by
  have key : FlushOk cfg.numStores s'.pc ∧
      moves + toSelect cfg.numStores s'.pc ≤ passed * (cfg.numStores + 3) + toSelect cfg.numStores s.pc := by
    induction hm with
    | nil => exact ⟨flushOk_run h0 h, by omega⟩
    | others _ hs he ih =>
      obtain ⟨i1, i2⟩ := ih
      refine ⟨flushOk_step i1 hs, ?_⟩
      rcases he with he | he
      · rw [he]; exact i2
      · rw [ended_toSelect (ended_step he hs)]; omega
    | move _ hs hne hend hsel ih =>
      obtain ⟨i1, i2⟩ := ih
      have := move_down i1 hs hne hend hsel
      exact ⟨flushOk_step i1 hs, by omega⟩
    | pass _ hs _ _ ih =>
      obtain ⟨i1, i2⟩ := ih
      have h1 := flushOk_step i1 hs
      have := toSelect_le h1
      refine ⟨h1, ?_⟩
      rw [Nat.add_mul]
      omega
  have h1 := toSelect_le (flushOk_run h0 h)
  rw [Nat.add_mul]
  omega

theorem stopped_by {cfg : MgrConfig} {s s' : Mgr} {ev : MgrEv} (hs : Mgr.Step cfg s ev s') (hp : s'.pc = .stopped) :
    s.pc = .stopped ∨ s.cancelled = true := by
  cases hs with
  | publish | storeOp | flushReceived | receiveError | cancel | takeMsg | sndStop | send | skip | sendFail => exact .inl hp
  | sendPanic | queueUpdate | queueFlush | diffPanic | flushBegin | flushEnd => cases hp
  | pagePanic => cases hp
  | pageError => exact .inl hp
  | stop _ hc | stopUpdate _ hc | stopFlush _ hc => exact .inr hc
  | take | diff | takeFlush | page => simp only at hp; split at hp <;> cases hp
  | buffer | drain =>
    simp only at hp
    split at hp
    · split at hp
      · rename_i hc; exact .inr hc
      · cases hp
    · cases hp
  | bufferTimeout | drainTimeout =>
    simp only at hp
    split at hp
    · rename_i hc; exact .inr hc
    · cases hp

/-- **C99 (only then).** The goroutine stops only after the context has ended. -/
theorem C99_only_then {cfg : MgrConfig} {s0 s : Mgr} {evs : List MgrEv} (h0 : Fresh s0) (h : Mgr.Run cfg s0 evs s) (hp : s.pc = .stopped) :
    .cancel ∈ evs := by
  induction h with
  | nil => rw [h0.2.2.2.1] at hp; cases hp
  | snoc hr hs ih =>
    rcases stopped_by hs hp with h | h
    · exact List.mem_append_left _ (ih h)
    · rcases (cancelled_run hr).1 h with h | h
      · rw [h0.2.2.2.2.1] at h; cases h
      · exact List.mem_append_left _ h

/-- Things the goroutine does. -/
def isServeEv : MgrEv → Bool
  | .queueUpdate _ | .queueFlush _ | .flushBegin | .flushEnd => true
  | _ => false

/-- **C99 (for good).** Once the goroutine has ended it stays so, and neither queues a message nor takes an update or a flush request any more. -/
theorem C99_for_good {cfg : MgrConfig} {s s' : Mgr} {evs : List MgrEv} (h : Mgr.Run cfg s evs s') (hp : Ended s.pc) :
    Ended s'.pc ∧ (∀ ev ∈ evs, isServeEv ev = false) ∧ s'.changeQueue = s.changeQueue ++ published evs ∧ s.flushQueue ≤ s'.flushQueue := by
  induction h with
  | nil => exact ⟨hp, by simp, by simp [published], Nat.le_refl _⟩
  | @snoc s' s'' evs ev hr hs ih =>
    obtain ⟨i1, i2, i3, i4⟩ := ih
    refine ⟨ended_step i1 hs, ?_, ?_, ?_⟩ <;>
    cases hs with
    | publish | storeOp | flushReceived | receiveError | cancel | takeMsg | sndStop | send | skip | sendFail | sendPanic =>
      first
        | (intro e he; rcases List.mem_append.1 he with he | he
           · exact i2 e he
           · simp only [List.mem_singleton] at he; subst he; rfl)
        | (simp only [published, List.filterMap_append] at i3 ⊢; simp [i3])
        | (simp only; split <;> omega)
        | exact i4
    | stop hpc | stopUpdate hpc | stopFlush hpc | take hpc | buffer hpc | bufferTimeout hpc | queueUpdate hpc | takeFlush hpc | drain hpc
      | drainTimeout hpc | queueFlush hpc | diffPanic hpc | diff hpc | flushBegin hpc | flushEnd hpc => rw [hpc] at i1; exact i1.elim
    | page _ hpc | pageError _ hpc | pagePanic _ hpc => rw [hpc] at i1; exact i1.elim

/-- Things the sender does. -/
def isSenderEv : MgrEv → Bool
  | .sent _ _ | .skipped _ | .sendFailed _ | .sendPanicked _ => true
  | _ => false

theorem sndDone_by {cfg : MgrConfig} {s s' : Mgr} {ev : MgrEv} (hs : Mgr.Step cfg s ev s') (hp : s'.snd = .done) : s.snd = .done ∨ s.cancelled = true := by
  cases hs with
  | sndStop _ hc => exact .inr hc
  | takeMsg | send | skip | sendFail | sendPanic => cases hp
  | _ => exact .inl hp

theorem busy_run {cfg : MgrConfig} {s0 s : Mgr} {evs : List MgrEv} (h0 : s0.snd = .waiting) (h : Mgr.Run cfg s0 evs s) : s.snd = .busy → s.sendQueue ≠ [] := by
  induction h with
  | nil => rw [h0]; intro h; cases h
  | snoc hr hs ih =>
    cases hs with
    | takeMsg _ hq => exact fun _ => hq
    | sndStop | send | skip | sendFail | sendPanic => intro h; cases h
    | queueUpdate | queueFlush => simp
    | _ => exact ih

/-- **C99 (the sender's way out).** When the context has ended, `sendRecords` has returned, or it waits and can return right there, or it has a message in its hands that it can be done
with at once: one that cannot be encoded, or one whose Send may fail. -/
theorem C99_sender_way_out {cfg : MgrConfig} {s0 s : Mgr} {evs : List MgrEv} (h0 : Fresh s0) (h : Mgr.Run cfg s0 evs s) (hc : .cancel ∈ evs) :
    s.snd = .done ∨ (s.snd = .waiting ∧ ∃ s', Mgr.Step cfg s .tau s' ∧ s'.snd = .done) ∨
    (s.snd = .busy ∧ ∃ records ev s', s.sendQueue.head? = some records ∧ Mgr.Step cfg s ev s' ∧ s'.snd = .waiting ∧
      (ev = .skipped records ∨ ev = .sendFailed records ∨ ev = .sendPanicked records)) := by
  have hcan : s.cancelled = true := (cancelled_run h).2 (.inr hc)
  cases hb : s.snd with
  | done => exact .inl rfl
  | waiting => exact .inr (.inl ⟨rfl, _, .sndStop hb hcan, rfl⟩)
  | busy =>
    cases hq : s.sendQueue with
    | nil => exact absurd hq (busy_run h0.2.2.2.2.2 h hb)
    | cons records rest =>
      refine .inr (.inr ⟨rfl, records, ?_⟩)
      cases he : RecordMsg.encode vanRegistry { records := records } with
      | ok msg => exact ⟨_, _, rfl, .sendFail hq he hb, rfl, .inr (.inl rfl)⟩
      | err e => exact ⟨_, _, rfl, .skip hq he hb, rfl, .inl rfl⟩
      | panic e => exact ⟨_, _, rfl, .sendPanic hq he hb, rfl, .inr (.inr rfl)⟩

/-- **C99 (the sender, only then and for good).** `sendRecords` returns only after the context has ended; then it takes, sends and drops nothing more. -/
theorem C99_sender_for_good {cfg : MgrConfig} {s0 s : Mgr} {evs : List MgrEv} (h0 : Fresh s0) (h : Mgr.Run cfg s0 evs s) (hd : s.snd = .done) :
    .cancel ∈ evs ∧ ∀ evs' s', Mgr.Run cfg s evs' s' → s'.snd = .done ∧ (∀ ev ∈ evs', isSenderEv ev = false) ∧ s'.sendQueue = s.sendQueue ++ queued evs' := by
  refine ⟨?_, fun evs' s' h' => ?_⟩
  · induction h with
    | nil => rw [h0.2.2.2.2.2] at hd; cases hd
    | snoc hr hs ih =>
      rcases sndDone_by hs hd with h | h
      · exact List.mem_append_left _ (ih h)
      · rcases (cancelled_run hr).1 h with h | h
        · rw [h0.2.2.2.2.1] at h; cases h
        · exact List.mem_append_left _ h
  · induction h' with
    | nil => exact ⟨hd, by simp, by simp [queued]⟩
    | @snoc a b evs1 ev hr hs ih =>
      obtain ⟨i1, i2, i3⟩ := ih
      have key : isSenderEv ev = false ∧ b.snd = .done ∧ b.sendQueue = a.sendQueue ++ queued [ev] := by
        cases hs with
        | takeMsg hb | sndStop hb => rw [i1] at hb; cases hb
        | send _ _ hb | skip _ _ hb | sendFail _ _ hb | sendPanic _ _ hb => rw [i1] at hb; cases hb
        | _ => exact ⟨rfl, i1, by simp [queued]⟩
      refine ⟨key.2.1, ?_, ?_⟩
      · intro e he
        rcases List.mem_append.1 he with he | he
        · exact i2 e he
        · simp only [List.mem_singleton] at he; subst he; exact key.1
      · rw [key.2.2, i3]
        simp [queued, List.filterMap_append]

/-- Instance: two updates leave the queue for the sender; the context ends while it sends the first; it gives that up and returns with the second unsent. -/
example : ∃ evs s, Mgr.Run {} { stores := fun _ => after vanOps exCfg [] } evs s ∧ .cancel ∈ evs ∧ s.snd = .done ∧ s.sendQueue.length = 1 := by
  have r1 := Mgr.Run.nil (cfg := {}) (s := { stores := fun _ => after vanOps exCfg [] })
  have r2 := r1.snoc (.publish { curr := hostRec "h1" "x" } (by decide))
  have r3 := r2.snoc (.publish { curr := hostRec "h2" "x" } (by decide))
  have r4 := r3.snoc (.take rfl rfl)
  have r5 := r4.snoc (.diff rfl rfl)
  have r6 := r5.snoc (.queueUpdate rfl (by decide))
  have r7 := r6.snoc (.takeMsg rfl (List.cons_ne_nil _ _))
  have r8 := r7.snoc (.take rfl rfl)
  have r9 := r8.snoc (.diff rfl rfl)
  have r10 := r9.snoc (.queueUpdate rfl (by decide))
  have r11 := r10.snoc .cancel
  have r12 := r11.snoc (.sendFail rfl rfl rfl)
  have r13 := r12.snoc (.sndStop rfl rfl)
  exact ⟨_, _, r13, by simp, rfl, rfl⟩

/-- Instance of C99: an update is published, the context ends while the manager buffers, and the manager stops; all premises hold. -/
example : ∃ evs s, Mgr.Run exBufCfg { stores := fun _ => after vanOps exCfg [] } evs s ∧ .cancel ∈ evs ∧ s.pc = .stopped ∧
    Fresh { stores := fun _ => after vanOps exCfg [] } := by
  have r1 := Mgr.Run.nil (cfg := exBufCfg) (s := { stores := fun _ => after vanOps exCfg [] })
  have r2 := r1.snoc (.publish { curr := hostRec "h1" "x" } (by decide))
  have r3 := r2.snoc (.take rfl rfl)
  have r4 := r3.snoc .cancel
  have r5 := r4.snoc (.bufferTimeout rfl)
  exact ⟨_, _, r5, by simp, rfl, rfl, rfl, rfl, rfl, rfl, rfl⟩

/-- Instance of `C99_soon`: a change is published, taken, compared and sent; three moves, of which two began where the goroutine waited. -/
example : ∃ s', Moves {} { stores := fun _ => after vanOps exCfg [] } 3 2 s' ∧ s'.pc = .idle := by
  have m1 := Moves.nil (cfg := {}) (s := { stores := fun _ => after vanOps exCfg [] })
  have m2 := m1.others (.publish { curr := hostRec "h1" "x" } (by decide)) (.inl rfl)
  have m3 := m2.pass (.take rfl rfl) (fun h => nomatch h) trivial
  have m4 := m3.move (.diff rfl rfl) (fun h => nomatch h) id id
  have m5 := m4.pass (.queueUpdate rfl (by decide)) (fun h => nomatch h) trivial
  exact ⟨_, m5, rfl⟩

end Verif.Props
