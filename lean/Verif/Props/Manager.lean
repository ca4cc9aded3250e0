import Verif.Spec.Manager
import Verif.Props.Diff
import Verif.Props.Selector
import Verif.Props.Messages

/-!
# Manager properties C37 – C40
-/
namespace Verif.Props
open Verif Verif.Model Verif.Spec Verif.Proofs

/-! ## C37 -/

/-- What `serve` holds between the queue and the messages. -/
def Held (cfg : MgrConfig) : ServePC → List (GoRec GoTime) → Prop
  | .buffering buf, held => held = diffsOf buf ∧ 0 < buf.length ∧ (buf.length : Int) < cfg.updateBatchSize
  | .batch buf, held => held = diffsOf buf ∧ (buf.length : Int) ≤ max 1 cfg.updateBatchSize
  | .sendUpdate msg, held => held = msg ∧ msg ≠ [] ∧ (msg.length : Int) ≤ max 1 cfg.updateBatchSize
  | .stopped, _ => True
  | .crashed, _ => True
  | _, held => held = []

def Inv37 (cfg : MgrConfig) (evs : List MgrEv) (s : Mgr) : Prop :=
  (∃ held, diffsOf (published evs) = (updateMsgs evs).flatten ++ held ++ diffsOf s.changeQueue ∧ Held cfg s.pc held) ∧
  (∀ m ∈ updateMsgs evs, m ≠ [] ∧ (m.length : Int) ≤ max 1 cfg.updateBatchSize) ∧
  queued evs = handled evs ++ s.sendQueue

theorem diffBatch_ok : ∀ {buf : List RecordUpdate} {msg : List (GoRec GoTime)}, diffBatch buf = .ok msg →
    msg = diffsOf buf ∧ msg.length ≤ buf.length
  | [], msg, h => by simp [diffBatch] at h; subst h; exact ⟨rfl, Nat.le_refl _⟩
  | u :: us, msg, h => by
    simp only [diffBatch] at h
    rw [Res.bind_eq_ok] at h
    obtain ⟨d, hd, h⟩ := h
    rw [map_eq_ok] at h
    obtain ⟨rs, hrs, rfl⟩ := h
    obtain ⟨rfl, ih⟩ := diffBatch_ok hrs
    cases d with
    | none => simp [diffsOf, hd] at ih ⊢; omega
    | some r => simp [diffsOf, hd] at ih ⊢; omega

theorem diffsOf_append (a b : List RecordUpdate) : diffsOf (a ++ b) = diffsOf a ++ diffsOf b := by simp [diffsOf]

theorem inv37_step {cfg : MgrConfig} {evs : List MgrEv} {s s' : Mgr} {ev : MgrEv} (h : Inv37 cfg evs s) (hs : Mgr.Step cfg s ev s') :
    Inv37 cfg (evs ++ [ev]) s' := by
  obtain ⟨⟨held, h1, h2⟩, h3, h4⟩ := h
  have keep : ∀ {s' : Mgr} {ev : MgrEv}, published [ev] = [] → updateMsgs [ev] = [] → queued [ev] = [] → handled [ev] = [] →
      s'.sendQueue = s.sendQueue → (∃ held', held ++ diffsOf s.changeQueue = held' ++ diffsOf s'.changeQueue ∧ Held cfg s'.pc held') →
      Inv37 cfg (evs ++ [ev]) s' := by
    intro s' ev e1 e2 e3 e4 e5 ⟨held', e6, e7⟩
    refine ⟨⟨held', ?_, e7⟩, ?_, ?_⟩
    · simp only [published, updateMsgs, List.filterMap_append] at e1 e2 h1 ⊢
      rw [e1, e2]
      simp only [List.append_nil]
      rw [h1, List.append_assoc, List.append_assoc, e6]
    · intro m hm
      have : updateMsgs (evs ++ [ev]) = updateMsgs evs ++ updateMsgs [ev] := by simp [updateMsgs, List.filterMap_append]
      rw [this, e2, List.append_nil] at hm
      exact h3 m hm
    · simp only [queued, handled, List.filterMap_append] at e3 e4 h4 ⊢
      rw [e3, e4, e5]; simpa using h4
  cases hs with
  | publish u hcap =>
    refine ⟨⟨held, ?_, h2⟩, ?_, ?_⟩
    · simp only [published, updateMsgs, List.filterMap_append] at h1 ⊢
      rw [diffsOf_append, h1]
      simp [diffsOf_append]
    · intro m hm; exact h3 m (by simpa [updateMsgs] using hm)
    · simpa [queued, handled] using h4
  | storeOp i op => exact keep rfl rfl rfl rfl rfl ⟨held, rfl, h2⟩
  | flushReceived => exact keep rfl rfl rfl rfl rfl ⟨held, rfl, h2⟩
  | receiveError => exact keep rfl rfl rfl rfl rfl ⟨held, rfl, h2⟩
  | cancel => exact keep rfl rfl rfl rfl rfl ⟨held, rfl, h2⟩
  | stop hpc hcan => exact keep rfl rfl rfl rfl rfl ⟨held, rfl, trivial⟩
  | @take u rest hpc hq =>
    rw [hpc] at h2
    simp only [Held] at h2
    subst h2
    refine keep rfl rfl rfl rfl rfl ⟨diffsOf [u], by rw [hq]; simp [← diffsOf_append], ?_⟩
    by_cases hb : cfg.updateBufferTime > 0 ∧ cfg.updateBatchSize > 1
    · simp only [hb, and_self, if_true, Held]
      refine ⟨trivial, by simp, ?_⟩
      simpa using hb.2
    · simp only [hb, if_false, Held]
      refine ⟨trivial, ?_⟩
      simp; omega
  | @buffer buf u rest hpc hq =>
    rw [hpc] at h2
    obtain ⟨rfl, hb0, hb⟩ := h2
    refine keep rfl rfl rfl rfl rfl ⟨diffsOf (buf ++ [u]), by rw [hq]; simp [← diffsOf_append], ?_⟩
    by_cases hlen : (buf.length : Int) = cfg.updateBatchSize - 1
    · simp only [hlen, if_true]
      by_cases hc : s.cancelled = true
      · simp [hc, Held]
      · simp only [hc, Bool.false_eq_true, if_false, Held]
        refine ⟨trivial, ?_⟩
        simp only [List.length_append, List.length_singleton]; omega
    · simp only [hlen, if_false, Held]
      refine ⟨trivial, by simp, ?_⟩
      simp only [List.length_append, List.length_singleton]; omega
  | @bufferTimeout buf hpc =>
    rw [hpc] at h2
    obtain ⟨rfl, hb0, hb⟩ := h2
    refine keep rfl rfl rfl rfl rfl ⟨diffsOf buf, rfl, ?_⟩
    by_cases hc : s.cancelled = true
    · simp [hc, Held]
    · simp only [hc, Bool.false_eq_true, if_false, Held]
      exact ⟨trivial, by omega⟩
  | @diff buf msg hpc hd =>
    rw [hpc] at h2
    obtain ⟨rfl, hb⟩ := h2
    obtain ⟨rfl, hl⟩ := diffBatch_ok hd
    refine keep rfl rfl rfl rfl rfl ⟨diffsOf buf, rfl, ?_⟩
    by_cases hz : (diffsOf buf).length = 0
    · simp only [hz, if_true, Held]
      exact List.length_eq_zero_iff.1 hz
    · simp only [hz, if_false, Held]
      refine ⟨trivial, fun h => hz (by rw [h]; rfl), by omega⟩
  | diffPanic hpc hd => exact keep rfl rfl rfl rfl rfl ⟨held, rfl, trivial⟩
  | @queueUpdate msg hpc hcap =>
    rw [hpc] at h2
    obtain ⟨rfl, hne, hlen⟩ := h2
    refine ⟨⟨[], ?_, rfl⟩, ?_, ?_⟩
    · simp only [published, updateMsgs, List.filterMap_append] at h1 ⊢
      simp [h1]
    · intro m hm
      simp only [updateMsgs, List.filterMap_append, List.mem_append] at hm
      rcases hm with hm | hm
      · exact h3 m hm
      · simp at hm; subst hm; exact ⟨hne, hlen⟩
    · simp only [queued, handled, List.filterMap_append] at h4 ⊢
      simp [h4]
  | stopUpdate hpc hcan => exact keep rfl rfl rfl rfl rfl ⟨held, rfl, trivial⟩
  | takeFlush hpc hq =>
    rw [hpc] at h2
    refine keep rfl rfl rfl rfl rfl ⟨held, rfl, ?_⟩
    by_cases hf : cfg.flushDelay > 0 <;> simp [hf, Held] <;> exact h2
  | @drain n hpc hq =>
    rw [hpc] at h2
    refine keep rfl rfl rfl rfl rfl ⟨held, rfl, ?_⟩
    by_cases hf : n + 1 = drainMax
    · by_cases hc : s.cancelled = true
      · simp [hf, hc, Held]
      · simp [hf, hc, Held]; exact h2
    · simp [hf, Held]; exact h2
  | @drainTimeout n hpc =>
    rw [hpc] at h2
    refine keep rfl rfl rfl rfl rfl ⟨held, rfl, ?_⟩
    by_cases hc : s.cancelled = true
    · simp [hc, Held]
    · simp [hc, Held]; exact h2
  | flushBegin hpc => rw [hpc] at h2; exact keep rfl rfl rfl rfl rfl ⟨held, rfl, h2⟩
  | flushEnd hpc => rw [hpc] at h2; exact keep rfl rfl rfl rfl rfl ⟨held, rfl, h2⟩
  | @page i queue cont res nonce hpc hl =>
    rw [hpc] at h2
    refine keep rfl rfl rfl rfl rfl ⟨held, rfl, ?_⟩
    by_cases hz : res.entries.length = 0 <;> simp [hz, Held] <;> exact h2
  | pageError nonce hpc hl => exact keep rfl rfl rfl rfl rfl ⟨held, rfl, h2⟩
  | pagePanic nonce hpc hl => exact keep rfl rfl rfl rfl rfl ⟨held, rfl, trivial⟩
  | takeMsg | sndStop => exact keep rfl rfl rfl rfl rfl ⟨held, rfl, h2⟩
  | @queueFlush queue cont msg hpc hcap =>
    rw [hpc] at h2
    refine ⟨⟨held, ?_, h2⟩, ?_, ?_⟩
    · simp only [published, updateMsgs, List.filterMap_append] at h1 ⊢
      simp [h1]
    · intro m hm; exact h3 m (by simpa [updateMsgs] using hm)
    · simp only [queued, handled, List.filterMap_append] at h4 ⊢
      simp [h4]
  | stopFlush hpc hcan => exact keep rfl rfl rfl rfl rfl ⟨held, rfl, trivial⟩
  | @send records rest msg hq he =>
    refine ⟨⟨held, ?_, h2⟩, ?_, ?_⟩
    · simp only [published, updateMsgs, List.filterMap_append] at h1 ⊢
      simp [h1]
    · intro m hm; exact h3 m (by simpa [updateMsgs] using hm)
    · simp only [queued, handled, List.filterMap_append] at h4 ⊢
      simp [h4, hq]
  | @skip records rest e hq he =>
    refine ⟨⟨held, ?_, h2⟩, ?_, ?_⟩
    · simp only [published, updateMsgs, List.filterMap_append] at h1 ⊢
      simp [h1]
    · intro m hm; exact h3 m (by simpa [updateMsgs] using hm)
    · simp only [queued, handled, List.filterMap_append] at h4 ⊢
      simp [h4, hq]
  | @sendFail records rest msg hq he =>
    refine ⟨⟨held, ?_, h2⟩, ?_, ?_⟩
    · simp only [published, updateMsgs, List.filterMap_append] at h1 ⊢
      simp [h1]
    · intro m hm; exact h3 m (by simpa [updateMsgs] using hm)
    · simp only [queued, handled, List.filterMap_append] at h4 ⊢
      simp [h4, hq]
  | @sendPanic records rest e hq he =>
    refine ⟨⟨held, ?_, trivial⟩, ?_, ?_⟩
    · simp only [published, updateMsgs, List.filterMap_append] at h1 ⊢
      simp [h1]
    · intro m hm; exact h3 m (by simpa [updateMsgs] using hm)
    · simp only [queued, handled, List.filterMap_append] at h4 ⊢
      simp [h4, hq]

theorem inv37 {cfg : MgrConfig} {s0 s : Mgr} {evs : List MgrEv} (h0 : Fresh s0) (h : Mgr.Run cfg s0 evs s) : Inv37 cfg evs s := by
  induction h with
  | nil =>
    obtain ⟨a, b, c, d, e⟩ := h0
    refine ⟨⟨[], ?_, ?_⟩, ?_, ?_⟩
    · rw [a]; rfl
    · rw [d]; rfl
    · intro m hm; simp [updateMsgs] at hm
    · rw [c]; rfl
  | snoc _ hs ih => exact inv37_step ih hs

/-- C37: in every run of the manager, the differences of the published updates are, in publication order and each once, the records of the
update messages queued so far, followed by those the manager still holds (none when it is waiting for work, unless it has stopped) and
those of the updates still queued.  No update message is empty or larger than `max 1 UpdateBatchSize`.  The sender handles the messages in the
order in which they were queued. -/
theorem C37_updates_in_order {cfg : MgrConfig} {s0 s : Mgr} {evs : List MgrEv} (h0 : Fresh s0) (h : Mgr.Run cfg s0 evs s) :
    (∃ held, diffsOf (published evs) = (updateMsgs evs).flatten ++ held ++ diffsOf s.changeQueue ∧ (s.pc = .idle → held = [])) ∧
    (∀ m ∈ updateMsgs evs, m ≠ [] ∧ (m.length : Int) ≤ max 1 cfg.updateBatchSize) ∧
    queued evs = handled evs ++ s.sendQueue := by
  obtain ⟨⟨held, h1, h2⟩, h3, h4⟩ := inv37 h0 h
  exact ⟨⟨held, h1, fun hp => by rw [hp] at h2; exact h2⟩, h3, h4⟩

/-- A manager with buffering of up to three updates. -/
def exBufCfg : MgrConfig := { updateBufferTime := 1, updateBatchSize := 3 }

/-- Instance of C37: a new host and the renaming of another are published and leave in one message, in order. -/
example : ∃ evs s, Mgr.Run exBufCfg { stores := fun _ => after vanOps exCfg [] } evs s ∧ s.pc = .idle ∧ (published evs).length = 2 ∧
    (updateMsgs evs).map (fun l => l.map vanIdentity) = [[.ok "h1", .ok "h2"]] ∧ (handled evs).length = 1 := by
  have r1 := Mgr.Run.nil (cfg := exBufCfg) (s := { stores := fun _ => after vanOps exCfg [] })
  have r2 := r1.snoc (.publish { curr := hostRec "h1" "x" } (by decide))
  have r3 := r2.snoc (.publish { prev := hostRec "h2" "x", curr := hostRec "h2" "y" } (by decide))
  have r4 := r3.snoc (.take rfl rfl)
  have r5 := r4.snoc (.buffer rfl rfl)
  have r6 := r5.snoc (.bufferTimeout rfl)
  have r7 := r6.snoc (.diff rfl rfl)
  have r8 := r7.snoc (.queueUpdate rfl (by decide))
  have r9t := r8.snoc (.takeMsg rfl (List.cons_ne_nil _ _))
  have r9 := r9t.snoc (.send rfl rfl rfl)
  exact ⟨_, _, r9, rfl, rfl, rfl, rfl⟩

/-! ## C40 -/

/-- C40 is false: a host without an identity cannot be encoded, and costs the host published before it, which can. -/
theorem C40_counterexample :
    ∃ evs s, Mgr.Run exBufCfg { stores := fun _ => after vanOps exCfg [] } evs s ∧ s.pc = .idle ∧ s.changeQueue = [] ∧ s.sendQueue = [] ∧
      s.flushQueue = 0 ∧ (published evs).map RecordUpdate.curr = [hostRec "h1" "x", hostRec "" "y"] ∧ (vanOps.encode (hostRec "h1" "x")).isOk ∧
      ∀ rs msg, MgrEv.sent rs msg ∉ evs := by
  have r1 := Mgr.Run.nil (cfg := exBufCfg) (s := { stores := fun _ => after vanOps exCfg [] })
  have r2 := r1.snoc (.publish { curr := hostRec "h1" "x" } (by decide))
  have r3 := r2.snoc (.publish { curr := hostRec "" "y" } (by decide))
  have r4 := r3.snoc (.take rfl rfl)
  have r5 := r4.snoc (.buffer rfl rfl)
  have r6 := r5.snoc (.bufferTimeout rfl)
  have r7 := r6.snoc (.diff rfl rfl)
  have r8 := r7.snoc (.queueUpdate rfl (by decide))
  have r9t := r8.snoc (.takeMsg rfl (List.cons_ne_nil _ _))
  have r9 := r9t.snoc (.skip rfl rfl rfl)
  refine ⟨_, _, r9, rfl, rfl, rfl, rfl, rfl, rfl, ?_⟩
  intro rs msg h
  simp at h

/-- The record can be encoded. -/
def Encodable (r : GoRec GoTime) : Prop := ∃ a, vanOps.encode r = .ok a

theorem encodeRecords_ok_iff (rs : List (GoRec GoTime)) : (∃ es, encodeRecords vanRegistry rs = .ok es) ↔ ∀ r ∈ rs, Encodable r := by
  induction rs with
  | nil => simp [encodeRecords]
  | cons r rs ih =>
    simp only [List.forall_mem_cons, ← ih, encodeRecords]
    constructor
    · rintro ⟨es, h⟩
      rw [Res.bind_eq_ok] at h
      obtain ⟨a, h1, h⟩ := h
      rw [map_eq_ok] at h
      obtain ⟨es', h2, _⟩ := h
      exact ⟨⟨a, h1⟩, es', h2⟩
    · rintro ⟨⟨a, h1⟩, es, h2⟩
      have h1 : encode vanEnv vanRegistry r = .ok a := h1
      exact ⟨_, by rw [h1, h2]; rfl⟩

theorem encodeMsg_ok_iff (rs : List (GoRec GoTime)) :
    (∃ msg, RecordMsg.encode vanRegistry { records := rs } = .ok msg) ↔ ∀ r ∈ rs, Encodable r := by
  rw [← encodeRecords_ok_iff]
  constructor
  · rintro ⟨msg, h⟩
    unfold RecordMsg.encode at h
    rw [map_eq_ok] at h
    obtain ⟨es, h, _⟩ := h
    exact ⟨es, h⟩
  · rintro ⟨es, h⟩
    exact ⟨_, by unfold RecordMsg.encode; rw [h]; rfl⟩

/-- C40, what holds: the sender drops a message only if some record of it cannot be encoded, and hands over a message only if all can; what it
hands over decodes to the records of the message, in order.  Missing for C40: the encodable records of a message that has an unencodable
one (false, `C40_counterexample`). -/
theorem C40_dropped_iff_partial {cfg : MgrConfig} {s0 s : Mgr} {evs : List MgrEv} (h : Mgr.Run cfg s0 evs s) :
    (∀ rs, MgrEv.skipped rs ∈ evs ∨ MgrEv.sendPanicked rs ∈ evs → ∃ r ∈ rs, ¬ Encodable r) ∧
    (∀ rs, MgrEv.sendFailed rs ∈ evs → ∀ r ∈ rs, Encodable r) ∧
    (∀ rs msg, MgrEv.sent rs msg ∈ evs → (∀ r ∈ rs, Encodable r) ∧ ((∀ r ∈ rs, GoodRecord vanRegistry r) →
      ∃ m', decodeMsg vanRegistry (some msg) = .ok (.record m') ∧ m'.records.length = rs.length ∧
        ∀ (i : Nat) g g', rs[i]? = some g → m'.records[i]? = some g' → SameRecord vanRegistry g g')) := by
  induction h with
  | nil => simp
  | @snoc s' s'' evs ev hr hs ih =>
    obtain ⟨i1, i2, i3⟩ := ih
    have bad : ∀ rs, (∀ msg, RecordMsg.encode vanRegistry { records := rs } ≠ .ok msg) → ∃ r ∈ rs, ¬ Encodable r := by
      intro rs hno
      by_contra hc
      simp only [not_exists, not_and, Classical.not_not] at hc
      obtain ⟨msg, hm⟩ := (encodeMsg_ok_iff rs).2 hc
      exact hno msg hm
    refine ⟨?_, ?_, ?_⟩
    · intro rs hmem
      simp only [List.mem_append, List.mem_singleton] at hmem
      rcases hmem with (hmem | rfl) | (hmem | rfl)
      · exact i1 rs (Or.inl hmem)
      · cases hs with | skip hq he => exact bad rs (fun msg hm => by rw [he] at hm; simp at hm)
      · exact i1 rs (Or.inr hmem)
      · cases hs with | sendPanic hq he => exact bad rs (fun msg hm => by rw [he] at hm; simp at hm)
    · intro rs hmem
      simp only [List.mem_append, List.mem_singleton] at hmem
      rcases hmem with hmem | rfl
      · exact i2 rs hmem
      · cases hs with | sendFail hq he => exact (encodeMsg_ok_iff rs).1 ⟨_, he⟩
    · intro rs msg hmem
      simp only [List.mem_append, List.mem_singleton] at hmem
      rcases hmem with hmem | rfl
      · exact i3 rs msg hmem
      · cases hs with
        | send hq he =>
          refine ⟨(encodeMsg_ok_iff rs).1 ⟨_, he⟩, fun hg => ?_⟩
          obtain ⟨m', g1, _, _, g2, g3⟩ := C10_record_roundtrip (m := { records := rs }) hg he
          exact ⟨m', g1, g2, g3⟩

theorem queued_mem {evs : List MgrEv} {m : List (GoRec GoTime)} : m ∈ queued evs ↔ m ∈ updateMsgs evs ∨ m ∈ flushMsgs evs := by
  simp only [queued, updateMsgs, flushMsgs, List.mem_filterMap]
  constructor
  · rintro ⟨ev, h1, h2⟩
    cases ev <;> simp at h2
    · exact Or.inl ⟨_, h1, by simp [h2]⟩
    · exact Or.inr ⟨_, h1, by simp [h2]⟩
  · rintro (⟨ev, h1, h2⟩ | ⟨ev, h1, h2⟩) <;> cases ev <;> simp at h2 <;> exact ⟨_, h1, by simp [h2]⟩

/-- C40 holds without batching: with UpdateBatchSize at most 1, a dropped message that is not part of a flush is one record that cannot be
encoded. -/
theorem C40_unbatched {cfg : MgrConfig} (hcfg : cfg.updateBatchSize ≤ 1) {s0 s : Mgr} {evs : List MgrEv} (h0 : Fresh s0)
    (h : Mgr.Run cfg s0 evs s) {rs : List (GoRec GoTime)} (hs : MgrEv.skipped rs ∈ evs ∨ MgrEv.sendPanicked rs ∈ evs) :
    rs ∈ flushMsgs evs ∨ ∃ r, rs = [r] ∧ ¬ Encodable r := by
  obtain ⟨_, h2, h3⟩ := C37_updates_in_order h0 h
  have hm : rs ∈ queued evs := by
    rw [h3]
    apply List.mem_append_left
    simp only [handled, List.mem_filterMap]
    rcases hs with hs | hs
    · exact ⟨_, hs, rfl⟩
    · exact ⟨_, hs, rfl⟩
  rcases queued_mem.1 hm with hm | hm
  · right
    obtain ⟨g1, g2⟩ := h2 rs hm
    obtain ⟨r, hr, hne⟩ := (C40_dropped_iff_partial h).1 rs hs
    match rs, g1, g2, hr with
    | [], g1, _, _ => exact absurd rfl g1
    | [x], _, _, hr => simp at hr; subst hr; exact ⟨_, rfl, hne⟩
    | x :: y :: l, _, g2, _ => simp at g2; omega
  · exact Or.inl hm

/-- Instance of C40: with the default configuration the host without an identity is dropped alone. -/
example : ∃ evs s, Mgr.Run {} { stores := fun _ => after vanOps exCfg [] } evs s ∧ Fresh { stores := fun _ => after vanOps exCfg [] } ∧
    (∃ msg, MgrEv.sent [hostRec "h1" "x"] msg ∈ evs) ∧ MgrEv.skipped [hostRec "" "y"] ∈ evs := by
  have r1 := Mgr.Run.nil (cfg := {}) (s := { stores := fun _ => after vanOps exCfg [] })
  have r2 := r1.snoc (.publish { curr := hostRec "h1" "x" } (by decide))
  have r3 := r2.snoc (.publish { curr := hostRec "" "y" } (by decide))
  have r4 := r3.snoc (.take rfl rfl)
  have r5 := r4.snoc (.diff rfl rfl)
  have r6 := r5.snoc (.queueUpdate rfl (by decide))
  have r7 := r6.snoc (.take rfl rfl)
  have r8 := r7.snoc (.diff rfl rfl)
  have r9 := r8.snoc (.queueUpdate rfl (by decide))
  have r10t := r9.snoc (.takeMsg rfl (List.cons_ne_nil _ _))
  have r10 := r10t.snoc (.send rfl rfl rfl)
  have r11t := r10.snoc (.takeMsg rfl (List.cons_ne_nil _ _))
  have r11 := r11t.snoc (.skip rfl rfl rfl)
  exact ⟨_, _, r11, ⟨rfl, rfl, rfl, rfl, rfl, rfl⟩, ⟨_, by simp; rfl⟩, by simp⟩

end Verif.Props
