import Verif.Props.Manager

/-!
# Manager properties C38 and C39: servicing flushes
-/
namespace Verif.Props
open Verif Verif.Model Verif.Spec Verif.Proofs

/-! ## C38 -/

/-- A store in good order, with its content and its sorted keys: reached by calls with good records, with coherent keys, and of a size
(below `2^31`) that continue tokens can describe. -/
structure StoreOK (c : Cache (GoRec GoTime)) (m : AMap (GoRec GoTime)) (ks : List String) : Prop where
  ex : ∃ (cfg : CacheConfig (GoRec GoTime)) (h : List (Op (GoRec GoTime))), c = after vanOps cfg h ∧ m = content vanOps cfg h ∧ GoodConfig cfg ∧
    CoherentKey vanOps (keyOf vanOps cfg) (GoodRecord vanRegistry) ∧ ∀ op ∈ h, Op.All (GoodRecord vanRegistry) op
  sorted : SortedKeys m (fun _ => True) 0 ks
  small : ks.length < 2 ^ 31

/-- The token stands for the offset. -/
def Tok (cont : String) (off : Nat) : Prop := (cont = "" ∧ off = 0) ∨ (cont ≠ "" ∧ decodeContinue cont = .ok (off : Int))

theorem flush_page {c : Cache (GoRec GoTime)} {m : AMap (GoRec GoTime)} {ks : List String} (h : StoreOK c m ks) {cont : String} {off : Nat}
    (ht : Tok cont off) (limit nonce : Int) :
    ∃ es cont', c.list (some { limit := limit, cont := cont }) nonce = .ok { entries := es, cont := cont' } ∧
      ((cont' = "" ∧ es.map some = (ks.drop off).map m ∧ (limit > 0 → (es.length : Int) ≤ limit)) ∨
       (cont' ≠ "" ∧ 0 < limit ∧ off + limit.toNat < ks.length ∧ Tok cont' (off + limit.toNat) ∧
        es.map some = ((ks.drop off).take limit.toNat).map m ∧ es.length = limit.toNat)) := by
  obtain ⟨cfg, hh, rfl, rfl, hc, hcoh, hops⟩ := h.ex
  obtain ⟨ks', h1, es, cont', h2, h3, h4, h5⟩ := C26_window_partial vanOps_lawful hc hcoh hh hops none trivial { limit := limit, cont := cont } nonce off
    (by rcases ht with ⟨rfl, rfl⟩ | ht
        · exact Or.inl ⟨rfl, rfl⟩
        · exact Or.inr ht)
  have : ks = ks' := sortedKeys_unique h.sorted h1
  subst this
  refine ⟨es, cont', h2, ?_⟩
  simp only at h3 h4 h5
  by_cases hne : cont' = ""
  · left
    have hno : ¬ (limit > 0 ∧ (off : Int) + limit < ks.length) := fun hx => h4.2 hx hne
    refine ⟨hne, ?_, ?_⟩
    · rw [h3]
      by_cases hl : limit > 0
      · rw [if_pos hl, List.take_of_length_le]
        rw [List.length_drop]; omega
      · rw [if_neg hl]
    · intro hl
      have := congrArg List.length h3
      rw [if_pos hl] at this
      simp only [List.length_map, List.length_take, List.length_drop] at this
      omega
  · right
    obtain ⟨hl, hlt⟩ := h4.1 hne
    rw [if_pos hl] at h3
    refine ⟨hne, hl, by omega, Or.inr ⟨hne, ?_⟩, h3, ?_⟩
    · rw [h5 hne]
      have hs := h.small
      have : ((off : Int) + limit) = ((off + limit.toNat : Nat) : Int) := by omega
      rw [this]
      exact decode_token (by omega)
    · have := congrArg List.length h3
      simp only [List.length_map, List.length_take, List.length_drop] at this
      omega

section
variable (n : Nat) (limit : Int) (m : Nat → AMap (GoRec GoTime)) (ks : Nat → List String)

/-- The records of store `i`, in key order. -/
def storeRecords (i : Nat) : List (Option (GoRec GoTime)) := (ks i).map fun k => (m i k).map Entry.record

/-- The flush has sent `out`; `queue` and `cont` say what is left. -/
def FlushAt (queue : List Nat) (cont : String) (out : List (GoRec GoTime)) : Prop :=
  ∃ j off, j ≤ n ∧ queue = List.range' j (n - j) ∧ Tok cont off ∧ (j = n → off = 0) ∧ off ≤ (ks j).length ∧
    out.map some = (List.range j).flatMap (storeRecords m ks) ++ ((ks j).take off).map fun k => (m j k).map Entry.record

def FlushInv (out : List (GoRec GoTime)) (s : Mgr) : Prop :=
  (∀ i < n, StoreOK (s.stores i) (m i) (ks i)) ∧
  match s.pc with
  | .flushing queue cont => FlushAt n m ks queue cont out
  | .sendFlush queue cont msg => FlushAt n m ks queue cont (out ++ msg) ∧ msg ≠ [] ∧ (limit > 0 → (msg.length : Int) ≤ limit)
  | .stopped | .crashed => True
  | _ => False
end

theorem flushInv_step {cfg : MgrConfig} {m : Nat → AMap (GoRec GoTime)} {ks : Nat → List String} {evs : List MgrEv} {s s' : Mgr} {ev : MgrEv}
    (h : FlushInv cfg.numStores cfg.flushBatchSize m ks (flushMsgs evs).flatten s) (hm : ∀ x ∈ flushMsgs evs, x ≠ [] ∧
      (cfg.flushBatchSize > 0 → (x.length : Int) ≤ cfg.flushBatchSize))
    (hs : Mgr.Step cfg s ev s') (hev : ev ≠ .flushEnd) (hst : ∀ i op, ev = .storeOp i op → cfg.numStores ≤ i) :
    FlushInv cfg.numStores cfg.flushBatchSize m ks (flushMsgs (evs ++ [ev])).flatten s' ∧
    ∀ x ∈ flushMsgs (evs ++ [ev]), x ≠ [] ∧ (cfg.flushBatchSize > 0 → (x.length : Int) ≤ cfg.flushBatchSize) := by
  obtain ⟨h1, h2⟩ := h
  have happ : flushMsgs (evs ++ [ev]) = flushMsgs evs ++ flushMsgs [ev] := by simp [flushMsgs, List.filterMap_append]
  have keep : flushMsgs [ev] = [] → FlushInv cfg.numStores cfg.flushBatchSize m ks (flushMsgs evs).flatten s' →
      FlushInv cfg.numStores cfg.flushBatchSize m ks (flushMsgs (evs ++ [ev])).flatten s' ∧
      ∀ x ∈ flushMsgs (evs ++ [ev]), x ≠ [] ∧ (cfg.flushBatchSize > 0 → (x.length : Int) ≤ cfg.flushBatchSize) := by
    intro e hi
    rw [happ, e, List.append_nil]
    exact ⟨hi, hm⟩
  cases hs with
  | publish u hcap | takeMsg | sndStop => exact keep rfl ⟨h1, h2⟩
  | storeOp i op =>
    refine keep rfl ⟨fun j hj => ?_, h2⟩
    have := hst i op rfl
    simp only
    rw [if_neg (by omega)]
    exact h1 j hj
  | flushReceived => exact keep rfl ⟨h1, h2⟩
  | receiveError => exact keep rfl ⟨h1, h2⟩
  | cancel => exact keep rfl ⟨h1, h2⟩
  | stop hpc hcan => exact keep rfl ⟨h1, trivial⟩
  | take hpc hq => rw [hpc] at h2; exact h2.elim
  | buffer hpc hq => rw [hpc] at h2; exact h2.elim
  | bufferTimeout hpc => rw [hpc] at h2; exact h2.elim
  | diff hpc hd => rw [hpc] at h2; exact h2.elim
  | diffPanic hpc hd => rw [hpc] at h2; exact h2.elim
  | queueUpdate hpc hcap => rw [hpc] at h2; exact h2.elim
  | stopUpdate hpc hcan => exact keep rfl ⟨h1, trivial⟩
  | takeFlush hpc hq => rw [hpc] at h2; exact h2.elim
  | drain hpc hq => rw [hpc] at h2; exact h2.elim
  | drainTimeout hpc => rw [hpc] at h2; exact h2.elim
  | flushBegin hpc => rw [hpc] at h2; exact h2.elim
  | flushEnd hpc => exact absurd rfl hev
  | @page i queue cont res nonce hpc hl =>
    rw [hpc] at h2
    obtain ⟨j, off, hj, hqueue, htok, hjn, hoff, hout⟩ := h2
    have hlt : j < cfg.numStores := by
      rcases Nat.lt_or_ge j cfg.numStores with h | h
      · exact h
      · rw [show cfg.numStores - j = 0 by omega] at hqueue; simp at hqueue
    rw [show cfg.numStores - j = (cfg.numStores - (j + 1)) + 1 by omega, List.range'_succ] at hqueue
    obtain ⟨rfl, hqueue⟩ := (List.cons.injEq _ _ _ _).mp hqueue
    obtain ⟨es, cont', g1, g2⟩ := flush_page (h1 i hlt) htok cfg.flushBatchSize nonce
    rw [g1] at hl
    simp only [Res.ok.injEq] at hl
    subst hl
    have hrec : ∀ l : List String, es.map some = l.map (m i) → (es.map Entry.record).map some = l.map fun k => (m i k).map Entry.record := by
      intro l hl
      rw [List.map_map, show (some ∘ Entry.record : Entry (GoRec GoTime) → _) = Option.map Entry.record ∘ some from rfl, ← List.map_map, hl, List.map_map]
      rfl
    -- what has been sent and listed so far
    have hat : FlushAt cfg.numStores m ks (if cont' = "" then queue else i :: queue) cont' ((flushMsgs evs).flatten ++ es.map Entry.record) ∧
        (cfg.flushBatchSize > 0 → (es.length : Int) ≤ cfg.flushBatchSize) := by
      rcases g2 with ⟨rfl, g2, g3⟩ | ⟨g2, g3, g4, g5, g6, g7⟩
      · refine ⟨⟨i + 1, 0, hlt, ?_, Or.inl ⟨rfl, rfl⟩, fun _ => rfl, Nat.zero_le _, ?_⟩, g3⟩
        · simp only [if_true]; exact hqueue
        · rw [List.map_append, hout, hrec _ g2, List.range_succ, List.flatMap_append]
          simp only [List.append_assoc, ← List.map_append, List.take_append_drop, List.take_zero, List.map_nil, List.append_nil]
          simp [storeRecords]
      · refine ⟨⟨i, off + cfg.flushBatchSize.toNat, Nat.le_of_lt hlt, ?_, g5, by omega, by omega, ?_⟩, fun _ => by omega⟩
        · rw [if_neg g2, hqueue, ← List.range'_succ]
          congr 1
          omega
        · rw [List.map_append, hout, hrec _ g6, List.append_assoc, ← List.map_append, ← List.take_add]
    refine keep rfl ⟨h1, ?_⟩
    simp only
    by_cases hz : es.length = 0
    · rw [if_pos hz]
      have : es = [] := List.length_eq_zero_iff.1 hz
      subst this
      simpa using hat.1
    · rw [if_neg hz]
      refine ⟨hat.1, ?_, by simpa using hat.2⟩
      intro he
      exact hz (by simpa using congrArg List.length he)
  | pageError nonce hpc hl => exact keep rfl ⟨h1, h2⟩
  | pagePanic nonce hpc hl => exact keep rfl ⟨h1, trivial⟩
  | @queueFlush queue cont msg hpc hcap =>
    rw [hpc] at h2
    have e : flushMsgs [MgrEv.queueFlush msg] = [msg] := rfl
    rw [happ, e]
    refine ⟨⟨h1, ?_⟩, ?_⟩
    · simpa using h2.1
    · intro x hx
      rcases List.mem_append.1 hx with hx | hx
      · exact hm x hx
      · simp at hx; subst hx; exact h2.2
  | stopFlush hpc hcan => exact keep rfl ⟨h1, trivial⟩
  | send hq he => exact keep rfl ⟨h1, h2⟩
  | skip hq he => exact keep rfl ⟨h1, h2⟩
  | sendFail hq he => exact keep rfl ⟨h1, h2⟩
  | sendPanic hq he => exact keep rfl ⟨h1, trivial⟩

/-- C38: between the beginning and the end of a flush during which no store of the manager is written, whatever else happens, the messages
queued for the flush contain exactly the records of the stores, store after store, in key order, each once; none is empty, and none has more than
FlushBatchSize records when that is positive. -/
theorem C38_flush_complete {cfg : MgrConfig} {s1 s2 s3 s4 : Mgr} {mid : List MgrEv} (hb : Mgr.Step cfg s1 .flushBegin s2)
    (hr : Mgr.Run cfg s2 mid s3) (he : Mgr.Step cfg s3 .flushEnd s4) (hno : MgrEv.flushEnd ∉ mid)
    (hst : ∀ i op, MgrEv.storeOp i op ∈ mid → cfg.numStores ≤ i) (m : Nat → AMap (GoRec GoTime)) (ks : Nat → List String)
    (hok : ∀ i < cfg.numStores, StoreOK (s1.stores i) (m i) (ks i)) :
    (flushMsgs mid).flatten.map some = (List.range cfg.numStores).flatMap (fun i => (ks i).map fun k => (m i k).map Entry.record) ∧
    ∀ x ∈ flushMsgs mid, x ≠ [] ∧ (cfg.flushBatchSize > 0 → (x.length : Int) ≤ cfg.flushBatchSize) := by
  have h2 : FlushInv cfg.numStores cfg.flushBatchSize m ks [] s2 := by
    cases hb with
    | flushBegin hpc =>
      refine ⟨hok, ?_⟩
      exact ⟨0, 0, Nat.zero_le _, by rw [Nat.sub_zero, List.range_eq_range'], Or.inl ⟨rfl, rfl⟩, fun _ => rfl, Nat.zero_le _, by simp⟩
  have main : FlushInv cfg.numStores cfg.flushBatchSize m ks (flushMsgs mid).flatten s3 ∧
      ∀ x ∈ flushMsgs mid, x ≠ [] ∧ (cfg.flushBatchSize > 0 → (x.length : Int) ≤ cfg.flushBatchSize) := by
    clear he
    induction hr with
    | nil => exact ⟨h2, by intro x hx; simp [flushMsgs] at hx⟩
    | @snoc s' s'' evs ev hr hs ih =>
      obtain ⟨i1, i2⟩ := ih (fun h => hno (List.mem_append_left _ h)) (fun i op h => hst i op (List.mem_append_left _ h))
      exact flushInv_step i1 i2 hs (fun h => hno (by simp [h])) (fun i op h => hst i op (by simp [h]))
  obtain ⟨⟨_, g2⟩, g3⟩ := main
  refine ⟨?_, g3⟩
  cases he with
  | @flushEnd cont hpc =>
    rw [hpc] at g2
    obtain ⟨j, off, hj, hqueue, htok, hjn, hoff, hout⟩ := g2
    have : j = cfg.numStores := by
      rcases Nat.lt_or_ge j cfg.numStores with h | h
      · rw [show cfg.numStores - j = (cfg.numStores - (j + 1)) + 1 by omega, List.range'_succ] at hqueue
        simp at hqueue
      · omega
    subst this
    rw [hjn rfl] at hout
    simp only [List.take_zero, List.map_nil, List.append_nil] at hout
    exact hout

/-- The store with three hosts is in good order. -/
theorem threeHosts_ok : StoreOK (after vanOps exCfg threeHosts) (content vanOps exCfg threeHosts) ["a", "b", "c"] :=
  ⟨⟨exCfg, threeHosts, rfl, rfl, exCfg_good, van_coherent, threeHosts_good⟩, threeHosts_sorted, by decide⟩

/-- A manager with one store holding three hosts, about to flush them two by two. -/
def exFlushCfg : MgrConfig := { flushBatchSize := 2, numStores := 1 }

def exFlushMgr : Mgr := { stores := fun _ => after vanOps exCfg threeHosts, pc := .flushStart }

/-- Instance of C38: the flush sends a and b, then c. -/
example : ∃ s2 mid s3 s4, Mgr.Step exFlushCfg exFlushMgr .flushBegin s2 ∧ Mgr.Run exFlushCfg s2 mid s3 ∧ Mgr.Step exFlushCfg s3 .flushEnd s4 ∧
    MgrEv.flushEnd ∉ mid ∧ (∀ i op, MgrEv.storeOp i op ∈ mid → exFlushCfg.numStores ≤ i) ∧
    (flushMsgs mid).map (fun l => l.map vanIdentity) = [[.ok "a", .ok "b"], [.ok "c"]] := by
  obtain ⟨es1, c1, g1, h1⟩ := flush_page threeHosts_ok (cont := "") (Or.inl ⟨rfl, rfl⟩) exFlushCfg.flushBatchSize 7
  rcases h1 with ⟨_, e, hl⟩ | ⟨hc1, _, _, ht1, e1, l1⟩
  · have := congrArg List.length e
    have := hl (by decide)
    simp [exFlushCfg] at *
    omega
  obtain ⟨es2, c2, g2, h2⟩ := flush_page threeHosts_ok ht1 exFlushCfg.flushBatchSize 9
  rcases h2 with ⟨hc2, e2, _⟩ | ⟨_, _, h, _⟩
  swap
  · simp [exFlushCfg] at h
  have e1 : es1.map some = ["a", "b"].map (content vanOps exCfg threeHosts) := e1
  have e2 : es2.map some = ["c"].map (content vanOps exCfg threeHosts) := e2
  have ids : ∀ (es : List (Entry (GoRec GoTime))) (l : List String) (is : List (Res String)),
      es.map some = l.map (content vanOps exCfg threeHosts) →
      l.map (fun k => (content vanOps exCfg threeHosts k).map fun e => vanIdentity e.record) = is.map some →
      es.map (fun e => vanIdentity e.record) = is := by
    intro es l is h1 h2
    have h3 := congrArg (List.map (Option.map fun e : Entry (GoRec GoTime) => vanIdentity e.record)) h1
    rw [List.map_map, List.map_map] at h3
    have h4 : (es.map fun e => vanIdentity e.record).map some = is.map some := by
      rw [← h2, List.map_map]; exact h3
    exact List.map_inj_right (fun a b h => Option.some.inj h) |>.1 h4
  have j1 := ids es1 ["a", "b"] [.ok "a", .ok "b"] e1 rfl
  have j2 := ids es2 ["c"] [.ok "c"] e2 rfl
  have hne1 : es1.length ≠ 0 := by intro h; rw [List.length_eq_zero_iff.1 h] at j1; simp at j1
  have hne2 : es2.length ≠ 0 := by intro h; rw [List.length_eq_zero_iff.1 h] at j2; simp at j2
  have s1 : Mgr.Step exFlushCfg exFlushMgr .flushBegin { exFlushMgr with pc := .flushing [0] "" } := .flushBegin rfl
  have r1 := Mgr.Run.nil (cfg := exFlushCfg) (s := { exFlushMgr with pc := .flushing [0] "" })
  have r2 := r1.snoc (.page 7 rfl g1)
  simp only [hne1, hc1, if_false] at r2
  have r3 := r2.snoc (.queueFlush rfl (by simp [Mgr.SendRoom, exFlushMgr, sendQueueCap]))
  have r4 := r3.snoc (.page 9 rfl g2)
  simp only [hne2, hc2, if_false, if_true] at r4
  have r5 := r4.snoc (.queueFlush rfl (by simp [Mgr.SendRoom, exFlushMgr, sendQueueCap]))
  refine ⟨_, _, _, _, s1, r5, .flushEnd rfl, by simp, by simp, ?_⟩
  simp [flushMsgs, Function.comp_def, j1, j2]

/-! ## C39 -/

/-- A flush is waiting: requested, and not yet begun. -/
def FlushWaiting (s : Mgr) : Prop :=
  0 < s.flushQueue ∨ (∃ n, s.pc = .draining n) ∨ s.pc = .flushStart ∨ s.pc = .stopped ∨ s.pc = .crashed

/-- A flush is under way. -/
def FlushOpen (s : Mgr) : Prop :=
  (∃ q c, s.pc = .flushing q c) ∨ (∃ q c m, s.pc = .sendFlush q c m) ∨ s.pc = .stopped ∨ s.pc = .crashed

theorem waiting_step {cfg : MgrConfig} {s s' : Mgr} {ev : MgrEv} (h : FlushWaiting s) (hs : Mgr.Step cfg s ev s') (hev : ev ≠ .flushBegin) :
    FlushWaiting s' := by
  unfold FlushWaiting at *
  cases hs with
  | flushReceived | receiveError =>
    rcases h with h | h
    · left; simp only; split <;> omega
    · exact Or.inr h
  | takeFlush hpc hq => right; by_cases hf : cfg.flushDelay > 0 <;> simp [hf]
  | @drain n hpc hq =>
    right
    by_cases hf : n + 1 = drainMax
    · by_cases hc : s.cancelled = true <;> simp [hf, hc]
    · simp [hf]
  | drainTimeout hpc => right; by_cases hc : s.cancelled = true <;> simp [hc]
  | flushBegin hpc => exact absurd rfl hev
  | stop hpc hcan | stopUpdate hpc hcan | stopFlush hpc hcan | diffPanic hpc hd | pagePanic nonce hpc hl | sendPanic hq he => simp
  | publish u hcap | storeOp i op | cancel | takeMsg | sndStop | pageError nonce hpc hl | send hq he | skip hq he | sendFail hq he => exact h
  | take hpc hq | buffer hpc hq | bufferTimeout hpc | diff hpc hd | queueUpdate hpc hcap | flushEnd hpc | page nonce hpc hl | queueFlush hpc hcap =>
    rw [hpc] at h
    left
    simpa using h

theorem open_step {cfg : MgrConfig} {s s' : Mgr} {ev : MgrEv} (h : FlushOpen s) (hs : Mgr.Step cfg s ev s') (hev : ev ≠ .flushEnd) :
    FlushOpen s' := by
  unfold FlushOpen at *
  cases hs with
  | flushEnd hpc => exact absurd rfl hev
  | flushBegin hpc => left; exact ⟨_, _, rfl⟩
  | stop hpc hcan | stopUpdate hpc hcan | stopFlush hpc hcan | diffPanic hpc hd | pagePanic nonce hpc hl | sendPanic hq he => simp
  | publish u hcap | storeOp i op | cancel | takeMsg | sndStop | flushReceived | receiveError | pageError nonce hpc hl | send hq he | skip hq he | sendFail hq he => exact h
  | @page i queue cont res nonce hpc hl =>
    by_cases hz : res.entries.length = 0
    · left; simp only [hz, if_true]; exact ⟨_, _, rfl⟩
    · right; left; simp only [hz, if_false]; exact ⟨_, _, _, rfl⟩
  | queueFlush hpc hcap => left; exact ⟨_, _, rfl⟩
  | take hpc hq | buffer hpc hq | bufferTimeout hpc | diff hpc hd | queueUpdate hpc hcap | takeFlush hpc hq | drain hpc hq | drainTimeout hpc =>
    rw [hpc] at h; simp at h

theorem flush_events {cfg : MgrConfig} {s0 s : Mgr} {evs : List MgrEv} (h : Mgr.Run cfg s0 evs s) :
    (∀ pre post, evs = pre ++ .flushReceived :: post → MgrEv.flushBegin ∉ post → FlushWaiting s) ∧
    (∀ pre post, evs = pre ++ .flushBegin :: post → MgrEv.flushEnd ∉ post → FlushOpen s) := by
  induction h with
  | nil => exact ⟨fun pre post h => by simp at h, fun pre post h => by simp at h⟩
  | @snoc s' s'' evs ev hr hs ih =>
    refine ⟨?_, ?_⟩
    · intro pre post heq hno
      rcases List.eq_nil_or_concat post with rfl | ⟨post', x, rfl⟩
      · obtain ⟨_, rfl⟩ := List.append_inj' heq rfl |>.imp id List.singleton_inj.1
        cases hs with
        | flushReceived =>
          left; simp only
          split
          · omega
          · rename_i hf; simp only [flushQueueCap] at hf; omega
      · rw [← List.concat_eq_append] at heq
        rw [show pre ++ MgrEv.flushReceived :: post'.concat x = (pre ++ MgrEv.flushReceived :: post').concat x by simp] at heq
        obtain ⟨h1, rfl⟩ := List.concat_inj.1 heq
        simp only [List.concat_eq_append, List.mem_append, not_or] at hno
        exact waiting_step (ih.1 pre post' h1 hno.1) hs (fun h => hno.2 (by simp [h]))
    · intro pre post heq hno
      rcases List.eq_nil_or_concat post with rfl | ⟨post', x, rfl⟩
      · obtain ⟨_, rfl⟩ := List.append_inj' heq rfl |>.imp id List.singleton_inj.1
        cases hs with
        | flushBegin hpc => left; exact ⟨_, _, rfl⟩
      · rw [← List.concat_eq_append] at heq
        rw [show pre ++ MgrEv.flushBegin :: post'.concat x = (pre ++ MgrEv.flushBegin :: post').concat x by simp] at heq
        obtain ⟨h1, rfl⟩ := List.concat_inj.1 heq
        simp only [List.concat_eq_append, List.mem_append, not_or] at hno
        exact open_step (ih.2 pre post' h1 hno.1) hs (fun h => hno.2 (by simp [h]))

/-- C39: whenever the manager is waiting for work with no flush request queued, every flush message received so far has been followed by the
beginning and the end of a flush, coalesced and dropped requests included. -/
theorem C39_flush_not_lost {cfg : MgrConfig} {s0 s : Mgr} {evs : List MgrEv} (h : Mgr.Run cfg s0 evs s) (hpc : s.pc = .idle)
    (hq : s.flushQueue = 0) {pre post : List MgrEv} (heq : evs = pre ++ .flushReceived :: post) :
    ∃ a b c, post = a ++ .flushBegin :: b ++ .flushEnd :: c := by
  obtain ⟨h1, h2⟩ := flush_events h
  by_cases hb : MgrEv.flushBegin ∈ post
  · obtain ⟨a, b, rfl⟩ := List.append_of_mem hb
    by_cases he : MgrEv.flushEnd ∈ b
    · obtain ⟨b1, c, rfl⟩ := List.append_of_mem he
      exact ⟨a, b1, c, by simp⟩
    · have := h2 (pre ++ .flushReceived :: a) b (by simp [heq]) he
      simp [FlushOpen, hpc] at this
  · have := h1 pre post heq hb
    simp [FlushWaiting, hpc, hq] at this

/-- The offset a token stands for. -/
def tokOff (cont : String) : Nat := if cont = "" then 0 else match decodeContinue cont with | .ok o => o.toNat | _ => 0

theorem tokOff_eq {cont : String} {off : Nat} (h : Tok cont off) : tokOff cont = off := by
  rcases h with ⟨rfl, rfl⟩ | ⟨h1, h2⟩
  · rfl
  · simp [tokOff, h1, h2]

/-- The continue token of a flush under way is a token. -/
def PcTok : ServePC → Prop
  | .flushing _ cont => ∃ off, Tok cont off
  | .sendFlush _ cont _ => ∃ off, Tok cont off
  | _ => True

/-- The stores a flush under way has yet to list are stores of the manager. -/
def PcQueue (n : Nat) : ServePC → Prop
  | .flushing q _ => ∀ i ∈ q, i < n
  | .sendFlush q _ _ => ∀ i ∈ q, i < n
  | _ => True

/-- An upper bound of the number of pages left. -/
def pagesLeft (len : Nat → Nat) : List Nat → Nat → Nat
  | [], _ => 0
  | i :: q, off => (len i - off) + 1 + pagesLeft len q 0

/-- An upper bound of the number of steps a flush takes. -/
def flushCost (n : Nat) (len : Nat → Nat) : Nat := 4 * pagesLeft len (List.range n) 0 + 3

def pcCost (n : Nat) (len : Nat → Nat) : ServePC → Nat
  | .stopped | .crashed => 0
  | .idle => 1
  | .buffering _ => 6
  | .batch _ => 5
  | .sendUpdate _ => 4
  | .draining _ => flushCost n len + 1
  | .flushStart => flushCost n len
  | .flushing q cont => 4 * pagesLeft len q (tokOff cont) + 2
  | .sendFlush q cont _ => 4 * pagesLeft len q (tokOff cont) + 5

def sndCost : SenderPC → Nat
  | .waiting => 1
  | _ => 0

/-- An upper bound of the number of steps the manager takes if left alone. -/
def workLeft (n : Nat) (len : Nat → Nat) (s : Mgr) : Nat :=
  6 * s.changeQueue.length + (flushCost n len + 1) * s.flushQueue + 2 * s.sendQueue.length + sndCost s.snd + pcCost n len s.pc

theorem pcTok_step {cfg : MgrConfig} {m : Nat → AMap (GoRec GoTime)} {ks : Nat → List String} {s s' : Mgr} {ev : MgrEv}
    (hok : ∀ i < cfg.numStores, StoreOK (s.stores i) (m i) (ks i)) (ht : PcTok s.pc) (hq : PcQueue cfg.numStores s.pc)
    (hs : Mgr.Step cfg s ev s') : PcTok s'.pc ∧ PcQueue cfg.numStores s'.pc := by
  cases hs with
  | publish u hcap | storeOp i op | flushReceived | receiveError | cancel | takeMsg | sndStop | pageError nonce hpc hl | send hsq he | skip hsq he | sendFail hsq he =>
    exact ⟨ht, hq⟩
  | stop hpc hcan | stopUpdate hpc hcan | stopFlush hpc hcan | diffPanic hpc hd | pagePanic nonce hpc hl | sendPanic hq he
    | queueUpdate hpc hcap | flushEnd hpc => exact ⟨trivial, trivial⟩
  | take hpc hq => simp only; split <;> exact ⟨trivial, trivial⟩
  | buffer hpc hq => simp only; split <;> [split; skip] <;> exact ⟨trivial, trivial⟩
  | bufferTimeout hpc => simp only; split <;> exact ⟨trivial, trivial⟩
  | diff hpc hd => simp only; split <;> exact ⟨trivial, trivial⟩
  | takeFlush hpc hq => simp only; split <;> exact ⟨trivial, trivial⟩
  | drain hpc hq => simp only; split <;> [split; skip] <;> exact ⟨trivial, trivial⟩
  | drainTimeout hpc => simp only; split <;> exact ⟨trivial, trivial⟩
  | flushBegin hpc => exact ⟨⟨0, Or.inl ⟨rfl, rfl⟩⟩, fun i hi => List.mem_range.1 hi⟩
  | @page i queue cont res nonce hpc hl =>
    rw [hpc] at ht hq
    obtain ⟨off, ht⟩ := ht
    obtain ⟨es, cont', g1, g2⟩ := flush_page (hok i (hq i (by simp))) ht cfg.flushBatchSize nonce
    rw [g1] at hl
    simp only [Res.ok.injEq] at hl
    subst hl
    have h1 : ∃ off, Tok cont' off := by
      rcases g2 with ⟨rfl, _⟩ | ⟨_, _, _, g5, _⟩
      · exact ⟨0, Or.inl ⟨rfl, rfl⟩⟩
      · exact ⟨_, g5⟩
    have h2 : ∀ j ∈ (if cont' = "" then queue else i :: queue), j < cfg.numStores := by
      intro j hj
      apply hq
      split at hj
      · exact List.mem_cons_of_mem _ hj
      · exact hj
    simp only
    split <;> exact ⟨h1, h2⟩
  | queueFlush hpc hcap => rw [hpc] at ht hq; exact ⟨ht, hq⟩

theorem workLeft_step {cfg : MgrConfig} {m : Nat → AMap (GoRec GoTime)} {ks : Nat → List String} {s s' : Mgr} {ev : MgrEv}
    (hok : ∀ i < cfg.numStores, StoreOK (s.stores i) (m i) (ks i)) (ht : PcTok s.pc) (hq : PcQueue cfg.numStores s.pc)
    (hs : Mgr.Step cfg s ev s') (hev : Internal ev) :
    workLeft cfg.numStores (fun i => (ks i).length) s' < workLeft cfg.numStores (fun i => (ks i).length) s ∧ s'.stores = s.stores := by
  cases hs with
  | publish u hcap | storeOp i op | flushReceived | receiveError | cancel => exact hev.elim
  | takeMsg hs | sndStop hs => refine ⟨?_, rfl⟩; simp only [workLeft, hs, sndCost]; omega
  | stop hpc hcan | stopUpdate hpc hcan | stopFlush hpc hcan | diffPanic hpc hd | pagePanic nonce hpc hl =>
    refine ⟨?_, rfl⟩; simp only [workLeft, hpc, pcCost]; omega
  | sendPanic hq he hb =>
    refine ⟨?_, rfl⟩; simp only [workLeft, pcCost, hq, hb, sndCost, List.length_cons]; omega
  | send hq he hb | skip hq he hb | sendFail hq he hb =>
    refine ⟨?_, rfl⟩; simp only [workLeft, hq, hb, sndCost, List.length_cons]; omega
  | @pageError i queue cont e nonce hpc hl =>
    rw [hpc] at ht hq
    obtain ⟨off, ht⟩ := ht
    obtain ⟨es, cont', g1, g2⟩ := flush_page (hok i (hq i (by simp))) ht cfg.flushBatchSize nonce
    rw [g1] at hl; simp at hl
  | queueUpdate hpc hcap | queueFlush hpc hcap =>
    refine ⟨?_, rfl⟩
    simp only [workLeft, hpc, pcCost, List.length_append, List.length_singleton]; omega
  | flushEnd hpc => refine ⟨?_, rfl⟩; simp only [workLeft, hpc, pcCost, pagesLeft]; omega
  | flushBegin hpc =>
    refine ⟨?_, rfl⟩
    have : tokOff "" = 0 := rfl
    simp only [workLeft, hpc, pcCost, flushCost, this]; omega
  | take hpc hq => refine ⟨?_, rfl⟩; simp only [workLeft, hpc, hq, List.length_cons]; split <;> simp only [pcCost] <;> omega
  | buffer hpc hq =>
    refine ⟨?_, rfl⟩; simp only [workLeft, hpc, hq, List.length_cons]; split <;> [split; skip] <;> simp only [pcCost] <;> omega
  | bufferTimeout hpc => refine ⟨?_, rfl⟩; simp only [workLeft, hpc]; split <;> simp only [pcCost] <;> omega
  | diff hpc hd => refine ⟨?_, rfl⟩; simp only [workLeft, hpc]; split <;> simp only [pcCost] <;> omega
  | takeFlush hpc hq =>
    refine ⟨?_, rfl⟩
    obtain ⟨f, hf⟩ : ∃ f, s.flushQueue = f + 1 := ⟨s.flushQueue - 1, by omega⟩
    simp only [workLeft, hpc, hf, Nat.add_sub_cancel, Nat.mul_add]
    split <;> simp only [pcCost] <;> omega
  | drain hpc hq =>
    refine ⟨?_, rfl⟩
    obtain ⟨f, hf⟩ : ∃ f, s.flushQueue = f + 1 := ⟨s.flushQueue - 1, by omega⟩
    simp only [workLeft, hpc, hf, Nat.add_sub_cancel, Nat.mul_add]
    split <;> [split; skip] <;> simp only [pcCost] <;> omega
  | drainTimeout hpc => refine ⟨?_, rfl⟩; simp only [workLeft, hpc]; split <;> simp only [pcCost] <;> omega
  | @page i queue cont res nonce hpc hl =>
    refine ⟨?_, rfl⟩
    rw [hpc] at ht hq
    obtain ⟨off, ht⟩ := ht
    obtain ⟨es, cont', g1, g2⟩ := flush_page (hok i (hq i (by simp))) ht cfg.flushBatchSize nonce
    rw [g1] at hl
    simp only [Res.ok.injEq] at hl
    subst hl
    have key : pagesLeft (fun i => (ks i).length) (if cont' = "" then queue else i :: queue) (tokOff cont') <
        pagesLeft (fun i => (ks i).length) (i :: queue) (tokOff cont) := by
      rw [tokOff_eq ht]
      rcases g2 with ⟨rfl, _⟩ | ⟨g2, g3, g4, g5, _⟩
      · simp only [if_true, show tokOff "" = 0 from rfl, pagesLeft]; omega
      · rw [if_neg g2, tokOff_eq g5]; simp only [pagesLeft]; omega
    simp only [workLeft, hpc]
    split <;> simp only [pcCost] <;> omega

theorem diffBatch_ne_err : ∀ (us : List RecordUpdate) (e : String), diffBatch us ≠ .err e
  | [], e, h => by simp [diffBatch] at h
  | u :: us, e, h => by
    simp only [diffBatch] at h
    have h1 : ∀ e, diffRecord u ≠ .err e := by
      intro e h
      unfold diffRecord at h
      repeat' split at h
      all_goals simp at h
    have h2 := diffBatch_ne_err us
    cases hd : diffRecord u with
    | err e => exact h1 e hd
    | panic m => simp [hd, Res.bind] at h
    | ok d =>
      cases hb : diffBatch us with
      | err e => exact h2 e hb
      | panic m => simp [hd, hb, Res.bind, Res.map] at h
      | ok rs => simp [hd, hb, Res.bind, Res.map] at h

theorem run_trans {cfg : MgrConfig} {s s' s'' : Mgr} {a b : List MgrEv} (h1 : Mgr.Run cfg s a s') (h2 : Mgr.Run cfg s' b s'') :
    Mgr.Run cfg s (a ++ b) s'' := by
  induction h2 with
  | nil => simpa using h1
  | snoc _ hs ih => rw [← List.append_assoc]; exact .snoc ih hs

/-- C39: left alone (no publications, no flush messages, no store calls, no cancellation), the manager takes at most `workLeft` steps,
whatever the schedule. -/
theorem C39_bounded {cfg : MgrConfig} {m : Nat → AMap (GoRec GoTime)} {ks : Nat → List String} {s s' : Mgr} {evs : List MgrEv}
    (hok : ∀ i < cfg.numStores, StoreOK (s.stores i) (m i) (ks i)) (ht : PcTok s.pc) (hq : PcQueue cfg.numStores s.pc)
    (hr : Mgr.Run cfg s evs s') (hev : ∀ ev ∈ evs, Internal ev) :
    evs.length + workLeft cfg.numStores (fun i => (ks i).length) s' ≤ workLeft cfg.numStores (fun i => (ks i).length) s ∧
    PcTok s'.pc ∧ PcQueue cfg.numStores s'.pc ∧ s'.stores = s.stores ∧ s'.cancelled = s.cancelled := by
  induction hr with
  | nil => exact ⟨by simp, ht, hq, rfl, rfl⟩
  | @snoc s' s'' evs ev hr hs ih =>
    obtain ⟨i1, i2, i3, i4, i5⟩ := ih (fun e he => hev e (List.mem_append_left _ he))
    have hi : Internal ev := hev ev (by simp)
    obtain ⟨j1, j2⟩ := workLeft_step (by rw [i4]; exact hok) i2 i3 hs hi
    obtain ⟨k1, k2⟩ := pcTok_step (by rw [i4]; exact hok) i2 i3 hs
    refine ⟨by simp only [List.length_append, List.length_singleton]; omega, k1, k2, j2.trans i4, ?_⟩
    rw [← i5]
    cases hs <;> first | rfl | exact hi.elim

/-- C39: a manager of which no goroutine has stopped or crashed and which can take no step of its own is waiting for work, with nothing queued. -/
theorem C39_quiescent {cfg : MgrConfig} {m : Nat → AMap (GoRec GoTime)} {ks : Nat → List String} {s : Mgr}
    (hok : ∀ i < cfg.numStores, StoreOK (s.stores i) (m i) (ks i)) (ht : PcTok s.pc) (hq : PcQueue cfg.numStores s.pc)
    (hpc : s.pc ≠ .stopped ∧ s.pc ≠ .crashed ∧ s.snd ≠ .done) (hno : ∀ ev s', Internal ev → ¬ Mgr.Step cfg s ev s') :
    s.pc = .idle ∧ s.flushQueue = 0 ∧ s.changeQueue = [] ∧ s.sendQueue = [] := by
  have hsend : s.sendQueue = [] := by
    cases hsq : s.sendQueue with
    | nil => rfl
    | cons r rest =>
      exfalso
      cases hb : s.snd with
      | waiting => exact hno _ _ (by trivial) (.takeMsg hb (by rw [hsq]; simp))
      | done => exact hpc.2.2 hb
      | busy =>
        cases he : RecordMsg.encode vanRegistry { records := r } with
        | ok msg => exact hno _ _ (by trivial) (.send hsq he hb)
        | err e => exact hno _ _ (by trivial) (.skip hsq he hb)
        | panic e => exact hno _ _ (by trivial) (.sendPanic hsq he hb)
  have hcap : s.SendRoom := by unfold Mgr.SendRoom sendQueueCap; rw [hsend, List.length_nil]; omega
  cases hp : s.pc with
  | idle =>
    refine ⟨rfl, ?_, ?_, hsend⟩
    · by_contra h; exact hno _ _ (by trivial) (.takeFlush hp (by omega))
    · cases hc : s.changeQueue with
      | nil => rfl
      | cons u rest => exact absurd (.take hp hc) (hno _ _ (by trivial))
  | buffering buf => exact absurd (.bufferTimeout hp) (hno _ _ (by trivial))
  | batch buf =>
    cases hd : diffBatch buf with
    | ok msg => exact absurd (.diff hp hd) (hno _ _ (by trivial))
    | err e => exact absurd hd (diffBatch_ne_err buf e)
    | panic e => exact absurd (.diffPanic hp hd) (hno _ _ (by trivial))
  | sendUpdate msg => exact absurd (.queueUpdate hp hcap) (hno _ _ (by trivial))
  | draining n => exact absurd (.drainTimeout hp) (hno _ _ (by trivial))
  | flushStart => exact absurd (.flushBegin hp) (hno _ _ (by trivial))
  | flushing q cont =>
    cases q with
    | nil => exact absurd (.flushEnd hp) (hno _ _ (by trivial))
    | cons i q =>
      rw [hp] at ht hq
      obtain ⟨off, ht⟩ := ht
      obtain ⟨es, cont', g1, _⟩ := flush_page (hok i (hq i (by simp))) ht cfg.flushBatchSize 0
      exact absurd (.page 0 hp g1) (hno _ _ (by trivial))
  | sendFlush q cont msg => exact absurd (.queueFlush hp hcap) (hno _ _ (by trivial))
  | stopped => exact absurd hp hpc.1
  | crashed => exact absurd hp hpc.2.1

/-- C39: a running manager whose stores are in good order and which is then left alone comes to rest, whatever the schedule, unless it panics;
by then every flush message received has been answered by a whole flush. -/
theorem C39_flush_served {cfg : MgrConfig} {m : Nat → AMap (GoRec GoTime)} {ks : Nat → List String} {s0 s s' : Mgr} {evs quiet : List MgrEv}
    (h : Mgr.Run cfg s0 evs s) (hok : ∀ i < cfg.numStores, StoreOK (s.stores i) (m i) (ks i)) (ht : PcTok s.pc)
    (hq : PcQueue cfg.numStores s.pc) (hr : Mgr.Run cfg s quiet s') (hquiet : ∀ ev ∈ quiet, Internal ev) :
    quiet.length ≤ workLeft cfg.numStores (fun i => (ks i).length) s ∧
    ((∀ ev s'', Internal ev → ¬ Mgr.Step cfg s' ev s'') → s'.pc ≠ .stopped ∧ s'.pc ≠ .crashed ∧ s'.snd ≠ .done →
      ∀ pre post, evs ++ quiet = pre ++ .flushReceived :: post → ∃ a b c, post = a ++ .flushBegin :: b ++ .flushEnd :: c) := by
  obtain ⟨h1, h2, h3, h4, h5⟩ := C39_bounded hok ht hq hr hquiet
  refine ⟨by omega, fun hno hpc pre post heq => ?_⟩
  obtain ⟨q1, q2, _, _⟩ := C39_quiescent (by rw [h4]; exact hok) h2 h3 hpc hno
  exact C39_flush_not_lost (run_trans h hr) q1 q2 heq

/-- Instance of C39: flush messages arrive while the manager is already coming to a flush; all conditions of `C39_flush_served` hold after them. -/
example : ∃ s, Mgr.Run exFlushCfg exFlushMgr [.flushReceived, .flushReceived] s ∧ s.flushQueue = 2 ∧
    (∀ i < exFlushCfg.numStores, StoreOK (s.stores i) (content vanOps exCfg threeHosts) ["a", "b", "c"]) ∧ PcTok s.pc ∧
    PcQueue exFlushCfg.numStores s.pc :=
  ⟨_, .snoc (.snoc .nil .flushReceived) .flushReceived, rfl, fun _ _ => threeHosts_ok, trivial, trivial⟩

end Verif.Props
