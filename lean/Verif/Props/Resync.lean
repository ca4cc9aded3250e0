import Verif.Props.FlushWrites
import Verif.Props.Progress

/-! # C104: a collector that joins late and asks for a flush -/
namespace Verif.Props
open Verif Verif.Model Verif.Spec Verif.Proofs

theorem mgr_split {cfg : MgrConfig} {s s' : Mgr} {evs : List MgrEv} (h : Mgr.Run cfg s evs s') : ∀ a b, evs = a ++ b → ∃ m, Mgr.Run cfg s a m ∧ Mgr.Run cfg m b s' := by
  induction h with
  | nil =>
    intro a b e
    obtain ⟨rfl, rfl⟩ := List.append_eq_nil_iff.1 e.symm
    exact ⟨_, .nil, .nil⟩
  | @snoc s' s'' evs ev hr hs ih =>
    intro a b e
    rcases List.eq_nil_or_concat b with rfl | ⟨b', x, rfl⟩
    · rw [List.append_nil] at e
      subst e
      exact ⟨_, hr.snoc hs, .nil⟩
    · rw [List.concat_eq_append, ← List.append_assoc] at e
      obtain ⟨h1, h2⟩ := List.append_inj' e rfl
      obtain rfl := List.singleton_inj.1 h2
      obtain ⟨m, g1, g2⟩ := ih a b' h1
      exact ⟨m, g1, by rw [List.concat_eq_append]; exact g2.snoc hs⟩

theorem mgr_head {cfg : MgrConfig} {s s' : Mgr} {ev : MgrEv} {evs : List MgrEv} (h : Mgr.Run cfg s (ev :: evs) s') : ∃ m, Mgr.Step cfg s ev m ∧ Mgr.Run cfg m evs s' := by
  obtain ⟨m, h1, h2⟩ := mgr_split h [ev] evs rfl
  generalize he : [ev] = l at h1
  cases h1 with
  | nil => cases he
  | snoc h3 h4 =>
    obtain ⟨h5, h6⟩ := List.append_inj' (show [] ++ [ev] = _ from he) rfl
    obtain rfl := List.singleton_inj.1 h6
    subst h5
    generalize he' : ([] : List MgrEv) = l' at h3
    cases h3 with
    | nil => exact ⟨_, h4, h2⟩
    | snoc => simp at he'

theorem src_split {cfg : MgrConfig} {id : String} {tm : TypeMeta} {s s' : Src} {evs : List MgrEv} (h : Src.Run cfg id tm s evs s') :
    ∀ a e b, evs = a ++ e :: b → ∃ m m', Src.Run cfg id tm s a m ∧ Src.Step cfg id tm m (some e) m' ∧ Src.Run cfg id tm m' b s' := by
  induction h with
  | nil => intro a e b h; simp at h
  | @snoc s' s'' evs ev hr hs ih =>
    intro a e b h
    cases ev with
    | none =>
      simp only [Option.toList_none, List.append_nil] at h
      obtain ⟨m, m', g1, g2, g3⟩ := ih a e b h
      exact ⟨m, m', g1, g2, by simpa using g3.snoc hs⟩
    | some ev =>
      simp only [Option.toList_some] at h
      rcases List.eq_nil_or_concat b with rfl | ⟨b', x, rfl⟩
      · obtain ⟨h1, h2⟩ := List.append_inj' h rfl
        obtain rfl := List.singleton_inj.1 h2
        subst h1
        exact ⟨_, _, hr, hs, .nil⟩
      · rw [List.concat_eq_append, ← List.cons_append, ← List.append_assoc] at h
        obtain ⟨h1, h2⟩ := List.append_inj' h rfl
        obtain rfl := List.singleton_inj.1 h2
        obtain ⟨m, m', g1, g2, g3⟩ := ih a e b' h1
        exact ⟨m, m', g1, g2, by rw [List.concat_eq_append]; exact g3.snoc hs⟩

theorem stores_run {cfg : MgrConfig} {s s' : Mgr} {evs : List MgrEv} (hr : Mgr.Run cfg s evs s') {i : Nat} {c : CacheConfig (GoRec GoTime)} {h : List (Op (GoRec GoTime))}
    (hst : s.stores i = after vanOps c h) : s'.stores i = after vanOps c (h ++ opsOn i evs) := by
  induction hr with
  | nil => simpa [opsOn] using hst
  | @snoc s' s'' evs ev hr hs ih =>
    have same : s''.stores i = s'.stores i → opsOn i [ev] = [] → s''.stores i = after vanOps c (h ++ opsOn i (evs ++ [ev])) := by
      intro h1 h2; rw [h1, ih, opsOn_append, h2, List.append_nil]
    cases hs with
    | storeOp j op =>
      by_cases hj : j = i
      · subst hj
        simp only [if_true, ih, opsOn_append, ← List.append_assoc]
        rw [after_step]
        simp [opsOn]
      · refine same ?_ ?_
        · simp only; rw [if_neg (Ne.symm hj)]
        · simp [opsOn, hj]
    | _ => exact same rfl rfl

theorem stays_drop {c : CacheConfig (GoRec GoTime)} {h : List (Op (GoRec GoTime))} {i : Nat} {k : String} {P : Entry (GoRec GoTime) → Prop} {a b : List MgrEv} (hs : Stays c h i k P (a ++ b)) :
    Stays c (h ++ opsOn i a) i k P b := by
  have e : ∀ p, h ++ opsOn i a ++ opsOn i p = h ++ opsOn i (a ++ p) := fun p => by rw [opsOn_append, List.append_assoc]
  have hp : ∀ {p}, p <+: b → a ++ p <+: a ++ b := fun hp => (List.prefix_append_right_inj a).2 hp
  refine ⟨hs.config, hs.coherent, by rw [e]; exact hs.calls, fun p h => by rw [e]; exact hs.here _ (hp h), fun p ev h => ?_, fun p h => by rw [e]; exact hs.small _ (hp h)⟩
  rw [e, e, ← List.append_assoc]
  exact hs.before _ ev (by rw [List.append_assoc]; exact hp h)

theorem stays_take {c : CacheConfig (GoRec GoTime)} {h : List (Op (GoRec GoTime))} {i : Nat} {k : String} {P : Entry (GoRec GoTime) → Prop} {a b : List MgrEv} (hs : Stays c h i k P (a ++ b)) :
    Stays c h i k P a := by
  have hp : ∀ {p}, p <+: a → p <+: a ++ b := fun hp => hp.trans (List.prefix_append _ _)
  refine ⟨hs.config, hs.coherent, fun op h => hs.calls op ?_, fun p h => hs.here _ (hp h), fun p ev h => hs.before _ ev (hp h), fun p h => hs.small _ (hp h)⟩
  rw [opsOn_append, ← List.append_assoc]
  exact List.mem_append_left _ h

/-- A flush request is answered by a message with the entry. -/
theorem requested {cfg : MgrConfig} {s s' : Mgr} {pre post : List MgrEv} (hr : Mgr.Run cfg s (pre ++ .flushReceived :: post) s') (hpc : s'.pc = .idle) (hq : s'.flushQueue = 0) {i : Nat}
    (hi : i < cfg.numStores) {c : CacheConfig (GoRec GoTime)} {h : List (Op (GoRec GoTime))} (hst : s.stores i = after vanOps c h) {k : String} {P : Entry (GoRec GoTime) → Prop}
    (hk : Stays c (h ++ opsOn i pre) i k P post) : ∃ a msg b e, post = a ++ .queueFlush msg :: b ∧ P e ∧ e.record ∈ msg := by
  obtain ⟨a, b, d, hpost⟩ := C39_flush_not_lost hr hpc hq rfl
  obtain ⟨mid, d', hmid, hno⟩ := List.eq_append_cons_of_mem (show MgrEv.flushEnd ∈ b ++ .flushEnd :: d by simp)
  rw [List.append_assoc, List.cons_append, hmid] at hpost
  subst hpost
  obtain ⟨m1, h1, h2⟩ := mgr_split hr (pre ++ .flushReceived :: a) (.flushBegin :: (mid ++ .flushEnd :: d')) (by simp)
  obtain ⟨m2, h3, h4⟩ := mgr_head h2
  obtain ⟨m3, h5, h6⟩ := mgr_split h4 mid _ rfl
  obtain ⟨m4, h7, _⟩ := mgr_head h6
  have hst1 := stores_run h1 hst
  have e0 : ∀ l, opsOn i (.flushReceived :: l) = opsOn i l := fun l => rfl
  have e1 : ∀ l, opsOn i (.flushBegin :: l) = opsOn i l := fun l => rfl
  rw [opsOn_append, e0, ← List.append_assoc] at hst1
  have hk1 := stays_drop (a := a ++ [.flushBegin]) (b := mid ++ .flushEnd :: d') (by simpa using hk)
  rw [opsOn_append, show opsOn i [.flushBegin] = [] from rfl, List.append_nil] at hk1
  obtain ⟨msg, g1, p, e, g2, g3, g4, g5⟩ := C103_flush_writes_partial h3 h5 h7 hno hi hst1 (stays_take hk1)
  have : MgrEv.queueFlush msg ∈ mid := by
    simp only [flushMsgs, List.mem_filterMap] at g1
    obtain ⟨ev, h1, h2⟩ := g1
    cases ev with
    | queueFlush m => simp only [Option.some.injEq] at h2; subst h2; exact h1
    | _ => simp at h2
  obtain ⟨x, y, rfl⟩ := List.append_of_mem this
  exact ⟨a ++ .flushBegin :: x, msg, y ++ .flushEnd :: d', e, by simp, g4, g5⟩

/-- What a collector has that joined, when the record was in a flush message put in the queue before or after. -/
theorem resync_at {k : SysCfg} {n0 : List MockEv} {c0 : List ClEv} {s0 s : Sys} {evs : SysEv} (h0 : Sys.Join k n0 c0 s0) (hr : Sys.Run k s0 evs s) (hstill : s.Still k)
    (hopen : MockEv.closeReceiver k.rcv ∉ n0 ++ evs.n) (hcr : s.cl.crashed = false)
    {s00 s1 : Src} {hist b : List MgrEv} {msg : List (GoRec GoTime)} {m1 : Mgr} {mid : List Msg} (hstart : Src.Start k.mgr k.id k.tm s00) (hrun1 : Src.Run k.mgr k.id k.tm s00 hist s1)
    (hq : Mgr.Step k.mgr s1.mgr (.queueFlush msg) m1) (hin : ∃ r ∈ msg, Mine k.id k.tm r) (g3 : Src.Run k.mgr k.id k.tm { s1 with mgr := m1 } b s.src) (hl : Lossless b)
    (hmid : ∀ m ∈ mid, m ∈ sentMsgs hist) (hmsgs : mid ++ sentMsgs b = sentMsgs evs.m) {v : GoRec GoTime} (hv : s.src.versions.getLast? = some v)
    {cs1 cs2 : List RegCmd} {ref : SourceRef} {i : Nat} {cfg : Nat → CacheConfig (GoRec GoTime)} {h : Nat → List (Op (GoRec GoTime))}
    (hc : Collects k cs1 cs2 ref i cfg h s0.stores)
    (hstale : ∀ e, content vanOps (cfg i) (h i) k.id = some e → OfKind k.id k.tm e.record ∧ Encodable e.record) :
    ∃ h' e, s.stores i = after vanOps (cfg i) h' ∧ content vanOps (cfg i) h' k.id = some e ∧ OfKind k.id k.tm e.record ∧
      ∀ x y, attrOf v x = some y → attrOf e.record x = some y := by
  obtain ⟨clock, hcol⟩ := (C100_delivered h0 hr hstill hopen).2 hcr (C100_no_panic h0 hr hc).1
  have hmgr1 := Proofs.Src.Run.toMgr hrun1
  have hgood := queued_good hstart hrun1
  have hq1 := (C37_updates_in_order hstart.1 hmgr1).2.2
  obtain ⟨rss, k1, k2⟩ := pointwise_of_all (bs := mid) (P := fun rs => ∀ r ∈ rs, GoodRecord vanRegistry r)
    (R := fun rs m => RecordMsg.encode vanRegistry { records := rs } = .ok m) fun m hm => by
      obtain ⟨rs, h1, h2⟩ := sent_encoded hmgr1 (hmid m hm)
      exact ⟨rs, fun r hr => hgood r (List.mem_flatten.2 ⟨rs, by rw [hq1]; exact List.mem_append_left _ h1, hr⟩), h2⟩
  obtain ⟨d, hd, _, h', e', q⟩ := resync_core hstart hrun1 hq hin g3 hstill.1 hl hv cs1 cs2 ref hc.plain hc.only cfg hc.key hc.good h hc.hist hstale clock k1 k2
  rw [hc.disp] at hd
  obtain rfl := Option.some.inj hd
  rw [hmsgs, ← hc.world, ← hc.stores, hcol] at q
  exact ⟨h', e', q⟩

/-- **C104.** A source has done anything; a collector joins — its stores have no entry of the record, or a stale one — and then, at some time, a flush message arrives at the manager.
From there on the record stays in one of the manager's stores, no key before it goes away, and no message is lost on the side of the manager.  However source, manager, router and
collector interleave: once everything is published, sent, received and handled, the collector's store has an entry of the record with every attribute of its last version. -/
theorem C104_resync {k : SysCfg} {n0 : List MockEv} {c0 : List ClEv} {s0 s : Sys} {evs : SysEv} (h0 : Sys.Join k n0 c0 s0) (hr : Sys.Run k s0 evs s) (hstill : s.Still k)
    (hfq : s.src.mgr.flushQueue = 0) (hopen : MockEv.closeReceiver k.rcv ∉ n0 ++ evs.n) (hcr : s.cl.crashed = false)
    {pre post : List MgrEv} (hev : evs.m = pre ++ .flushReceived :: post) (hl : Lossless post)
    {j : Nat} (hj : j < k.mgr.numStores) {c : CacheConfig (GoRec GoTime)} {hj0 : List (Op (GoRec GoTime))} (hst : s0.src.mgr.stores j = after vanOps c hj0) {key : String}
    (hstay : Stays c (hj0 ++ opsOn j pre) j key (fun e => Mine k.id k.tm e.record) post) {v : GoRec GoTime} (hv : s.src.versions.getLast? = some v)
    {cs1 cs2 : List RegCmd} {ref : SourceRef} {i : Nat} {cfg : Nat → CacheConfig (GoRec GoTime)} {h : Nat → List (Op (GoRec GoTime))}
    (hc : Collects k cs1 cs2 ref i cfg h s0.stores)
    (hstale : ∀ e, content vanOps (cfg i) (h i) k.id = some e → OfKind k.id k.tm e.record ∧ Encodable e.record) :
    ∃ h' e, s.stores i = after vanOps (cfg i) h' ∧ content vanOps (cfg i) h' k.id = some e ∧ OfKind k.id k.tm e.record ∧
      ∀ x y, attrOf v x = some y → attrOf e.record x = some y := by
  obtain ⟨s00, evs0, hstart, hrun0⟩ := h0.src
  have hsrc := sys_src hr
  rw [hev] at hsrc
  obtain ⟨a, msg, b, e, rfl, hmine, hin⟩ := requested (Proofs.Src.Run.toMgr hsrc) hstill.1.2.1 hfq hj hst hstay
  obtain ⟨s1, s1', g1, g2, g3⟩ := src_split hsrc (pre ++ .flushReceived :: a) (.queueFlush msg) b (by simp)
  obtain ⟨m1, hq, hs1'⟩ : ∃ m1, Mgr.Step k.mgr s1.mgr (.queueFlush msg) m1 ∧ s1' = { s1 with mgr := m1 } := by
    cases g2 with
    | mgr _ _ h => exact ⟨_, h, rfl⟩
  rw [hs1'] at g3
  refine resync_at h0 hr hstill hopen hcr hstart (src_trans hrun0 g1) hq ⟨_, hin, hmine⟩ g3
    (fun rs => ⟨fun h => (hl rs).1 (by simp [h]), fun h => (hl rs).2.1 (by simp [h]), fun h => (hl rs).2.2 (by simp [h])⟩)
    (mid := sentMsgs (pre ++ .flushReceived :: a)) (fun m hm => by rw [sentMsgs_append]; exact List.mem_append_right _ hm) ?_ hv hc hstale
  rw [hev, show pre ++ MgrEv.flushReceived :: (a ++ .queueFlush msg :: b) = (pre ++ .flushReceived :: a) ++ .queueFlush msg :: b by simp, sentMsgs_append _ (.queueFlush msg :: b)]
  rfl

/-- **C104 (everything arrives).** The same when the goroutines on the way are left alone until they can move no more (which they reach after a bounded number of moves, `C102_bounded`). -/
theorem C104_arrives {k : SysCfg} {n0 : List MockEv} {c0 : List ClEv} {s0 s s' : Sys} {evs evs' : SysEv} {n : Nat} (h0 : Sys.Join k n0 c0 s0) (hr : Sys.Run k s0 evs s)
    {m : Nat → AMap (GoRec GoTime)} {ks : Nat → List String} (hok : ∀ i < k.mgr.numStores, StoreOK (s.src.mgr.stores i) (m i) (ks i)) (ht : PcTok s.src.mgr.pc)
    (hp : s.src.pub = s.src.versions.length) (hf : s.Free k) (hcan : s.src.mgr.cancelled = false) (hopen : MockEv.closeReceiver k.rcv ∉ n0 ++ evs.n)
    {cs1 cs2 : List RegCmd} {ref : SourceRef} {i : Nat} {cfg : Nat → CacheConfig (GoRec GoTime)} {h : Nat → List (Op (GoRec GoTime))}
    (hc : Collects k cs1 cs2 ref i cfg h s0.stores)
    (hstale : ∀ e, content vanOps (cfg i) (h i) k.id = some e → OfKind k.id k.tm e.record ∧ Encodable e.record)
    (ho : Sys.OwnRun k s n evs' s') (hrest : s'.Rest k)
    (hroom : ∀ (r : Nat) (x : MRcv), s'.mock.rcvs[r]? = some x → x.addr = k.addr → r ≠ k.rcv → x.chan.length < x.cap)
    (hup : s'.src.mgr.pc ≠ .crashed) {pre post : List MgrEv} (hev : evs.m = pre ++ .flushReceived :: post) (hl : Lossless (post ++ evs'.m))
    {j : Nat} (hj : j < k.mgr.numStores) {c : CacheConfig (GoRec GoTime)} {hj0 : List (Op (GoRec GoTime))} (hst : s0.src.mgr.stores j = after vanOps c hj0) {key : String}
    (hstay : Stays c (hj0 ++ opsOn j pre) j key (fun e => Mine k.id k.tm e.record) (post ++ evs'.m)) {v : GoRec GoTime} (hv : s.src.versions.getLast? = some v) :
    ∃ h' e, s'.stores i = after vanOps (cfg i) h' ∧ content vanOps (cfg i) h' k.id = some e ∧ OfKind k.id k.tm e.record ∧
      ∀ x y, attrOf v x = some y → attrOf e.record x = some y := by
  obtain ⟨hstill, hfq, hopen', hcr, hvs⟩ := rest_still h0 hr hok ht hp hf hcan hopen hc ho hrest hroom hup
  exact C104_resync h0 (sys_trans hr (ownRun_run ho)) hstill hfq hopen' hcr (pre := pre) (post := post ++ evs'.m) (by simp [hev]) hl hj hst hstay (by rw [hvs]; exact hv) hc hstale

/-! ## An instance -/

/-- As `sysCfg`, but the manager has a store. -/
def lateCfg : SysCfg := { sysCfg with mgr := { numStores := 1 } }

/-- The one host is stored and published; its message could not be sent. -/
def lateSrc : Src := { mgr := { stores := exHeldStores }, versions := [hostRec "h1" "x"], pub := 1 }

def late0 : Sys := { src := lateSrc, mock := sysMock, cl := sysClient, stores := fun _ => after vanOps exCfg [] }

theorem late_src : ∃ s1 evs1, Src.Start lateCfg.mgr lateCfg.id lateCfg.tm s1 ∧ Src.Run lateCfg.mgr lateCfg.id lateCfg.tm s1 evs1 lateSrc := by
  have z : StoresHold 1 "h1" ⟨"flow/v1", "HostRecord"⟩ (some (hostRec "h1" "x")) exHeldStores := by
    intro i hi e he
    obtain rfl : i = 0 := by omega
    obtain ⟨res, h1, h2⟩ := he
    have h3 : ((after vanOps exCfg []).step vanOps (.accumulate exSrc (hostRec "h1" "x") t0)).1.list none 0 =
      .ok { entries := [{ record := hostRec "h1" "x", md := { source := exSrc, updatedAt := t0, annotations := [] }, typeMeta := ⟨"flow/v1", "HostRecord"⟩ }], cont := "" } := rfl
    have h1 := h3.symm.trans h1
    simp only [Res.ok.injEq] at h1
    subst h1
    simp only [List.mem_singleton] at h2
    subst h2
    exact ⟨hostRec_good _ _, fun _ => rfl⟩
  have r1 := Src.Run.nil (cfg := { numStores := 1 }) (id := "h1") (tm := ⟨"flow/v1", "HostRecord"⟩) (s := { mgr := { stores := fun _ => after vanOps exCfg [] } })
  have r2 := r1.snoc (.write (.storeOp 0 (.accumulate exSrc (hostRec "h1" "x") t0)) (r := hostRec "h1" "x") ⟨hostRec_good _ _, rfl, rfl⟩ rfl z)
  have r3 := r2.snoc (.publish rfl (.publish { curr := hostRec "h1" "x" } (by simp [changeQueueCap])))
  have r4 := r3.snoc (.mgr (by simp) (by simp) (.take rfl rfl))
  have r5 := r4.snoc (.mgr (by simp) (by simp) (.diff rfl rfl))
  have r6 := r5.snoc (.mgr (by simp) (by simp) (.queueUpdate rfl (by simp [Mgr.SendRoom, sendQueueCap])))
  have r7t := r6.snoc (.mgr (by simp) (by simp) (.takeMsg rfl (List.cons_ne_nil _ _)))
  have r7 := r7t.snoc (.mgr (by simp) (by simp) (.sendFail rfl rfl rfl))
  refine ⟨_, _, ⟨⟨rfl, rfl, rfl, rfl, rfl, rfl⟩, rfl, rfl, ?_⟩, r7⟩
  intro i _ e he
  obtain ⟨res, h1, h2⟩ := he
  have h3 : (after vanOps exCfg []).list none 0 = .ok { entries := [], cont := "" } := rfl
  have h1 := h3.symm.trans h1
  simp only [Res.ok.injEq] at h1
  subst h1
  simp at h2

theorem late0_join : Sys.Join lateCfg [.newReceiver 0 "mc/sfe.c1", .step 0, .subscribed 0, .newSender 0 "mc/sfe.c1"] [.onRecord 3, .onRecord 7, .listen, .tau] late0 :=
  ⟨late_src, sys_mock0, by decide, by decide, rfl, by intro o i m; simp, sys_cl0, ⟨{ pc := .receiving }, rfl, Or.inr (Or.inl rfl)⟩, by decide, (by intro o h; cases h), rfl⟩

theorem late0_collects : Collects lateCfg hostReg [] exSrc 0 (fun _ => exCfg) (fun _ => []) late0.stores :=
  ⟨hostReg_plain, hostReg_only, rfl, sysCfg_disp, fun _ => rfl, fun _ => exCfg_good, by simp, rfl⟩

/-- What is called on the store of the source. -/
def lateOps : List (Op (GoRec GoTime)) := [.accumulate exSrc (hostRec "h1" "x") t0]

theorem late_sorted : SortedKeys (content vanOps exCfg lateOps) (fun _ => True) 0 ["h1"] := by
  refine ⟨List.pairwise_singleton _ _, ?_⟩
  intro k
  have hcon : content vanOps exCfg lateOps k = (if k = "h1" then some { record := hostRec "h1" "x", md := { source := exSrc, updatedAt := t0, annotations := [] }, typeMeta := ⟨"flow/v1", "HostRecord"⟩ } else none) := rfl
  rw [hcon]
  by_cases h : k = "h1" <;> simp [h]

theorem late_stays {evs : List MgrEv} (h : opsOn 0 evs = []) : Stays exCfg lateOps 0 "h1" (fun e => Mine "h1" ⟨"flow/v1", "HostRecord"⟩ e.record) evs := by
  have two : ∀ p, p <+: evs → lateOps ++ opsOn 0 p = lateOps := by
    rintro p ⟨q, rfl⟩
    rw [opsOn_append] at h
    rw [(List.append_eq_nil_iff.1 h).1, List.append_nil]
  refine ⟨exCfg_good, van_coherent, ?_, ?_, ?_, ?_⟩
  · rw [h, List.append_nil]
    intro op hop
    simp only [lateOps, List.mem_singleton] at hop
    subst hop
    exact hostRec_good _ _
  · intro p hp
    rw [two p hp]
    exact ⟨_, rfl, rfl, rfl⟩
  · intro p ev hp x _
    rw [two _ hp, two _ ((List.prefix_append p [ev]).trans hp)]
    exact id
  · intro p hp ks hks
    rw [two p hp] at hks
    rw [sortedKeys_unique hks late_sorted]
    decide

/-- Instance of C104: the message of a new host is lost; then a collector joins and a flush message arrives. -/
theorem late_example : ∃ evs s pre post, Sys.Run lateCfg late0 evs s ∧ s.Still lateCfg ∧ s.src.mgr.flushQueue = 0 ∧ MockEv.closeReceiver 0 ∉ evs.n ∧ s.cl.crashed = false ∧
    evs.m = pre ++ .flushReceived :: post ∧ Lossless post ∧ opsOn 0 pre = [] ∧ opsOn 0 post = [] ∧ s.src.versions = [hostRec "h1" "x"] := by
  have r0 : Sys.Run lateCfg late0 {} late0 := .nil
  have r1 := r0.snoc (.source (.mgr (by simp) (by simp) .flushReceived) (by simp) (by simp))
  have r2 := r1.snoc (.source (.mgr (by simp) (by simp) (.takeFlush rfl (by decide))) (by simp) (by simp))
  have r3 := r2.snoc (.source (.mgr (by simp) (by simp) (.flushBegin rfl)) (by simp) (by simp))
  have r4 := r3.snoc (.source (.mgr (by simp) (by simp) (.page 0 rfl rfl)) (by simp) (by simp))
  have r5 := r4.snoc (.source (.mgr (by simp) (by simp) (.queueFlush (msg := [hostRec "h1" "x"]) rfl (by decide))) (by simp) (by simp))
  have r5' := r5.snoc (.source (.mgr (by simp) (by simp) (.flushEnd rfl)) (by simp) (by simp))
  have r6t := r5'.snoc (.source (.mgr (by simp) (by simp) (.takeMsg rfl (List.cons_ne_nil _ _))) (by simp) (by simp))
  have r6 := r6t.snoc (.send (o := 0) rfl rfl rfl (.call (i := 0) (x := { addr := "mc/sfe.c1" }) 0 none rfl) rfl)
  have r7 := r6.snoc (.router (.startGo (o := 0) rfl rfl rfl rfl rfl) (by simp) (by simp) (by simp))
  have r8 := r7.snoc (.router (.get (o := 0) rfl rfl) (by simp) (by simp) (by simp))
  have r9 := r8.snoc (.router (.lock (o := 0) (mc := 0) rfl rfl rfl rfl (by decide)) (by simp) (by simp) (by simp))
  have r10 := r9.snoc (.router (.offer (o := 0) rfl rfl rfl rfl) (by simp) (by simp) (by simp))
  have r11 := r10.snoc (.router (.put (o := 0) rfl rfl rfl (by decide)) (by simp) (by simp) (by simp))
  have r12 := r11.snoc (.sent (o := 0) rfl (.finish rfl rfl) (.mgr (by simp) (by simp) (.send rfl rfl rfl)))
  have r13 := r12.snoc (.next (m := 0) rfl rfl (.recv (r := 0) rfl rfl rfl) rfl (.deliver (l := 0) _ rfl rfl))
  obtain ⟨rm, hrm⟩ := (C100_no_panic late0_join r13 late0_collects).2 _ (by simp [deliveredTo, lateCfg, sysCfg]; rfl)
  have r14 := r13.snoc (.client rfl rfl (.decoded (l := 0) rfl rfl hrm) (by simp) (by simp) (by simp) (by simp))
  have r15 := r14.snoc (.client rfl rfl (.fetch (l := 0) rfl rfl rfl) (by simp) (by simp) (by simp) (by simp))
  have r16 := r15.snoc (.client rfl rfl (.call (l := 0) (h := 3) rfl rfl) (by simp) (by simp) (by simp [lateCfg, sysCfg]) (by simp))
  cases hd : (lateCfg.world.dispatch vanOps lateCfg.disp (rm.records.zipIdx.map fun p => (p.1, (fun _ => t0) p.2)) (fun _ => after vanOps exCfg [])) with
  | mk st po =>
  cases po with
  | some p =>
    have := (C100_no_panic late0_join (r16.snoc (.dispatchPanic (fun _ => t0) rfl rfl (.call (l := 0) rfl rfl) hd)) late0_collects).1
    cases this
  | none =>
  have r17 := r16.snoc (.dispatch (fun _ => t0) rfl rfl (.call (l := 0) rfl rfl) hd)
  have r18 := r17.snoc (.client rfl rfl (.again (l := 0) rfl rfl) (by simp) (by simp) (by simp) (by simp))
  refine ⟨_, _, [], _, r18, ⟨⟨rfl, rfl, rfl, rfl⟩, rfl, ?_, _, rfl, rfl⟩, rfl, by simp, rfl, rfl, by intro rs; simp, rfl, rfl, rfl⟩
  intro x hx
  cases hx
  rfl

example : ∃ evs s, Sys.Run lateCfg late0 evs s ∧ ∃ h' e, s.stores 0 = after vanOps exCfg h' ∧ content vanOps exCfg h' "h1" = some e ∧
    attrOf e.record (.u32 30) = some (.str "x") := by
  obtain ⟨evs, s, pre, post, hr, hs, hq, ho, hc, hev, hl, hp, hp', hv⟩ := late_example
  obtain ⟨h', e, g1, g2, _, g3⟩ := C104_resync (j := 0) (c := exCfg) (hj0 := lateOps) late0_join hr hs hq (by simp [ho, lateCfg, sysCfg]) hc hev hl (by decide) rfl
    (by rw [hp, List.append_nil]; exact late_stays hp') (by rw [hv]; rfl) late0_collects (by intro e he; cases he)
  exact ⟨evs, s, hr, h', e, g1, g2, g3 _ _ rfl⟩

end Verif.Props
