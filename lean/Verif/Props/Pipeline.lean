import Verif.Proofs.Pipeline
import Verif.Props.Diff
import Mathlib.Data.List.Induction

/-!
# C36: the whole way of a record from its source to a collector
-/
namespace Verif.Props
open Verif Verif.Model Verif.Spec Verif.Proofs

theorem latest_some_of_mem {rs : List (GoRec GoTime)} {k : Any} (h : ∃ r ∈ rs, attrOf r k ≠ none) : latest rs k ≠ none := by
  have key : ∀ (rs : List (GoRec GoTime)) (x : Option Any), (x ≠ none ∨ ∃ r ∈ rs, attrOf r k ≠ none) → latestFrom x rs k ≠ none := by
    intro rs
    induction rs with
    | nil => intro x h; rcases h with h | ⟨r, hr, _⟩ <;> [exact h; simp at hr]
    | cons r rs ih =>
      intro x h
      refine ih ((attrOf r k).or x) ?_
      rcases h with h | ⟨w, hw, h⟩
      · left; cases attrOf r k <;> simp_all
      · rcases List.mem_cons.1 hw with rfl | hw
        · left; cases ha : attrOf w k <;> simp_all
        · exact Or.inr ⟨w, hw, h⟩
  exact key rs none (Or.inr h)

theorem attrOf_identity {id : String} {tm : TypeMeta} {r : GoRec GoTime} (h : OfKind id tm r) {a : Attrs} (ha : vanOps.encode r = .ok a) :
    attrOf r (.u32 1) ≠ none := by
  obtain ⟨_, _, _, _, _, h5, h6, _⟩ := GoodRecord.attrs h.1 ha
  rw [attrOf_ok ha, h6]; simp

/-- No version lacks an attribute that the version before it has. -/
def NeverCleared (vs : List (GoRec GoTime)) : Prop := ∀ a b, [a, b] <:+: vs → ∀ k, attrOf a k ≠ none → attrOf b k ≠ none

theorem latest_last {vs : List (GoRec GoTime)} (h : NeverCleared vs) {v : GoRec GoTime} (hv : vs.getLast? = some v) (k : Any) :
    latest vs k = attrOf v k := by
  induction vs using List.reverseRecOn generalizing v with
  | nil => simp at hv
  | append_singleton vs w ih =>
    simp only [List.getLast?_append, List.getLast?_singleton, Option.some_or, Option.some.injEq] at hv
    subst hv
    rw [latest_snoc]
    cases hw : attrOf w k with
    | some x => rfl
    | none =>
      simp only [Option.none_or]
      cases hl : vs.getLast? with
      | none =>
        rw [List.getLast?_eq_none_iff] at hl
        subst hl; rfl
      | some u =>
        rw [ih (fun a b hab => h a b (hab.trans (List.infix_append' [] _ _))) hl]
        by_contra hne
        obtain ⟨us, rfl⟩ : ∃ us, vs = us ++ [u] := by
          rcases List.eq_nil_or_concat vs with rfl | ⟨us, x, rfl⟩
          · simp at hl
          · rw [List.concat_eq_append] at hl ⊢
            simp at hl; subst hl; exact ⟨us, rfl⟩
        exact h u w ⟨us, [], by simp⟩ k hne hw

/-- C36, whatever the schedule: a source makes versions of a record, storing each before it publishes it, and publishes them in order, next
to anything it does with other records; the manager batches, flushes and sends as it likes.  Once all is published and sent and nothing was
lost, a collector that had no entry of that identity and accumulates the messages in order — the record's kind alone being registered for the
store — holds an entry of the record with the source of its dispatcher, in which every attribute has the value of the last version that has
one, and no other attribute; so if no version lacks an attribute that the version before it had, the entry has exactly the attributes of the last
version.  Missing for C36: an attribute cleared in a later version stays (`C36_counterexample`). -/
theorem C36_converges_partial {mcfg : MgrConfig} {id : String} {tm : TypeMeta} {s s' : Src} {evs : List MgrEv} (hstart : Src.Start mcfg id tm s)
    (hrun : Src.Run mcfg id tm s evs s') (hd : s'.Drained) (hl : Lossless evs) (hv : s'.versions ≠ [])
    (cs1 cs2 : List RegCmd) (src : SourceRef) (hreg : ∀ tm i, RegCmd.register tm i ∈ cs1 → PlainType tm) {i : Nat}
    (hi : ∀ tm', lastRegistered cs1 tm' = some i ↔ tm' = tm)
    (cfg : Nat → CacheConfig (GoRec GoTime)) (hkey : ∀ i, (cfg i).key = none) (hc : ∀ i, GoodConfig (cfg i))
    (h : Nat → List (Op (GoRec GoTime))) (hh : ∀ i, ∀ op ∈ h i, Op.All (GoodRecord vanRegistry) op)
    (hnone : content vanOps (cfg i) (h i) id = none) (clock : Nat → Nat → GoTime) :
    ∃ d, (runReg (cs1 ++ .newDispatcher src :: cs2) {}).2[(runReg cs1 {}).2.length]? = some d ∧
      let o := collect (runReg (cs1 ++ .newDispatcher src :: cs2) {}).1 d clock 0 (sentMsgs evs) (fun i => after vanOps (cfg i) (h i))
      o.2 = none ∧ ∃ h' e a, o.1 i = after vanOps (cfg i) h' ∧ content vanOps (cfg i) h' id = some e ∧ OfKind id tm e.record ∧
        e.md.source = src ∧ vanOps.encode e.record = .ok a ∧ (∀ k, a.get? k = latest s'.versions k) ∧
        (NeverCleared s'.versions → ∀ v, s'.versions.getLast? = some v → ∀ k, a.get? k = attrOf v k) := by
  obtain ⟨hval, hgood, hkind⟩ := src_drained hstart hrun hd
  have hmgr := Proofs.Src.Run.toMgr hrun
  have hq := (C37_updates_in_order hstart.1 hmgr).2.2
  rw [hd.2.2.2, List.append_nil] at hq
  have hpw := sent_handled hmgr hl
  rw [← hq] at hpw
  obtain ⟨d, hd1, h2, h', h3, h4⟩ := collector_result (id := id) cs1 cs2 src hreg hi cfg hkey hc h hh (S := src) (f0 := fun _ => none)
    (Or.inl ⟨rfl, by rw [← content_eq vanOps_lawful]; exact hnone, rfl, rfl⟩) clock hgood hpw
  have hne : ofMine id tm (queued evs).flatten ≠ [] := by
    intro hnil
    obtain ⟨v, vs, hvs⟩ : ∃ v vs, s'.versions = v :: vs := by
      cases hh : s'.versions with
      | nil => exact absurd hh hv
      | cons v vs => exact ⟨v, vs, rfl⟩
    obtain ⟨hk, a, ha⟩ := hkind v (by rw [hvs]; simp)
    have hne := latest_some_of_mem (rs := s'.versions) (k := .u32 1) ⟨v, by rw [hvs]; simp, attrOf_identity hk ha⟩
    rw [← hval, hnil] at hne
    exact hne rfl
  obtain ⟨e, a, g1, g2, g3, g5, g6⟩ := h4 hne
  have hlast : ∀ k, a.get? k = latest s'.versions k := fun k => by rw [← hval]; exact g6 k
  exact ⟨d, hd1, h2, h', e, a, h3, g1, g2, g3, g5, hlast, fun hn v hv k => by rw [hlast, latest_last hn hv]⟩

/-- A run for the examples: two versions of a host, both published; the second one is `r`. -/
def Versions (r : GoRec GoTime) (evs : List MgrEv) (s : Src) : Prop :=
  Src.Run {} "h1" ⟨"flow/v1", "HostRecord"⟩ { mgr := { stores := fun _ => after vanOps exCfg [] } } evs s ∧ s.Drained ∧ Lossless evs ∧
  s.versions = [hostRec "h1" "x", r]

/-- Registrations for the examples: one store for hosts. -/
def hostReg : List RegCmd := [.register ⟨"flow/v1", "HostRecord"⟩ 0]

theorem exStart : Src.Start {} "h1" ⟨"flow/v1", "HostRecord"⟩ { mgr := { stores := fun _ => after vanOps exCfg [] } } :=
  ⟨⟨rfl, rfl, rfl, rfl, rfl, rfl⟩, rfl, rfl, fun i hi => absurd hi (Nat.not_lt_zero i)⟩

theorem hostReg_only (tm' : TypeMeta) : lastRegistered hostReg tm' = some 0 ↔ tm' = ⟨"flow/v1", "HostRecord"⟩ := by
  unfold lastRegistered hostReg
  by_cases h : (⟨"flow/v1", "HostRecord"⟩ : TypeMeta) = tm'
  · subst h; simp
  · simp [h, Ne.symm h]

theorem hostReg_plain : ∀ tm i, RegCmd.register tm i ∈ hostReg → PlainType tm := by
  intro tm i h
  simp only [hostReg, List.mem_singleton, RegCmd.register.injEq] at h
  obtain ⟨rfl, _⟩ := h
  unfold PlainType; decide

/-- The host is renamed. -/
theorem versions_renamed : ∃ evs s, Versions (hostRec "h1" "y") evs s := by
  have z : ∀ r st, StoresHold 0 "h1" ⟨"flow/v1", "HostRecord"⟩ r st := fun _ _ i hi => absurd hi (Nat.not_lt_zero i)
  have r1 := Src.Run.nil (cfg := {}) (id := "h1") (tm := ⟨"flow/v1", "HostRecord"⟩) (s := { mgr := { stores := fun _ => after vanOps exCfg [] } })
  have r2 := r1.snoc (.mint (r := hostRec "h1" "x") ⟨hostRec_good _ _, rfl, rfl⟩ rfl (z _ _))
  have r3 := r2.snoc (.publish rfl (.publish { curr := hostRec "h1" "x" } (by decide)))
  have r4 := r3.snoc (.mint (r := hostRec "h1" "y") ⟨hostRec_good _ _, rfl, rfl⟩ rfl (z _ _))
  have r5 := r4.snoc (.publish rfl (.publish { prev := hostRec "h1" "x", curr := hostRec "h1" "y" } (by decide)))
  have r6 := r5.snoc (.mgr (by simp) (by simp) (.take rfl rfl))
  have r7 := r6.snoc (.mgr (by simp) (by simp) (.diff rfl rfl))
  have r8 := r7.snoc (.mgr (by simp) (by simp) (.queueUpdate rfl (by decide)))
  have r9 := r8.snoc (.mgr (by simp) (by simp) (.take rfl rfl))
  have r10 := r9.snoc (.mgr (by simp) (by simp) (.diff rfl rfl))
  have r11 := r10.snoc (.mgr (by simp) (by simp) (.queueUpdate rfl (by decide)))
  have r12t := r11.snoc (.mgr (by simp) (by simp) (.takeMsg rfl (List.cons_ne_nil _ _)))
  have r12 := r12t.snoc (.mgr (by simp) (by simp) (.send rfl rfl rfl))
  have r13t := r12.snoc (.mgr (by simp) (by simp) (.takeMsg rfl (List.cons_ne_nil _ _)))
  have r13 := r13t.snoc (.mgr (by simp) (by simp) (.send rfl rfl rfl))
  refine ⟨_, _, r13, ⟨rfl, rfl, rfl, rfl⟩, ?_, rfl⟩
  intro rs
  simp

/-- Instance of C36: what the collector holds after the run in which the host is renamed. -/
example : ∃ evs s, Versions (hostRec "h1" "y") evs s ∧ ∃ d,
    let o := collect (runReg (hostReg ++ [.newDispatcher exSrc]) {}).1 d (fun _ _ => t0) 0 (sentMsgs evs) (fun _ => after vanOps exCfg [])
    o.2 = none ∧ ∃ h' e a, o.1 0 = after vanOps exCfg h' ∧ content vanOps exCfg h' "h1" = some e ∧ vanOps.encode e.record = .ok a ∧
      a.get? (.u32 30) = some (.str "y") := by
  obtain ⟨evs, s, hr, hd, hl, hv⟩ := versions_renamed
  obtain ⟨d, _, h2, h', e, a, h3, h4, _, _, h5, h6, _⟩ := C36_converges_partial exStart hr hd hl (by rw [hv]; simp) hostReg [] exSrc hostReg_plain
    hostReg_only (fun _ => exCfg) (fun _ => rfl) (fun _ => exCfg_good) (fun _ => []) (by simp) rfl (fun _ _ => t0)
  refine ⟨evs, s, ⟨hr, hd, hl, hv⟩, d, h2, h', e, a, h3, h4, h5, ?_⟩
  rw [h6, hv]; rfl

theorem namelessHost_good (id : String) : GoodRecord vanRegistry (namelessHost id) :=
  ⟨_, hostDecls, 13, Or.inr rfl, show "HostRecord" ∈ recordKinds by decide, hostRegistered, by
    intro p ty hl
    rcases leaf_host hl with ⟨rfl, rfl⟩ | ⟨rfl, rfl⟩ | ⟨rfl, rfl⟩ | ⟨rfl, rfl⟩ | ⟨rfl, rfl⟩ <;> simp [HasTy, tTime, tStr]⟩

/-- C36 is false as stated: the name of a host is cleared; everything is published and sent, and a collector that accumulates all of it still
has the name. -/
theorem C36_counterexample : ∃ evs s, Versions (namelessHost "h1") evs s ∧ attrOf (namelessHost "h1") (.u32 30) = none ∧ ∃ d,
    let o := collect (runReg (hostReg ++ [.newDispatcher exSrc]) {}).1 d (fun _ _ => t0) 0 (sentMsgs evs) (fun _ => after vanOps exCfg [])
    o.2 = none ∧ ∃ h' e, o.1 0 = after vanOps exCfg h' ∧ content vanOps exCfg h' "h1" = some e ∧ attrOf e.record (.u32 30) = some (.str "x") := by
  have z : ∀ r st, StoresHold 0 "h1" ⟨"flow/v1", "HostRecord"⟩ r st := fun _ _ i hi => absurd hi (Nat.not_lt_zero i)
  have r1 := Src.Run.nil (cfg := {}) (id := "h1") (tm := ⟨"flow/v1", "HostRecord"⟩) (s := { mgr := { stores := fun _ => after vanOps exCfg [] } })
  have r2 := r1.snoc (.mint (r := hostRec "h1" "x") ⟨hostRec_good _ _, rfl, rfl⟩ rfl (z _ _))
  have r3 := r2.snoc (.publish rfl (.publish { curr := hostRec "h1" "x" } (by decide)))
  have r4 := r3.snoc (.mint (r := namelessHost "h1") ⟨namelessHost_good _, rfl, rfl⟩ rfl (z _ _))
  have r5 := r4.snoc (.publish rfl (.publish { prev := hostRec "h1" "x", curr := namelessHost "h1" } (by decide)))
  have r6 := r5.snoc (.mgr (by simp) (by simp) (.take rfl rfl))
  have r7 := r6.snoc (.mgr (by simp) (by simp) (.diff rfl rfl))
  have r8 := r7.snoc (.mgr (by simp) (by simp) (.queueUpdate rfl (by decide)))
  have r9 := r8.snoc (.mgr (by simp) (by simp) (.take rfl rfl))
  have r10 := r9.snoc (.mgr (by simp) (by simp) (.diff rfl rfl))
  have r11t := r10.snoc (.mgr (by simp) (by simp) (.takeMsg rfl (List.cons_ne_nil _ _)))
  have r11 := r11t.snoc (.mgr (by simp) (by simp) (.send rfl rfl rfl))
  have hv : Versions (namelessHost "h1") _ _ := ⟨r11, ⟨rfl, rfl, rfl, rfl⟩, by intro rs; simp, rfl⟩
  obtain ⟨d, _, h2, h', e, a, h3, h4, _, _, h5, h6, _⟩ := C36_converges_partial exStart hv.1 hv.2.1 hv.2.2.1 (by rw [hv.2.2.2]; simp) hostReg [] exSrc
    hostReg_plain hostReg_only (fun _ => exCfg) (fun _ => rfl) (fun _ => exCfg_good) (fun _ => []) (by simp) rfl (fun _ _ => t0)
  refine ⟨_, _, hv, by rfl, d, h2, h', e, h3, h4, ?_⟩
  rw [attrOf_ok h5, h6, hv.2.2.2]; rfl

/-! ## C66 -/

/-- What C66 says, of a collector that first gets some other messages (`msgs0`). -/
theorem resync_core {mcfg : MgrConfig} {id : String} {tm : TypeMeta} {s0 s1 s' : Src} {evs1 evs2 : List MgrEv} (hstart : Src.Start mcfg id tm s0)
    (hrun1 : Src.Run mcfg id tm s0 evs1 s1) {flush : List (GoRec GoTime)} {m1 : Mgr} (hflush : Mgr.Step mcfg s1.mgr (.queueFlush flush) m1)
    (hin : ∃ r ∈ flush, Mine id tm r) (hrun2 : Src.Run mcfg id tm { s1 with mgr := m1 } evs2 s') (hd : s'.Drained) (hl : Lossless evs2)
    {v : GoRec GoTime} (hv : s'.versions.getLast? = some v)
    (cs1 cs2 : List RegCmd) (src : SourceRef) (hreg : ∀ tm i, RegCmd.register tm i ∈ cs1 → PlainType tm) {i : Nat}
    (hi : ∀ tm', lastRegistered cs1 tm' = some i ↔ tm' = tm)
    (cfg : Nat → CacheConfig (GoRec GoTime)) (hkey : ∀ i, (cfg i).key = none) (hc : ∀ i, GoodConfig (cfg i))
    (h : Nat → List (Op (GoRec GoTime))) (hh : ∀ i, ∀ op ∈ h i, Op.All (GoodRecord vanRegistry) op)
    (hstale : ∀ e, content vanOps (cfg i) (h i) id = some e → OfKind id tm e.record ∧ Encodable e.record) (clock : Nat → Nat → GoTime)
    {rss0 : List (List (GoRec GoTime))} {msgs0 : List Msg} (hg0 : ∀ rs ∈ rss0, ∀ r ∈ rs, GoodRecord vanRegistry r)
    (hp0 : Pointwise (fun rs m => RecordMsg.encode vanRegistry { records := rs } = .ok m) rss0 msgs0) :
    ∃ d, (runReg (cs1 ++ .newDispatcher src :: cs2) {}).2[(runReg cs1 {}).2.length]? = some d ∧
      let o := collect (runReg (cs1 ++ .newDispatcher src :: cs2) {}).1 d clock 0 (msgs0 ++ sentMsgs evs2) (fun i => after vanOps (cfg i) (h i))
      o.2 = none ∧ ∃ h' e, o.1 i = after vanOps (cfg i) h' ∧ content vanOps (cfg i) h' id = some e ∧ OfKind id tm e.record ∧
        ∀ k x, attrOf v k = some x → attrOf e.record k = some x := by
  have hok1 := srcOK_run true_kept (srcOK_start trivial hstart) hrun1
  obtain ⟨hok2, hgf⟩ := healed_start hok1 hflush hin
  obtain ⟨hval, hgood, hkind⟩ := srcOK_drained (srcOK_run (healed_kept _) hok2 hrun2) hd
  have hgood1 : ∀ r ∈ s1.mgr.sendQueue.flatten, GoodRecord vanRegistry r := by
    obtain ⟨_, hdead | ⟨V1, V2, buf, hinv⟩⟩ := hok1
    · exfalso
      cases hflush with
      | queueFlush hpc hcap => rcases hdead with hd | hd <;> rw [hpc] at hd <;> simp at hd
    · intro r hr
      have hf := fifo (Proofs.Src.Run.toMgr hrun1)
      rw [hstart.1.2.2.1, List.nil_append] at hf
      exact hinv.out r (by rw [hf, List.flatten_append]; exact List.mem_append_right _ hr)
  have hq1 : m1.sendQueue = s1.mgr.sendQueue ++ [flush] := by cases hflush; rfl
  have hmgr := Proofs.Src.Run.toMgr hrun2
  have hf := fifo hmgr
  rw [hd.2.2.2, List.append_nil] at hf
  simp only [hq1] at hf
  have hpw := sent_handled hmgr hl
  rw [← hf] at hpw
  have hpw := pointwise_append hp0 hpw
  have hflat : (rss0 ++ (s1.mgr.sendQueue ++ [flush] ++ queued evs2)).flatten = (rss0.flatten ++ s1.mgr.sendQueue.flatten) ++ (flush ++ (queued evs2).flatten) := by simp
  have hmine : ofMine id tm (rss0 ++ (s1.mgr.sendQueue ++ [flush] ++ queued evs2)).flatten =
      ofMine id tm (rss0.flatten ++ s1.mgr.sendQueue.flatten) ++ (ofMine id tm flush ++ ofMine id tm (queued evs2).flatten) := by rw [hflat]; simp [ofMine]
  have hinit : ∃ S f0, StoreHas id tm src S f0 (after vanOps (cfg i) (h i)) [] := by
    cases hcont : content vanOps (cfg i) (h i) id with
    | none => exact ⟨src, _, Or.inl ⟨rfl, by rw [← content_eq vanOps_lawful]; exact hcont, rfl, rfl⟩⟩
    | some e =>
      obtain ⟨g1, g2⟩ := hstale e hcont
      exact ⟨e.md.source, fun k => attrOf e.record k, Or.inr ⟨e, by rw [← content_eq vanOps_lawful]; exact hcont, g1, rfl, g2, fun k => rfl⟩⟩
  obtain ⟨S, f0, hinit⟩ := hinit
  obtain ⟨d, hd1, h2, h', h3, h4⟩ := collector_result cs1 cs2 src hreg hi cfg hkey hc h hh hinit clock
    (by
      intro r hr
      rw [hflat] at hr
      rcases List.mem_append.1 hr with hr | hr
      · rcases List.mem_append.1 hr with hr | hr
        · obtain ⟨rs, h1, h2⟩ := List.mem_flatten.1 hr
          exact hg0 rs h1 r h2
        · exact hgood1 r hr
      · rcases List.mem_append.1 hr with hr | hr
        · exact hgf r hr
        · exact hgood r hr) hpw
  rw [hmine] at h4
  obtain ⟨e, a, g1, g2, g3, g5, g6⟩ := h4 (by
    obtain ⟨r, hr, hmr⟩ := hin
    have : r ∈ ofMine id tm flush := List.mem_filter.2 ⟨hr, by simpa using hmr⟩
    exact List.ne_nil_of_mem (List.mem_append_right _ (List.mem_append_left _ this)))
  refine ⟨d, hd1, h2, h', e, h3, g1, g2, fun k x hx => ?_⟩
  rw [attrOf_ok g5, g6, latestFrom_append]
  have := hval (latestFrom (f0 k) (ofMine id tm (rss0.flatten ++ s1.mgr.sendQueue.flatten)) k) k x (by rw [List.append_nil]; simpa [lastOr, hv] using hx)
  simpa [chainFrom, diffsOf, latestFrom] using this

/-- C66: a collector that has lost messages, or joins late, recovers with a flush.  Whatever happened before (`evs1`, of which the collector may
have got any part), once a flush message with the record has been queued and the manager then goes on in any way until all is published and
sent, with nothing lost any more: a collector that accumulates these messages, starting with no entry or with any stale entry of the
record, ends with an entry of the record that has every attribute of the last version. -/
theorem C66_resync {mcfg : MgrConfig} {id : String} {tm : TypeMeta} {s0 s1 s' : Src} {evs1 evs2 : List MgrEv} (hstart : Src.Start mcfg id tm s0)
    (hrun1 : Src.Run mcfg id tm s0 evs1 s1) {flush : List (GoRec GoTime)} {m1 : Mgr} (hflush : Mgr.Step mcfg s1.mgr (.queueFlush flush) m1)
    (hin : ∃ r ∈ flush, Mine id tm r) (hrun2 : Src.Run mcfg id tm { s1 with mgr := m1 } evs2 s') (hd : s'.Drained) (hl : Lossless evs2)
    {v : GoRec GoTime} (hv : s'.versions.getLast? = some v)
    (cs1 cs2 : List RegCmd) (src : SourceRef) (hreg : ∀ tm i, RegCmd.register tm i ∈ cs1 → PlainType tm) {i : Nat}
    (hi : ∀ tm', lastRegistered cs1 tm' = some i ↔ tm' = tm)
    (cfg : Nat → CacheConfig (GoRec GoTime)) (hkey : ∀ i, (cfg i).key = none) (hc : ∀ i, GoodConfig (cfg i))
    (h : Nat → List (Op (GoRec GoTime))) (hh : ∀ i, ∀ op ∈ h i, Op.All (GoodRecord vanRegistry) op)
    (hstale : ∀ e, content vanOps (cfg i) (h i) id = some e → OfKind id tm e.record ∧ Encodable e.record) (clock : Nat → Nat → GoTime) :
    ∃ d, (runReg (cs1 ++ .newDispatcher src :: cs2) {}).2[(runReg cs1 {}).2.length]? = some d ∧
      let o := collect (runReg (cs1 ++ .newDispatcher src :: cs2) {}).1 d clock 0 (sentMsgs evs2) (fun i => after vanOps (cfg i) (h i))
      o.2 = none ∧ ∃ h' e, o.1 i = after vanOps (cfg i) h' ∧ content vanOps (cfg i) h' id = some e ∧ OfKind id tm e.record ∧
        ∀ k x, attrOf v k = some x → attrOf e.record k = some x := by
  exact resync_core hstart hrun1 hflush hin hrun2 hd hl hv cs1 cs2 src hreg hi cfg hkey hc h hh hstale clock (rss0 := []) (msgs0 := []) (by simp) trivial

/-- The store after the host was put into it, and the state of the source when the flush message is about to be queued. -/
def exHeldStores : Stores (GoRec GoTime) :=
  fun j => if j = 0 then ((after vanOps exCfg []).step vanOps (.accumulate exSrc (hostRec "h1" "x") t0)).1 else after vanOps exCfg []

def exFlushSrc : Src :=
  { mgr := { stores := exHeldStores, pc := .sendFlush [] "" [hostRec "h1" "x"] }, versions := [hostRec "h1" "x"], pub := 1 }

/-- Instance of C66: the update message of a new host is lost; a flush comes later, and its messages arrive. -/
example : ∃ s0 s1 s' evs1 evs2 flush m1, Src.Start { numStores := 1 } "h1" ⟨"flow/v1", "HostRecord"⟩ s0 ∧
    Src.Run { numStores := 1 } "h1" ⟨"flow/v1", "HostRecord"⟩ s0 evs1 s1 ∧ (∃ rs, MgrEv.sendFailed rs ∈ evs1) ∧
    Mgr.Step { numStores := 1 } s1.mgr (.queueFlush flush) m1 ∧ (∃ r ∈ flush, Mine "h1" ⟨"flow/v1", "HostRecord"⟩ r) ∧
    Src.Run { numStores := 1 } "h1" ⟨"flow/v1", "HostRecord"⟩ { s1 with mgr := m1 } evs2 s' ∧ s'.Drained ∧ Lossless evs2 ∧
    s'.versions.getLast? = some (hostRec "h1" "x") ∧ (sentMsgs evs2).length = 1 := by
  have z : StoresHold 1 "h1" ⟨"flow/v1", "HostRecord"⟩ (some (hostRec "h1" "x"))
      exHeldStores := by
    intro i hi e he
    obtain rfl : i = 0 := by omega
    obtain ⟨res, h1, h2⟩ := he
    have h3 : ((after vanOps exCfg []).step vanOps (.accumulate exSrc (hostRec "h1" "x") t0)).1.list none 0 =
      .ok { entries := [{ record := hostRec "h1" "x", md := { source := exSrc, updatedAt := t0, annotations := [] }, typeMeta := ⟨"flow/v1", "HostRecord"⟩ }], cont := "" } := rfl
    have h1 := h3.symm.trans h1
    simp only [Res.ok.injEq] at h1
    subst h1
    simp only [List.mem_singleton] at h2
    subst h2
    exact ⟨hostRec_good _ _, fun _ => rfl⟩
  have r1 := Src.Run.nil (cfg := { numStores := 1 }) (id := "h1") (tm := ⟨"flow/v1", "HostRecord"⟩) (s := { mgr := { stores := fun _ => after vanOps exCfg [] } })
  have r2 := r1.snoc (.write (.storeOp 0 (.accumulate exSrc (hostRec "h1" "x") t0)) (r := hostRec "h1" "x") ⟨hostRec_good _ _, rfl, rfl⟩ rfl z)
  have r3 := r2.snoc (.publish rfl (.publish { curr := hostRec "h1" "x" } (by simp [changeQueueCap])))
  have r4 := r3.snoc (.mgr (by simp) (by simp) (.take rfl rfl))
  have r5 := r4.snoc (.mgr (by simp) (by simp) (.diff rfl rfl))
  have r6 := r5.snoc (.mgr (by simp) (by simp) (.queueUpdate rfl (by simp [Mgr.SendRoom, sendQueueCap])))
  have r7t := r6.snoc (.mgr (by simp) (by simp) (.takeMsg rfl (List.cons_ne_nil _ _)))
  have r7 := r7t.snoc (.mgr (by simp) (by simp) (.sendFail rfl rfl rfl))
  have r8 := r7.snoc (.mgr (by simp) (by simp) .flushReceived)
  have r9 := r8.snoc (.mgr (by simp) (by simp) (.takeFlush rfl (by simp [flushQueueCap])))
  have r10 := r9.snoc (.mgr (by simp) (by simp) (.flushBegin rfl))
  have r11 := r10.snoc (.mgr (by simp) (by simp) (.page 0 rfl rfl))
  have hf : Mgr.Step { numStores := 1 } exFlushSrc.mgr (.queueFlush [hostRec "h1" "x"])
      { exFlushSrc.mgr with sendQueue := exFlushSrc.mgr.sendQueue ++ [[hostRec "h1" "x"]], pc := .flushing [] "" } :=
    .queueFlush rfl (by simp [Mgr.SendRoom, exFlushSrc, sendQueueCap])
  have q1 := Src.Run.nil (cfg := { numStores := 1 }) (id := "h1") (tm := ⟨"flow/v1", "HostRecord"⟩)
    (s := { exFlushSrc with mgr := { exFlushSrc.mgr with sendQueue := exFlushSrc.mgr.sendQueue ++ [[hostRec "h1" "x"]], pc := .flushing [] "" } })
  have q2 := q1.snoc (.mgr (by simp) (by simp) (.flushEnd rfl))
  have q3t := q2.snoc (.mgr (by simp) (by simp) (.takeMsg rfl (List.cons_ne_nil _ _)))
  have q3 := q3t.snoc (.mgr (by simp) (by simp) (.send rfl rfl rfl))
  refine ⟨_, exFlushSrc, _, _, _, _, _, ⟨⟨rfl, rfl, rfl, rfl, rfl, rfl⟩, rfl, rfl, ?_⟩, r11, ⟨[hostRec "h1" "x"], by simp⟩, hf, ⟨_, List.mem_singleton.2 rfl, rfl, rfl⟩, q3,
    ⟨rfl, rfl, rfl, rfl⟩, by intro rs; simp, rfl, rfl⟩
  intro i _ e he
  obtain ⟨res, h1, h2⟩ := he
  have h3 : (after vanOps exCfg []).list none 0 = .ok { entries := [], cont := "" } := rfl
  have h1 := h3.symm.trans h1
  simp only [Res.ok.injEq] at h1
  subst h1
  simp at h2

end Verif.Props
