import Verif.Spec.Collectors
import Verif.Props.Changed

/-! # C129: several collectors of one source -/
namespace Verif.Props
open Verif Verif.Model Verif.Spec Verif.Proofs

theorem put_view (s : Net) (c : Nat) (t : Sys) : (s.put c t).view c = t := by simp [Net.put, Net.view]

theorem put_other (s : Net) {c d : Nat} (h : d ≠ c) (t : Sys) :
    (s.put c t).view d = { s.view d with src := t.src, mock := t.mock, msgs := t.msgs, sending := t.sending } := by simp [Net.put, Net.view, h]

/-- A step of the net is, for each of the collectors, a step of its system or nothing. -/
theorem net_step {k : NetCfg} (hk : k.Apart) {s s' : Net} {ev : NetEv} (hs : Net.Step k s ev s') (d : Nat) :
    Sys.Step (k.at d) (s.view d) (ev.view d) (s'.view d) ∨ (ev.view d = {} ∧ s'.view d = s.view d) := by
  obtain ⟨c, hs, ho⟩ := hs
  by_cases hd : d = c
  · subst hd
    left
    rw [put_view]
    simpa [NetEv.view] using hs
  · rw [put_other _ hd]
    simp only [NetEv.view, hd, if_false]
    cases hs with
    | source h1 h2 h3 => exact .inl (.source (k := k.at d) (s := s.view d) h1 h2 h3)
    | send h1 h2 h3 h4 h5 => exact .inl (.send (k := k.at d) (s := s.view d) h1 h2 h3 h4 h5)
    | sent h1 h2 h3 => exact .inl (.sent (k := k.at d) (s := s.view d) h1 h2 h3)
    | sendFailed h1 h2 h3 => exact .inl (.sendFailed (k := k.at d) (s := s.view d) h1 h2 h3)
    | router h1 h2 h3 h4 => exact .inl (.router (k := k.at d) (s := s.view d) h1 (fun m h => ho d hd m (by simp [h, NetCfg.at])) h3 h4)
    | next h1 h2 h3 h4 h5 =>
      refine .inl (.router (k := k.at d) (s := s.view d) h3 (fun m h => ?_) (by simp) (by simp))
      simp only [MockEv.recv.injEq] at h
      exact hk c d (Ne.symm hd) h.1
    | client h1 h2 h3 h4 h5 h6 h7 => exact .inr ⟨rfl, rfl⟩
    | dispatch times h1 h2 h3 h4 => exact .inr ⟨rfl, rfl⟩
    | dispatchPanic times h1 h2 h3 h4 => exact .inr ⟨rfl, rfl⟩

/-- Each collector sees a run of its own system. -/
theorem net_run {k : NetCfg} (hk : k.Apart) {s s' : Net} {evs : NetEv} (hr : Net.Run k s evs s') (d : Nat) : Sys.Run (k.at d) (s.view d) (evs.view d) (s'.view d) := by
  induction hr with
  | nil => exact .nil
  | snoc _ hs ih =>
    rcases net_step hk hs d with h | ⟨h1, h2⟩
    · exact ih.snoc h
    · rw [h2]
      simp only [NetEv.view, SysEv.mk.injEq] at h1 ih ⊢
      simpa [h1] using ih

/-- **C129 (from the start).** Two collectors were there before the source did anything.  However source, manager, router and the collectors interleave: once everything is published, sent,
received and handled, and nothing was lost on the side of the manager, their entries of the record have the same attributes with the same values. -/
theorem C129_start {k : NetCfg} (hk : k.Apart) {c d : Nat} {n0 : List MockEv} {c0 d0 : List ClEv} {s0 s : Net} {evs : NetEv} (hc0 : Sys.Start (k.at c) n0 c0 (s0.view c))
    (hd0 : Sys.Start (k.at d) n0 d0 (s0.view d)) (hr : Net.Run k s0 evs s) (hstillc : (s.view c).Still (k.at c)) (hstilld : (s.view d).Still (k.at d))
    (hopenc : MockEv.closeReceiver (k.rcv c) ∉ n0 ++ evs.n) (hopend : MockEv.closeReceiver (k.rcv d) ∉ n0 ++ evs.n) (hcrc : (s.cl c).crashed = false) (hcrd : (s.cl d).crashed = false)
    (hl : Lossless evs.m) (hv : s.src.versions ≠ [])
    {cs1 cs2 cs1' cs2' : List RegCmd} {ref ref' : SourceRef} {i i' : Nat} {cfg cfg' : Nat → CacheConfig (GoRec GoTime)} {h h' : Nat → List (Op (GoRec GoTime))}
    (hc : Collects (k.at c) cs1 cs2 ref i cfg h (s0.stores c)) (hd : Collects (k.at d) cs1' cs2' ref' i' cfg' h' (s0.stores d))
    (hnone : content vanOps (cfg i) (h i) k.base.id = none) (hnone' : content vanOps (cfg' i') (h' i') k.base.id = none) :
    ∃ g g' e e', s.stores c i = after vanOps (cfg i) g ∧ s.stores d i' = after vanOps (cfg' i') g' ∧ content vanOps (cfg i) g k.base.id = some e ∧
      content vanOps (cfg' i') g' k.base.id = some e' ∧ ∀ x, attrOf e.record x = attrOf e'.record x := by
  obtain ⟨g, e, a, h1, h2, _, _, h3, h4, _⟩ := C100_converges hc0 (net_run hk hr c) hstillc hopenc hcrc hl hv hc hnone
  obtain ⟨g', e', a', h1', h2', _, _, h3', h4', _⟩ := C100_converges hd0 (net_run hk hr d) hstilld hopend hcrd hl hv hd hnone'
  exact ⟨g, g', e, e', h1, h1', h2, h2', fun x => by rw [attrOf_ok h3, attrOf_ok h3', h4, h4']; rfl⟩

/-- **C129 (after a flush).** A collector `c` is there, and later another, `d`, joins; after that a flush message arrives at the manager, and from there on nothing is lost on the side of the
manager (and the record stays where it is, as in C104).  Once all is quiet both have every attribute of the last version, so of these they show the same values.  Missing: attributes the last
version has no more, for which the claim is false (`C129_counterexample`). -/
theorem C129_flushed_partial {k : NetCfg} (hk : k.Apart) {c d : Nat} {n0 : List MockEv} {c0 d0 : List ClEv} {s0 s1 s : Net} {evs1 evs2 : NetEv} (hc0 : Sys.Join (k.at c) n0 c0 (s0.view c))
    (hr1 : Net.Run k s0 evs1 s1) (hd0 : Sys.Join (k.at d) (n0 ++ evs1.n) d0 (s1.view d)) (hr2 : Net.Run k s1 evs2 s)
    (hstillc : (s.view c).Still (k.at c)) (hstilld : (s.view d).Still (k.at d)) (hfq : s.src.mgr.flushQueue = 0)
    (hopenc : MockEv.closeReceiver (k.rcv c) ∉ n0 ++ evs1.n ++ evs2.n) (hopend : MockEv.closeReceiver (k.rcv d) ∉ n0 ++ evs1.n ++ evs2.n) (hcrc : (s.cl c).crashed = false)
    (hcrd : (s.cl d).crashed = false) {pre post : List MgrEv} (hev : evs2.m = pre ++ .flushReceived :: post) (hl : Lossless post)
    {j : Nat} (hj : j < k.base.mgr.numStores) {cm : CacheConfig (GoRec GoTime)} {hj0 : List (Op (GoRec GoTime))} (hst : s0.src.mgr.stores j = after vanOps cm hj0) {key : String}
    (hstay : Stays cm (hj0 ++ opsOn j (evs1.m ++ pre)) j key (fun e => Mine k.base.id k.base.tm e.record) post) {v : GoRec GoTime} (hv : s.src.versions.getLast? = some v)
    {cs1 cs2 cs1' cs2' : List RegCmd} {ref ref' : SourceRef} {i i' : Nat} {cfg cfg' : Nat → CacheConfig (GoRec GoTime)} {h h' : Nat → List (Op (GoRec GoTime))}
    (hc : Collects (k.at c) cs1 cs2 ref i cfg h (s0.stores c)) (hd : Collects (k.at d) cs1' cs2' ref' i' cfg' h' (s1.stores d))
    (hstale : ∀ e, content vanOps (cfg i) (h i) k.base.id = some e → OfKind k.base.id k.base.tm e.record ∧ Encodable e.record)
    (hstale' : ∀ e, content vanOps (cfg' i') (h' i') k.base.id = some e → OfKind k.base.id k.base.tm e.record ∧ Encodable e.record) :
    ∃ g g' e e', s.stores c i = after vanOps (cfg i) g ∧ s.stores d i' = after vanOps (cfg' i') g' ∧ content vanOps (cfg i) g k.base.id = some e ∧
      content vanOps (cfg' i') g' k.base.id = some e' ∧ ∀ x y, attrOf v x = some y → attrOf e.record x = some y ∧ attrOf e'.record x = some y := by
  have hrc := sys_trans (net_run hk hr1 c) (net_run hk hr2 c)
  obtain ⟨g, e, h1, h2, _, h3⟩ := C104_resync (j := j) hc0 hrc hstillc hfq (by simpa [NetEv.view, NetCfg.at] using hopenc) hcrc (pre := evs1.m ++ pre) (post := post)
    (by simp [NetEv.view, hev]) hl hj hst hstay hv hc hstale
  have hst1 := stores_run (Proofs.Src.Run.toMgr (sys_src (net_run hk hr1 d))) hst
  obtain ⟨g', e', h1', h2', _, h3'⟩ := C104_resync (j := j) hd0 (net_run hk hr2 d) hstilld hfq hopend hcrd (pre := pre) (post := post) hev hl hj hst1
    (by rw [opsOn_append, ← List.append_assoc] at hstay; exact hstay) hv hd hstale'
  exact ⟨g, g', e, e', h1, h1', h2, h2', fun x y hx => ⟨h3 x y hx, h3' x y hx⟩⟩

/-- **C129 (where they differ).** In the same situation, if the collectors had no entry of the record when they joined: an attribute of which they show different values, or which only one of them
shows, is one that the last version does not have and an earlier one had.  It has been taken away. -/
theorem C129_differ {k : NetCfg} (hk : k.Apart) {c d : Nat} {n0 : List MockEv} {c0 d0 : List ClEv} {s0 s1 s : Net} {evs1 evs2 : NetEv} (hc0 : Sys.Join (k.at c) n0 c0 (s0.view c))
    (hr1 : Net.Run k s0 evs1 s1) (hd0 : Sys.Join (k.at d) (n0 ++ evs1.n) d0 (s1.view d)) (hr2 : Net.Run k s1 evs2 s)
    (hstillc : (s.view c).Still (k.at c)) (hstilld : (s.view d).Still (k.at d)) (hfq : s.src.mgr.flushQueue = 0)
    (hopenc : MockEv.closeReceiver (k.rcv c) ∉ n0 ++ evs1.n ++ evs2.n) (hopend : MockEv.closeReceiver (k.rcv d) ∉ n0 ++ evs1.n ++ evs2.n) (hcrc : (s.cl c).crashed = false)
    (hcrd : (s.cl d).crashed = false) {pre post : List MgrEv} (hev : evs2.m = pre ++ .flushReceived :: post) (hl : Lossless post)
    {j : Nat} (hj : j < k.base.mgr.numStores) {cm : CacheConfig (GoRec GoTime)} {hj0 : List (Op (GoRec GoTime))} (hst : s0.src.mgr.stores j = after vanOps cm hj0) {key : String}
    (hstay : Stays cm (hj0 ++ opsOn j (evs1.m ++ pre)) j key (fun e => Mine k.base.id k.base.tm e.record) post) {v : GoRec GoTime} (hv : s.src.versions.getLast? = some v)
    {cs1 cs2 cs1' cs2' : List RegCmd} {ref ref' : SourceRef} {i i' : Nat} {cfg cfg' : Nat → CacheConfig (GoRec GoTime)} {h h' : Nat → List (Op (GoRec GoTime))}
    (hc : Collects (k.at c) cs1 cs2 ref i cfg h (s0.stores c)) (hd : Collects (k.at d) cs1' cs2' ref' i' cfg' h' (s1.stores d))
    (hnone : content vanOps (cfg i) (h i) k.base.id = none) (hnone' : content vanOps (cfg' i') (h' i') k.base.id = none) :
    ∃ g g' e e', s.stores c i = after vanOps (cfg i) g ∧ s.stores d i' = after vanOps (cfg' i') g' ∧ content vanOps (cfg i) g k.base.id = some e ∧
      content vanOps (cfg' i') g' k.base.id = some e' ∧ ∀ x, attrOf e.record x ≠ attrOf e'.record x → attrOf v x = none ∧ ∃ w ∈ s.src.versions, attrOf w x ≠ none := by
  have hrc := sys_trans (net_run hk hr1 c) (net_run hk hr2 c)
  have hstale : ∀ e, content vanOps (cfg i) (h i) k.base.id = some e → OfKind k.base.id k.base.tm e.record ∧ Encodable e.record := by rw [hnone]; simp
  have hstale' : ∀ e, content vanOps (cfg' i') (h' i') k.base.id = some e → OfKind k.base.id k.base.tm e.record ∧ Encodable e.record := by rw [hnone']; simp
  obtain ⟨g, g', e, e', h1, h1', h2, h2', h3⟩ := C129_flushed_partial hk hc0 hr1 hd0 hr2 hstillc hstilld hfq hopenc hopend hcrc hcrd hev hl hj hst hstay hv hc hd hstale hstale'
  obtain ⟨f, f1, f2⟩ := C105_honest hc0 hrc hcrc hc hstale
  obtain ⟨f', f1', f2'⟩ := C105_honest hd0 (net_run hk hr2 d) hcrd hd hstale'
  have f1 : s.stores c i = after vanOps (cfg i) f := f1
  have f1' : s.stores d i' = after vanOps (cfg' i') f' := f1'
  have heq : content vanOps (cfg i) f = content vanOps (cfg i) g := by
    funext x
    rw [content_eq vanOps_lawful, content_eq vanOps_lawful, ← f1, ← h1]
  have heq' : content vanOps (cfg' i') f' = content vanOps (cfg' i') g' := by
    funext x
    rw [content_eq vanOps_lawful, content_eq vanOps_lawful, ← f1', ← h1']
  refine ⟨g, g', e, e', h1, h1', h2, h2', fun x hx => ⟨?_, ?_⟩⟩
  · cases hvx : attrOf v x with
    | none => rfl
    | some y => exact absurd ((h3 x y hvx).1.trans (h3 x y hvx).2.symm) hx
  · cases hex : attrOf e.record x with
    | some y =>
      rcases (f2 e (by rw [heq]; exact h2)).2 x y hex with ⟨w, a1, a2⟩ | ⟨e0, a1, _⟩
      · exact ⟨w, a1, by rw [a2]; simp⟩
      · exact absurd (hnone.symm.trans a1) (by simp)
    | none =>
      cases hex' : attrOf e'.record x with
      | none => exact absurd (hex.trans hex'.symm) hx
      | some y =>
        rcases (f2' e' (by rw [heq']; exact h2')).2 x y hex' with ⟨w, a1, a2⟩ | ⟨e0, a1, _⟩
        · exact ⟨w, a1, by rw [a2]; simp⟩
        · exact absurd (hnone'.symm.trans a1) (by simp)

/-- **C129 (nothing taken away).** If moreover the source never takes an attribute away, they agree about all attributes. -/
theorem C129_kept {k : NetCfg} (hk : k.Apart) {c d : Nat} {n0 : List MockEv} {c0 d0 : List ClEv} {s0 s1 s : Net} {evs1 evs2 : NetEv} (hc0 : Sys.Join (k.at c) n0 c0 (s0.view c))
    (hr1 : Net.Run k s0 evs1 s1) (hd0 : Sys.Join (k.at d) (n0 ++ evs1.n) d0 (s1.view d)) (hr2 : Net.Run k s1 evs2 s)
    (hstillc : (s.view c).Still (k.at c)) (hstilld : (s.view d).Still (k.at d)) (hfq : s.src.mgr.flushQueue = 0)
    (hopenc : MockEv.closeReceiver (k.rcv c) ∉ n0 ++ evs1.n ++ evs2.n) (hopend : MockEv.closeReceiver (k.rcv d) ∉ n0 ++ evs1.n ++ evs2.n) (hcrc : (s.cl c).crashed = false)
    (hcrd : (s.cl d).crashed = false) {pre post : List MgrEv} (hev : evs2.m = pre ++ .flushReceived :: post) (hl : Lossless post)
    {j : Nat} (hj : j < k.base.mgr.numStores) {cm : CacheConfig (GoRec GoTime)} {hj0 : List (Op (GoRec GoTime))} (hst : s0.src.mgr.stores j = after vanOps cm hj0) {key : String}
    (hstay : Stays cm (hj0 ++ opsOn j (evs1.m ++ pre)) j key (fun e => Mine k.base.id k.base.tm e.record) post) {v : GoRec GoTime} (hv : s.src.versions.getLast? = some v) (hnc : NeverCleared s.src.versions)
    {cs1 cs2 cs1' cs2' : List RegCmd} {ref ref' : SourceRef} {i i' : Nat} {cfg cfg' : Nat → CacheConfig (GoRec GoTime)} {h h' : Nat → List (Op (GoRec GoTime))}
    (hc : Collects (k.at c) cs1 cs2 ref i cfg h (s0.stores c)) (hd : Collects (k.at d) cs1' cs2' ref' i' cfg' h' (s1.stores d))
    (hnone : content vanOps (cfg i) (h i) k.base.id = none) (hnone' : content vanOps (cfg' i') (h' i') k.base.id = none) :
    ∃ g g' e e', s.stores c i = after vanOps (cfg i) g ∧ s.stores d i' = after vanOps (cfg' i') g' ∧ content vanOps (cfg i) g k.base.id = some e ∧
      content vanOps (cfg' i') g' k.base.id = some e' ∧ ∀ x, attrOf e.record x = attrOf e'.record x := by
  obtain ⟨g, g', e, e', h1, h1', h2, h2', h3⟩ := C129_differ hk hc0 hr1 hd0 hr2 hstillc hstilld hfq hopenc hopend hcrc hcrd hev hl hj hst hstay hv hc hd hnone hnone'
  refine ⟨g, g', e, e', h1, h1', h2, h2', fun x => ?_⟩
  by_contra hx
  obtain ⟨h4, w, h5, h6⟩ := h3 x hx
  obtain ⟨y, hy⟩ := Option.ne_none_iff_exists'.1 h6
  exact latest_ne_none h5 hy (by rw [latest_last hnc hv]; exact h4)

/-- **C129 (without a flush).** The same two collectors: of an attribute that changes after the second has joined they show the same value once all is quiet, if from there on nothing is lost,
and nobody need ask for a flush. -/
theorem C129_changed {k : NetCfg} (hk : k.Apart) {c d : Nat} {n0 : List MockEv} {c0 d0 : List ClEv} {s0 s1 s : Net} {evs1 evs2 : NetEv} (hc0 : Sys.Join (k.at c) n0 c0 (s0.view c))
    (hr1 : Net.Run k s0 evs1 s1) (hd0 : Sys.Join (k.at d) (n0 ++ evs1.n) d0 (s1.view d)) (hr2 : Net.Run k s1 evs2 s)
    (hstillc : (s.view c).Still (k.at c)) (hstilld : (s.view d).Still (k.at d))
    (hopenc : MockEv.closeReceiver (k.rcv c) ∉ n0 ++ evs1.n ++ evs2.n) (hopend : MockEv.closeReceiver (k.rcv d) ∉ n0 ++ evs1.n ++ evs2.n) (hcrc : (s.cl c).crashed = false)
    (hcrd : (s.cl d).crashed = false) (hl : Lossless evs2.m) {x : Any} (hch : ChangedSince s1.src.versions.length s.src.versions x)
    {cs1 cs2 cs1' cs2' : List RegCmd} {ref ref' : SourceRef} {i i' : Nat} {cfg cfg' : Nat → CacheConfig (GoRec GoTime)} {h h' : Nat → List (Op (GoRec GoTime))}
    (hc : Collects (k.at c) cs1 cs2 ref i cfg h (s0.stores c)) (hd : Collects (k.at d) cs1' cs2' ref' i' cfg' h' (s1.stores d))
    (hstale : ∀ e, content vanOps (cfg i) (h i) k.base.id = some e → OfKind k.base.id k.base.tm e.record ∧ Encodable e.record)
    (hstale' : ∀ e, content vanOps (cfg' i') (h' i') k.base.id = some e → OfKind k.base.id k.base.tm e.record ∧ Encodable e.record) :
    ∃ g g' e e', s.stores c i = after vanOps (cfg i) g ∧ s.stores d i' = after vanOps (cfg' i') g' ∧ content vanOps (cfg i) g k.base.id = some e ∧
      content vanOps (cfg' i') g' k.base.id = some e' ∧ attrOf e.record x = latest s.src.versions x ∧ attrOf e'.record x = latest s.src.versions x := by
  obtain ⟨g, e, h1, h2, _, h3⟩ := C128_changed hc0 (net_run hk hr1 c) (net_run hk hr2 c) hstillc hopenc hcrc hl hch hc hstale
  obtain ⟨g', e', h1', h2', _, h3'⟩ := C128_changed hd0 .nil (net_run hk hr2 d) hstilld (by simpa [NetEv.view, NetCfg.at] using hopend) hcrd hl hch hd hstale'
  exact ⟨g, g', e, e', h1, h1', h2, h2', h3, h3'⟩

/-! ## Two collectors that disagree -/

def netCfg : NetCfg where
  base := lateCfg
  rcv := fun c => c
  lst := fun _ => 0
  hnd := fun _ => 7
  world := fun _ => lateCfg.world
  disp := fun _ => lateCfg.disp

theorem netCfg_apart : netCfg.Apart := fun _ _ h => h

/-- Receiver 0 is subscribed; all stores are empty. -/
def net0 : Net := { src := { mgr := { stores := fun _ => after vanOps exCfg [] } }, mock := sysMock, cl := fun _ => sysClient, stores := fun _ _ => after vanOps exCfg [] }

theorem net0_start : Sys.Start (netCfg.at 0) [.newReceiver 0 "mc/sfe.c1", .step 0, .subscribed 0, .newSender 0 "mc/sfe.c1"] [.onRecord 3, .onRecord 7, .listen, .tau] (net0.view 0) := by
  refine ⟨⟨⟨rfl, rfl, rfl, rfl, rfl, rfl⟩, rfl, rfl, ?_⟩, sys_mock0, by decide, by decide, by intro o i m; simp, sys_cl0, ⟨{ pc := .receiving }, rfl, Or.inr (Or.inl rfl)⟩, rfl, by decide, rfl, rfl, rfl⟩
  intro i _ e he
  obtain ⟨res, h1, h2⟩ := he
  have h3 : (after vanOps exCfg []).list none 0 = .ok { entries := [], cont := "" } := rfl
  have h1 := h3.symm.trans h1
  simp only [Res.ok.injEq] at h1
  subst h1
  simp at h2

theorem net_collects (c : Nat) : Collects (netCfg.at c) hostReg [] exSrc 0 (fun _ => exCfg) (fun _ => []) (fun _ => after vanOps exCfg []) :=
  ⟨hostReg_plain, hostReg_only, rfl, sysCfg_disp, fun _ => rfl, fun _ => exCfg_good, by simp, rfl⟩

theorem net_here {k : NetCfg} {s s' : Net} {evs : NetEv} (_ : Net.Run k s evs s') : Net.Run k s' {} s' := .nil

theorem net_x : StoresHold 1 "h1" ⟨"flow/v1", "HostRecord"⟩ (some (hostRec "h1" "x")) exHeldStores := by
  intro i hi e he
  obtain rfl : i = 0 := by omega
  obtain ⟨res, h1, h2⟩ := he
  have h3 : ((after vanOps exCfg []).step vanOps (.accumulate exSrc (hostRec "h1" "x") t0)).1.list none 0 =
    .ok { entries := [{ record := hostRec "h1" "x", md := { source := exSrc, updatedAt := t0, annotations := [] }, typeMeta := ⟨"flow/v1", "HostRecord"⟩ }], cont := "" } := rfl
  have h1 := h3.symm.trans h1
  simp only [Res.ok.injEq] at h1
  subst h1
  simp only [List.mem_singleton] at h2
  subst h2
  exact ⟨hostRec_good _ _, fun _ => rfl⟩

/-- The calls on the store of the source. -/
def netOps : List (Op (GoRec GoTime)) := [.accumulate exSrc (hostRec "h1" "x") t0, .update (hostEntry "h1" "" "r1") none t0]

theorem net_stays {evs : List MgrEv} (h : opsOn 0 evs = []) : Stays exCfg netOps 0 "h1" (fun e => Mine "h1" ⟨"flow/v1", "HostRecord"⟩ e.record) evs := by
  have two : ∀ p, p <+: evs → netOps ++ opsOn 0 p = netOps := by
    rintro p ⟨q, rfl⟩
    rw [opsOn_append] at h
    rw [(List.append_eq_nil_iff.1 h).1, List.append_nil]
  have hs : SortedKeys (content vanOps exCfg netOps) (fun _ => True) 0 ["h1"] := by
    refine ⟨List.pairwise_singleton _ _, ?_⟩
    intro k
    have hcon : content vanOps exCfg netOps k = (if k = "h1" then some ((hostEntry "h1" "" "r1").stamp t0) else none) := by
      by_cases hk : k = "h1"
      · subst hk; rfl
      · have : content vanOps exCfg netOps k = (if k = "h1" then some ((hostEntry "h1" "" "r1").stamp t0) else content vanOps exCfg lateOps k) := rfl
        rw [this, if_neg hk, if_neg hk]
        have hcon : content vanOps exCfg lateOps k = (if k = "h1" then some { record := hostRec "h1" "x", md := { source := exSrc, updatedAt := t0, annotations := [] }, typeMeta := ⟨"flow/v1", "HostRecord"⟩ } else none) := rfl
        rw [hcon, if_neg hk]
    rw [hcon]
    by_cases h : k = "h1" <;> simp [h]
  refine ⟨exCfg_good, van_coherent, ?_, ?_, ?_, ?_⟩
  · rw [h, List.append_nil]
    intro op hop
    simp only [netOps, List.mem_cons, List.not_mem_nil, or_false] at hop
    rcases hop with rfl | rfl <;> exact hostRec_good _ _
  · intro p hp
    rw [two p hp]
    exact ⟨_, rfl, rfl, rfl⟩
  · intro p ev hp x _
    rw [two _ hp, two _ ((List.prefix_append p [ev]).trans hp)]
    exact id
  · intro p hp ks hks
    rw [two p hp] at hks
    rw [sortedKeys_unique hks hs]
    decide

/-- What the router does before collector 1 joins. -/
def netBefore : List MockEv := [.call 0 0 "mc/sfe.c1" 0, .step 0, .step 0, .accepted 0 "mc/sfe.c1" 0, .step 0, .step 0, .ret 0 none, .recv 0 0, .newReceiver 1 "mc/sfe.c1", .step 1, .subscribed 1]

theorem net_joined {evs : NetEv} {s1 : Net} (hr : Net.Run netCfg net0 evs s1) (hn : evs.n = netBefore) (hcl : s1.cl 1 = sysClient) (hsend : s1.sending = none) (hend : s1.ended 1 = false) :
    Sys.Join (netCfg.at 1) ([.newReceiver 0 "mc/sfe.c1", .step 0, .subscribed 0, .newSender 0 "mc/sfe.c1"] ++ evs.n) [.onRecord 3, .onRecord 7, .listen, .tau] (s1.view 1) where
  src := ⟨net0.src, evs.m, net0_start.src, sys_src (net_run netCfg_apart hr 1)⟩
  mock := mock_trans sys_mock0 (sys_mock (net_run netCfg_apart hr 1))
  receiver := by rw [hn]; decide
  subscribed := by rw [hn]; decide
  unsent := by rw [hn]; rfl
  returned := by
    rw [hn]
    intro o i m h _
    simp [netBefore] at h
    obtain ⟨rfl, _⟩ := h
    exact ⟨none, by decide⟩
  cl := by rw [show (s1.view 1).cl = s1.cl 1 from rfl, hcl]; exact sys_cl0
  listener := ⟨{ pc := .receiving }, by rw [show (s1.view 1).cl = s1.cl 1 from rfl, hcl]; rfl, Or.inr (Or.inl rfl)⟩
  registered := by rw [show (s1.view 1).cl = s1.cl 1 from rfl, hcl]; rfl
  sending := by
    intro o h
    rw [show (s1.view 1).sending = s1.sending from rfl, hsend] at h
    cases h
  ended := hend

/-- The run: a host with a name is told to collector 0; the name is taken away, which no delta can say; collector 1 joins; a flush is served. -/
theorem net_example : ∃ evs1 evs2 s1 s d0 m2, Net.Run netCfg net0 evs1 s1 ∧ Net.Run netCfg s1 evs2 s ∧
    Sys.Join (netCfg.at 1) ([.newReceiver 0 "mc/sfe.c1", .step 0, .subscribed 0, .newSender 0 "mc/sfe.c1"] ++ evs1.n) d0 (s1.view 1) ∧
    (s.view 0).Still (netCfg.at 0) ∧ (s.view 1).Still (netCfg.at 1) ∧ s.src.mgr.flushQueue = 0 ∧ Lossless (evs1.m ++ evs2.m) ∧
    (evs2.m = .flushReceived :: evs2.m.tail ∧ opsOn 0 evs2.m = [] ∧ opsOn 0 evs1.m = netOps) ∧ (∀ r, MockEv.closeReceiver r ∉ evs1.n ++ evs2.n) ∧ (s.cl 0).crashed = false ∧ (s.cl 1).crashed = false ∧ s1.stores 1 = (fun _ => after vanOps exCfg []) ∧
    s.src.versions = [hostRec "h1" "x", hostRec "h1" ""] ∧ sentMsgs evs2.m = [m2] ∧ RecordMsg.encode vanRegistry { records := [hostRec "h1" ""] } = .ok m2 := by
  obtain ⟨m1, e1⟩ : ∃ m, RecordMsg.encode vanRegistry { records := [hostRec "h1" "x"] } = .ok m := ⟨_, rfl⟩
  obtain ⟨m2, e2⟩ : ∃ m, RecordMsg.encode vanRegistry { records := [hostRec "h1" ""] } = .ok m := ⟨_, rfl⟩
  have r0 : Net.Run netCfg net0 {} net0 := .nil
  have a1 := r0.snoc (.of 0 (.source (.write (.storeOp 0 (.accumulate exSrc (hostRec "h1" "x") t0)) (r := hostRec "h1" "x") ⟨hostRec_good _ _, rfl, rfl⟩ rfl net_x) (by simp) (by simp)) (by simp))
  have a2 := a1.snoc (.of 0 (.source (.publish rfl (.publish { curr := hostRec "h1" "x" } (show 0 < 256 by decide))) (by simp) (by simp)) (by simp))
  have a3 := a2.snoc (.of 0 (.source (.mgr (by simp) (by simp) (.take rfl rfl)) (by simp) (by simp)) (by simp))
  have a4 := a3.snoc (.of 0 (.source (.mgr (by simp) (by simp) (.diff rfl rfl)) (by simp) (by simp)) (by simp))
  have a5 := a4.snoc (.of 0 (.source (.mgr (by simp) (by simp) (.queueUpdate (msg := [hostRec "h1" "x"]) rfl (show 0 < 256 by decide))) (by simp) (by simp)) (by simp))
  have a6 := a5.snoc (.of 0 (.source (.mgr (by simp) (by simp) (.takeMsg rfl (List.cons_ne_nil _ _))) (by simp) (by simp)) (by simp))
  have a7 := a6.snoc (.of 0 (.send (o := 0) rfl rfl e1 (.call (i := 0) (x := { addr := "mc/sfe.c1" }) 0 none rfl) rfl) (by simp))
  have a8 := a7.snoc (.of 0 (.router (.startGo (o := 0) rfl rfl rfl rfl rfl) (by simp) (by simp) (by simp)) (by simp))
  have a9 := a8.snoc (.of 0 (.router (.get (o := 0) rfl rfl) (by simp) (by simp) (by simp)) (by simp))
  have a10 := a9.snoc (.of 0 (.router (.lock (o := 0) (mc := 0) rfl rfl rfl rfl (List.cons_ne_nil _ _)) (by simp) (by simp) (by simp)) (by simp))
  have a11 := a10.snoc (.of 0 (.router (.offer (o := 0) rfl rfl rfl rfl) (by simp) (by simp) (by simp)) (by simp))
  have a12 := a11.snoc (.of 0 (.router (.put (o := 0) rfl rfl rfl (show 0 < 256 by decide)) (by simp) (by simp) (by simp)) (by simp))
  have a13 := a12.snoc (.of 0 (.sent (o := 0) rfl (.finish rfl rfl) (.mgr (by simp) (by simp) (.send rfl e1 rfl))) (by simp))
  have a14 := a13.snoc (.of 0 (.next (m := 0) rfl rfl (.recv (r := 0) rfl rfl rfl) rfl (.deliver (l := 0) _ rfl rfl)) (by
    intro d hd m
    simp only [netCfg, List.mem_singleton, MockEv.recv.injEq, not_and]
    exact fun h => absurd h hd))
  obtain ⟨q1, hq1⟩ := (C100_no_panic (start_join net0_start) (net_run netCfg_apart a14 0) (net_collects 0)).2 m1 (by simp [deliveredTo, NetEv.view, netCfg, NetCfg.at])
  have a15 := a14.snoc (.of 0 (.client rfl rfl (.decoded (l := 0) rfl rfl hq1) (by simp) (by simp) (by simp) (by simp)) (by simp))
  have a16 := a15.snoc (.of 0 (.client rfl rfl (.fetch (l := 0) rfl rfl rfl) (by simp) (by simp) (by simp) (by simp)) (by simp))
  have a17 := a16.snoc (.of 0 (.client rfl rfl (.call (l := 0) (h := 3) rfl rfl) (by simp) (by simp) (by simp [netCfg, NetCfg.at]) (by simp)) (by simp))
  cases hd1 : (lateCfg.world.dispatch vanOps lateCfg.disp (q1.records.zipIdx.map fun p => (p.1, (fun _ => t0) p.2)) (fun _ => after vanOps exCfg [])) with
  | mk st1 po1 =>
  cases po1 with
  | some p =>
    have := (C100_no_panic (start_join net0_start) (net_run netCfg_apart (a17.snoc (.of 0 (.dispatchPanic (fun _ => t0) rfl rfl (.call (l := 0) rfl rfl) hd1) (by simp))) 0) (net_collects 0)).1
    cases this
  | none =>
  have a18 := a17.snoc (.of 0 (.dispatch (fun _ => t0) rfl rfl (.call (l := 0) rfl rfl) hd1) (by simp))
  have a19 := a18.snoc (.of 0 (.client rfl rfl (.again (l := 0) rfl rfl) (by simp) (by simp) (by simp) (by simp)) (by simp))
  have b1 := a19.snoc (.of 0 (.source (.write (.storeOp 0 (.update (hostEntry "h1" "" "r1") none t0)) (r := hostRec "h1" "") ⟨hostRec_good _ _, rfl, rfl⟩ rfl
    (back_holds "" _ ((hostEntry "h1" "" "r1").stamp t0) rfl rfl)) (by simp) (by simp)) (by simp))
  have b2 := b1.snoc (.of 0 (.source (.publish rfl (.publish { prev := hostRec "h1" "x", curr := hostRec "h1" "" } (show 0 < 256 by decide))) (by simp) (by simp)) (by simp))
  have b3 := b2.snoc (.of 0 (.source (.mgr (by simp) (by simp) (.take rfl rfl)) (by simp) (by simp)) (by simp))
  have b4 := b3.snoc (.of 0 (.source (.mgr (by simp) (by simp) (.diff (msg := []) rfl rfl)) (by simp) (by simp)) (by simp))
  have b5 := b4.snoc (.of 0 (.router (.newReceiver "mc/sfe.c1" 256) (by simp) (by simp) (by simp)) (by simp))
  have b6 := b5.snoc (.of 0 (.router (.subGet (r := 1) rfl rfl) (by simp) (by simp) (by simp)) (by simp))
  have b7 := b6.snoc (.of 0 (.router (.subscribe (r := 1) (mc := 0) rfl rfl rfl rfl) (by simp) (by simp) (by simp)) (by simp))
  have c0 := net_here b7
  have hj := net_joined b7 (by simp [netBefore]; and_intros <;> rfl) rfl rfl rfl
  have c1 := c0.snoc (.of 0 (.source (.mgr (by simp) (by simp) .flushReceived) (by simp) (by simp)) (by simp))
  have c2 := c1.snoc (.of 0 (.source (.mgr (by simp) (by simp) (.takeFlush rfl (show 0 < 1 by decide))) (by simp) (by simp)) (by simp))
  have c3 := c2.snoc (.of 0 (.source (.mgr (by simp) (by simp) (.flushBegin rfl)) (by simp) (by simp)) (by simp))
  have c4 := c3.snoc (.of 0 (.source (.mgr (by simp) (by simp) (.page 0 rfl rfl)) (by simp) (by simp)) (by simp))
  have c5 := c4.snoc (.of 0 (.source (.mgr (by simp) (by simp) (.queueFlush (msg := [hostRec "h1" ""]) rfl (show 0 < 256 by decide))) (by simp) (by simp)) (by simp))
  have c6 := c5.snoc (.of 0 (.source (.mgr (by simp) (by simp) (.flushEnd rfl)) (by simp) (by simp)) (by simp))
  have c7 := c6.snoc (.of 0 (.source (.mgr (by simp) (by simp) (.takeMsg rfl (List.cons_ne_nil _ _))) (by simp) (by simp)) (by simp))
  have c8 := c7.snoc (.of 0 (.send (o := 1) rfl rfl e2 (.call (i := 0) (x := { addr := "mc/sfe.c1" }) 1 none rfl) rfl) (by simp))
  have c9 := c8.snoc (.of 0 (.router (.startGo (o := 1) rfl rfl rfl rfl rfl) (by simp) (by simp) (by simp)) (by simp))
  have c10 := c9.snoc (.of 0 (.router (.get (o := 1) rfl rfl) (by simp) (by simp) (by simp)) (by simp))
  have c11 := c10.snoc (.of 0 (.router (.lock (o := 1) (mc := 0) rfl rfl rfl rfl (List.cons_ne_nil _ _)) (by simp) (by simp) (by simp)) (by simp))
  have c12 := c11.snoc (.of 0 (.router (.offer (o := 1) rfl rfl rfl rfl) (by simp) (by simp) (by simp)) (by simp))
  have c13 := c12.snoc (.of 0 (.router (.put (o := 1) rfl rfl rfl (show 0 < 256 by decide)) (by simp) (by simp) (by simp)) (by simp))
  have c14 := c13.snoc (.of 0 (.router (.offer (o := 1) rfl rfl rfl rfl) (by simp) (by simp) (by simp)) (by simp))
  have c15 := c14.snoc (.of 0 (.router (.put (o := 1) rfl rfl rfl (show 0 < 256 by decide)) (by simp) (by simp) (by simp)) (by simp))
  have c16 := c15.snoc (.of 0 (.sent (o := 1) rfl (.finish rfl rfl) (.mgr (by simp) (by simp) (.send rfl e2 rfl))) (by simp))
  have c17 := c16.snoc (.of 0 (.next (m := 1) rfl rfl (.recv (r := 0) rfl rfl rfl) rfl (.deliver (l := 0) _ rfl rfl)) (by
    intro d hd m
    simp only [netCfg, List.mem_singleton, MockEv.recv.injEq, not_and]
    exact fun h => absurd h hd))
  have c18 := c17.snoc (.of 1 (.next (m := 1) rfl rfl (.recv (r := 1) rfl rfl rfl) rfl (.deliver (l := 0) _ rfl rfl)) (by
    intro d hd m
    simp only [netCfg, List.mem_singleton, MockEv.recv.injEq, not_and]
    exact fun h => absurd h hd))
  obtain ⟨q2, hq2⟩ := (C100_no_panic hj (net_run netCfg_apart c18 1) (net_collects 1)).2 m2 (by simp [deliveredTo, NetEv.view, netCfg, NetCfg.at])
  have c19 := c18.snoc (.of 0 (.client rfl rfl (.decoded (l := 0) rfl rfl hq2) (by simp) (by simp) (by simp) (by simp)) (by simp))
  have c20 := c19.snoc (.of 0 (.client rfl rfl (.fetch (l := 0) rfl rfl rfl) (by simp) (by simp) (by simp) (by simp)) (by simp))
  have c21 := c20.snoc (.of 0 (.client rfl rfl (.call (l := 0) (h := 3) rfl rfl) (by simp) (by simp) (by simp [netCfg, NetCfg.at]) (by simp)) (by simp))
  cases hd2 : (lateCfg.world.dispatch vanOps lateCfg.disp (q2.records.zipIdx.map fun p => (p.1, (fun _ => t0) p.2)) st1) with
  | mk st2 po2 =>
  cases po2 with
  | some p =>
    have := (C100_no_panic (start_join net0_start) (sys_trans (net_run netCfg_apart b7 0) (net_run netCfg_apart (c21.snoc (.of 0 (.dispatchPanic (fun _ => t0) rfl rfl (.call (l := 0) rfl rfl) hd2) (by simp))) 0)) (net_collects 0)).1
    cases this
  | none =>
  have c22 := c21.snoc (.of 0 (.dispatch (fun _ => t0) rfl rfl (.call (l := 0) rfl rfl) hd2) (by simp))
  have c23 := c22.snoc (.of 0 (.client rfl rfl (.again (l := 0) rfl rfl) (by simp) (by simp) (by simp) (by simp)) (by simp))
  have d1 := c23.snoc (.of 1 (.client rfl rfl (.decoded (l := 0) rfl rfl hq2) (by simp) (by simp) (by simp) (by simp)) (by simp))
  have d2 := d1.snoc (.of 1 (.client rfl rfl (.fetch (l := 0) rfl rfl rfl) (by simp) (by simp) (by simp) (by simp)) (by simp))
  have d3 := d2.snoc (.of 1 (.client rfl rfl (.call (l := 0) (h := 3) rfl rfl) (by simp) (by simp) (by simp [netCfg, NetCfg.at]) (by simp)) (by simp))
  cases hd3 : (lateCfg.world.dispatch vanOps lateCfg.disp (q2.records.zipIdx.map fun p => (p.1, (fun _ => t0) p.2)) (fun _ => after vanOps exCfg [])) with
  | mk st3 po3 =>
  cases po3 with
  | some p =>
    have := (C100_no_panic hj (net_run netCfg_apart (d3.snoc (.of 1 (.dispatchPanic (fun _ => t0) rfl rfl (.call (l := 0) rfl rfl) hd3) (by simp))) 1) (net_collects 1)).1
    cases this
  | none =>
  have d4 := d3.snoc (.of 1 (.dispatch (fun _ => t0) rfl rfl (.call (l := 0) rfl rfl) hd3) (by simp))
  have d5 := d4.snoc (.of 1 (.client rfl rfl (.again (l := 0) rfl rfl) (by simp) (by simp) (by simp) (by simp)) (by simp))
  refine ⟨_, _, _, _, _, m2, b7, d5, hj, ⟨⟨rfl, rfl, rfl, rfl⟩, rfl, ?_, _, rfl, rfl⟩, ⟨⟨rfl, rfl, rfl, rfl⟩, rfl, ?_, _, rfl, rfl⟩, rfl, by intro rs; simp, ⟨by simp, by simp [opsOn], by simp [opsOn, netOps]⟩, by intro r; simp, rfl, rfl, rfl, rfl, by simp [sentMsgs], e2⟩
  · intro x hx
    cases hx
    rfl
  · intro x hx
    cases hx
    rfl

/-- **C129 is false** of attributes the last version has no more: of two collectors one was there from the start, the other joined later; nothing is lost, a flush was served after the second
had joined, all is quiet — and one shows a name the other does not. -/
theorem C129_counterexample : ∃ k n0 c0 d0 s0 s1 s evs1 evs2 cfg, NetCfg.Apart k ∧ Sys.Start (k.at 0) n0 c0 (s0.view 0) ∧ Net.Run k s0 evs1 s1 ∧ Sys.Join (k.at 1) (n0 ++ evs1.n) d0 (s1.view 1) ∧
    Net.Run k s1 evs2 s ∧ (s.view 0).Still (k.at 0) ∧ (s.view 1).Still (k.at 1) ∧ s.src.mgr.flushQueue = 0 ∧ Lossless (evs1.m ++ evs2.m) ∧ MgrEv.flushReceived ∈ evs2.m ∧
    ∃ g g' e e', s.stores 0 0 = after vanOps cfg g ∧ s.stores 1 0 = after vanOps cfg g' ∧ content vanOps cfg g "h1" = some e ∧ content vanOps cfg g' "h1" = some e' ∧
      attrOf e.record (.u32 30) = some (.str "x") ∧ attrOf e'.record (.u32 30) = none := by
  obtain ⟨evs1, evs2, s1, s, d0, m2, r1, r2, hj, hs0, hs1, hq, hl, hf, ho, hc0, hc1, hst, hv, hm, e2⟩ := net_example
  obtain ⟨g, e, a, g1, g2, _, _, g4, g5, _⟩ := C100_converges net0_start (sys_trans (net_run netCfg_apart r1 0) (net_run netCfg_apart r2 0)) hs0
    (by have := ho 0; simpa [NetEv.view, netCfg, NetCfg.at] using this) hc0 hl (by rw [show (s.view 0).src.versions = s.src.versions from rfl, hv]; simp) (net_collects 0) rfl
  have hcol := net_collects 1
  rw [← hst] at hcol
  obtain ⟨clock, hd⟩ := (C100_delivered hj (net_run netCfg_apart r2 1) hs1 (by have := ho 1; simpa [NetEv.view, netCfg, NetCfg.at] using this)).2 hc1 (C100_no_panic hj (net_run netCfg_apart r2 1) hcol).1
  have hinit : StoreHas "h1" ⟨"flow/v1", "HostRecord"⟩ exSrc exSrc (fun _ => none) (after vanOps exCfg []) [] := Or.inl ⟨rfl, rfl, rfl, rfl⟩
  obtain ⟨d, hd1, h2, h', h3, h4⟩ := collector_result (id := "h1") hostReg [] exSrc hostReg_plain hostReg_only (fun _ => exCfg) (fun _ => rfl) (fun _ => exCfg_good) (fun _ => []) (by simp)
    hinit clock (rss := [[hostRec "h1" ""]]) (msgs := [m2]) (by simp; exact hostRec_good _ _) ⟨e2, trivial⟩
  rw [sysCfg_disp] at hd1
  obtain rfl := Option.some.inj hd1
  obtain ⟨e', a', k1, _, _, k3, k4⟩ := h4 (by simp [ofMine]; exact ⟨rfl, rfl⟩)
  rw [show (evs2.view 1).m = evs2.m from rfl, hm, show (s1.view 1).stores = s1.stores 1 from rfl, hst] at hd
  have hd' : collect (runReg (hostReg ++ [.newDispatcher exSrc]) {}).1 sysCfg.disp clock 0 [m2] (fun _ => after vanOps exCfg []) = (s.stores 1, none) := hd
  rw [hd'] at h3
  refine ⟨netCfg, _, _, d0, net0, s1, s, evs1, evs2, exCfg, netCfg_apart, net0_start, r1, hj, r2, hs0, hs1, hq, hl, by rw [hf.1]; simp, g, h', e, e', g1, h3, g2, k1, ?_, ?_⟩
  · rw [attrOf_ok g4, g5, show (s.view 0).src.versions = s.src.versions from rfl, hv]; rfl
  · rw [attrOf_ok k3, k4]; rfl

/-- Instance of `C129_flushed_partial`: both collectors have the identity of the host. -/
example : ∃ s0 evs1 s1 evs2 s, Net.Run netCfg s0 evs1 s1 ∧ Net.Run netCfg s1 evs2 s ∧ ∃ g g' e e', s.stores 0 0 = after vanOps exCfg g ∧ s.stores 1 0 = after vanOps exCfg g' ∧
    content vanOps exCfg g "h1" = some e ∧ content vanOps exCfg g' "h1" = some e' ∧ attrOf e.record (.u32 1) = some (.str "h1") ∧ attrOf e'.record (.u32 1) = some (.str "h1") := by
  obtain ⟨evs1, evs2, s1, s, d0, m2, r1, r2, hj, hs0, hs1, hq, hl, ⟨hf, hp1, hp2⟩, ho, hc0, hc1, hst, hv, hm, e2⟩ := net_example
  have hcol := net_collects 1
  rw [← hst] at hcol
  generalize evs2.m.tail = post at hf
  rw [hf] at hp1
  obtain ⟨g, g', e, e', g1, g2, g3, g4, g5⟩ := C129_flushed_partial netCfg_apart (start_join net0_start) r1 hj r2 hs0 hs1 hq (by have := ho 0; simpa [netCfg] using this)
    (by have := ho 1; simpa [netCfg] using this) hc0 hc1 (pre := []) (post := post) hf
    (fun rs => ⟨fun h => (hl rs).1 (by simp [hf, h]), fun h => (hl rs).2.1 (by simp [hf, h]), fun h => (hl rs).2.2 (by simp [hf, h])⟩)
    (j := 0) (by decide) (cm := exCfg) (hj0 := []) rfl (key := "h1") (by rw [List.append_nil, hp2]; exact net_stays (by simpa [opsOn] using hp1)) (v := hostRec "h1" "") (by rw [hv]; rfl) (net_collects 0) hcol
    (by intro e he; cases he) (by intro e he; cases he)
  exact ⟨net0, evs1, s1, evs2, s, r1, r2, g, g', e, e', g1, g2, g3, g4, g5 _ _ rfl⟩

/-- Instance of `C129_differ`: the run in which the name is taken away. -/
example : ∃ s0 evs1 s1 evs2 s, Net.Run netCfg s0 evs1 s1 ∧ Net.Run netCfg s1 evs2 s ∧ ∃ g g' e e', s.stores 0 0 = after vanOps exCfg g ∧ s.stores 1 0 = after vanOps exCfg g' ∧
    content vanOps exCfg g "h1" = some e ∧ content vanOps exCfg g' "h1" = some e' ∧ (∀ x, attrOf e.record x ≠ attrOf e'.record x → attrOf (hostRec "h1" "") x = none ∧ ∃ w ∈ s.src.versions, attrOf w x ≠ none) := by
  obtain ⟨evs1, evs2, s1, s, d0, m2, r1, r2, hj, hs0, hs1, hq, hl, ⟨hf, hp1, hp2⟩, ho, hc0, hc1, hst, hv, hm, e2⟩ := net_example
  have hcol := net_collects 1
  rw [← hst] at hcol
  generalize evs2.m.tail = post at hf
  rw [hf] at hp1
  obtain ⟨g, g', e, e', g1, g2, g3, g4, g5⟩ := C129_differ netCfg_apart (start_join net0_start) r1 hj r2 hs0 hs1 hq (by have := ho 0; simpa [netCfg] using this)
    (by have := ho 1; simpa [netCfg] using this) hc0 hc1 (pre := []) (post := post) hf
    (fun rs => ⟨fun h => (hl rs).1 (by simp [hf, h]), fun h => (hl rs).2.1 (by simp [hf, h]), fun h => (hl rs).2.2 (by simp [hf, h])⟩)
    (j := 0) (by decide) (cm := exCfg) (hj0 := []) rfl (key := "h1") (by rw [List.append_nil, hp2]; exact net_stays (by simpa [opsOn] using hp1)) (v := hostRec "h1" "") (by rw [hv]; rfl) (net_collects 0) hcol
    rfl rfl
  exact ⟨net0, evs1, s1, evs2, s, r1, r2, g, g', e, e', g1, g2, g3, g4, g5⟩

/-! ## Two collectors from the start -/

/-- Receivers 0 and 1 are subscribed. -/
def pairMock : Mock where
  topics := [("mc/sfe.c1", 0)]
  mcs := [{ receivers := [0, 1], ver := 2 }]
  rcvs := [{ addr := "mc/sfe.c1", cap := 256, sub := .done }, { addr := "mc/sfe.c1", cap := 256, sub := .done }]
  snds := [{ addr := "mc/sfe.c1" }]

def pairEvs : List MockEv := [.newReceiver 0 "mc/sfe.c1", .step 0, .subscribed 0, .newSender 0 "mc/sfe.c1", .newReceiver 1 "mc/sfe.c1", .step 1, .subscribed 1]

theorem pair_mock : Mock.Run {} pairEvs pairMock := by
  have r1 := sys_mock0.snoc (.newReceiver "mc/sfe.c1" 256)
  have r2 := r1.snoc (.subGet (r := 1) rfl rfl)
  exact r2.snoc (.subscribe (r := 1) (mc := 0) rfl rfl rfl rfl)

def pair0 : Net := { net0 with mock := pairMock }

theorem pair_start (c : Nat) (hc : c < 2) : Sys.Start (netCfg.at c) pairEvs [.onRecord 3, .onRecord 7, .listen, .tau] (pair0.view c) := by
  refine ⟨net0_start.src, pair_mock, ?_, ?_, by intro o i m; simp [pairEvs], sys_cl0, ⟨{ pc := .receiving }, rfl, Or.inr (Or.inl rfl)⟩, rfl, rfl, rfl, rfl, rfl⟩
  · obtain rfl | rfl : c = 0 ∨ c = 1 := by omega
    all_goals decide
  · obtain rfl | rfl : c = 0 ∨ c = 1 := by omega
    all_goals decide

theorem pair_example : ∃ evs s, Net.Run netCfg pair0 evs s ∧ (s.view 0).Still (netCfg.at 0) ∧ (s.view 1).Still (netCfg.at 1) ∧ Lossless evs.m ∧ (∀ r, MockEv.closeReceiver r ∉ evs.n) ∧
    (s.cl 0).crashed = false ∧ (s.cl 1).crashed = false ∧ s.src.versions = [hostRec "h1" "x"] := by
  obtain ⟨m1, e1⟩ : ∃ m, RecordMsg.encode vanRegistry { records := [hostRec "h1" "x"] } = .ok m := ⟨_, rfl⟩
  have r0 : Net.Run netCfg pair0 {} pair0 := .nil
  have a1 := r0.snoc (.of 0 (.source (.write (.storeOp 0 (.accumulate exSrc (hostRec "h1" "x") t0)) (r := hostRec "h1" "x") ⟨hostRec_good _ _, rfl, rfl⟩ rfl net_x) (by simp) (by simp)) (by simp))
  have a2 := a1.snoc (.of 0 (.source (.publish rfl (.publish { curr := hostRec "h1" "x" } (show 0 < 256 by decide))) (by simp) (by simp)) (by simp))
  have a3 := a2.snoc (.of 0 (.source (.mgr (by simp) (by simp) (.take rfl rfl)) (by simp) (by simp)) (by simp))
  have a4 := a3.snoc (.of 0 (.source (.mgr (by simp) (by simp) (.diff rfl rfl)) (by simp) (by simp)) (by simp))
  have a5 := a4.snoc (.of 0 (.source (.mgr (by simp) (by simp) (.queueUpdate (msg := [hostRec "h1" "x"]) rfl (show 0 < 256 by decide))) (by simp) (by simp)) (by simp))
  have a6 := a5.snoc (.of 0 (.source (.mgr (by simp) (by simp) (.takeMsg rfl (List.cons_ne_nil _ _))) (by simp) (by simp)) (by simp))
  have a7 := a6.snoc (.of 0 (.send (o := 0) rfl rfl e1 (.call (i := 0) (x := { addr := "mc/sfe.c1" }) 0 none rfl) rfl) (by simp))
  have a8 := a7.snoc (.of 0 (.router (.startGo (o := 0) rfl rfl rfl rfl rfl) (by simp) (by simp) (by simp)) (by simp))
  have a9 := a8.snoc (.of 0 (.router (.get (o := 0) rfl rfl) (by simp) (by simp) (by simp)) (by simp))
  have a10 := a9.snoc (.of 0 (.router (.lock (o := 0) (mc := 0) rfl rfl rfl rfl (List.cons_ne_nil _ _)) (by simp) (by simp) (by simp)) (by simp))
  have a11 := a10.snoc (.of 0 (.router (.offer (o := 0) rfl rfl rfl rfl) (by simp) (by simp) (by simp)) (by simp))
  have a12 := a11.snoc (.of 0 (.router (.put (o := 0) rfl rfl rfl (show 0 < 256 by decide)) (by simp) (by simp) (by simp)) (by simp))
  have a12a := a12.snoc (.of 0 (.router (.offer (o := 0) rfl rfl rfl rfl) (by simp) (by simp) (by simp)) (by simp))
  have a12b := a12a.snoc (.of 0 (.router (.put (o := 0) rfl rfl rfl (show 0 < 256 by decide)) (by simp) (by simp) (by simp)) (by simp))
  have a13 := a12b.snoc (.of 0 (.sent (o := 0) rfl (.finish rfl rfl) (.mgr (by simp) (by simp) (.send rfl e1 rfl))) (by simp))
  have a14 := a13.snoc (.of 0 (.next (m := 0) rfl rfl (.recv (r := 0) rfl rfl rfl) rfl (.deliver (l := 0) _ rfl rfl)) (by
    intro d hd m
    simp only [netCfg, List.mem_singleton, MockEv.recv.injEq, not_and]
    exact fun h => absurd h hd))
  obtain ⟨q1, hq1⟩ := (C100_no_panic (start_join (pair_start 0 (by decide))) (net_run netCfg_apart a14 0) (net_collects 0)).2 m1 (by simp [deliveredTo, NetEv.view, netCfg, NetCfg.at])
  have b14 := a14.snoc (.of 1 (.next (m := 0) rfl rfl (.recv (r := 1) rfl rfl rfl) rfl (.deliver (l := 0) _ rfl rfl)) (by
    intro d hd m
    simp only [netCfg, List.mem_singleton, MockEv.recv.injEq, not_and]
    exact fun h => absurd h hd))
  have b15 := b14.snoc (.of 1 (.client rfl rfl (.decoded (l := 0) rfl rfl hq1) (by simp) (by simp) (by simp) (by simp)) (by simp))
  have b16 := b15.snoc (.of 1 (.client rfl rfl (.fetch (l := 0) rfl rfl rfl) (by simp) (by simp) (by simp) (by simp)) (by simp))
  have b17 := b16.snoc (.of 1 (.client rfl rfl (.call (l := 0) (h := 3) rfl rfl) (by simp) (by simp) (by simp [netCfg, NetCfg.at]) (by simp)) (by simp))
  cases hd1 : (lateCfg.world.dispatch vanOps lateCfg.disp (q1.records.zipIdx.map fun p => (p.1, (fun _ => t0) p.2)) (fun _ => after vanOps exCfg [])) with
  | mk st1 po1 =>
  cases po1 with
  | some p =>
    have := (C100_no_panic (start_join (pair_start 1 (by decide))) (net_run netCfg_apart (b17.snoc (.of 1 (.dispatchPanic (fun _ => t0) rfl rfl (.call (l := 0) rfl rfl) hd1) (by simp))) 1) (net_collects 1)).1
    cases this
  | none =>
  have b18 := b17.snoc (.of 1 (.dispatch (fun _ => t0) rfl rfl (.call (l := 0) rfl rfl) hd1) (by simp))
  have b19 := b18.snoc (.of 1 (.client rfl rfl (.again (l := 0) rfl rfl) (by simp) (by simp) (by simp) (by simp)) (by simp))
  have a15 := b19.snoc (.of 0 (.client rfl rfl (.decoded (l := 0) rfl rfl hq1) (by simp) (by simp) (by simp) (by simp)) (by simp))
  have a16 := a15.snoc (.of 0 (.client rfl rfl (.fetch (l := 0) rfl rfl rfl) (by simp) (by simp) (by simp) (by simp)) (by simp))
  have a17 := a16.snoc (.of 0 (.client rfl rfl (.call (l := 0) (h := 3) rfl rfl) (by simp) (by simp) (by simp [netCfg, NetCfg.at]) (by simp)) (by simp))
  have a18 := a17.snoc (.of 0 (.dispatch (fun _ => t0) rfl rfl (.call (l := 0) rfl rfl) hd1) (by simp))
  have a19 := a18.snoc (.of 0 (.client rfl rfl (.again (l := 0) rfl rfl) (by simp) (by simp) (by simp) (by simp)) (by simp))
  refine ⟨_, _, a19, ⟨⟨rfl, rfl, rfl, rfl⟩, rfl, ?_, _, rfl, rfl⟩, ⟨⟨rfl, rfl, rfl, rfl⟩, rfl, ?_, _, rfl, rfl⟩, by intro rs; simp, by intro r; simp, rfl, rfl, rfl⟩
  · intro x hx
    cases hx
    rfl
  · intro x hx
    cases hx
    rfl

/-- Instance of `C129_start` and `C129_changed`. -/
example : ∃ evs s, Net.Run netCfg pair0 evs s ∧
    (∃ g g' e e', s.stores 0 0 = after vanOps exCfg g ∧ s.stores 1 0 = after vanOps exCfg g' ∧ content vanOps exCfg g "h1" = some e ∧ content vanOps exCfg g' "h1" = some e' ∧
      ∀ x, attrOf e.record x = attrOf e'.record x) ∧
    ∃ g g' e e', s.stores 0 0 = after vanOps exCfg g ∧ s.stores 1 0 = after vanOps exCfg g' ∧ content vanOps exCfg g "h1" = some e ∧ content vanOps exCfg g' "h1" = some e' ∧
      attrOf e.record (.u32 30) = some (.str "x") ∧ attrOf e'.record (.u32 30) = some (.str "x") := by
  obtain ⟨evs, s, r, hs0, hs1, hl, ho, hc0, hc1, hv⟩ := pair_example
  have o0 : MockEv.closeReceiver (netCfg.rcv 0) ∉ pairEvs ++ evs.n := by have := ho 0; simpa [netCfg, pairEvs] using this
  have o1 : MockEv.closeReceiver (netCfg.rcv 1) ∉ pairEvs ++ evs.n := by have := ho 1; simpa [netCfg, pairEvs] using this
  refine ⟨evs, s, r, C129_start netCfg_apart (pair_start 0 (by decide)) (pair_start 1 (by decide)) r hs0 hs1 o0 o1 hc0 hc1 hl (by rw [hv]; simp) (net_collects 0) (net_collects 1) rfl rfl, ?_⟩
  obtain ⟨g, g', e, e', g1, g2, g3, g4, g5, g6⟩ := C129_changed (x := .u32 30) netCfg_apart (start_join (pair_start 0 (by decide))) (.nil) (by simpa using start_join (pair_start 1 (by decide))) r hs0 hs1
    (by simpa using o0) (by simpa using o1) hc0 hc1 hl ⟨[], hostRec "h1" "x", [], .str "x", hv, Nat.le_refl _, rfl, by intro w hw; cases hw⟩ (net_collects 0) (net_collects 1)
    (by intro e he; cases he) (by intro e he; cases he)
  rw [hv] at g5 g6
  exact ⟨g, g', e, e', g1, g2, g3, g4, g5, g6⟩

end Verif.Props
