import Verif.Props.Resync

/-! # C105: nothing a collector has is made up -/
namespace Verif.Props
open Verif Verif.Model Verif.Spec Verif.Proofs

theorem diffsOf_one {us : List RecordUpdate} {r : GoRec GoTime} (h : r ∈ diffsOf us) : ∃ u ∈ us, diffsOf [u] = [r] := by
  simp only [diffsOf, List.mem_filterMap] at h
  obtain ⟨u, h1, h2⟩ := h
  refine ⟨u, h1, ?_⟩
  simp only [diffsOf, List.filterMap_cons, List.filterMap_nil, h2]

theorem chainFrom_prev : ∀ {vs : List (GoRec GoTime)} {p : GoRec GoTime} {u : RecordUpdate}, u ∈ chainFrom p vs → u.prev = p ∨ u.prev ∈ vs
  | [], _, _, h => by simp [chainFrom] at h
  | v :: vs, p, u, h => by
    simp only [chainFrom, List.mem_cons] at h
    rcases h with rfl | h
    · exact .inl rfl
    · rcases chainFrom_prev h with h | h
      · exact .inr (h ▸ List.mem_cons_self)
      · exact .inr (List.mem_cons_of_mem _ h)

/-- Every attribute of what is queued is one of a version. -/
def Honest : Claim := fun Q V1 V2 => ∀ r ∈ Q, ∀ k x, attrOf r k = some x → ∃ v ∈ V1 ++ V2, attrOf v k = some x

theorem honest_kept : Kept Honest where
  emit := by
    intro Q V1 va vb hV h r hr k x hx
    rcases List.mem_append.1 hr with hr | hr
    · rw [List.append_assoc]; exact h r hr k x hx
    · obtain ⟨u, h1, h2⟩ := diffsOf_one hr
      have hc := chainFrom_curr h1
      have hp : u.prev = .nil ∨ ∃ a, vanOps.encode u.prev = .ok a := by
        rcases chainFrom_prev h1 with h | h
        · rw [h]; exact prev_enc fun w hw => hV w (List.mem_append_left _ hw)
        · exact .inr (hV _ (by simp [h])).2
      rcases contribution hp (hV u.curr (by simp [hc])) k with ⟨v, c1, c2⟩ | ⟨c1, _⟩
      · have := c2 none
        rw [h2] at this
        simp only [latestFrom, List.foldl_cons, List.foldl_nil, hx, Option.some_or, Option.some.injEq] at this
        subst this
        exact ⟨u.curr, by simp [hc], c1⟩
      · have := c1 none
        rw [h2] at this
        simp [latestFrom, hx] at this
  snap := by
    intro Q V1 V2 r _ hr h w hw k x hx
    rcases List.mem_append.1 hw with hw | hw
    · exact h w hw k x hx
    · simp only [List.mem_singleton] at hw
      subst hw
      refine ⟨w, ?_, hx⟩
      rcases List.mem_append.1 hr with hr | hr
      · exact List.mem_append_left _ (List.mem_of_getLast? (Option.mem_toList.1 hr))
      · exact List.mem_append_right _ hr
  grow := by
    intro Q V1 V2 r _ h w hw k x hx
    obtain ⟨v, h1, h2⟩ := h w hw k x hx
    exact ⟨v, by rw [← List.append_assoc]; exact List.mem_append_left _ h1, h2⟩

theorem versions_kept {cfg : MgrConfig} {id : String} {tm : TypeMeta} {a b : Src} {ev : Option MgrEv} (hs : Src.Step cfg id tm a ev b) : ∀ v ∈ a.versions, v ∈ b.versions := by
  intro v hv
  cases hs with
  | write | mint => exact List.mem_append_left _ hv
  | _ => exact hv

/-- Every attribute queued of the record is one of its versions. -/
theorem queued_honest {cfg : MgrConfig} {id : String} {tm : TypeMeta} {evs : List MgrEv} {s s' : Src} (h : Src.Start cfg id tm s)
    (hr : Src.Run cfg id tm s evs s') : ∀ r ∈ (queued evs).flatten, Mine id tm r → ∀ k x, attrOf r k = some x → ∃ v ∈ s'.versions, attrOf v k = some x := by
  induction hr with
  | nil => simp [queued]
  | @snoc s1 s2 evs ev hr hs ih =>
    by_cases hq : queued ev.toList = []
    · rw [queued_append, hq, List.append_nil]
      intro r h1 h2 k x hx
      obtain ⟨v, g1, g2⟩ := ih r h1 h2 k x hx
      exact ⟨v, versions_kept hs v g1, g2⟩
    · obtain ⟨_, hdead | ⟨V1, V2, buf, hi⟩⟩ := srcOK_run honest_kept (srcOK_start (by intro r hr; cases hr) h) (hr.snoc hs)
      · exfalso
        have hne : ∀ e : MgrEv, ev = some e → queued [e] ≠ [] := fun e he => by rw [he] at hq; exact hq
        cases hs with
        | mint => exact hq rfl
        | write | storeOther | publish | publishOther => exact hne _ rfl rfl
        | mgr _ _ hm =>
          cases hm <;> first | exact hne _ rfl rfl | (unfold Dead at hdead; simp at hdead)
      · intro r h1 h2 k x hx
        rw [hi.versions]
        exact hi.value r (List.mem_filter.2 ⟨h1, by simpa using h2⟩) k x hx

theorem latestFrom_some {x : Option Any} {k y : Any} : ∀ {rs : List (GoRec GoTime)}, latestFrom x rs k = some y → x = some y ∨ ∃ r ∈ rs, attrOf r k = some y := by
  intro rs
  induction rs using List.reverseRecOn with
  | nil => exact fun h => .inl h
  | append_singleton rs r ih =>
    intro h
    rw [latestFrom_snoc] at h
    cases hk : attrOf r k with
    | some z => rw [hk] at h; simp only [Option.some_or, Option.some.injEq] at h; subst h; exact .inr ⟨r, by simp, hk⟩
    | none =>
      rw [hk] at h
      rcases ih h with h | ⟨w, h1, h2⟩
      · exact .inl h
      · exact .inr ⟨w, List.mem_append_left _ h1, h2⟩

/-- **C105.** At every time, whatever was lost before: every attribute of the record that the collector's store shows is one of a version of the source, or one the collector's own stale
entry had when it joined. -/
theorem C105_honest {k : SysCfg} {n0 : List MockEv} {c0 : List ClEv} {s0 s : Sys} {evs : SysEv} (h0 : Sys.Join k n0 c0 s0) (hr : Sys.Run k s0 evs s) (hcr : s.cl.crashed = false)
    {cs1 cs2 : List RegCmd} {ref : SourceRef} {i : Nat} {cfg : Nat → CacheConfig (GoRec GoTime)} {h : Nat → List (Op (GoRec GoTime))}
    (hc : Collects k cs1 cs2 ref i cfg h s0.stores)
    (hstale : ∀ e, content vanOps (cfg i) (h i) k.id = some e → OfKind k.id k.tm e.record ∧ Encodable e.record) :
    ∃ h', s.stores i = after vanOps (cfg i) h' ∧ ∀ e, content vanOps (cfg i) h' k.id = some e → OfKind k.id k.tm e.record ∧ ∀ x y, attrOf e.record x = some y →
      (∃ v ∈ s.src.versions, attrOf v x = some y) ∨ ∃ e0, content vanOps (cfg i) (h i) k.id = some e0 ∧ attrOf e0.record x = some y := by
  obtain ⟨done, pend, clock, hdel, hcol, _⟩ := (coll_run h0 hr).told hcr (C100_no_panic h0 hr hc).1
  obtain ⟨s1, evs1, hs1, hr1⟩ := h0.src
  have hrun := src_trans hr1 (sys_src hr)
  obtain ⟨rss, k1, k2⟩ := pointwise_of_all (bs := done) (P := fun rs => rs ∈ queued (evs1 ++ evs.m)) (R := fun rs m => RecordMsg.encode vanRegistry { records := rs } = .ok m) fun m hm => by
    obtain ⟨rs, g1, g2⟩ := delivered_queued h0 hr hs1 hr1 (m := m) (by rw [hdel]; exact List.mem_append_left _ hm)
    exact ⟨rs, g1, g2⟩
  have hq : ∀ r ∈ rss.flatten, r ∈ (queued (evs1 ++ evs.m)).flatten := by
    intro r hr
    obtain ⟨rs, g1, g2⟩ := List.mem_flatten.1 hr
    exact List.mem_flatten.2 ⟨rs, k1 rs g1, g2⟩
  have hinit : ∃ S f0, StoreHas k.id k.tm ref S f0 (after vanOps (cfg i) (h i)) [] ∧
      ∀ x y, f0 x = some y → ∃ e0, content vanOps (cfg i) (h i) k.id = some e0 ∧ attrOf e0.record x = some y := by
    cases hcont : content vanOps (cfg i) (h i) k.id with
    | none => exact ⟨ref, _, Or.inl ⟨rfl, by rw [← content_eq vanOps_lawful]; exact hcont, rfl, rfl⟩, by simp⟩
    | some e =>
      obtain ⟨g1, g2⟩ := hstale e hcont
      exact ⟨e.md.source, fun k => attrOf e.record k, Or.inr ⟨e, by rw [← content_eq vanOps_lawful]; exact hcont, g1, rfl, g2, fun k => rfl⟩, fun x y h => ⟨e, rfl, h⟩⟩
  obtain ⟨S, f0, hinit, hf0⟩ := hinit
  obtain ⟨d, hd, h2, h', rs, h3, hst, _, w1⟩ := collector_has cs1 cs2 ref hc.plain hc.only cfg hc.key hc.good h hc.hist hinit clock
    (fun r hr => queued_good hs1 hrun r (hq r hr)) k2
  rw [hc.disp] at hd
  obtain rfl := Option.some.inj hd
  rw [← hc.world, ← hc.stores, hcol] at h3
  refine ⟨h', h3, fun e he => ?_⟩
  rw [content_eq vanOps_lawful] at he
  rcases hst with ⟨_, hn, _⟩ | ⟨e', g1, g2, _, _, g3⟩
  · rw [hn] at he; cases he
  · rw [g1] at he
    obtain rfl := Option.some.inj he
    refine ⟨g2, fun x y hx => ?_⟩
    rw [g3, w1] at hx
    rcases latestFrom_some hx with hx | ⟨r, h1, hx⟩
    · exact .inr (hf0 x y hx)
    · obtain ⟨h4, h5⟩ := List.mem_filter.1 h1
      exact .inl (queued_honest hs1 hrun r (hq r h4) (by simpa using h5) x y hx)

/-- Instance of C105 and C104: after the run of C104's instance the host is shown, and what is shown is of the version. -/
example : ∃ evs s, Sys.Run lateCfg late0 evs s ∧ ∃ h', s.stores 0 = after vanOps exCfg h' ∧ ∀ e, content vanOps exCfg h' "h1" = some e → ∀ x y, attrOf e.record x = some y →
    attrOf (hostRec "h1" "x") x = some y := by
  obtain ⟨evs, s, pre, post, hr, hs, hq, ho, hc, hev, hl, hp, hp', hv⟩ := late_example
  obtain ⟨h', g1, g2⟩ := C105_honest late0_join hr hc late0_collects (by intro e he; cases he)
  refine ⟨evs, s, hr, h', g1, fun e he x y hx => ?_⟩
  rcases (g2 e he).2 x y hx with ⟨v, h1, h2⟩ | ⟨e0, h1, _⟩
  · rw [hv] at h1
    simp only [List.mem_singleton] at h1
    rwa [h1] at h2
  · cases h1

theorem latest_ne_none {k : Any} : ∀ {vs : List (GoRec GoTime)} {v : GoRec GoTime} {y : Any}, v ∈ vs → attrOf v k = some y → latest vs k ≠ none := by
  intro vs
  induction vs using List.reverseRecOn with
  | nil => intro v y h; cases h
  | append_singleton vs w ih =>
    intro v y h hy
    rw [latest_snoc]
    rcases List.mem_append.1 h with h | h
    · have := ih h hy
      cases attrOf w k with
      | none => simpa using this
      | some z => simp
    · simp only [List.mem_singleton] at h
      subst h
      rw [hy]; simp

/-- **C104 (exactly).** If moreover the collector had no entry of the record, and the source never clears an attribute, the entry has exactly the attributes of the last version. -/
theorem C104_exact {k : SysCfg} {n0 : List MockEv} {c0 : List ClEv} {s0 s : Sys} {evs : SysEv} (h0 : Sys.Join k n0 c0 s0) (hr : Sys.Run k s0 evs s) (hstill : s.Still k)
    (hfq : s.src.mgr.flushQueue = 0) (hopen : MockEv.closeReceiver k.rcv ∉ n0 ++ evs.n) (hcr : s.cl.crashed = false)
    {pre post : List MgrEv} (hev : evs.m = pre ++ .flushReceived :: post) (hl : Lossless post)
    {j : Nat} (hj : j < k.mgr.numStores) {c : CacheConfig (GoRec GoTime)} {hj0 : List (Op (GoRec GoTime))} (hst : s0.src.mgr.stores j = after vanOps c hj0) {key : String}
    (hstay : Stays c (hj0 ++ opsOn j pre) j key (fun e => Mine k.id k.tm e.record) post) {v : GoRec GoTime} (hv : s.src.versions.getLast? = some v) (hnc : NeverCleared s.src.versions)
    {cs1 cs2 : List RegCmd} {ref : SourceRef} {i : Nat} {cfg : Nat → CacheConfig (GoRec GoTime)} {h : Nat → List (Op (GoRec GoTime))}
    (hc : Collects k cs1 cs2 ref i cfg h s0.stores) (hnone : content vanOps (cfg i) (h i) k.id = none) :
    ∃ h' e, s.stores i = after vanOps (cfg i) h' ∧ content vanOps (cfg i) h' k.id = some e ∧ OfKind k.id k.tm e.record ∧ ∀ x, attrOf e.record x = attrOf v x := by
  have hstale : ∀ e, content vanOps (cfg i) (h i) k.id = some e → OfKind k.id k.tm e.record ∧ Encodable e.record := by rw [hnone]; simp
  obtain ⟨h', e, g1, g2, g3, g4⟩ := C104_resync h0 hr hstill hfq hopen hcr hev hl hj hst hstay hv hc hstale
  obtain ⟨h'', f1, f2⟩ := C105_honest h0 hr hcr hc hstale
  have heq : content vanOps (cfg i) h'' = content vanOps (cfg i) h' := by
    funext x
    rw [content_eq vanOps_lawful, content_eq vanOps_lawful, ← f1, ← g1]
  refine ⟨h', e, g1, g2, g3, fun x => ?_⟩
  cases hx : attrOf v x with
  | some y => exact g4 x y hx
  | none =>
    by_contra hne
    obtain ⟨y, hy⟩ := Option.ne_none_iff_exists'.1 hne
    rcases (f2 e (by rw [heq]; exact g2)).2 x y hy with ⟨w, h1, h2⟩ | ⟨e0, h1, _⟩
    · exact latest_ne_none h1 h2 (by rw [latest_last hnc hv]; exact hx)
    · rw [hnone] at h1; cases h1

end Verif.Props
