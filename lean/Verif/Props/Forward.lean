import Verif.Props.Sound

/-! # C106: what a collector shows does not go back -/
namespace Verif.Props
open Verif Verif.Model Verif.Spec Verif.Proofs

theorem filterMap_prefix {α β : Type} (f : α → Option β) : ∀ {us : List α} {p : List β}, p <+: us.filterMap f → ∃ m, p = (us.take m).filterMap f
  | [], p, h => ⟨0, by simpa using h⟩
  | u :: us, p, h => by
    rw [List.filterMap_cons] at h
    cases hf : f u with
    | none =>
      rw [hf] at h
      obtain ⟨m, hm⟩ := filterMap_prefix f h
      exact ⟨m + 1, by simp [hf, hm]⟩
    | some b =>
      rw [hf] at h
      cases p with
      | nil => exact ⟨0, by simp⟩
      | cons x p =>
        obtain ⟨hx, h⟩ := List.cons_prefix_cons.1 h
        obtain ⟨m, hm⟩ := filterMap_prefix f h
        exact ⟨m + 1, by simp [hf, hm, hx]⟩

theorem chain_take (vs : List (GoRec GoTime)) (m : Nat) : (chain vs).take m = chain (vs.take m) := by
  have h : chain vs = chain (vs.take m) ++ chainFrom (lastOr .nil (vs.take m)) (vs.drop m) := by
    unfold chain
    rw [← chainFrom_append, List.take_append_drop]
  by_cases hm : m ≤ vs.length
  · rw [h]
    have hl : (chain (vs.take m)).length = m := by unfold chain; rw [chainFrom_length, List.length_take]; omega
    rw [List.take_append_of_le_length (by omega), List.take_of_length_le (by omega)]
  · rw [List.take_of_length_le (by unfold chain; rw [chainFrom_length]; omega), List.take_of_length_le (by omega)]

/-- What is told in the differences of the first versions is, attribute by attribute, the latest value in them. -/
theorem latest_chain {vs : List (GoRec GoTime)} (h : ∀ r ∈ vs, Enc r) (k : Any) : latest (diffsOf (chain vs)) k = latest vs k := by
  rcases contribution_chain h k .nil (.inl rfl) with ⟨v, h1, h2⟩ | ⟨h1, h2⟩
  · exact (h1 none).trans (h2 none).symm
  · refine (h1 none).trans ?_
    cases hl : latest vs k with
    | none => rfl
    | some y =>
      rcases latestFrom_some hl with h | ⟨r, h3, h4⟩
      · cases h
      · have := h2 r h3 y h4
        rw [attrOf_nil] at this
        cases this

structure PubInv (id : String) (tm : TypeMeta) (evs : List MgrEv) (s : Src) : Prop where
  told : updOfMine id tm (published evs) = (chain s.versions).take s.pub
  pub : s.pub ≤ s.versions.length
  good : ∀ u ∈ published evs, GoodRecord vanRegistry u.curr
  kind : ∀ r ∈ s.versions, OfKind id tm r ∧ ∃ a, vanOps.encode r = .ok a

theorem published_append (a b : List MgrEv) : published (a ++ b) = published a ++ published b := List.filterMap_append

theorem pub_run {cfg : MgrConfig} {id : String} {tm : TypeMeta} {evs : List MgrEv} {s s' : Src} (h : Src.Start cfg id tm s) (hr : Src.Run cfg id tm s evs s') : PubInv id tm evs s' := by
  induction hr with
  | nil =>
    refine ⟨?_, ?_, by simp [published], ?_⟩
    · rw [h.2.2.1]; rfl
    · rw [h.2.2.1]; omega
    · rw [h.2.1]; simp
  | @snoc s1 s2 evs ev hr hs ih =>
    have grow : ∀ r, (chain (s1.versions ++ [r])).take s1.pub = (chain s1.versions).take s1.pub := by
      intro r
      rw [chain_take, chain_take, List.take_append_of_le_length ih.pub]
    have vers : ∀ r, OfKind id tm r → (vanOps.encode r).isOk → ∀ w ∈ s1.versions ++ [r], OfKind id tm w ∧ ∃ a, vanOps.encode w = .ok a := by
      intro r hk he w hw
      rcases List.mem_append.1 hw with hw | hw
      · exact ih.kind w hw
      · simp only [List.mem_singleton] at hw
        subst hw
        refine ⟨hk, ?_⟩
        cases he' : vanOps.encode w with
        | ok a => exact ⟨a, rfl⟩
        | err e => rw [he'] at he; cases he
        | panic e => rw [he'] at he; cases he
    cases hs with
    | write h1 hk he _ =>
      refine ⟨?_, by simp only [List.length_append]; have := ih.pub; omega, ?_, vers _ hk he⟩
      · rw [published_append]; simp only [grow]; rw [← ih.told]; simp [published]
      · rw [published_append]; simpa [published] using ih.good
    | mint hk he _ =>
      refine ⟨?_, by simp only [List.length_append]; have := ih.pub; omega, ?_, vers _ hk he⟩
      · rw [published_append]; simp only [grow]; rw [← ih.told]; simp [published]
      · rw [published_append]; simpa [published] using ih.good
    | storeOther h1 =>
      refine ⟨?_, ih.pub, ?_, ih.kind⟩
      · rw [published_append]; simpa [published] using ih.told
      · rw [published_append]; simpa [published] using ih.good
    | @publish u m hu h1 =>
      have hc : u.curr ∈ s1.versions := chainFrom_curr (List.mem_of_getElem? hu)
      have hlt : s1.pub < (chain s1.versions).length := (List.getElem?_eq_some_iff.1 hu).1
      have hk := (ih.kind _ hc).1
      refine ⟨?_, ?_, ?_, ih.kind⟩
      · rw [published_append, updOfMine_append, ih.told, List.take_add_one, hu]
        simp only [published, Option.toList_some, List.filterMap_cons, List.filterMap_nil, updOfMine, List.filter_cons, List.filter_nil]
        rw [if_pos (decide_eq_true (p := Mine id tm u.curr) ⟨hk.2.1, hk.2.2⟩)]
      · simp only [chain, chainFrom_length] at hlt; simp only; omega
      · rw [published_append]
        intro w hw
        rcases List.mem_append.1 hw with hw | hw
        · exact ih.good w hw
        · simp only [published, Option.toList_some, List.filterMap_cons, List.filterMap_nil, List.mem_singleton] at hw
          subst hw; exact hk.1
    | @publishOther u m hg hn h1 =>
      refine ⟨?_, ih.pub, ?_, ih.kind⟩
      · rw [published_append, updOfMine_append, ih.told]
        simp only [published, Option.toList_some, List.filterMap_cons, List.filterMap_nil, updOfMine, List.filter_cons, List.filter_nil]
        rw [if_neg (by simpa using hn), List.append_nil]
      · rw [published_append]
        intro w hw
        rcases List.mem_append.1 hw with hw | hw
        · exact ih.good w hw
        · simp only [published, Option.toList_some, List.filterMap_cons, List.filterMap_nil, List.mem_singleton] at hw
          subst hw; exact hg
    | @mgr ev m h1 h2 h3 =>
      have hp : published [ev] = [] := by
        cases ev with
        | publish u => exact absurd rfl (h1 u)
        | _ => rfl
      refine ⟨?_, ih.pub, ?_, ih.kind⟩
      · rw [published_append, Option.toList_some, hp, List.append_nil]; exact ih.told
      · rw [published_append, Option.toList_some, hp, List.append_nil]; exact ih.good

theorem ofMine_append (id : String) (tm : TypeMeta) (a b : List (GoRec GoTime)) : ofMine id tm (a ++ b) = ofMine id tm a ++ ofMine id tm b := List.filter_append ..

theorem queued_updates {id : String} {tm : TypeMeta} {evs : List MgrEv} (h : NotFlushed id tm evs) : ofMine id tm (queued evs).flatten = ofMine id tm (updateMsgs evs).flatten := by
  induction evs with
  | nil => rfl
  | cons ev evs ih =>
    have ih := ih fun m hm => h m (List.mem_cons_of_mem _ hm)
    cases ev with
    | queueUpdate m =>
      simp only [queued, updateMsgs, List.filterMap_cons, List.flatten_cons, ofMine_append] at ih ⊢
      rw [ih]
    | queueFlush m =>
      have : ofMine id tm m = [] := List.filter_eq_nil_iff.2 fun r hr => by simpa using h m List.mem_cons_self r hr
      simp only [queued, updateMsgs, List.filterMap_cons, List.flatten_cons, ofMine_append] at ih ⊢
      rw [this, ih]; rfl
    | _ => exact ih

/-- The first messages tell of the first versions. -/
theorem first_messages {cfg : MgrConfig} {id : String} {tm : TypeMeta} {evs : List MgrEv} {s s' : Src} (h : Src.Start cfg id tm s) (hr : Src.Run cfg id tm s evs s')
    (hn : NotFlushed id tm evs) (n : Nat) : ∃ m ≤ s'.versions.length, ofMine id tm ((queued evs).take n).flatten = diffsOf (chain (s'.versions.take m)) := by
  have hP := pub_run h hr
  obtain ⟨⟨held, h1, _⟩, _, _⟩ := C37_updates_in_order h.1 (Proofs.Src.Run.toMgr hr)
  have hpre : ofMine id tm ((queued evs).take n).flatten <+: ofMine id tm (queued evs).flatten := by
    conv => rhs; rw [← List.take_append_drop n (queued evs), List.flatten_append, ofMine_append]
    exact List.prefix_append _ _
  rw [queued_updates hn] at hpre
  have hpre : ofMine id tm ((queued evs).take n).flatten <+: ofMine id tm (diffsOf (published evs)) := by
    refine hpre.trans ?_
    rw [h1, ofMine_append, ofMine_append, List.append_assoc]
    exact List.prefix_append _ _
  rw [(diffsOf_mine hP.good).1, hP.told, chain_take] at hpre
  obtain ⟨m, hm⟩ := filterMap_prefix _ hpre
  rw [chain_take, List.take_take] at hm
  exact ⟨min m s'.pub, by have := hP.pub; omega, hm⟩

theorem pointwise_prefix {α β : Type} {R : α → β → Prop} : ∀ {as : List α} {bs cs : List β}, Pointwise R as bs → cs <+: bs → Pointwise R (as.take cs.length) cs
  | _, _, [], _, _ => trivial
  | a :: as, b :: bs, c :: cs, h, hp => by
    obtain ⟨hb, hp'⟩ := List.cons_prefix_cons.1 hp
    exact ⟨hb ▸ h.1, pointwise_prefix h.2 hp'⟩
  | [], b :: bs, c :: cs, h, _ => h.elim
  | _, [], c :: cs, _, hp => by simp at hp

/-- The messages delivered are the first messages queued, if none was lost. -/
theorem delivered_first {k : SysCfg} {n0 : List MockEv} {c0 : List ClEv} {s0 s : Sys} {evs : SysEv} (h0 : Sys.Start k n0 c0 s0) (hr : Sys.Run k s0 evs s) (hl : Lossless evs.m) :
    ∃ rss, rss <+: queued evs.m ∧ ∀ done, done <+: deliveredTo k.lst evs.c → Pointwise (fun rs m => RecordMsg.encode vanRegistry { records := rs } = .ok m) (rss.take done.length) done := by
  have hj := start_join h0
  have hw := way_run hj hr
  have hmock := mock_trans hj.mock (sys_mock hr)
  have hmgr := Proofs.Src.Run.toMgr (sys_src hr)
  have hq := (C37_updates_in_order h0.src.1 hmgr).2.2
  have hpw := sent_handled hmgr hl
  have hpre : (deliveredTo k.lst evs.c).map some <+: (sentMsgs evs.m).map some ++ inFlight (n0 ++ evs.n) s := by
    rw [← hw.recv, ← hw.table]
    refine List.IsPrefix.map _ ?_
    have := C62_order hmock (List.mem_append_left _ hj.receiver)
    rwa [sentAfter_append hj.subscribed, hj.unsent] at this
  have fin : ∀ rss msgs, rss <+: queued evs.m → Pointwise (fun rs m => RecordMsg.encode vanRegistry { records := rs } = .ok m) rss msgs → (deliveredTo k.lst evs.c) <+: msgs →
      ∃ rss, rss <+: queued evs.m ∧ ∀ done, done <+: deliveredTo k.lst evs.c → Pointwise (fun rs m => RecordMsg.encode vanRegistry { records := rs } = .ok m) (rss.take done.length) done :=
    fun rss msgs h1 h2 h3 => ⟨rss, h1, fun done hd => pointwise_prefix h2 (hd.trans h3)⟩
  have unmap : ∀ {a b : List Msg}, a.map some <+: b.map some → a <+: b := by
    intro a b h
    obtain ⟨t, ht⟩ := h
    have h1 := congrArg (List.filterMap id) ht
    simp only [List.filterMap_append, List.filterMap_map, Function.comp_def, id_eq] at h1
    exact ⟨t.filterMap id, by simpa using h1⟩
  by_cases hin : inFlight (n0 ++ evs.n) s = []
  · rw [hin, List.append_nil] at hpre
    exact fin _ _ (by rw [hq]; exact List.prefix_append _ _) hpw (unmap hpre)
  · unfold inFlight at hpre hin
    split at hin
    · exact absurd rfl hin
    · rename_i o ho
      obtain ⟨op, records, rest, msg, g1, g2, g3, g4, g5⟩ := hw.current o ho
      simp only [ho, g1, Option.bind_some, g5] at hpre hin
      split at hin
      · exact absurd rfl hin
      · rename_i hc
        rw [if_neg hc] at hpre
        refine fin (handled evs.m ++ [records]) (sentMsgs evs.m ++ [msg]) ?_ (pointwise_append hpw ⟨g4, trivial⟩) (unmap (by simpa using hpre))
        rw [hq, g3]
        exact ⟨rest, by simp⟩

theorem shown_now {k : SysCfg} {n0 : List MockEv} {c0 : List ClEv} {s0 s : Sys} {evs : SysEv} (h0 : Sys.Start k n0 c0 s0) (hr : Sys.Run k s0 evs s) (hl : Lossless evs.m)
    {cs1 cs2 : List RegCmd} {ref : SourceRef} {i : Nat} {cfg : Nat → CacheConfig (GoRec GoTime)} {h : Nat → List (Op (GoRec GoTime))}
    (hc : Collects k cs1 cs2 ref i cfg h s0.stores) (hnone : content vanOps (cfg i) (h i) k.id = none) {done : List Msg} {clock : Nat → Nat → GoTime}
    (hdel : done <+: deliveredTo k.lst evs.c) (hcol : collect k.world k.disp clock 0 done s0.stores = (s.stores, none)) :
    done.length ≤ (queued evs.m).length ∧ ∃ h', s.stores i = after vanOps (cfg i) h' ∧
      ∀ x, shown (cfg i) h' k.id x = latest (ofMine k.id k.tm ((queued evs.m).take done.length).flatten) x := by
  obtain ⟨rss, h1, h2⟩ := delivered_first h0 hr hl
  have hpw := h2 done hdel
  have hlen : done.length ≤ rss.length := by
    have : ∀ {as : List (List (GoRec GoTime))} {bs : List Msg}, Pointwise (fun rs m => RecordMsg.encode vanRegistry { records := rs } = .ok m) as bs → as.length = bs.length := by
      intro as
      induction as with
      | nil => intro bs h; cases bs with | nil => rfl | cons => exact h.elim
      | cons a as ih => intro bs h; cases bs with | nil => exact h.elim | cons b bs => simp [ih h.2]
    have := this hpw
    rw [List.length_take] at this
    omega
  have htake : (queued evs.m).take done.length = rss.take done.length := by
    obtain ⟨t, ht⟩ := h1
    rw [← ht, List.take_append_of_le_length hlen]
  refine ⟨Nat.le_trans hlen h1.length_le, ?_⟩
  rw [htake]
  obtain ⟨d, hd, _, h', rs, h3, hst, _, w1⟩ := collector_has cs1 cs2 ref hc.plain hc.only cfg hc.key hc.good h hc.hist (S := ref) (f0 := fun _ => none)
    (.inl ⟨rfl, by rw [← content_eq vanOps_lawful]; exact hnone, rfl, rfl⟩) clock
    (fun r hr' => by
      obtain ⟨q, q1, q2⟩ := List.mem_flatten.1 hr'
      exact queued_good h0.src (sys_src hr) r (List.mem_flatten.2 ⟨q, h1.subset (List.mem_of_mem_take q1), q2⟩)) hpw
  rw [hc.disp] at hd
  obtain rfl := Option.some.inj hd
  rw [← hc.world, ← hc.stores, hcol] at h3
  refine ⟨h', h3, fun x => ?_⟩
  rw [show latest _ x = latestFrom none rs x from (w1 none x).symm]
  unfold shown
  rw [content_eq vanOps_lawful]
  rcases hst with ⟨rfl, hn, _⟩ | ⟨e, g1, _, _, _, g3⟩
  · rw [hn]; rfl
  · rw [g1]; exact g3 x

theorem not_crashed {k : SysCfg} {s s' : Sys} {evs : SysEv} (hr : Sys.Run k s evs s') (h : s'.cl.crashed = false) : s.cl.crashed = false := by
  induction hr with
  | nil => exact h
  | snoc _ hs ih =>
    cases hs with
    | source | send | sent | sendFailed | router => exact ih h
    | next h1 | client h1 | dispatch _ h1 | dispatchPanic _ h1 => exact ih h1

theorem versions_prefix {cfg : MgrConfig} {id : String} {tm : TypeMeta} {a b : Src} {evs : List MgrEv} (hr : Src.Run cfg id tm a evs b) : a.versions <+: b.versions := by
  induction hr with
  | nil => exact List.prefix_rfl
  | snoc _ hs ih =>
    cases hs with
    | write | mint => exact ih.trans (List.prefix_append _ _)
    | _ => exact ih

/-- **C106 (without flushes).** A collector that was there from the start, while no message is lost and no flush sends the record: at every time it shows, attribute by attribute, the
latest value in the first `m` versions, and `m` does not fall from an earlier to a later time.  Missing: flushes, for which the claim is false (`C106_counterexample`). -/
theorem C106_forward_partial {k : SysCfg} {n0 : List MockEv} {c0 : List ClEv} {s0 s s' : Sys} {evs evs' : SysEv} (h0 : Sys.Start k n0 c0 s0) (hr : Sys.Run k s0 evs s)
    (hr' : Sys.Run k s evs' s') (hcr : s'.cl.crashed = false) (hl : Lossless (evs.m ++ evs'.m)) (hn : NotFlushed k.id k.tm (evs.m ++ evs'.m))
    {cs1 cs2 : List RegCmd} {ref : SourceRef} {i : Nat} {cfg : Nat → CacheConfig (GoRec GoTime)} {h : Nat → List (Op (GoRec GoTime))}
    (hc : Collects k cs1 cs2 ref i cfg h s0.stores) (hnone : content vanOps (cfg i) (h i) k.id = none) :
    ∃ m m' h1 h2, m ≤ m' ∧ m' ≤ s'.src.versions.length ∧ s.src.versions <+: s'.src.versions ∧ s.stores i = after vanOps (cfg i) h1 ∧ s'.stores i = after vanOps (cfg i) h2 ∧
      (∀ x, shown (cfg i) h1 k.id x = latest (s.src.versions.take m) x) ∧ ∀ x, shown (cfg i) h2 k.id x = latest (s'.src.versions.take m') x := by
  have hrr := sys_trans hr hr'
  have hj := start_join h0
  have hvp := versions_prefix (sys_src hr')
  have hl1 : Lossless evs.m := fun rs => ⟨fun h => (hl rs).1 (List.mem_append_left _ h), fun h => (hl rs).2.1 (List.mem_append_left _ h), fun h => (hl rs).2.2 (List.mem_append_left _ h)⟩
  have hn1 : NotFlushed k.id k.tm evs.m := fun m hm => hn m (List.mem_append_left _ hm)
  have hI := coll_run hj hr
  obtain ⟨done, pend, clock, hdel, hcol, hpd, _⟩ := hI.told (not_crashed hr' hcr) (C100_no_panic hj hr hc).1
  have hI2 : CollInv k done s0.stores evs s := ⟨hI.handlers, fun _ _ => ⟨done, pend, clock, hdel, hcol, hpd, List.prefix_rfl⟩⟩
  obtain ⟨done', pend', clock', hdel', hcol', _, hdd⟩ := (coll_from hI2 hr').told hcr (C100_no_panic hj hrr hc).1
  obtain ⟨n1, h1, e1, g1⟩ := shown_now h0 hr hl1 hc hnone (by rw [hdel]; exact List.prefix_append _ _) hcol
  obtain ⟨_, h2, e2, g2⟩ := shown_now h0 hrr hl hc hnone (by rw [hdel']; exact List.prefix_append _ _) hcol'
  obtain ⟨m, hm, f1⟩ := first_messages h0.src (sys_src hr) hn1 done.length
  obtain ⟨m', hm', f2⟩ := first_messages h0.src (sys_src hrr) hn done'.length
  have hkind : ∀ r ∈ s'.src.versions, Enc r := fun r hr => ⟨((pub_run h0.src (sys_src hrr)).kind r hr).1.1, ((pub_run h0.src (sys_src hrr)).kind r hr).2⟩
  have hEnc : ∀ m, ∀ r ∈ s'.src.versions.take m, Enc r := fun m r hr => hkind r (List.mem_of_mem_take hr)
  have htake : ∀ j ≤ s.src.versions.length, s.src.versions.take j = s'.src.versions.take j := by
    intro j hj
    obtain ⟨t, ht⟩ := hvp
    rw [← ht, List.take_append_of_le_length hj]
  rw [htake m hm] at f1
  have q1 : ∀ x, shown (cfg i) h1 k.id x = latest (s'.src.versions.take m) x := fun x => by rw [g1, f1, latest_chain (hEnc m)]
  have q2 : ∀ x, shown (cfg i) h2 k.id x = latest (s'.src.versions.take m') x := fun x => by rw [g2, f2, latest_chain (hEnc m')]
  by_cases hmm : m ≤ m'
  · exact ⟨m, m', h1, h2, hmm, hm', hvp, e1, e2, by rw [htake m hm]; exact q1, q2⟩
  · have hle : m' ≤ m := by omega
    have a1 : diffsOf (chain (s'.src.versions.take m')) <+: diffsOf (chain (s'.src.versions.take m)) := by
      have : s'.src.versions.take m' <+: s'.src.versions.take m := List.take_prefix_take_left hle
      obtain ⟨t, ht⟩ := this
      unfold chain
      rw [← ht, chainFrom_append, diffsOf_append]
      exact List.prefix_append _ _
    have a2 : diffsOf (chain (s'.src.versions.take m)) <+: diffsOf (chain (s'.src.versions.take m')) := by
      rw [← f1, ← f2]
      have : (queued evs.m).take done.length <+: (queued (evs.m ++ evs'.m)).take done'.length := by
        have hq : (queued evs.m).take done.length = (queued (evs.m ++ evs'.m)).take done.length := by
          rw [queued_append, List.take_append_of_le_length n1]
        rw [hq]
        exact List.take_prefix_take_left hdd.length_le
      obtain ⟨t, ht⟩ := this
      rw [show (queued _).take done'.length = _ from ht.symm, List.flatten_append, ofMine_append]
      exact List.prefix_append _ _
    have heq := a1.eq_of_length (Nat.le_antisymm a1.length_le a2.length_le)
    refine ⟨m', m', h1, h2, Nat.le_refl _, hm', hvp, e1, e2, ?_, q2⟩
    rw [htake m' (Nat.le_trans hle hm)]
    intro x
    rw [q1, ← latest_chain (hEnc m), ← heq, latest_chain (hEnc m')]

/-- Instance of C106: the run of C100's instance, at its beginning and at its end; at its end the host is shown. -/
example : ∃ evs s m m' h1 h2, Sys.Run sysCfg sys0 evs s ∧ m ≤ m' ∧ sys0.stores 0 = after vanOps exCfg h1 ∧ s.stores 0 = after vanOps exCfg h2 ∧
    (∀ x, shown exCfg h1 "h1" x = latest (([] : List (GoRec GoTime)).take m) x) ∧ ∀ x, shown exCfg h2 "h1" x = latest ([hostRec "h1" "x"].take m') x := by
  obtain ⟨evs, s, hr, hs, ho, hc, hl, hv, hn⟩ := sys_example
  obtain ⟨m, m', h1, h2, g1, _, _, g2, g3, g4, g5⟩ := C106_forward_partial sys0_start .nil hr hc (by simpa using hl) (fun msg hm => absurd (by simpa using hm) (hn msg)) sys0_collects rfl
  rw [hv] at g5
  exact ⟨evs, s, m, m', h1, h2, hr, g1, g2, g3, g4, g5⟩

theorem back_holds (x : String) (st : Stores (GoRec GoTime)) (e : Entry (GoRec GoTime)) (he : e.record = hostRec "h1" x)
    (h : (st 0).list none 0 = .ok { entries := [e], cont := "" }) :
    StoresHold 1 "h1" ⟨"flow/v1", "HostRecord"⟩ (some (hostRec "h1" x)) st := by
  intro i hi e' he'
  obtain rfl : i = 0 := by omega
  obtain ⟨res, h1, h2⟩ := he'
  have h1 := h.symm.trans h1
  simp only [Res.ok.injEq] at h1
  subst h1
  simp only [List.mem_singleton] at h2
  subst h2
  rw [he]
  exact ⟨hostRec_good _ _, fun _ => rfl⟩

/-- C106 is false as stated: a host is renamed, and before the manager takes the two updates from its queue it services a flush.  The collector shows the new name, then the old one. -/
theorem C106_counterexample : ∃ evs s m1 m2 m3, Src.Run { numStores := 1 } "h1" ⟨"flow/v1", "HostRecord"⟩ { mgr := { stores := fun _ => after vanOps exCfg [] } } evs s ∧
    s.Drained ∧ Lossless evs ∧ s.versions = [hostRec "h1" "x", hostRec "h1" "y"] ∧ sentMsgs evs = [m1, m2, m3] ∧ ∃ d,
      let o := fun ms => collect (runReg (hostReg ++ [.newDispatcher exSrc]) {}).1 d (fun _ _ => t0) 0 ms (fun _ => after vanOps exCfg [])
      (∃ h1, (o [m1]).1 0 = after vanOps exCfg h1 ∧ shown exCfg h1 "h1" (.u32 30) = some (.str "y")) ∧
      (∃ h2, (o [m1, m2]).1 0 = after vanOps exCfg h2 ∧ shown exCfg h2 "h1" (.u32 30) = some (.str "x")) := by
  have r1 := Src.Run.nil (cfg := { numStores := 1 }) (id := "h1") (tm := ⟨"flow/v1", "HostRecord"⟩) (s := { mgr := { stores := fun _ => after vanOps exCfg [] } })
  have r2 := r1.snoc (.write (.storeOp 0 (.accumulate exSrc (hostRec "h1" "x") t0)) (r := hostRec "h1" "x") ⟨hostRec_good _ _, rfl, rfl⟩ rfl (back_holds "x" _ { record := hostRec "h1" "x", md := { source := exSrc, updatedAt := t0, annotations := [] }, typeMeta := ⟨"flow/v1", "HostRecord"⟩ } rfl rfl))
  have r3 := r2.snoc (.publish rfl (.publish { curr := hostRec "h1" "x" } (by simp [changeQueueCap])))
  have r4 := r3.snoc (.write (.storeOp 0 (.update (hostEntry "h1" "y" "r1") none t0)) (r := hostRec "h1" "y") ⟨hostRec_good _ _, rfl, rfl⟩ rfl (back_holds "y" _ ((hostEntry "h1" "y" "r1").stamp t0) rfl rfl))
  have r5 := r4.snoc (.publish rfl (.publish { prev := hostRec "h1" "x", curr := hostRec "h1" "y" } (by simp [changeQueueCap])))
  have r8 := r5.snoc (.mgr (by simp) (by simp) .flushReceived)
  have r9 := r8.snoc (.mgr (by simp) (by simp) (.takeFlush rfl (by simp [flushQueueCap])))
  have r10 := r9.snoc (.mgr (by simp) (by simp) (.flushBegin rfl))
  have r11 := r10.snoc (.mgr (by simp) (by simp) (.page 0 rfl rfl))
  have r12 := r11.snoc (.mgr (by simp) (by simp) (.queueFlush (msg := [hostRec "h1" "y"]) rfl (by simp [Mgr.SendRoom, sendQueueCap])))
  have r13 := r12.snoc (.mgr (by simp) (by simp) (.flushEnd rfl))
  have r14 := r13.snoc (.mgr (by simp) (by simp) (.take rfl rfl))
  have r15 := r14.snoc (.mgr (by simp) (by simp) (.diff rfl rfl))
  have r16 := r15.snoc (.mgr (by simp) (by simp) (.queueUpdate (msg := [hostRec "h1" "x"]) rfl (by simp [Mgr.SendRoom, sendQueueCap])))
  have r17 := r16.snoc (.mgr (by simp) (by simp) (.take rfl rfl))
  obtain ⟨d3, hd3⟩ : ∃ d, diffBatch [{ prev := hostRec "h1" "x", curr := hostRec "h1" "y" }] = .ok [d] := ⟨_, rfl⟩
  obtain ⟨m1, e1⟩ : ∃ m, RecordMsg.encode vanRegistry { records := [hostRec "h1" "y"] } = .ok m := ⟨_, rfl⟩
  obtain ⟨m2, e2⟩ : ∃ m, RecordMsg.encode vanRegistry { records := [hostRec "h1" "x"] } = .ok m := ⟨_, rfl⟩
  obtain ⟨m3, e3⟩ : ∃ m, RecordMsg.encode vanRegistry { records := [d3] } = .ok m := by
    have : diffBatch [{ prev := hostRec "h1" "x", curr := hostRec "h1" "y" }] = .ok [_] := rfl
    obtain rfl := List.singleton_inj.1 (Res.ok.inj (hd3.symm.trans this))
    exact ⟨_, rfl⟩
  have r18 := r17.snoc (.mgr (by simp) (by simp) (.diff rfl hd3))
  have r19 := r18.snoc (.mgr (by simp) (by simp) (.queueUpdate (msg := [d3]) rfl (by simp [Mgr.SendRoom, sendQueueCap])))
  have r20t := r19.snoc (.mgr (by simp) (by simp) (.takeMsg rfl (List.cons_ne_nil _ _)))
  have r20 := r20t.snoc (.mgr (by simp) (by simp) (.send (records := [hostRec "h1" "y"]) (rest := [[hostRec "h1" "x"], [d3]]) rfl e1 rfl))
  have r21t := r20.snoc (.mgr (by simp) (by simp) (.takeMsg rfl (List.cons_ne_nil _ _)))
  have r21 := r21t.snoc (.mgr (by simp) (by simp) (.send (records := [hostRec "h1" "x"]) (rest := [[d3]]) rfl e2 rfl))
  have r22t := r21.snoc (.mgr (by simp) (by simp) (.takeMsg rfl (List.cons_ne_nil _ _)))
  have r22 := r22t.snoc (.mgr (by simp) (by simp) (.send (records := [d3]) (rest := []) rfl e3 rfl))
  have col : ∀ rss msgs, (∀ r ∈ rss.flatten, GoodRecord vanRegistry r) → Pointwise (fun rs m => RecordMsg.encode vanRegistry { records := rs } = .ok m) rss msgs →
      ∃ d, (runReg (hostReg ++ [.newDispatcher exSrc]) {}).2[(runReg hostReg {}).2.length]? = some d ∧ ∃ h',
        (collect (runReg (hostReg ++ [.newDispatcher exSrc]) {}).1 d (fun _ _ => t0) 0 msgs (fun _ => after vanOps exCfg [])).1 0 = after vanOps exCfg h' ∧
        ∀ x, shown exCfg h' "h1" x = latest (ofMine "h1" ⟨"flow/v1", "HostRecord"⟩ rss.flatten) x := by
    intro rss msgs hg hp
    obtain ⟨d, hd, _, h', rs, h3, hst, _, w1⟩ := collector_has hostReg [] exSrc hostReg_plain hostReg_only (fun _ => exCfg) (fun _ => rfl) (fun _ => exCfg_good) (fun _ => []) (by simp)
      (S := exSrc) (f0 := fun _ => none) (.inl ⟨rfl, by rw [← content_eq vanOps_lawful]; rfl, rfl, rfl⟩) (fun _ _ => t0) hg hp
    refine ⟨d, hd, h', h3, fun x => ?_⟩
    rw [show latest _ x = latestFrom none rs x from (w1 none x).symm]
    unfold shown
    rw [content_eq vanOps_lawful]
    rcases hst with ⟨rfl, hn, _⟩ | ⟨e, g1, _, _, _, g3⟩
    · rw [hn]; rfl
    · rw [g1]; exact g3 x
  have good : ∀ l : List (GoRec GoTime), l ⊆ [hostRec "h1" "y", hostRec "h1" "x"] → ∀ r ∈ l, GoodRecord vanRegistry r := by
    intro l hl r hr
    have := hl hr
    simp only [List.mem_cons, List.not_mem_nil, or_false] at this
    rcases this with rfl | rfl <;> exact hostRec_good _ _
  obtain ⟨d, hd, h1, a1, b1⟩ := col [[hostRec "h1" "y"]] [m1] (good _ (by simp)) ⟨e1, trivial⟩
  obtain ⟨d', hd', h2, a2, b2⟩ := col [[hostRec "h1" "y"], [hostRec "h1" "x"]] [m1, m2] (good _ (by simp)) ⟨e1, e2, trivial⟩
  rw [hd] at hd'
  obtain rfl := Option.some.inj hd'
  exact ⟨_, _, m1, m2, m3, r22, ⟨rfl, rfl, rfl, rfl⟩, by intro rs; simp, rfl, rfl, d, ⟨h1, a1, by rw [b1]; rfl⟩, ⟨h2, a2, by rw [b2]; rfl⟩⟩

end Verif.Props
