import Verif.Props.Flush
import Verif.Spec.Resync

/-! # C103: a flush while the stores are being written -/
namespace Verif.Props
open Verif Verif.Model Verif.Spec Verif.Proofs

theorem opsOn_append (i : Nat) (a b : List MgrEv) : opsOn i (a ++ b) = opsOn i a ++ opsOn i b := List.filterMap_append

/-- At most so many keys come before `k`. -/
def RankGe (m : AMap (GoRec GoTime)) (k : String) (off : Nat) : Prop := ∀ ks r, SortedKeys m (fun _ => True) 0 ks → ks[r]? = some k → off ≤ r

theorem index_unique {ks : List String} {k : String} {r r' : Nat} (h : ks.Pairwise (Spec.before 0)) (h1 : ks[r]? = some k) (h2 : ks[r']? = some k) : r = r' := by
  obtain ⟨a1, a2⟩ := List.getElem?_eq_some_iff.1 h1
  obtain ⟨b1, b2⟩ := List.getElem?_eq_some_iff.1 h2
  exact ((before_nodup h).getElem_inj_iff).1 (a2.trans b2.symm)

theorem rank_kept {m m' : AMap (GoRec GoTime)} {k : String} {off : Nat} {ks : List String} (hks : SortedKeys m (fun _ => True) 0 ks) (hk : m k ≠ none)
    (hstay : ∀ x, x < k → m x ≠ none → m' x ≠ none) (h : RankGe m k off) : RankGe m' k off := by
  intro ks' r' h1 hr'
  have mem : ∀ {m : AMap (GoRec GoTime)} {ks : List String}, SortedKeys m (fun _ => True) 0 ks → ∀ x, x ∈ ks ↔ m x ≠ none := by
    intro m ks h x
    rw [h.2 x, ← Option.isSome_iff_ne_none, Option.isSome_iff_exists]
    simp
  obtain ⟨r, hr, hrk⟩ := getElem_of_rank hks.1 ((mem hks k).2 hk)
  obtain ⟨r2, hr2, hrk2⟩ := getElem_of_rank h1.1 (List.mem_of_getElem? hr')
  obtain rfl := index_unique h1.1 hr' hr2
  have hoff := h ks r hks hr
  have hsub : ∀ x ∈ ks.take r, x ∈ ks'.take r' := by
    intro x hx
    obtain ⟨a, b⟩ := (hrk x).1 hx
    exact (hrk2 x).2 ⟨(mem h1 x).2 (hstay x (by simpa [Spec.before] using b) ((mem hks x).1 a)), b⟩
  have hlen := sorted_subset_length (hks.1.sublist (List.take_sublist r ks)) hsub
  have l1 := (List.getElem?_eq_some_iff.1 hr).1
  rw [List.length_take, List.length_take] at hlen
  omega

/-- A page of a listing: it has the entry, or the entry comes later and there is a token. -/
theorem page_has {c : CacheConfig (GoRec GoTime)} {h : List (Op (GoRec GoTime))} (hc : GoodConfig c) (hcoh : CoherentKey vanOps (keyOf vanOps c) (GoodRecord vanRegistry))
    (hh : ∀ op ∈ h, Op.All (GoodRecord vanRegistry) op) {k : String} {e : Entry (GoRec GoTime)} (hk : content vanOps c h k = some e)
    (hsmall : ∀ ks, SortedKeys (content vanOps c h) (fun _ => True) 0 ks → ks.length < 2 ^ 31) {cont : String} {off : Nat} (ht : Tok cont off) (hr : RankGe (content vanOps c h) k off)
    {limit nonce : Int} {res : SetRes (GoRec GoTime)} (hl : (after vanOps c h).list (some { limit := limit, cont := cont }) nonce = .ok res) :
    e ∈ res.entries ∨ (res.cont ≠ "" ∧ ∃ off', Tok res.cont off' ∧ RankGe (content vanOps c h) k off') := by
  obtain ⟨ks, h1, es, cont', h2, h3, h4, h5⟩ := C26_window_partial vanOps_lawful hc hcoh h hh none trivial { limit := limit, cont := cont } nonce off
    (by rcases ht with ⟨rfl, rfl⟩ | ht
        · exact Or.inl ⟨rfl, rfl⟩
        · exact Or.inr ht)
  have h2 : (after vanOps c h).list (some { limit := limit, cont := cont }) nonce = .ok { entries := es, cont := cont' } := h2
  rw [h2] at hl
  simp only [Res.ok.injEq] at hl
  subst hl
  simp only at h3 h4 h5
  obtain ⟨r, hrk, _⟩ := getElem_of_rank h1.1 ((h1.2 k).2 ⟨e, hk, trivial⟩)
  have hoff := hr ks r h1 hrk
  obtain ⟨hrl, hrk'⟩ := List.getElem?_eq_some_iff.1 hrk
  have hdrop : (ks.drop off)[r - off]? = some k := by
    rw [List.getElem?_drop, show off + (r - off) = r by omega]; exact hrk
  have fin : ∀ l : List String, es.map some = l.map (content vanOps c h) → k ∈ l → e ∈ es := by
    intro l hl hm
    have : some e ∈ es.map some := by rw [hl, ← hk]; exact List.mem_map_of_mem hm
    simpa using this
  by_cases hlim : limit > 0
  · rw [if_pos hlim] at h3
    by_cases hin : r < off + limit.toNat
    · left
      refine fin _ h3 ?_
      refine List.mem_of_getElem? (i := r - off) ?_
      rw [List.getElem?_take, if_pos (by omega)]
      exact hdrop
    · right
      have hne : cont' ≠ "" := h4.2 ⟨hlim, by omega⟩
      refine ⟨hne, off + limit.toNat, Or.inr ⟨hne, ?_⟩, ?_⟩
      · rw [h5 hne]
        have hs := hsmall ks h1
        have : ((off : Int) + limit) = ((off + limit.toNat : Nat) : Int) := by omega
        rw [this]
        exact decode_token (by omega)
      · intro ks' r' h1' hr'
        have := sortedKeys_unique h1 h1'
        subst this
        obtain rfl := index_unique h1.1 hrk hr'
        omega
  · rw [if_neg hlim] at h3
    exact Or.inl (fin _ h3 (List.mem_of_getElem? hdrop))

theorem after_step (c : CacheConfig (GoRec GoTime)) (h : List (Op (GoRec GoTime))) (op : Op (GoRec GoTime)) :
    ((after vanOps c h).step vanOps op).1 = after vanOps c (h ++ [op]) := by
  simp only [after, (run_append vanOps h [op] _).1]; rfl

section
variable (c : CacheConfig (GoRec GoTime)) (h : List (Op (GoRec GoTime))) (i : Nat) (k : String) (P : Entry (GoRec GoTime) → Prop)

/-- The entry has been listed since the events began. -/
def HasEntry (evs : List MgrEv) (msg : List (GoRec GoTime)) : Prop :=
  ∃ p e, p <+: evs ∧ content vanOps c (h ++ opsOn i p) k = some e ∧ P e ∧ e.record ∈ msg

/-- The flush will come to the entry. -/
def FlushTodo (evs : List MgrEv) (queue : List Nat) (cont : String) : Prop :=
  ∃ pre post, queue = pre ++ i :: post ∧ (pre = [] → ∃ off, Tok cont off ∧ RankGe (content vanOps c (h ++ opsOn i evs)) k off)

def WritePC (evs : List MgrEv) : ServePC → Prop
  | .flushing queue cont => FlushTodo c h i k evs queue cont
  | .sendFlush queue cont msg => HasEntry c h i k P evs msg ∨ FlushTodo c h i k evs queue cont
  | .stopped | .crashed => True
  | _ => False

def WriteInv (evs : List MgrEv) (s : Mgr) : Prop :=
  s.stores i = after vanOps c (h ++ opsOn i evs) ∧ ((∃ msg ∈ flushMsgs evs, HasEntry c h i k P evs msg) ∨ WritePC c h i k P evs s.pc)
end

theorem writeInv_step {cfg : MgrConfig} {c : CacheConfig (GoRec GoTime)} {h : List (Op (GoRec GoTime))} {i : Nat} {k : String} {P : Entry (GoRec GoTime) → Prop} {evs : List MgrEv}
    {ev : MgrEv} {s s' : Mgr} (hk : Stays c h i k P (evs ++ [ev])) (hw : WriteInv c h i k P evs s) (hs : Mgr.Step cfg s ev s') (hev : ev ≠ .flushEnd) :
    WriteInv c h i k P (evs ++ [ev]) s' := by
  obtain ⟨hst, hw⟩ := hw
  have hpre : evs <+: evs ++ [ev] := List.prefix_append _ _
  have hops : ∀ op ∈ h ++ opsOn i evs, Op.All (GoodRecord vanRegistry) op := by
    intro op hop
    apply hk.calls
    rw [opsOn_append, ← List.append_assoc]
    exact List.mem_append_left _ hop
  obtain ⟨e, he, hPe⟩ := hk.here evs hpre
  have hasMono : ∀ {msg}, HasEntry c h i k P evs msg → HasEntry c h i k P (evs ++ [ev]) msg := fun ⟨p, e, h1, h2⟩ => ⟨p, e, h1.trans hpre, h2⟩
  have rankMono : ∀ {off}, RankGe (content vanOps c (h ++ opsOn i evs)) k off → RankGe (content vanOps c (h ++ opsOn i (evs ++ [ev]))) k off := by
    intro off hr
    obtain ⟨ks, h1, _⟩ := C26_window_partial vanOps_lawful hk.config hk.coherent (h ++ opsOn i evs) hops none trivial {} 0 0 (Or.inl ⟨rfl, rfl⟩)
    exact rank_kept h1 (by rw [he]; simp) (hk.before evs ev (List.prefix_refl _)) hr
  have todoMono : ∀ {q co}, FlushTodo c h i k evs q co → FlushTodo c h i k (evs ++ [ev]) q co := fun ⟨pre, post, h1, h2⟩ =>
    ⟨pre, post, h1, fun hp => (h2 hp).imp fun off ⟨a, b⟩ => ⟨a, rankMono b⟩⟩
  have hst' : s'.stores i = after vanOps c (h ++ opsOn i (evs ++ [ev])) := by
    have same : s'.stores i = s.stores i → opsOn i [ev] = [] → s'.stores i = after vanOps c (h ++ opsOn i (evs ++ [ev])) := by
      intro h1 h2; rw [h1, hst, opsOn_append, h2, List.append_nil]
    cases hs with
    | storeOp j op =>
      by_cases hj : j = i
      · subst hj
        simp only [if_true, hst, opsOn_append, ← List.append_assoc]
        rw [after_step]
        simp [opsOn]
      · refine same ?_ ?_
        · simp only; rw [if_neg (Ne.symm hj)]
        · simp [opsOn, hj]
    | _ => exact same rfl rfl
  refine ⟨hst', ?_⟩
  rcases hw with ⟨msg, hm, hh⟩ | hw
  · exact Or.inl ⟨msg, by rw [flushMsgs, List.filterMap_append]; exact List.mem_append_left _ hm, hasMono hh⟩
  have mono : s'.pc = s.pc → WritePC c h i k P (evs ++ [ev]) s'.pc := by
    intro hpc
    rw [hpc]
    cases hp : s.pc <;> rw [hp] at hw <;> first | exact hw.elim | trivial | exact todoMono hw | exact Or.imp hasMono todoMono hw
  cases hs with
  | publish u hcap | storeOp j op | takeMsg | sndStop | flushReceived | receiveError | cancel | pageError | send | skip | sendFail => exact .inr (mono rfl)
  | stop | stopUpdate | stopFlush | diffPanic | pagePanic | sendPanic => exact .inr trivial
  | take hpc | buffer hpc | bufferTimeout hpc | diff hpc | queueUpdate hpc | takeFlush hpc | drain hpc | drainTimeout hpc | flushBegin hpc => rw [hpc] at hw; exact hw.elim
  | flushEnd => exact absurd rfl hev
  | @page j queue cont res nonce hpc hl =>
    rw [hpc] at hw
    obtain ⟨pre, post, h1, h2⟩ := hw
    right
    have key : (j = i ∧ e ∈ res.entries) ∨ FlushTodo c h i k evs (if res.cont = "" then queue else j :: queue) res.cont := by
      cases pre with
      | nil =>
        obtain ⟨rfl, rfl⟩ := List.cons.inj h1
        obtain ⟨off, ht, hr⟩ := h2 rfl
        rw [hst] at hl
        rcases page_has hk.config hk.coherent hops he (hk.small evs hpre) ht hr hl with hin | ⟨g1, g2⟩
        · exact .inl ⟨rfl, hin⟩
        · right
          rw [if_neg g1]
          exact ⟨[], queue, rfl, fun _ => g2⟩
      | cons j' pre =>
        obtain ⟨rfl, rfl⟩ := List.cons.inj h1
        right
        by_cases hc : res.cont = ""
        · rw [if_pos hc]
          exact ⟨pre, post, rfl, fun _ => ⟨0, Or.inl ⟨hc, rfl⟩, fun _ _ _ _ => Nat.zero_le _⟩⟩
        · rw [if_neg hc]
          exact ⟨j :: pre, post, rfl, fun hp => by cases hp⟩
    simp only
    by_cases hz : res.entries.length = 0
    · rw [if_pos hz]
      rcases key with ⟨_, hin⟩ | key
      · rw [List.length_eq_zero_iff.1 hz] at hin; cases hin
      · exact todoMono key
    · rw [if_neg hz]
      rcases key with ⟨_, hin⟩ | key
      · exact .inl ⟨evs, e, hpre, he, hPe, List.mem_map_of_mem hin⟩
      · exact .inr (todoMono key)
  | @queueFlush queue cont msg hpc hcap =>
    rw [hpc] at hw
    rcases hw with hw | hw
    · exact .inl ⟨msg, by simp [flushMsgs], hasMono hw⟩
    · exact .inr (todoMono hw)

/-- C103 as far as it holds: an entry that is in a store of the manager all through a flush, and before whose key no other goes away meanwhile, is in one of the messages of the flush, as
it is at some moment of the flush; however the stores are written otherwise.  Missing for C103: removals before the key (false, `C103_counterexample`). -/
theorem C103_flush_writes_partial {cfg : MgrConfig} {s1 s2 s3 s4 : Mgr} {mid : List MgrEv} (hb : Mgr.Step cfg s1 .flushBegin s2) (hr : Mgr.Run cfg s2 mid s3) (he : Mgr.Step cfg s3 .flushEnd s4)
    (hno : MgrEv.flushEnd ∉ mid) {i : Nat} (hi : i < cfg.numStores) {c : CacheConfig (GoRec GoTime)} {h : List (Op (GoRec GoTime))} (hst : s1.stores i = after vanOps c h) {k : String}
    {P : Entry (GoRec GoTime) → Prop} (hk : Stays c h i k P mid) :
    ∃ msg ∈ flushMsgs mid, ∃ p e, p <+: mid ∧ content vanOps c (h ++ opsOn i p) k = some e ∧ P e ∧ e.record ∈ msg := by
  have h2 : WriteInv c h i k P [] s2 := by
    cases hb with
    | flushBegin hpc =>
      refine ⟨by simpa [opsOn] using hst, .inr ?_⟩
      obtain ⟨pre, post, h1⟩ := List.append_of_mem (List.mem_range.2 hi)
      exact ⟨pre, post, h1, fun _ => ⟨0, Or.inl ⟨rfl, rfl⟩, fun _ _ _ _ => Nat.zero_le _⟩⟩
  have main : ∀ {mid s3}, Mgr.Run cfg s2 mid s3 → Stays c h i k P mid → MgrEv.flushEnd ∉ mid → WriteInv c h i k P mid s3 := by
    intro mid s3 hr
    induction hr with
    | nil => exact fun _ _ => h2
    | @snoc s' s'' evs ev hr hs ih =>
      intro hk hno
      have hpre : evs <+: evs ++ [ev] := List.prefix_append _ _
      have hk' : Stays c h i k P evs := ⟨hk.config, hk.coherent, fun op hop => hk.calls op (by
          rw [opsOn_append, ← List.append_assoc]; exact List.mem_append_left _ hop), fun p hp => hk.here p (hp.trans hpre),
        fun p e hp => hk.before p e (hp.trans hpre), fun p hp => hk.small p (hp.trans hpre)⟩
      exact writeInv_step hk (ih hk' fun h => hno (List.mem_append_left _ h)) hs fun h => hno (by simp [h])
  obtain ⟨_, ⟨msg, hm, hh⟩ | g⟩ := main hr hk hno
  · exact ⟨msg, hm, hh⟩
  · cases he with
    | flushEnd hpc =>
      rw [hpc] at g
      obtain ⟨pre, post, h1, _⟩ := g
      simp at h1

theorem opsOn_prefix {i : Nat} {p evs : List MgrEv} {op : Op (GoRec GoTime)} (hp : p <+: evs) (h : opsOn i evs = [op]) : opsOn i p = [] ∨ opsOn i p = [op] := by
  obtain ⟨t, ht⟩ := hp
  have := congrArg (opsOn i) ht
  rw [opsOn_append, h] at this
  rcases List.append_eq_cons_iff.1 this with ⟨h, _⟩ | ⟨as, h, h'⟩
  · exact .inl h
  · right
    rw [(List.append_eq_nil_iff.1 h'.symm).1] at h
    exact h

/-- Three hosts, of which the first is deleted. -/
def twoHosts : List (Op (GoRec GoTime)) := threeHosts ++ [.delete (hostEntry "a" "" "")]

theorem twoHosts_good : ∀ op ∈ twoHosts, Op.All (GoodRecord vanRegistry) op := by
  intro op hop
  rcases List.mem_append.1 hop with hop | hop
  · exact threeHosts_good op hop
  · simp only [List.mem_singleton] at hop; subst hop; trivial

theorem twoHosts_sorted : SortedKeys (content vanOps exCfg twoHosts) (fun _ => True) 0 ["b", "c"] := by
  refine ⟨show List.Pairwise (fun a b : String => a < b) ["b", "c"] by decide, ?_⟩
  intro k
  have hcon : content vanOps exCfg twoHosts k = (if k = "a" then none else if k = "b" then some ((hostEntry "b" "x" "r2").stamp t0) else
      if k = "a" then some ((hostEntry "a" "x" "r1").stamp t0) else if k = "c" then some ((hostEntry "c" "x" "r1").stamp t0) else none) := rfl
  rw [hcon]
  simp only [and_true, List.mem_cons, List.not_mem_nil, or_false]
  constructor
  · rintro (rfl | rfl) <;> exact ⟨_, rfl⟩
  · rintro ⟨e, he⟩
    by_cases h2 : k = "a"
    · simp [h2] at he
    by_cases h1 : k = "b"
    · exact Or.inl h1
    by_cases h3 : k = "c"
    · exact Or.inr h3
    · simp [h1, h2, h3] at he

theorem twoHosts_ok : StoreOK (after vanOps exCfg twoHosts) (content vanOps exCfg twoHosts) ["b", "c"] :=
  ⟨⟨exCfg, twoHosts, rfl, rfl, exCfg_good, van_coherent, twoHosts_good⟩, twoHosts_sorted, by decide⟩

/-- C103 is false: while the hosts a, b and c are flushed two by two, a is deleted after the first page; c, present all the time, is in no message of the flush. -/
theorem C103_counterexample : ∃ s2 mid s3 s4, Mgr.Step exFlushCfg exFlushMgr .flushBegin s2 ∧ Mgr.Run exFlushCfg s2 mid s3 ∧ Mgr.Step exFlushCfg s3 .flushEnd s4 ∧ MgrEv.flushEnd ∉ mid ∧
    exFlushMgr.stores 0 = after vanOps exCfg threeHosts ∧ (∀ p, p <+: mid → content vanOps exCfg (threeHosts ++ opsOn 0 p) "c" ≠ none) ∧
    (flushMsgs mid).map (fun l => l.map vanIdentity) = [[.ok "a", .ok "b"]] := by
  obtain ⟨es1, c1, g1, h1⟩ := flush_page threeHosts_ok (cont := "") (Or.inl ⟨rfl, rfl⟩) exFlushCfg.flushBatchSize 7
  rcases h1 with ⟨_, e, hl⟩ | ⟨hc1, _, _, ht1, e1, l1⟩
  · have := congrArg List.length e
    have := hl (by decide)
    simp [exFlushCfg] at *
    omega
  obtain ⟨es2, c2, g2, h2⟩ := flush_page twoHosts_ok ht1 exFlushCfg.flushBatchSize 9
  rcases h2 with ⟨hc2, e2, _⟩ | ⟨_, _, h, _⟩
  swap
  · simp [exFlushCfg] at h
  have e1 : es1.map some = ["a", "b"].map (content vanOps exCfg threeHosts) := e1
  have e2 : es2 = [] := by simpa [exFlushCfg] using congrArg List.length e2
  subst e2
  have j1 : es1.map (fun e => vanIdentity e.record) = [.ok "a", .ok "b"] := by
    have h3 := congrArg (List.map (Option.map fun e : Entry (GoRec GoTime) => vanIdentity e.record)) e1
    rw [List.map_map, List.map_map] at h3
    have h4 : (es1.map fun e => vanIdentity e.record).map some = [Res.ok "a", .ok "b"].map some := by
      rw [List.map_map]; exact h3
    exact List.map_inj_right (fun a b h => Option.some.inj h) |>.1 h4
  have hne1 : es1.length ≠ 0 := by intro h; rw [List.length_eq_zero_iff.1 h] at j1; simp at j1
  have s1 : Mgr.Step exFlushCfg exFlushMgr .flushBegin { exFlushMgr with pc := .flushing [0] "" } := .flushBegin rfl
  have r1 := Mgr.Run.nil (cfg := exFlushCfg) (s := { exFlushMgr with pc := .flushing [0] "" })
  have r2 := r1.snoc (.page 7 rfl g1)
  simp only [hne1, hc1, if_false] at r2
  have r3 := r2.snoc (.queueFlush rfl (by simp [Mgr.SendRoom, exFlushMgr, sendQueueCap]))
  have r4 := r3.snoc (.storeOp 0 (.delete (hostEntry "a" "" "")))
  have r5 := r4.snoc (.page 9 rfl (by simp only [if_true]; exact g2))
  simp only [hc2, if_true, List.length_nil] at r5
  refine ⟨_, _, _, _, s1, r5, .flushEnd rfl, by simp, rfl, ?_, ?_⟩
  · intro p hp
    rcases opsOn_prefix (i := 0) (op := .delete (hostEntry "a" "" "")) hp rfl with h | h <;> rw [h] <;> exact fun h => Option.some_ne_none _ h
  · simp [flushMsgs, Function.comp_def, j1]

/-! ### An instance -/

/-- Host b is renamed. -/
def renamedB : Op (GoRec GoTime) := .update (hostEntry "b" "y" "r2") none t0

theorem renamed_sorted : SortedKeys (content vanOps exCfg (threeHosts ++ [renamedB])) (fun _ => True) 0 ["a", "b", "c"] := by
  refine ⟨show List.Pairwise (fun a b : String => a < b) ["a", "b", "c"] by decide, ?_⟩
  intro k
  have hcon : content vanOps exCfg (threeHosts ++ [renamedB]) k = (if k = "b" then some ((hostEntry "b" "y" "r2").stamp t0) else if k = "b" then some ((hostEntry "b" "x" "r2").stamp t0) else
      if k = "a" then some ((hostEntry "a" "x" "r1").stamp t0) else if k = "c" then some ((hostEntry "c" "x" "r1").stamp t0) else none) := rfl
  rw [hcon]
  simp only [and_true, List.mem_cons, List.not_mem_nil, or_false]
  constructor
  · rintro (rfl | rfl | rfl) <;> exact ⟨_, rfl⟩
  · rintro ⟨e, he⟩
    by_cases h1 : k = "b"
    · exact Or.inr (Or.inl h1)
    by_cases h2 : k = "a"
    · exact Or.inl h2
    by_cases h3 : k = "c"
    · exact Or.inr (Or.inr h3)
    · simp [h1, h2, h3] at he

/-- Any events in which host b is renamed once, and nothing else is written. -/
theorem renamed_stays {evs : List MgrEv} (h : opsOn 0 evs = [renamedB]) : Stays exCfg threeHosts 0 "b" (fun e => vanIdentity e.record = .ok "b") evs := by
  have two : ∀ p, p <+: evs → opsOn 0 p = [] ∨ opsOn 0 p = [renamedB] := fun p hp => opsOn_prefix hp h
  refine ⟨exCfg_good, van_coherent, ?_, ?_, ?_, ?_⟩
  · rw [h]
    intro op hop
    rcases List.mem_append.1 hop with hop | hop
    · exact threeHosts_good op hop
    · simp only [List.mem_singleton] at hop; subst hop; exact hostRec_good _ _
  · intro p hp
    rcases two p hp with h | h <;> rw [h]
    · exact ⟨_, rfl, rfl⟩
    · exact ⟨_, rfl, rfl⟩
  · intro p ev hp x hx
    have mem : ∀ {hh}, SortedKeys (content vanOps exCfg hh) (fun _ => True) 0 ["a", "b", "c"] → (content vanOps exCfg hh x ≠ none ↔ x ∈ ["a", "b", "c"]) := by
      intro hh hs
      rw [hs.2 x, ← Option.isSome_iff_ne_none, Option.isSome_iff_exists]
      simp
    have e1 : ∀ p, p <+: evs → (content vanOps exCfg (threeHosts ++ opsOn 0 p) x ≠ none ↔ x ∈ ["a", "b", "c"]) := by
      intro p hp
      rcases two p hp with h | h <;> rw [h]
      · exact mem threeHosts_sorted
      · exact mem renamed_sorted
    rw [e1 _ hp, e1 _ ((List.prefix_append p [ev]).trans hp)]
    exact id
  · intro p hp ks hks
    have : ks = ["a", "b", "c"] := by
      rcases two p hp with h | h <;> rw [h] at hks
      · exact sortedKeys_unique hks threeHosts_sorted
      · exact sortedKeys_unique hks renamed_sorted
    rw [this]; decide

/-- Instance of C103: host b is renamed between the beginning of the flush and its page; the flush sends b under its new name. -/
example : ∃ s2 mid s3 s4, Mgr.Step exFlushCfg exFlushMgr .flushBegin s2 ∧ Mgr.Run exFlushCfg s2 mid s3 ∧ Mgr.Step exFlushCfg s3 .flushEnd s4 ∧ MgrEv.flushEnd ∉ mid ∧
    Stays exCfg threeHosts 0 "b" (fun e => vanIdentity e.record = .ok "b") mid ∧ opsOn 0 mid = [renamedB] := by
  have hok : StoreOK (after vanOps exCfg (threeHosts ++ [renamedB])) (content vanOps exCfg (threeHosts ++ [renamedB])) ["a", "b", "c"] :=
    ⟨⟨exCfg, _, rfl, rfl, exCfg_good, van_coherent, (renamed_stays (evs := [.storeOp 0 renamedB]) rfl).calls⟩, renamed_sorted, by decide⟩
  obtain ⟨es1, c1, g1, h1⟩ := flush_page hok (cont := "") (Or.inl ⟨rfl, rfl⟩) exFlushCfg.flushBatchSize 7
  rcases h1 with ⟨_, e, hl⟩ | ⟨hc1, _, _, ht1, e1, l1⟩
  · have := congrArg List.length e
    have := hl (by decide)
    simp [exFlushCfg] at *
    omega
  obtain ⟨es2, c2, g2, h2⟩ := flush_page hok ht1 exFlushCfg.flushBatchSize 9
  rcases h2 with ⟨hc2, e2, _⟩ | ⟨_, _, h, _⟩
  swap
  · simp [exFlushCfg] at h
  have hne1 : es1.length ≠ 0 := by rw [l1]; decide
  have hne2 : es2.length ≠ 0 := by
    have := congrArg List.length e2
    simp [exFlushCfg] at this
    omega
  have s1 : Mgr.Step exFlushCfg exFlushMgr .flushBegin { exFlushMgr with pc := .flushing [0] "" } := .flushBegin rfl
  have r1 := Mgr.Run.nil (cfg := exFlushCfg) (s := { exFlushMgr with pc := .flushing [0] "" })
  have r1' := r1.snoc (.storeOp 0 renamedB)
  have r2 := r1'.snoc (.page 7 rfl (by simp only [if_true]; exact g1))
  simp only [hne1, hc1, if_false] at r2
  have r3 := r2.snoc (.queueFlush rfl (by simp [Mgr.SendRoom, exFlushMgr, sendQueueCap]))
  have r4 := r3.snoc (.page 9 rfl (by simp only [if_true]; exact g2))
  simp only [hne2, hc2, if_false, if_true] at r4
  have r5 := r4.snoc (.queueFlush rfl (by simp [Mgr.SendRoom, exFlushMgr, sendQueueCap]))
  exact ⟨_, _, _, _, s1, r5, .flushEnd rfl, by simp, renamed_stays rfl, rfl⟩

end Verif.Props
