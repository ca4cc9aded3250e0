import Mathlib.Data.List.Nodup
import Mathlib.Data.List.Perm.Subperm
import Verif.Proofs.Accumulate
import Verif.Proofs.Sort
import Verif.Props.Accumulate

/-!
# Store properties C26 – C29: selectors and paging
-/
namespace Verif.Props
open Verif Verif.Model Verif.Spec Verif.Proofs

variable {R : Type} [Inhabited R]

/-! ## C26 -/

/-- C26 is false of the code for a negative offset: List panics (slice bounds) instead of reporting an error. -/
theorem C26_counterexample :
    ((after vanOps exCfg [.add (hostEntry "h1" "a" "r1") t0]).list (some { offset := -1 }) 0).isPanic ∧
    ((after vanOps exCfg [.add (hostEntry "h1" "a" "r1") t0]).list (some { cont := encodeContinue 0 (-1) }) 0).isPanic := by
  decide +kernel

/-- The offset the caller means: the one in the token, if there is a token. -/
def Means (sel : Selector) (off : Nat) : Prop :=
  (sel.cont = "" ∧ sel.offset = off) ∨ (sel.cont ≠ "" ∧ decodeContinue sel.cont = .ok (off : Int))

/-- C26 for offsets that are not negative: the result is the window of all matching entries sorted by key (ascending or descending), limit ≤ 0 meaning
no limit, and Continue is set iff entries remain beyond the window.  Missing for C26: negative offsets (false, `C26_counterexample`). -/
theorem C26_window_partial {ops : RecOps R} (hl : LawfulOps ops) {cfg : CacheConfig R} (hc : GoodConfig cfg) {Good : R → Prop}
    (hcoh : CoherentKey ops (keyOf ops cfg) Good) (h : List (Op R)) (hops : ∀ op ∈ h, Op.All Good op) (q : Query R)
    (hq : q.known cfg) (sel : Selector) (nonce : Int) (off : Nat) (hoff : Means sel off) :
    ∃ ks, SortedKeys (content ops cfg h) (q.matches cfg) sel.ordering ks ∧
      ∃ es cont, q.ask (after ops cfg h) sel nonce = .ok { entries := es, cont := cont } ∧
        es.map some = (if sel.limit > 0 then (ks.drop off).take sel.limit.toNat else ks.drop off).map (content ops cfg h) ∧
        (cont ≠ "" ↔ sel.limit > 0 ∧ (off : Int) + sel.limit < ks.length) ∧
        (cont ≠ "" → cont = encodeContinue nonce (off + sel.limit)) := by
  have hinv := content_keyInv hl hcoh h hops
  have hoff' : (if sel.cont ≠ "" then decodeContinue sel.cont else .ok sel.offset) = .ok (off : Int) := by
    rcases hoff with ⟨h1, h2⟩ | ⟨h1, h2⟩
    · simp [h1, h2]
    · rw [if_pos h1]; exact h2
  have core : ∀ l, ListsExactly (content ops cfg h) (q.matches cfg) l →
      ∃ ks, SortedKeys (content ops cfg h) (q.matches cfg) sel.ordering ks ∧
      ∃ es cont, applySelector (after ops cfg h).keyFunc l sel nonce = .ok { entries := es, cont := cont } ∧
        es.map some = (if sel.limit > 0 then (ks.drop off).take sel.limit.toNat else ks.drop off).map (content ops cfg h) ∧
        (cont ≠ "" ↔ sel.limit > 0 ∧ (off : Int) + sel.limit < ks.length) ∧
        (cont ≠ "" → cont = encodeContinue nonce (off + sel.limit)) := by
    intro l hle
    obtain ⟨ks, h1, h2, es, cont, h3, h4, h5⟩ := applySelector_window hle (fun k e hk => (hinv k e hk).1) sel nonce off hoff'
    refine ⟨ks, ⟨h1, h2⟩, es, cont, by rw [after_keyFunc hl cfg hc]; exact h3, h4, ?_, ?_⟩
    · split at h5 <;> rename_i hcond
      · subst h5; simp [hcond, encodeContinue_ne]
      · subst h5; simp only [ne_eq, not_true_eq_false, false_iff]; exact hcond
    · intro hne
      split at h5
      · exact h5
      · exact absurd h5 hne
  cases q with
  | none =>
    have hle : ListsExactly (content ops cfg h) (fun _ => True) ((after ops cfg h).storage.list.map VC.resource) := by
      rw [content_eq hl]; exact list_exact (after_inv hl cfg hc h)
    exact core _ hle
  | some p =>
    obtain ⟨name, e⟩ := p
    cases hf : indexerOf cfg name with
    | none => exact absurd hf hq
    | some f =>
      have hf' := hf
      rw [← indexers_get, ← after_indexers hl cfg hc h] at hf'
      obtain ⟨l, h1, h2⟩ := index_exact (after_inv hl cfg hc h) hf' e
      rw [← content_eq hl] at h2
      have hP : (fun x => ∃ v, v ∈ f e ∧ v ∈ f x) = Query.matches cfg (some (name, e)) := by
        funext x
        simp [Query.matches, hf]
      rw [hP] at h2
      simp only [Query.ask, Cache.index, h1, Res.bind_ok]
      exact core _ h2

/-- C26: a malformed token is reported as an error. -/
theorem C26_bad_token {ops : RecOps R} (hl : LawfulOps ops) {cfg : CacheConfig R} (hc : GoodConfig cfg) {Good : R → Prop}
    (hcoh : CoherentKey ops (keyOf ops cfg) Good) (h : List (Op R)) (hops : ∀ op ∈ h, Op.All Good op) (q : Query R)
    (hq : q.known cfg) (sel : Selector) (nonce : Int) (hne : sel.cont ≠ "") (hbad : ∀ off, decodeContinue sel.cont ≠ .ok off) :
    (q.ask (after ops cfg h) sel nonce).isErr := by
  have hinv := content_keyInv hl hcoh h hops
  have core : ∀ l, ListsExactly (content ops cfg h) (q.matches cfg) l → (applySelector (after ops cfg h).keyFunc l sel nonce).isErr := by
    intro l hle
    obtain ⟨_, _, _, _, h4⟩ := sort_entries hle (fun k e hk => (hinv k e hk).1) sel.ordering
    rw [after_keyFunc hl cfg hc]
    unfold applySelector
    rw [if_neg (by
      rintro ⟨_, ha⟩
      obtain ⟨e, he, hp⟩ := List.any_eq_true.1 ha
      rw [h4 e he] at hp; exact absurd hp (by decide))]
    rw [if_pos hne]
    rcases (C16_malformed_refused sel.cont).2 with ⟨v, hv, _⟩ | he
    · exact absurd hv (hbad v)
    · cases hd : decodeContinue sel.cont with
      | ok v => exact absurd hd (hbad v)
      | err m => rfl
      | panic m => rw [hd] at he; exact absurd he (by simp)
  cases q with
  | none =>
    have hle : ListsExactly (content ops cfg h) (fun _ => True) ((after ops cfg h).storage.list.map VC.resource) := by
      rw [content_eq hl]; exact list_exact (after_inv hl cfg hc h)
    exact core _ hle
  | some p =>
    obtain ⟨name, e⟩ := p
    cases hf : indexerOf cfg name with
    | none => exact absurd hf hq
    | some f =>
      have hf' := hf
      rw [← indexers_get, ← after_indexers hl cfg hc h] at hf'
      obtain ⟨l, h1, h2⟩ := index_exact (after_inv hl cfg hc h) hf' e
      rw [← content_eq hl] at h2
      have hP : (fun x => ∃ v, v ∈ f e ∧ v ∈ f x) = Query.matches cfg (some (name, e)) := by
        funext x
        simp [Query.matches, hf]
      rw [hP] at h2
      simp only [Query.ask, Cache.index, h1, Res.bind_ok]
      exact core _ h2

def threeHosts : List (Op (GoRec GoTime)) :=
  [.add (hostEntry "c" "x" "r1") t0, .add (hostEntry "a" "x" "r1") t0, .add (hostEntry "b" "x" "r2") t0]

def idsOf (r : Res (SetRes (GoRec GoTime))) : Res (List (Res String)) := r.map fun s => s.entries.map fun e => vanIdentity e.record

theorem threeHosts_good : ∀ op ∈ threeHosts, Op.All (GoodRecord vanRegistry) op := by
  intro op hop
  simp only [threeHosts, List.mem_cons, List.not_mem_nil, or_false] at hop
  rcases hop with rfl | rfl | rfl <;> exact hostRec_good _ _

/-- Instances of the hypotheses, and windows of three entries. -/
example : CoherentKey vanOps (keyOf vanOps exCfg) (GoodRecord vanRegistry) ∧ (∀ op ∈ threeHosts, Op.All (GoodRecord vanRegistry) op) ∧
    Means { offset := 1, limit := 1 } 1 ∧ Query.known exCfg (some ("source", hostEntry "" "" "r1")) ∧
    idsOf ((after vanOps exCfg threeHosts).list (some { offset := 1, limit := 1 }) 0) = .ok [.ok "b"] ∧
    idsOf ((after vanOps exCfg threeHosts).list (some { ordering := 1 }) 0) = .ok [.ok "c", .ok "b", .ok "a"] ∧
    idsOf ((after vanOps exCfg threeHosts).index "source" (hostEntry "" "" "r1") (some { }) 0) = .ok [.ok "a", .ok "c"] := by
  exact ⟨van_coherent, threeHosts_good, Or.inl ⟨rfl, rfl⟩, Option.some_ne_none _, by decide +kernel, by decide +kernel, by decide +kernel⟩

/-! ## C27 -/

theorem decode_token {nonce : Int} {o : Nat} (h : o < 2 ^ 31) : decodeContinue (encodeContinue nonce (o : Int)) = .ok (o : Int) :=
  C16_continue_roundtrip nonce o (by omega)

/-- C27: on a store that does not change, following Continue tokens with a limit `n > 0` terminates, in one way, whatever the clock;
the pages put together are all matching entries in key order, each once; every page but the last has exactly `n` entries. -/
theorem C27_paging {ops : RecOps R} (hl : LawfulOps ops) {cfg : CacheConfig R} (hc : GoodConfig cfg) {Good : R → Prop}
    (hcoh : CoherentKey ops (keyOf ops cfg) Good) (h : List (Op R)) (hops : ∀ op ∈ h, Op.All Good op) (q : Query R)
    (hq : q.known cfg) (ordering : Int) (n : Nat) (hn : 0 < n) (clock : Nat → Int) (ks : List String)
    (hks : SortedKeys (content ops cfg h) (q.matches cfg) ordering ks) (hsmall : ks.length < 2 ^ 31) :
    let page := fun i t => q.ask (after ops cfg h) { limit := n, cont := t, ordering := ordering } (clock i)
    ∃ pages, Walk page 0 "" pages ∧ (∀ pages', Walk page 0 "" pages' → pages' = pages) ∧
      pages.flatten.map some = ks.map (content ops cfg h) ∧ ∀ p ∈ pages.dropLast, p.length = n := by
  intro page
  have hpos : ((n : Nat) : Int) > 0 := by omega
  have step : ∀ (i : Nat) (t : String) (off : Nat), ((t = "" ∧ off = 0) ∨ (t ≠ "" ∧ decodeContinue t = .ok (off : Int))) →
      ∃ es, es.map some = ((ks.drop off).take n).map (content ops cfg h) ∧
        ((off + n < ks.length ∧ page i t = .ok { entries := es, cont := encodeContinue (clock i) ((off + n : Nat) : Int) }) ∨
         (ks.length ≤ off + n ∧ page i t = .ok { entries := es, cont := "" })) := by
    intro i t off ht
    obtain ⟨ks', h1, es, cont, h2, h3, h4, h5⟩ := C26_window_partial hl hc hcoh h hops q hq
      { limit := n, cont := t, ordering := ordering } (clock i) off (by
        rcases ht with ⟨rfl, rfl⟩ | ht
        · exact Or.inl ⟨rfl, rfl⟩
        · exact Or.inr ht)
    have := sortedKeys_unique hks h1
    subst this
    simp only [if_pos hpos, Int.toNat_natCast] at h3
    refine ⟨es, h3, ?_⟩
    by_cases hm : off + n < ks.length
    · left
      refine ⟨hm, ?_⟩
      have hne := h4.2 ⟨hpos, by simp only; omega⟩
      rw [h5 hne] at h2
      exact h2
    · right
      refine ⟨by omega, ?_⟩
      have : cont = "" := Classical.not_not.1 fun hne => by have := (h4.1 hne).2; simp only at this; omega
      rw [this] at h2
      exact h2
  have main : ∀ (fuel off i : Nat) (t : String), ks.length - off ≤ fuel → off ≤ ks.length →
      ((t = "" ∧ off = 0) ∨ (t ≠ "" ∧ decodeContinue t = .ok (off : Int))) →
      ∃ pages, Walk page i t pages ∧ (∀ pages', Walk page i t pages' → pages' = pages) ∧
        pages.flatten.map some = (ks.drop off).map (content ops cfg h) ∧ (∀ p ∈ pages.dropLast, p.length = n) ∧ pages ≠ [] := by
    intro fuel
    induction fuel with
    | zero =>
      intro off i t hf hle ht
      obtain ⟨es, he, hcase⟩ := step i t off ht
      rcases hcase with ⟨h1, _⟩ | ⟨_, h2⟩
      · omega
      · refine ⟨[es], .last h2, ?_, ?_, by simp, by simp⟩
        · intro pages' hw
          cases hw with
          | last h3 => rw [h2] at h3; simp at h3; rw [h3]
          | more h3 h4 _ => rw [h2] at h3; injection h3 with h3; exact absurd (congrArg SetRes.cont h3).symm h4
        · simp only [List.flatten_cons, List.flatten_nil, List.append_nil]
          rw [he, List.take_of_length_le]
          rw [List.length_drop]; omega
    | succ fuel ih =>
      intro off i t hf hle ht
      obtain ⟨es, he, hcase⟩ := step i t off ht
      rcases hcase with ⟨h1, h2⟩ | ⟨h1, h2⟩
      · obtain ⟨ps, g1, g2, g3, g4, g5⟩ := ih (off + n) (i + 1) _ (by omega) (by omega)
          (Or.inr ⟨encodeContinue_ne (clock i) _, decode_token (by omega)⟩)
        refine ⟨es :: ps, .more h2 (encodeContinue_ne _ _) g1, ?_, ?_, ?_, by simp⟩
        · intro pages' hw
          cases hw with
          | last h3 => rw [h2] at h3; simp at h3; exact absurd h3.2 (encodeContinue_ne _ _)
          | more h3 h4 h5 =>
            rw [h2] at h3; simp at h3
            obtain ⟨rfl, rfl⟩ := h3
            rw [g2 _ h5]
        · rw [List.flatten_cons, List.map_append, he, g3, ← List.map_append, ← List.drop_drop, List.take_append_drop]
        · intro p hp
          rw [List.dropLast_cons_of_ne_nil g5] at hp
          rcases List.mem_cons.1 hp with rfl | hp
          · have := congrArg List.length he
            simp only [List.length_map, List.length_take, List.length_drop] at this
            omega
          · exact g4 p hp
      · refine ⟨[es], .last h2, ?_, ?_, by simp, by simp⟩
        · intro pages' hw
          cases hw with
          | last h3 => rw [h2] at h3; simp at h3; rw [h3]
          | more h3 h4 _ => rw [h2] at h3; injection h3 with h3; exact absurd (congrArg SetRes.cont h3).symm h4
        · simp only [List.flatten_cons, List.flatten_nil, List.append_nil]
          rw [he, List.take_of_length_le]
          rw [List.length_drop]; omega
  obtain ⟨pages, h1, h2, h3, h4, _⟩ := main ks.length 0 0 "" (by omega) (by omega) (Or.inl ⟨rfl, rfl⟩)
  exact ⟨pages, h1, h2, by simpa using h3, h4⟩

/-- Instance: three hosts have sorted keys a, b, c. -/
theorem threeHosts_sorted : SortedKeys (content vanOps exCfg threeHosts) (Query.matches exCfg none) 0 ["a", "b", "c"] := by
  refine ⟨show List.Pairwise (fun a b : String => a < b) ["a", "b", "c"] by decide, ?_⟩
  intro k
  have hcon : content vanOps exCfg threeHosts k = (if k = "b" then some ((hostEntry "b" "x" "r2").stamp t0) else
      if k = "a" then some ((hostEntry "a" "x" "r1").stamp t0) else if k = "c" then some ((hostEntry "c" "x" "r1").stamp t0) else none) := rfl
  rw [hcon]
  simp only [Query.matches, and_true, List.mem_cons, List.not_mem_nil, or_false]
  constructor
  · rintro (rfl | rfl | rfl) <;> exact ⟨_, rfl⟩
  · rintro ⟨e, he⟩
    by_cases h1 : k = "b"
    · exact Or.inr (Or.inl h1)
    by_cases h2 : k = "a"
    · exact Or.inl h2
    by_cases h3 : k = "c"
    · exact Or.inr (Or.inr h3)
    · simp [h1, h2, h3] at he

/-! ## C28 -/

/-- C28 is false: with page size 1 over a, b, c, deleting `a` after it was returned makes the next page start at `c`; `b`, present all the
time, is never returned. -/
theorem C28_counterexample :
    ∃ t : String,
      ((after vanOps exCfg threeHosts).list (some { limit := 1 }) 0).map SetRes.cont = .ok t ∧
      idsOf ((after vanOps exCfg threeHosts).list (some { limit := 1 }) 0) = .ok [.ok "a"] ∧
      idsOf ((after vanOps exCfg (threeHosts ++ [.delete (hostEntry "a" "" "")])).list (some { limit := 1, cont := t }) 0) = .ok [.ok "c"] ∧
      ((after vanOps exCfg (threeHosts ++ [.delete (hostEntry "a" "" "")])).list (some { limit := 1, cont := t }) 0).map SetRes.cont = .ok "" ∧
      content vanOps exCfg (threeHosts ++ [.delete (hostEntry "a" "" "")]) "b" ≠ none := by
  refine ⟨_, rfl, ?_, ?_, ?_, fun h => Option.some_ne_none _ h⟩
  · decide +kernel
  · decide +kernel
  · decide +kernel

theorem sorted_subset_length {o : Int} : ∀ {l l' : List String}, l.Pairwise (before o) → (∀ x ∈ l, x ∈ l') → l.length ≤ l'.length := by
  intro l l' h hsub
  exact (List.subperm_of_subset (before_nodup h) hsub).length_le

/-- The number of keys before a key, in a sorted list. -/
theorem getElem_of_rank {o : Int} : ∀ {ks : List String} {k : String}, ks.Pairwise (before o) → k ∈ ks →
    ∃ r, ks[r]? = some k ∧ ∀ x, x ∈ ks.take r ↔ x ∈ ks ∧ before o x k := by
  intro ks k h hk
  obtain ⟨r, hr, hrk⟩ := List.getElem_of_mem hk
  refine ⟨r, by rw [List.getElem?_eq_getElem hr, hrk], ?_⟩
  intro x
  constructor
  · intro hx
    refine ⟨List.mem_of_mem_take hx, ?_⟩
    obtain ⟨j, hj, hjx⟩ := List.getElem_of_mem hx
    rw [List.length_take] at hj
    rw [List.getElem_take] at hjx
    have := List.pairwise_iff_getElem.1 h j r (by omega) hr (by omega)
    rw [hjx, hrk] at this
    exact this
  · rintro ⟨hx, hb⟩
    obtain ⟨j, hj, hjx⟩ := List.getElem_of_mem hx
    have hjr : j < r := by
      apply Classical.byContradiction
      intro hn
      rcases Nat.lt_or_ge r j with h1 | h1
      · have := List.pairwise_iff_getElem.1 h r j hr hj h1
        rw [hjx, hrk] at this
        exact before_irrefl (before_trans this hb)
      · have : j = r := by omega
        subst this
        rw [hrk] at hjx; subst hjx
        exact before_irrefl hb
    rw [← hjx]
    exact List.mem_take_iff_getElem.2 ⟨j, by omega, rfl⟩

/-- C28 as far as it holds: while a caller follows the tokens the store changes arbitrarily between the calls (`h i` is the history before
the `i`-th call); an entry whose key `k` matches the query during the whole walk is returned, in the version stored at the time of its
page, provided no matching key sorted before `k` is removed (or stops matching) meanwhile.  Insertions, updates, and removals after `k` are harmless.
Missing for C28: removals before `k` (false, `C28_counterexample`). -/
theorem C28_paging_partial {ops : RecOps R} (hl : LawfulOps ops) {cfg : CacheConfig R} (hc : GoodConfig cfg) {Good : R → Prop}
    (hcoh : CoherentKey ops (keyOf ops cfg) Good) (h : Nat → List (Op R)) (hops : ∀ i, ∀ op ∈ h i, Op.All Good op) (q : Query R)
    (hq : q.known cfg) (ordering : Int) (n : Nat) (hn : 0 < n) (clock : Nat → Int)
    (hsmall : ∀ i ks, SortedKeys (content ops cfg (h i)) (q.matches cfg) ordering ks → ks.length < 2 ^ 31)
    (k : String) (hk : ∀ i, ∃ e, content ops cfg (h i) k = some e ∧ q.matches cfg e)
    (hstay : ∀ i x, before ordering x k → (∃ e, content ops cfg (h i) x = some e ∧ q.matches cfg e) →
      ∃ e, content ops cfg (h (i + 1)) x = some e ∧ q.matches cfg e)
    (pages : List (List (Entry R)))
    (hw : Walk (fun i t => q.ask (after ops cfg (h i)) { limit := n, cont := t, ordering := ordering } (clock i)) 0 "" pages) :
    ∃ i p e, pages[i]? = some p ∧ e ∈ p ∧ content ops cfg (h i) k = some e := by
  have hpos : ((n : Nat) : Int) > 0 := by omega
  have main : ∀ (i : Nat) (t : String) (pages : List (List (Entry R))),
      Walk (fun i t => q.ask (after ops cfg (h i)) { limit := n, cont := t, ordering := ordering } (clock i)) i t pages →
      ∀ (off : Nat), ((t = "" ∧ off = 0) ∨ (t ≠ "" ∧ decodeContinue t = .ok (off : Int))) →
      (∀ ks r, SortedKeys (content ops cfg (h i)) (q.matches cfg) ordering ks → ks[r]? = some k → off ≤ r) →
      ∃ j p e, pages[j]? = some p ∧ e ∈ p ∧ content ops cfg (h (i + j)) k = some e := by
    intro i t pages hw
    induction hw with
    | @last i t p hp =>
      intro off ht hrank
      obtain ⟨ks, h1, es, cont, h2, h3, h4, h5⟩ := C26_window_partial hl hc hcoh (h i) (hops i) q hq
        { limit := n, cont := t, ordering := ordering } (clock i) off (by
          rcases ht with ⟨rfl, rfl⟩ | ht
          · exact Or.inl ⟨rfl, rfl⟩
          · exact Or.inr ht)
      rw [hp] at h2
      simp only [Res.ok.injEq, SetRes.mk.injEq] at h2
      obtain ⟨rfl, rfl⟩ := h2
      simp only [if_pos hpos, Int.toNat_natCast] at h3
      obtain ⟨e, he, hm⟩ := hk i
      obtain ⟨r, hr, _⟩ := getElem_of_rank h1.1 ((h1.2 k).2 ⟨e, he, hm⟩)
      have hoff := hrank ks r h1 hr
      have hlast : ks.length ≤ off + n := by
        have := h4.2
        apply Classical.byContradiction
        intro hlt
        exact this ⟨hpos, by simp only; omega⟩ rfl
      have hrl : r < ks.length := by
        rcases List.getElem?_eq_some_iff.1 hr with ⟨hh, _⟩; exact hh
      have hmem : k ∈ (ks.drop off).take n := by
        rw [List.take_of_length_le (by rw [List.length_drop]; omega)]
        rw [List.mem_drop_iff_getElem]
        refine ⟨r - off, by omega, ?_⟩
        rw [List.getElem?_eq_getElem hrl] at hr
        simp only [Option.some.injEq] at hr
        have : off + (r - off) = r := by omega
        simp only [this]; exact hr
      have : some e ∈ p.map some := by rw [h3, ← he]; exact List.mem_map_of_mem hmem
      obtain ⟨e', he', heq⟩ := List.mem_map.1 this
      simp only [Option.some.injEq] at heq
      subst heq
      exact ⟨0, p, e', rfl, he', he⟩
    | @more i t t' p ps hp hne hw ih =>
      intro off ht hrank
      obtain ⟨ks, h1, es, cont, h2, h3, h4, h5⟩ := C26_window_partial hl hc hcoh (h i) (hops i) q hq
        { limit := n, cont := t, ordering := ordering } (clock i) off (by
          rcases ht with ⟨rfl, rfl⟩ | ht
          · exact Or.inl ⟨rfl, rfl⟩
          · exact Or.inr ht)
      rw [hp] at h2
      simp only [Res.ok.injEq, SetRes.mk.injEq] at h2
      obtain ⟨rfl, rfl⟩ := h2
      simp only [if_pos hpos, Int.toNat_natCast] at h3
      have htok := h5 hne
      have hlt := (h4.1 hne).2
      simp only at hlt
      have hsm := hsmall i ks h1
      obtain ⟨e, he, hm⟩ := hk i
      obtain ⟨r, hr, hrk⟩ := getElem_of_rank h1.1 ((h1.2 k).2 ⟨e, he, hm⟩)
      have hoff := hrank ks r h1 hr
      have hrl : r < ks.length := by
        rcases List.getElem?_eq_some_iff.1 hr with ⟨hh, _⟩; exact hh
      by_cases hin : r < off + n
      · have hmem : k ∈ (ks.drop off).take n := by
          rw [List.mem_take_iff_getElem]
          rw [List.getElem?_eq_getElem hrl] at hr
          simp only [Option.some.injEq] at hr
          refine ⟨r - off, by rw [List.length_drop]; omega, ?_⟩
          rw [List.getElem_drop]
          have : off + (r - off) = r := by omega
          simp only [this]; exact hr
        have : some e ∈ p.map some := by rw [h3, ← he]; exact List.mem_map_of_mem hmem
        obtain ⟨e', he', heq⟩ := List.mem_map.1 this
        simp only [Option.some.injEq] at heq
        subst heq
        exact ⟨0, p, e', rfl, he', he⟩
      · have htok' : t' = encodeContinue (clock i) ((off + n : Nat) : Int) := by rw [htok]; rfl
        obtain ⟨j, p', e', g1, g2, g3⟩ := ih (off + n) (Or.inr ⟨hne, by rw [htok']; exact decode_token (by omega)⟩) (by
          intro ks' r' h1' hr'
          obtain ⟨e2, he2, hm2⟩ := hk (i + 1)
          obtain ⟨r2, hr2, hrk2⟩ := getElem_of_rank h1'.1 ((h1'.2 k).2 ⟨e2, he2, hm2⟩)
          have hrl' : r' < ks'.length := by rcases List.getElem?_eq_some_iff.1 hr' with ⟨hh, _⟩; exact hh
          have hrl2 : r2 < ks'.length := by rcases List.getElem?_eq_some_iff.1 hr2 with ⟨hh, _⟩; exact hh
          have heq : r' = r2 := by
            have hnd := before_nodup h1'.1
            rw [List.getElem?_eq_getElem hrl'] at hr'
            rw [List.getElem?_eq_getElem hrl2] at hr2
            simp only [Option.some.injEq] at hr' hr2
            exact (hnd.getElem_inj_iff).1 (hr'.trans hr2.symm)
          subst heq
          have hsub : ∀ x ∈ ks.take r, x ∈ ks'.take r' := by
            intro x hx
            obtain ⟨hx1, hx2⟩ := (hrk x).1 hx
            obtain ⟨e3, he3, hm3⟩ := hstay i x hx2 ((h1.2 x).1 hx1)
            exact (hrk2 x).2 ⟨(h1'.2 x).2 ⟨e3, he3, hm3⟩, hx2⟩
          have hlen := sorted_subset_length (h1.1.sublist (List.take_sublist r ks)) hsub
          rw [List.length_take, List.length_take] at hlen
          omega)
        exact ⟨j + 1, p', e', g1, g2, by rw [show i + (j + 1) = i + 1 + j by omega]; exact g3⟩
  obtain ⟨j, p, e, h1, h2, h3⟩ := main 0 "" pages hw 0 (Or.inl ⟨rfl, rfl⟩) (by intros; omega)
  exact ⟨j, p, e, h1, h2, by simpa using h3⟩

/-! ## C29 -/

/-- C29 up to `2^31 - 1`: the token of a page denotes the offset just after the page.  Missing for C29: larger stores (false,
`C29_counterexample`). -/
theorem C29_token_partial {ops : RecOps R} (hl : LawfulOps ops) {cfg : CacheConfig R} (hc : GoodConfig cfg) {Good : R → Prop}
    (hcoh : CoherentKey ops (keyOf ops cfg) Good) (h : List (Op R)) (hops : ∀ op ∈ h, Op.All Good op) (q : Query R)
    (hq : q.known cfg) (sel : Selector) (nonce : Int) (off : Nat) (hoff : Means sel off) (hsmall : (off : Int) + sel.limit < 2 ^ 31)
    (r : SetRes R) (hr : q.ask (after ops cfg h) sel nonce = .ok r) (hcont : r.cont ≠ "") :
    ∃ off' : Nat, Means { sel with cont := r.cont } off' ∧ off' = off + r.entries.length := by
  obtain ⟨ks, h1, es, cont, h2, h3, h4, h5⟩ := C26_window_partial hl hc hcoh h hops q hq sel nonce off hoff
  rw [h2] at hr
  simp only [Res.ok.injEq] at hr
  subst hr
  obtain ⟨g1, g2⟩ := h4.1 hcont
  refine ⟨off + sel.limit.toNat, Or.inr ⟨hcont, ?_⟩, ?_⟩
  · simp only
    rw [h5 hcont, C16_continue_roundtrip _ _ (by omega)]
    congr 1; omega
  · have := congrArg List.length h3
    rw [if_pos g1] at this
    simp only [List.length_map, List.length_take, List.length_drop] at this
    simp only
    omega

omit [Inhabited R] in
theorem lastWithKey_some (kf : KeyFunc R) {es : List (Entry R)} {e : Entry R} {k : String} (he : e ∈ es) (hk : kf e = .ok k) :
    ∃ e', lastWithKey kf es k = some e' := by
  unfold lastWithKey
  have : (es.filter fun e => decide (kf e = .ok k)) ≠ [] :=
    List.ne_nil_of_mem (List.mem_filter.2 ⟨he, by simp [hk]⟩)
  exact ⟨_, List.getLast?_eq_some_getLast this⟩

/-- Host entries with distinct identities. -/
def manyHosts (n : Nat) : List (Entry (GoRec GoTime)) :=
  (List.range n).map fun i => hostEntry (String.ofList (List.replicate i 'a')) "x" "r1"

/-- C29 is false: in a store with more than `2^31` entries, the token after a page of `2^31` entries denotes the offset `-2^31`, and using
it panics. -/
theorem C29_counterexample :
    ∃ h : List (Op (GoRec GoTime)), ∃ r, (after vanOps exCfg h).list (some { limit := 2 ^ 31 }) 0 = .ok r ∧ r.cont ≠ "" ∧
      ((after vanOps exCfg h).list (some { limit := 2 ^ 31, cont := r.cont }) 0).isPanic := by
  obtain ⟨N, hN⟩ : ∃ N : Nat, N = 2 ^ 31 + 1 := ⟨_, rfl⟩
  have hall : ∀ op ∈ [Op.replace (manyHosts N)], Op.All (GoodRecord vanRegistry) op := by
    intro op hop
    simp only [List.mem_singleton] at hop
    subst hop
    intro e he
    obtain ⟨i, _, rfl⟩ := List.mem_map.1 he
    exact hostRec_good _ _
  have hkey : ∀ i, keyOf vanOps exCfg (hostEntry (String.ofList (List.replicate i 'a')) "x" "r1") = .ok (String.ofList (List.replicate i 'a')) :=
    fun i => rfl
  obtain ⟨ks, h1, es, cont, h2, h3, h4, h5⟩ := C26_window_partial vanOps_lawful exCfg_good van_coherent [Op.replace (manyHosts N)] hall none trivial
    { limit := 2 ^ 31 } 0 0 (Or.inl ⟨rfl, rfl⟩)
  have hcont := ((C20_replace_exact vanOps_lawful exCfg_good [] (manyHosts N)).2.1 (by
    intro e he
    obtain ⟨i, _, rfl⟩ := List.mem_map.1 he
    exact ⟨_, hkey i⟩)).2.1
  simp only [List.nil_append] at hcont
  have hlen : N ≤ ks.length := by
    have hnd : ((List.range N).map fun i => String.ofList (List.replicate i 'a')).Nodup := by
      refine List.Nodup.map ?_ List.nodup_range
      intro i j hij
      have := congrArg (fun s => s.toList.length) hij
      simpa using this
    have := (List.subperm_of_subset hnd (l₂ := ks) (by
      intro k hk
      obtain ⟨i, hi, rfl⟩ := List.mem_map.1 hk
      refine (h1.2 _).2 ?_
      rw [hcont]
      have hm : hostEntry (String.ofList (List.replicate i 'a')) "x" "r1" ∈ manyHosts N := List.mem_map.2 ⟨i, hi, rfl⟩
      obtain ⟨e, he⟩ := lastWithKey_some (keyOf vanOps exCfg) hm (hkey i)
      exact ⟨e, he, trivial⟩)).length_le
    simpa using this
  have hne := h4.2 ⟨by decide, by simp only; omega⟩
  refine ⟨_, _, h2, hne, ?_⟩
  simp only
  rw [h5 hne]
  have hdec : decodeContinue (encodeContinue 0 ((0 : Nat) + (2 ^ 31 : Int))) = .ok (-2 ^ 31) := by
    rw [decodeContinue_encode]; rfl
  have hinv := content_keyInv (cfg := exCfg) vanOps_lawful van_coherent [Op.replace (manyHosts N)] hall
  have hle := list_exact (after_inv vanOps_lawful exCfg exCfg_good [Op.replace (manyHosts N)])
  rw [← content_eq vanOps_lawful] at hle
  obtain ⟨_, _, _, _, g4⟩ := sort_entries hle (fun k e hk => (hinv k e hk).1) 0
  simp only [Cache.list]
  rw [after_keyFunc vanOps_lawful exCfg exCfg_good]
  unfold applySelector
  rw [if_neg (by
    rintro ⟨_, ha⟩
    obtain ⟨e, he, hp⟩ := List.any_eq_true.1 ha
    rw [g4 e he] at hp; exact absurd hp (by decide))]
  simp only
  rw [if_pos (encodeContinue_ne _ _), hdec]
  rfl

end Verif.Props
