import Verif.Proofs.Store

/-!
# Sorting and windows
-/
namespace Verif.Proofs
open Verif Verif.Model Verif.Spec

theorem insertRev_perm {α : Type} (less : α → α → Bool) (x : α) : ∀ l : List α, (insertRev less x l).Perm (x :: l)
  | [] => .refl _
  | y :: ys => by
    simp only [insertRev]
    split
    · exact ((insertRev_perm less x ys).cons y).trans (List.Perm.swap x y ys)
    · exact .refl _

theorem sortSlice_perm {α : Type} (less : α → α → Bool) (l : List α) : (sortSlice less l).Perm l := by
  have key : ∀ (l acc : List α), (l.foldl (fun acc x => insertRev less x acc) acc).Perm (acc ++ l) := by
    intro l
    induction l with
    | nil => intro acc; simp
    | cons x l ih =>
      intro acc
      rw [List.foldl_cons]
      refine (ih _).trans ?_
      refine ((insertRev_perm less x acc).append_right l).trans ?_
      simpa using (List.perm_middle (a := x) (l₁ := acc) (l₂ := l)).symm
  unfold sortSlice
  exact (List.reverse_perm _).trans (by simpa using key l [])

/-- Insertion sort sorts, whenever `less` decides the (transitive, total) order on elements with different keys. -/
theorem sortSlice_sorted {α κ : Type} {less : α → α → Bool} {key : α → κ} {r : α → α → Prop}
    (hless : ∀ x y, key x ≠ key y → (less x y = true ↔ r x y)) (htot : ∀ x y, key x ≠ key y → r x y ∨ r y x)
    (htrans : ∀ x y z, r x y → r y z → r x z) {l : List α} (hnd : (l.map key).Nodup) : (sortSlice less l).Pairwise r := by
  have ins : ∀ (x : α) (acc : List α), acc.Pairwise (fun a b => r b a) → (∀ y ∈ acc, key x ≠ key y) →
      (insertRev less x acc).Pairwise (fun a b => r b a) := by
    intro x acc
    induction acc with
    | nil => intro _ _; simp [insertRev]
    | cons y ys ih =>
      intro hp hne
      rw [List.pairwise_cons] at hp
      simp only [insertRev]
      by_cases hl : less x y = true
      · rw [if_pos hl, List.pairwise_cons]
        have hxy := (hless x y (hne y (by simp))).1 hl
        refine ⟨?_, ih hp.2 fun z hz => hne z (by simp [hz])⟩
        intro z hz
        rcases List.mem_cons.1 ((insertRev_perm less x ys).mem_iff.1 hz) with rfl | hz
        · exact hxy
        · exact hp.1 z hz
      · rw [if_neg hl, List.pairwise_cons]
        have hyx : r y x := by
          rcases htot x y (hne y (by simp)) with h | h
          · exact absurd ((hless x y (hne y (by simp))).2 h) hl
          · exact h
        refine ⟨?_, List.pairwise_cons.2 hp⟩
        intro z hz
        rcases List.mem_cons.1 hz with rfl | hz
        · exact hyx
        · exact htrans z y x (hp.1 z hz) hyx
  have main : ∀ (l acc : List α), acc.Pairwise (fun a b => r b a) → ((acc ++ l).map key).Nodup →
      (l.foldl (fun acc x => insertRev less x acc) acc).Pairwise (fun a b => r b a) := by
    intro l
    induction l with
    | nil => intro acc h _; exact h
    | cons x l ih =>
      intro acc h hn
      rw [List.foldl_cons]
      have hperm : (acc ++ x :: l).Perm (insertRev less x acc ++ l) :=
        (List.perm_middle (a := x) (l₁ := acc) (l₂ := l)).trans ((insertRev_perm less x acc).symm.append_right l)
      apply ih
      · apply ins x acc h
        intro y hy heq
        rw [List.map_append, List.nodup_append] at hn
        exact hn.2.2 (key y) (List.mem_map_of_mem hy) (key x) (by simp) heq.symm
      · exact (hperm.map key).nodup_iff.1 hn
  have := main l [] (by simp) (by simpa using hnd)
  unfold sortSlice
  rw [List.pairwise_reverse]
  exact this

/-- Two sorted arrangements of the same elements are equal: the result does not depend on the sorting algorithm. -/
theorem sorted_unique {α : Type} {r : α → α → Prop} (hasym : ∀ x y, r x y → r y x → False) {l l' : List α} (h : l.Pairwise r)
    (h' : l'.Pairwise r) (hp : l.Perm l') : l = l' := by
  refine List.Perm.eq_of_pairwise (le := r) ?_ h h' hp
  intro a b _ _ hab hba
  exact (hasym a b hab hba).elim

theorem before_trans {o : Int} {a b c : String} (h1 : before o a b) (h2 : before o b c) : before o a c := by
  unfold before at *
  split at h1 <;> rename_i ho
  · rw [if_pos ho] at h2 ⊢; exact String.lt_trans h2 h1
  · rw [if_neg ho] at h2 ⊢; exact String.lt_trans h1 h2

theorem before_irrefl {o : Int} {a : String} : ¬ before o a a := by
  unfold before; split <;> exact String.lt_irrefl a

theorem str_trichotomy {a b : String} (h : a ≠ b) : a < b ∨ b < a := by
  by_cases h1 : a < b
  · exact Or.inl h1
  · by_cases h2 : b < a
    · exact Or.inr h2
    · exact absurd (String.le_antisymm (String.not_lt.1 h2) (String.not_lt.1 h1)) h

theorem before_total {o : Int} {a b : String} (h : a ≠ b) : before o a b ∨ before o b a := by
  unfold before
  split
  · exact (str_trichotomy h).symm
  · exact str_trichotomy h

variable {R : Type}

theorem selLess_iff (kf : KeyFunc R) (o : Int) (x y : Entry R) (h : sortKey kf x ≠ sortKey kf y) :
    selLess kf o x y = true ↔ before o (sortKey kf x) (sortKey kf y) := by
  unfold selLess before
  split
  · simp only [Bool.not_eq_true', decide_eq_false_iff_not]
    constructor
    · intro hn
      rcases str_trichotomy h with h1 | h1
      · exact absurd h1 hn
      · exact h1
    · intro h1 h2
      exact String.lt_irrefl _ (String.lt_trans h1 h2)
  · simp

/-- The entries a selector works on, sorted: their keys in strict order, and the entries those of the keys. -/
theorem sort_entries {kf : KeyFunc R} {m : AMap R} {P : Entry R → Prop} {l : List (Entry R)} (h : ListsExactly m P l)
    (hkey : ∀ k e, m k = some e → kf e = .ok k) (o : Int) :
    ∃ ks : List String, ks.Pairwise (before o) ∧ (∀ k, k ∈ ks ↔ ∃ e, m k = some e ∧ P e) ∧
      (sortSlice (selLess kf o) l).map some = ks.map m ∧ (∀ e ∈ l, (kf e).isPanic = false) := by
  obtain ⟨ks0, hnd, hmem, hmap⟩ := h
  have hke : ∀ e ∈ l, m (sortKey kf e) = some e ∧ sortKey kf e ∈ ks0 ∧ kf e = .ok (sortKey kf e) := by
    intro e he
    have : some e ∈ ks0.map m := by rw [← hmap]; exact List.mem_map_of_mem he
    obtain ⟨k, hk, hk2⟩ := List.mem_map.1 this
    have hkf := hkey k e hk2
    have : sortKey kf e = k := by simp [sortKey, hkf]
    rw [this]; exact ⟨hk2, hk, hkf⟩
  have hkeys : l.map (sortKey kf) = ks0 := by
    have aux : ∀ (l : List (Entry R)) (ks : List String), l.map some = ks.map m → l.map (sortKey kf) = ks := by
      intro l
      induction l with
      | nil => intro ks h; cases ks with
        | nil => rfl
        | cons => simp at h
      | cons e l ih =>
        intro ks h
        cases ks with
        | nil => simp at h
        | cons k ks =>
          simp only [List.map_cons, List.cons.injEq] at h ⊢
          exact ⟨by simp [sortKey, hkey k e h.1.symm], ih ks h.2⟩
    exact aux l ks0 hmap
  have hperm := sortSlice_perm (selLess kf o) l
  refine ⟨(sortSlice (selLess kf o) l).map (sortKey kf), ?_, ?_, ?_, ?_⟩
  · rw [List.pairwise_map]
    refine sortSlice_sorted (key := sortKey kf) (r := fun x y => before o (sortKey kf x) (sortKey kf y)) (selLess_iff kf o)
      (fun x y h => before_total h) (fun x y z h1 h2 => before_trans h1 h2) (by rw [hkeys]; exact hnd)
  · intro k
    rw [(hperm.map (sortKey kf)).mem_iff, hkeys, hmem]
  · rw [List.map_map]
    apply List.map_congr_left
    intro e he
    exact (hke e (hperm.mem_iff.1 he)).1.symm
  · intro e he
    rw [(hke e he).2.2]; rfl

/-- `applySelector` at a given offset. -/
theorem applySelector_window {kf : KeyFunc R} {m : AMap R} {P : Entry R → Prop} {l : List (Entry R)} (h : ListsExactly m P l)
    (hkey : ∀ k e, m k = some e → kf e = .ok k) (sel : Selector) (nonce : Int) (off : Nat)
    (hoff : (if sel.cont ≠ "" then decodeContinue sel.cont else .ok sel.offset) = .ok (off : Int)) :
    ∃ ks : List String, ks.Pairwise (before sel.ordering) ∧ (∀ k, k ∈ ks ↔ ∃ e, m k = some e ∧ P e) ∧
      ∃ es cont, applySelector kf l sel nonce = .ok { entries := es, cont := cont } ∧
        es.map some = (if sel.limit > 0 then (ks.drop off).take sel.limit.toNat else ks.drop off).map m ∧
        (if sel.limit > 0 ∧ (off : Int) + sel.limit < ks.length then cont = encodeContinue nonce (off + sel.limit) else cont = "") := by
  obtain ⟨ks, h1, h2, h3, h4⟩ := sort_entries h hkey sel.ordering
  refine ⟨ks, h1, h2, ?_⟩
  have hany : ¬ (2 ≤ l.length ∧ l.any (fun e => (kf e).isPanic) = true) := by
    rintro ⟨_, ha⟩
    obtain ⟨e, he, hp⟩ := List.any_eq_true.1 ha
    rw [h4 e he] at hp; exact absurd hp (by decide)
  have hlen : (sortSlice (selLess kf sel.ordering) l).length = ks.length := by
    have := congrArg List.length h3
    simpa using this
  generalize hsd : sortSlice (selLess kf sel.ordering) l = sorted at h3 hlen
  have hwin : (if (off : Int) ≥ (sorted.length : Int) then [] else sorted.drop (off : Int).toNat) = sorted.drop off := by
    split
    · rename_i hge
      rw [List.drop_of_length_le]; omega
    · simp
  have hnn : ¬ ((off : Int) < 0) := by omega
  unfold applySelector
  rw [if_neg hany]
  simp only [hsd, hoff, Res.bind_ok, if_neg hnn, hwin]
  have hl2 : (sorted.drop off).length = ks.length - off := by rw [List.length_drop, hlen]
  by_cases hlim : sel.limit > 0
  · by_cases hmore : (off : Int) + sel.limit < ks.length
    · rw [if_pos ⟨hlim, by rw [hl2]; omega⟩]
      refine ⟨_, _, rfl, ?_, by rw [if_pos ⟨hlim, hmore⟩]⟩
      rw [if_pos hlim, List.map_take, List.map_drop, h3, List.map_take, List.map_drop]
    · rw [if_neg (by rw [hl2]; omega)]
      refine ⟨_, _, rfl, ?_, by rw [if_neg (by omega)]⟩
      rw [if_pos hlim, List.map_drop, h3, List.take_of_length_le, List.map_drop]
      rw [List.length_drop]; omega
  · rw [if_neg (by omega)]
    refine ⟨_, _, rfl, ?_, by rw [if_neg (by omega)]⟩
    rw [if_neg hlim, List.map_drop, h3, List.map_drop]

theorem before_nodup {o : Int} {ks : List String} (h : ks.Pairwise (before o)) : ks.Nodup :=
  h.imp fun hab he => by subst he; exact before_irrefl hab

theorem sortedKeys_unique {m : AMap R} {P : Entry R → Prop} {o : Int} {ks ks' : List String} (h : SortedKeys m P o ks)
    (h' : SortedKeys m P o ks') : ks = ks' := by
  refine sorted_unique (r := before o) (fun x y h1 h2 => before_irrefl (before_trans h1 h2)) h.1 h'.1 ?_
  rw [List.perm_ext_iff_of_nodup (before_nodup h.1) (before_nodup h'.1)]
  intro k
  rw [h.2 k, h'.2 k]

end Verif.Proofs
