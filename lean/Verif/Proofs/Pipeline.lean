import Verif.Spec.Pipeline
import Verif.Props.Manager
import Verif.Props.Dispatch
import Verif.Props.Flush

/-!
# Proofs about the way of a record from source to collector
-/
namespace Verif.Proofs
open Verif Verif.Model Verif.Spec Verif.Props

/-! ## Attribute values along the versions -/

theorem attrOf_nil (k : Any) : attrOf .nil k = none := rfl

theorem attrOf_ok {r : GoRec GoTime} {a : Attrs} (h : vanOps.encode r = .ok a) (k : Any) : attrOf r k = a.get? k := by simp [attrOf, h]

theorem latestFrom_append (x : Option Any) (a b : List (GoRec GoTime)) (k : Any) :
    latestFrom x (a ++ b) k = latestFrom (latestFrom x a k) b k := by simp [latestFrom]

theorem latest_snoc (rs : List (GoRec GoTime)) (r : GoRec GoTime) (k : Any) : latest (rs ++ [r]) k = (attrOf r k).or (latest rs k) := by
  unfold latest; rw [latestFrom_append]; rfl

theorem diffsOf_nil : diffsOf [] = [] := rfl

/-- The last version, or the record published before any of them. -/
def lastOr (p : GoRec GoTime) (vs : List (GoRec GoTime)) : GoRec GoTime := vs.getLast?.getD p

theorem lastOr_cons (p v : GoRec GoTime) (vs : List (GoRec GoTime)) : lastOr p (v :: vs) = lastOr v vs := by
  cases vs with
  | nil => rfl
  | cons w ws => simp [lastOr, List.getLast?_cons]

theorem lastOr_append (p : GoRec GoTime) (a b : List (GoRec GoTime)) : lastOr p (a ++ b) = lastOr (lastOr p a) b := by
  cases hb : b.getLast? with
  | none => simp [lastOr, List.getLast?_append, hb]
  | some w => simp [lastOr, List.getLast?_append, hb]

theorem chainFrom_append (p : GoRec GoTime) (a b : List (GoRec GoTime)) : chainFrom p (a ++ b) = chainFrom p a ++ chainFrom (lastOr p a) b := by
  induction a generalizing p with
  | nil => rfl
  | cons v vs ih => simp only [List.cons_append, chainFrom, ih, lastOr_cons]

theorem chainFrom_length (p : GoRec GoTime) (a : List (GoRec GoTime)) : (chainFrom p a).length = a.length := by
  induction a generalizing p with
  | nil => rfl
  | cons v vs ih => simp [chainFrom, ih]

theorem chainFrom_split {p : GoRec GoTime} {vs : List (GoRec GoTime)} {A B : List RecordUpdate} (h : chainFrom p vs = A ++ B) :
    ∃ va vb, vs = va ++ vb ∧ A = chainFrom p va ∧ B = chainFrom (lastOr p va) vb := by
  refine ⟨vs.take A.length, vs.drop A.length, (List.take_append_drop _ _).symm, ?_⟩
  have hl : (chainFrom p (vs.take A.length)).length = A.length := by
    rw [chainFrom_length, List.length_take]
    have := congrArg List.length h
    rw [chainFrom_length, List.length_append] at this
    omega
  have h2 := chainFrom_append p (vs.take A.length) (vs.drop A.length)
  rw [List.take_append_drop, h] at h2
  exact List.append_inj h2 hl.symm

theorem chainFrom_curr {p : GoRec GoTime} {vs : List (GoRec GoTime)} {u : RecordUpdate} (h : u ∈ chainFrom p vs) : u.curr ∈ vs := by
  induction vs generalizing p with
  | nil => simp [chainFrom] at h
  | cons v vs ih =>
    simp only [chainFrom, List.mem_cons] at h
    rcases h with rfl | h
    · exact List.mem_cons_self
    · exact List.mem_cons_of_mem _ (ih h)

/-- A good record that encodes. -/
def Enc (r : GoRec GoTime) : Prop := GoodRecord vanRegistry r ∧ ∃ a, vanOps.encode r = .ok a

/-- What one published update does to an attribute at a collector: sets it to the value in the current record, or leaves it alone, and then the
current record has no value or the one the previous record had. -/
theorem contribution {u : RecordUpdate} (hp : u.prev = .nil ∨ ∃ a, vanOps.encode u.prev = .ok a) (hc : Enc u.curr) (k : Any) :
    (∃ v, attrOf u.curr k = some v ∧ ∀ x, latestFrom x (diffsOf [u]) k = some v) ∨
    ((∀ x, latestFrom x (diffsOf [u]) k = x) ∧ ∀ v, attrOf u.curr k = some v → attrOf u.prev k = some v) := by
  obtain ⟨hg, b, hb⟩ := hc
  rcases hp with hp | ⟨a, ha⟩
  · have hd : diffRecord u = .ok (some u.curr) := by
      obtain ⟨p, c⟩ := u
      simp only at hp; subst hp; rfl
    have he : diffsOf [u] = [u.curr] := by simp [diffsOf, hd]
    rw [he]
    cases hk : attrOf u.curr k with
    | none => right; simp [latestFrom, hk]
    | some v => left; exact ⟨v, rfl, by simp [latestFrom, hk]⟩
  · rcases diffRecord_spec (u := u) ha hg hb with ⟨h1, h2⟩ | ⟨_, d, c, h1, _, _, _, h5, h6⟩
    · right
      refine ⟨by simp [diffsOf, h1, latestFrom], ?_⟩
      intro v hv
      rw [attrOf_ok hb] at hv
      rw [attrOf_ok ha]
      exact h2 k v hv
    · have he : diffsOf [u] = [d] := by simp [diffsOf, h1]
      rw [he]
      have hdk : attrOf d k = deltaOf a b k := by rw [attrOf_ok (show vanOps.encode d = .ok c from h5), h6]
      rw [attrOf_ok hb, attrOf_ok ha]
      unfold deltaOf at hdk
      cases hbk : b.get? k with
      | none =>
        rw [hbk] at hdk
        right
        refine ⟨by simp [latestFrom, hdk], by simp⟩
      | some v =>
        rw [hbk] at hdk
        simp only at hdk
        split at hdk
        · left; exact ⟨v, rfl, by simp [latestFrom, hdk]⟩
        · rename_i hn
          right
          refine ⟨by simp [latestFrom, hdk], ?_⟩
          intro w hw
          simp only [Option.some.injEq] at hw; subst hw
          simp only [not_or, ne_eq, Classical.not_not] at hn
          exact hn.1

theorem latestFrom_stable {v : Any} {vs : List (GoRec GoTime)} {k : Any} (h : ∀ r ∈ vs, ∀ z, attrOf r k = some z → z = v) :
    latestFrom (some v) vs k = some v := by
  induction vs with
  | nil => rfl
  | cons w ws ih =>
    simp only [latestFrom, List.foldl_cons]
    have : (attrOf w k).or (some v) = some v := by
      cases hw : attrOf w k with
      | none => rfl
      | some z => rw [h w List.mem_cons_self z hw]; rfl
    rw [this]
    exact ih fun r hr => h r (List.mem_cons_of_mem _ hr)

theorem contribution_chain {vs : List (GoRec GoTime)} (hvs : ∀ r ∈ vs, Enc r) (k : Any) :
    ∀ p : GoRec GoTime, (p = .nil ∨ ∃ a, vanOps.encode p = .ok a) →
    (∃ v, (∀ x, latestFrom x (diffsOf (chainFrom p vs)) k = some v) ∧ ∀ y, latestFrom y vs k = some v) ∨
    ((∀ x, latestFrom x (diffsOf (chainFrom p vs)) k = x) ∧ ∀ r ∈ vs, ∀ v, attrOf r k = some v → attrOf p k = some v) := by
  induction vs with
  | nil => intro p hp; right; simp [chainFrom, diffsOf, latestFrom]
  | cons r vs ih =>
    intro p hp
    have hr := hvs r List.mem_cons_self
    have happ : ∀ x, latestFrom x (diffsOf (chainFrom p (r :: vs))) k =
        latestFrom (latestFrom x (diffsOf [{ prev := p, curr := r }]) k) (diffsOf (chainFrom r vs)) k := by
      intro x
      rw [← latestFrom_append, ← diffsOf_append]
      rfl
    have hv : ∀ y, latestFrom y (r :: vs) k = latestFrom ((attrOf r k).or y) vs k := fun y => rfl
    simp only [happ, hv]
    rcases ih (fun x hx => hvs x (List.mem_cons_of_mem _ hx)) r (Or.inr hr.2) with ⟨v, i1, i2⟩ | ⟨i1, i2⟩
    · left; exact ⟨v, fun x => i1 _, fun y => i2 _⟩
    · rcases contribution (u := { prev := p, curr := r }) hp hr k with ⟨v, c1, c2⟩ | ⟨c1, c2⟩
      · left
        simp only at c1
        refine ⟨v, fun x => by rw [i1, c2], fun y => ?_⟩
        rw [c1]
        simp only [Option.some_or]
        exact latestFrom_stable fun w hw z hz => by
          have := i2 w hw z hz
          rw [c1] at this; injection this with this; exact this.symm
      · right
        refine ⟨fun x => by rw [i1, c1], ?_⟩
        intro z hz v hzv
        rcases List.mem_cons.1 hz with rfl | hz
        · exact c2 v hzv
        · exact c2 v (i2 z hz v hzv)

/-- A snapshot of a version that is no older than the last one the collector has been told about changes nothing in the end. -/
theorem snapshot_absorbed {V1 V2 : List (GoRec GoTime)} (hV : ∀ r ∈ V1 ++ V2, Enc r) {k : Any} {x : Option Any}
    (h : latestFrom x (diffsOf (chainFrom (lastOr .nil V1) V2)) k = latest (V1 ++ V2) k) {r : GoRec GoTime} (hr : r ∈ V1.getLast?.toList ++ V2) :
    latestFrom ((attrOf r k).or x) (diffsOf (chainFrom (lastOr .nil V1) V2)) k = latest (V1 ++ V2) k := by
  have hp : lastOr .nil V1 = .nil ∨ ∃ a, vanOps.encode (lastOr .nil V1) = .ok a := by
    cases hl : V1.getLast? with
    | none => left; simp [lastOr, hl]
    | some w =>
      right
      simp only [lastOr, hl, Option.getD_some]
      exact (hV w (List.mem_append_left _ (List.mem_of_getLast? hl))).2
  rcases contribution_chain (fun r hr => hV r (List.mem_append_right _ hr)) k _ hp with ⟨v, c1, c2⟩ | ⟨c1, c2⟩
  · rw [c1] at h ⊢; exact h
  · rw [c1] at h ⊢
    cases hk : attrOf r k with
    | none => exact h
    | some v =>
      have hpk : attrOf (lastOr .nil V1) k = some v := by
        rcases List.mem_append.1 hr with hr | hr
        · cases hl : V1.getLast? with
          | none => rw [hl] at hr; simp at hr
          | some w =>
            rw [hl] at hr
            simp at hr
            subst hr
            simpa [lastOr, hl] using hk
        · exact c2 r hr v hk
      have hl : ∃ V1', V1 = V1' ++ [lastOr .nil V1] := by
        rcases List.eq_nil_or_concat V1 with rfl | ⟨l, w, rfl⟩
        · simp [lastOr, attrOf_nil] at hpk
        · exact ⟨l, by simp [lastOr]⟩
      obtain ⟨V1', hV1⟩ := hl
      simp only [Option.some_or]
      unfold latest
      rw [hV1, List.append_assoc, latestFrom_append, List.singleton_append]
      show some v = latestFrom ((attrOf (lastOr .nil V1) k).or _) V2 k
      rw [hpk, Option.some_or]
      refine (latestFrom_stable fun w hw z hz => ?_).symm
      have := c2 w hw z hz
      rw [hpk] at this; injection this with this; exact this.symm

/-- A new version. -/
theorem version_added {V : List (GoRec GoTime)} {r : GoRec GoTime} (hV : ∀ w ∈ V, Enc w) (hr : Enc r) (k : Any) :
    latestFrom (latest V k) (diffsOf [{ prev := lastOr .nil V, curr := r }]) k = latest (V ++ [r]) k := by
  have hp : lastOr .nil V = .nil ∨ ∃ a, vanOps.encode (lastOr .nil V) = .ok a := by
    cases hl : V.getLast? with
    | none => left; simp [lastOr, hl]
    | some w =>
      right
      simp only [lastOr, hl, Option.getD_some]
      exact (hV w (List.mem_of_getLast? hl)).2
  have hL : latest (V ++ [r]) k = (attrOf r k).or (latest V k) := by unfold latest; rw [latestFrom_append]; rfl
  rw [hL]
  rcases contribution (u := { prev := lastOr .nil V, curr := r }) hp hr k with ⟨v, c1, c2⟩ | ⟨c1, c2⟩
  · rw [c2]; simp only at c1; rw [c1]; rfl
  · rw [c1]
    simp only at c2
    cases hk : attrOf r k with
    | none => rfl
    | some v =>
      have := c2 v hk
      rcases List.eq_nil_or_concat V with rfl | ⟨l, w, rfl⟩
      · simp [lastOr, attrOf_nil] at this
      · simp only [lastOr, List.concat_eq_append, List.getLast?_append, List.getLast?_singleton, Option.some_or, Option.getD_some] at this
        simp only [latest, List.concat_eq_append, latestFrom_append]
        simp [latestFrom, this]

/-! ## The invariant of the source -/

/-- The updates the manager has taken from the queue and not yet put into a message. -/
def HeldBuf : ServePC → List RecordUpdate → Prop
  | .buffering b, buf => buf = b
  | .batch b, buf => buf = b
  | .sendUpdate msg, buf => msg = diffsOf buf
  | .stopped, _ => False
  | .crashed, _ => False
  | _, buf => buf = []

/-- The records of a flush message that is about to be queued. -/
def SnapOK (id : String) (tm : TypeMeta) (vs : List (GoRec GoTime)) : ServePC → Prop
  | .sendFlush _ _ msg => ∀ r ∈ msg, GoodRecord vanRegistry r ∧ (Mine id tm r → r ∈ vs)
  | _ => True

def ofMine (id : String) (tm : TypeMeta) (rs : List (GoRec GoTime)) : List (GoRec GoTime) := rs.filter fun r => decide (Mine id tm r)

def updOfMine (id : String) (tm : TypeMeta) (us : List RecordUpdate) : List RecordUpdate := us.filter fun u => decide (Mine id tm u.curr)

/-- What is claimed of the records of our kind and identity queued so far, the versions whose updates are among them and the versions after. -/
abbrev Claim := List (GoRec GoTime) → List (GoRec GoTime) → List (GoRec GoTime) → Prop

/-- A claim that is kept by everything that happens: differences are put into a message, a snapshot of a version not older than the last one
told about is sent, a version is added. -/
structure Kept (Φ : Claim) : Prop where
  emit : ∀ {Q V1 va vb}, (∀ r ∈ V1 ++ (va ++ vb), Enc r) → Φ Q V1 (va ++ vb) → Φ (Q ++ diffsOf (chainFrom (lastOr .nil V1) va)) (V1 ++ va) vb
  snap : ∀ {Q V1 V2 r}, (∀ r ∈ V1 ++ V2, Enc r) → r ∈ V1.getLast?.toList ++ V2 → Φ Q V1 V2 → Φ (Q ++ [r]) V1 V2
  grow : ∀ {Q V1 V2 r}, (∀ w ∈ V1 ++ (V2 ++ [r]), Enc w) → Φ Q V1 V2 → Φ Q V1 (V2 ++ [r])

theorem Kept.snaps {Φ : Claim} (h : Kept Φ) {V1 V2 : List (GoRec GoTime)} (hV : ∀ r ∈ V1 ++ V2, Enc r) :
    ∀ {rs Q : List (GoRec GoTime)}, (∀ r ∈ rs, r ∈ V1.getLast?.toList ++ V2) → Φ Q V1 V2 → Φ (Q ++ rs) V1 V2
  | [], _, _, hq => by simpa using hq
  | r :: rs, Q, hr, hq => by
    rw [List.append_cons]
    exact h.snaps hV (fun w hw => hr w (List.mem_cons_of_mem _ hw)) (h.snap hV (hr r List.mem_cons_self) hq)

structure SrcInv (Φ : Claim) (cfg : MgrConfig) (id : String) (tm : TypeMeta) (evs : List MgrEv) (s : Src) (V1 V2 : List (GoRec GoTime)) (buf : List RecordUpdate) :
    Prop where
  versions : s.versions = V1 ++ V2
  held : HeldBuf s.mgr.pc buf
  pending : updOfMine id tm (buf ++ s.mgr.changeQueue) ++ (chain s.versions).drop s.pub = chainFrom (lastOr .nil V1) V2
  good : ∀ u ∈ buf ++ s.mgr.changeQueue, GoodRecord vanRegistry u.curr
  snap : SnapOK id tm (V1.getLast?.toList ++ V2) s.mgr.pc
  stores : StoresHold cfg.numStores id tm s.versions.getLast? s.mgr.stores
  pub : s.pub ≤ s.versions.length
  kind : ∀ r ∈ s.versions, OfKind id tm r ∧ ∃ a, vanOps.encode r = .ok a
  value : Φ (ofMine id tm (queued evs).flatten) V1 V2
  out : ∀ r ∈ (queued evs).flatten, GoodRecord vanRegistry r

theorem diffRecord_kind {u : RecordUpdate} (hg : GoodRecord vanRegistry u.curr) {d : GoRec GoTime} (h : diffRecord u = .ok (some d)) :
    GoodRecord vanRegistry d ∧ vanIdentity d = vanIdentity u.curr ∧ vanTypeMeta d = vanTypeMeta u.curr := by
  by_cases hp : u.prev = .nil
  · have : diffRecord u = .ok (some u.curr) := by
      obtain ⟨p, c⟩ := u
      simp only at hp; subst hp; rfl
    rw [this] at h
    simp only [Res.ok.injEq, Option.some.injEq] at h
    subst h
    exact ⟨hg, rfl, rfl⟩
  · cases ha : encode vanEnv vanRegistry u.prev with
    | ok a =>
      cases hb : encode vanEnv vanRegistry u.curr with
      | ok b =>
        rcases diffRecord_spec (u := u) ha hg hb with ⟨h1, _⟩ | ⟨_, d', c, h1, h2, h3, h4, _⟩
        · rw [h1] at h; simp at h
        · rw [h1] at h
          simp only [Res.ok.injEq, Option.some.injEq] at h
          subst h
          exact ⟨h2, h3, h4⟩
      | err e => exfalso; revert h; obtain ⟨p, c⟩ := u; cases p <;> simp_all [diffRecord]
      | panic e => exfalso; revert h; obtain ⟨p, c⟩ := u; cases p <;> simp_all [diffRecord]
    | err e => exfalso; revert h; obtain ⟨p, c⟩ := u; cases p <;> simp_all [diffRecord]
    | panic e => exfalso; revert h; obtain ⟨p, c⟩ := u; cases p <;> simp_all [diffRecord]

theorem diffsOf_mine {id : String} {tm : TypeMeta} {us : List RecordUpdate} (h : ∀ u ∈ us, GoodRecord vanRegistry u.curr) :
    ofMine id tm (diffsOf us) = diffsOf (updOfMine id tm us) ∧ ∀ r ∈ diffsOf us, GoodRecord vanRegistry r := by
  induction us with
  | nil => exact ⟨rfl, by simp [diffsOf]⟩
  | cons u us ih =>
    obtain ⟨i1, i2⟩ := ih (fun x hx => h x (List.mem_cons_of_mem _ hx))
    have hu := h u List.mem_cons_self
    have key : ∀ d, diffRecord u = .ok (some d) → GoodRecord vanRegistry d ∧ (Mine id tm d ↔ Mine id tm u.curr) := by
      intro d hd
      obtain ⟨g1, g2, g3⟩ := diffRecord_kind hu hd
      exact ⟨g1, by simp [Mine, g2, g3]⟩
    have hsplit : diffsOf (u :: us) = diffsOf [u] ++ diffsOf us := diffsOf_append [u] us
    have husplit : updOfMine id tm (u :: us) = updOfMine id tm [u] ++ updOfMine id tm us := by simp [updOfMine, ← List.filter_append]
    have hone : ofMine id tm (diffsOf [u]) = diffsOf (updOfMine id tm [u]) ∧ ∀ r ∈ diffsOf [u], GoodRecord vanRegistry r := by
      cases hd : diffRecord u with
      | ok o =>
        cases o with
        | none =>
          refine ⟨?_, by simp [diffsOf, hd]⟩
          by_cases hm : Mine id tm u.curr <;> simp [updOfMine, hm, diffsOf, hd, ofMine]
        | some d =>
          obtain ⟨g1, g2⟩ := key d hd
          refine ⟨?_, by simpa [diffsOf, hd] using g1⟩
          by_cases hm : Mine id tm u.curr
          · simp [updOfMine, hm, diffsOf, hd, ofMine, g2.2 hm]
          · have hm' : ¬ Mine id tm d := fun h => hm (g2.1 h)
            simp [updOfMine, hm, diffsOf, hd, ofMine, hm']
      | err e =>
        refine ⟨?_, by simp [diffsOf, hd]⟩
        by_cases hm : Mine id tm u.curr <;> simp [updOfMine, hm, diffsOf, hd, ofMine]
      | panic e =>
        refine ⟨?_, by simp [diffsOf, hd]⟩
        by_cases hm : Mine id tm u.curr <;> simp [updOfMine, hm, diffsOf, hd, ofMine]
    refine ⟨?_, ?_⟩
    · rw [hsplit, husplit, diffsOf_append, ← i1, ← hone.1]
      simp [ofMine]
    · intro r hr
      rw [hsplit] at hr
      rcases List.mem_append.1 hr with hr | hr
      · exact hone.2 r hr
      · exact i2 r hr

theorem list_listed {c : Cache (GoRec GoTime)} {sel : Selector} {nonce : Int} {res : SetRes (GoRec GoTime)}
    (h : c.list (some sel) nonce = .ok res) : ∀ e ∈ res.entries, Listed c e := by
  have key : ∀ e ∈ res.entries, e ∈ c.storage.list.map VC.resource := by
    simp only [Cache.list, applySelector] at h
    split at h
    · simp at h
    · rw [Res.bind_eq_ok] at h
      obtain ⟨off, _, h⟩ := h
      split at h
      · simp at h
      · have hsub : ∀ e ∈ (if off ≥ ((sortSlice (selLess c.keyFunc sel.ordering) (c.storage.list.map VC.resource)).length : Int) then []
            else (sortSlice (selLess c.keyFunc sel.ordering) (c.storage.list.map VC.resource)).drop off.toNat),
            e ∈ c.storage.list.map VC.resource := by
          intro e he
          split at he
          · simp at he
          · exact (sortSlice_perm _ _).mem_iff.1 (List.mem_of_mem_drop he)
        intro e he
        apply hsub
        have h' : (if sel.limit > 0 ∧ (((if off ≥ ((sortSlice (selLess c.keyFunc sel.ordering) (c.storage.list.map VC.resource)).length : Int) then []
            else (sortSlice (selLess c.keyFunc sel.ordering) (c.storage.list.map VC.resource)).drop off.toNat) : List _).length : Int) > sel.limit then
            Res.ok { entries := (if off ≥ ((sortSlice (selLess c.keyFunc sel.ordering) (c.storage.list.map VC.resource)).length : Int) then []
            else (sortSlice (selLess c.keyFunc sel.ordering) (c.storage.list.map VC.resource)).drop off.toNat).take sel.limit.toNat,
                     cont := encodeContinue nonce (off + sel.limit) }
          else .ok { entries := (if off ≥ ((sortSlice (selLess c.keyFunc sel.ordering) (c.storage.list.map VC.resource)).length : Int) then []
            else (sortSlice (selLess c.keyFunc sel.ordering) (c.storage.list.map VC.resource)).drop off.toNat), cont := "" }) = .ok res := h
        generalize (if off ≥ ((sortSlice (selLess c.keyFunc sel.ordering) (c.storage.list.map VC.resource)).length : Int) then []
            else (sortSlice (selLess c.keyFunc sel.ordering) (c.storage.list.map VC.resource)).drop off.toNat) = w at h' ⊢
        split at h' <;> (injection h' with h'; subst h')
        · exact List.mem_of_mem_take he
        · exact he
  intro e he
  exact ⟨_, rfl, key e he⟩

theorem queued_snoc (evs : List MgrEv) (ev : MgrEv) : queued (evs ++ [ev]) = queued evs ++ queued [ev] := by simp [queued, List.filterMap_append]

theorem updOfMine_append (id : String) (tm : TypeMeta) (a b : List RecordUpdate) :
    updOfMine id tm (a ++ b) = updOfMine id tm a ++ updOfMine id tm b := by simp [updOfMine]

theorem SrcInv.keep {Φ : Claim} {cfg : MgrConfig} {id : String} {tm : TypeMeta} {evs : List MgrEv} {s : Src} {V1 V2 : List (GoRec GoTime)}
    {buf : List RecordUpdate} (h : SrcInv Φ cfg id tm evs s V1 V2 buf) {ev : MgrEv} {m : Mgr} {buf' : List RecordUpdate}
    (hq : queued [ev] = []) (hb : buf' ++ m.changeQueue = buf ++ s.mgr.changeQueue) (hst : m.stores = s.mgr.stores) (hh : HeldBuf m.pc buf')
    (hsn : SnapOK id tm (V1.getLast?.toList ++ V2) m.pc) : SrcInv Φ cfg id tm (evs ++ [ev]) { s with mgr := m } V1 V2 buf' := by
  have hq' : queued (evs ++ [ev]) = queued evs := by rw [queued_snoc, hq, List.append_nil]
  exact ⟨h.versions, hh, by rw [hb]; exact h.pending, by rw [hb]; exact h.good, hsn, by rw [hst]; exact h.stores, h.pub, h.kind,
    by rw [hq']; exact h.value, by rw [hq']; exact h.out⟩

/-- The manager puts the differences it holds into a message (or finds that there are none). -/
theorem SrcInv.emit {Φ : Claim} (hΦ : Kept Φ) {cfg : MgrConfig} {id : String} {tm : TypeMeta} {evs : List MgrEv} {s : Src} {V1 V2 : List (GoRec GoTime)}
    {buf : List RecordUpdate} (h : SrcInv Φ cfg id tm evs s V1 V2 buf) {ev : MgrEv} {m : Mgr}
    (hq : (queued [ev]).flatten = diffsOf buf) (hb : m.changeQueue = s.mgr.changeQueue) (hst : m.stores = s.mgr.stores) (hpc : m.pc = .idle) :
    ∃ V1' V2', SrcInv Φ cfg id tm (evs ++ [ev]) { s with mgr := m } V1' V2' [] := by
  have hp := h.pending
  rw [updOfMine_append, List.append_assoc] at hp
  obtain ⟨va, vb, hv, h1, h2⟩ := chainFrom_split hp.symm
  have hgood : ∀ u ∈ buf, GoodRecord vanRegistry u.curr := fun u hu => h.good u (List.mem_append_left _ hu)
  have hq' : (queued (evs ++ [ev])).flatten = (queued evs).flatten ++ diffsOf buf := by rw [queued_snoc, List.flatten_append, hq]
  refine ⟨V1 ++ va, vb, ?_, ?_, ?_, ?_, ?_, ?_, h.pub, h.kind, ?_, ?_⟩
  · rw [List.append_assoc, ← hv]; exact h.versions
  · rw [hpc]; rfl
  · simp only [List.nil_append, hb]
    rw [lastOr_append]; exact h2
  · intro u hu
    rw [List.nil_append, hb] at hu
    exact h.good u (List.mem_append_right _ hu)
  · rw [hpc]; trivial
  · rw [hst]; exact h.stores
  · rw [hq']
    have heq : ofMine id tm ((queued evs).flatten ++ diffsOf buf) = ofMine id tm (queued evs).flatten ++ diffsOf (chainFrom (lastOr .nil V1) va) := by
      rw [← h1, ← (diffsOf_mine hgood).1]; simp [ofMine]
    rw [heq]
    have hval := h.value
    rw [hv] at hval
    refine hΦ.emit ?_ hval
    intro r hr
    rw [← hv, ← h.versions] at hr
    obtain ⟨⟨g, _, _⟩, a⟩ := h.kind r hr
    exact ⟨g, a⟩
  · intro r hr
    rw [hq'] at hr
    rcases List.mem_append.1 hr with hr | hr
    · exact h.out r hr
    · exact (diffsOf_mine (id := id) (tm := tm) hgood).2 r hr

def Dead (m : Mgr) : Prop := m.pc = .stopped ∨ m.pc = .crashed

theorem dead_step {cfg : MgrConfig} {s s' : Mgr} {ev : MgrEv} (h : Dead s) (hs : Mgr.Step cfg s ev s') : Dead s' := by
  unfold Dead at *
  cases hs <;> first | exact h | (right; rfl) | (left; rfl) | (rename_i hpc _; rw [hpc] at h; simp at h) | (rename_i hpc; rw [hpc] at h; simp at h)

theorem pcQueue_step {cfg : MgrConfig} {s s' : Mgr} {ev : MgrEv} (hq : PcQueue cfg.numStores s.pc) (hs : Mgr.Step cfg s ev s') :
    PcQueue cfg.numStores s'.pc := by
  cases hs with
  | publish u hcap | storeOp i op | flushReceived | receiveError | cancel | takeMsg | sndStop | pageError nonce hpc hl | send hsq he | skip hsq he | sendFail hsq he =>
    exact hq
  | stop hpc hcan | stopUpdate hpc hcan | stopFlush hpc hcan | diffPanic hpc hd | pagePanic nonce hpc hl | sendPanic hsq he
    | queueUpdate hpc hcap | flushEnd hpc => trivial
  | take hpc hsq => simp only; split <;> trivial
  | buffer hpc hsq => simp only; split <;> [split; skip] <;> trivial
  | bufferTimeout hpc => simp only; split <;> trivial
  | diff hpc hd => simp only; split <;> trivial
  | takeFlush hpc hsq => simp only; split <;> trivial
  | drain hpc hsq => simp only; split <;> [split; skip] <;> trivial
  | drainTimeout hpc => simp only; split <;> trivial
  | flushBegin hpc => intro i hi; simpa using hi
  | @page i queue cont res nonce hpc hl =>
    rw [hpc] at hq
    have hq' : ∀ j ∈ (if res.cont = "" then queue else i :: queue), j < cfg.numStores := by
      intro j hj
      split at hj
      · exact hq j (List.mem_cons_of_mem _ hj)
      · exact hq j hj
    simp only
    split <;> exact hq'
  | queueFlush hpc hcap => rw [hpc] at hq; exact hq

theorem srcInv_mgr {Φ : Claim} (hΦ : Kept Φ) {cfg : MgrConfig} {id : String} {tm : TypeMeta} {evs : List MgrEv} {s : Src} {V1 V2 : List (GoRec GoTime)}
    {buf : List RecordUpdate} (h : SrcInv Φ cfg id tm evs s V1 V2 buf) {ev : MgrEv} {m : Mgr} (hu : ∀ u, ev ≠ .publish u)
    (ho : ∀ i op, ev ≠ .storeOp i op) (hQ : PcQueue cfg.numStores s.mgr.pc) (hs : Mgr.Step cfg s.mgr ev m) :
    Dead m ∨ ∃ V1' V2' buf', SrcInv Φ cfg id tm (evs ++ [ev]) { s with mgr := m } V1' V2' buf' := by
  have hheld := h.held
  have hV : ∀ r ∈ V1 ++ V2, Enc r := by
    intro r hr
    rw [← h.versions] at hr
    obtain ⟨⟨g, _, _⟩, a⟩ := h.kind r hr
    exact ⟨g, a⟩
  cases hs with
  | publish u hcap => exact absurd rfl (hu u)
  | storeOp i op => exact absurd rfl (ho i op)
  | flushReceived | receiveError | cancel | takeMsg | sndStop | send hq he | skip hq he | sendFail hq he => exact Or.inr ⟨V1, V2, buf, h.keep rfl rfl rfl h.held h.snap⟩
  | stop hpc hcan | stopUpdate hpc hcan | stopFlush hpc hcan => exact Or.inl (Or.inl rfl)
  | diffPanic hpc hd | pagePanic nonce hpc hl | sendPanic hq he => exact Or.inl (Or.inr rfl)
  | @take u rest hpc hq =>
    rw [hpc] at hheld
    simp only [HeldBuf] at hheld
    subst hheld
    refine Or.inr ⟨V1, V2, [u], h.keep rfl (by simp [hq]) rfl ?_ ?_⟩
    · simp only; split <;> rfl
    · simp only; split <;> trivial
  | @buffer b u rest hpc hq =>
    rw [hpc] at hheld
    simp only [HeldBuf] at hheld
    subst hheld
    by_cases hc : s.mgr.cancelled = true ∧ (buf.length : Int) = cfg.updateBatchSize - 1
    · left; left; simp [hc]
    · refine Or.inr ⟨V1, V2, buf ++ [u], h.keep rfl (by simp [hq]) rfl ?_ ?_⟩
      · simp only
        split
        · rename_i hl
          split
          · rename_i hcc; exact absurd ⟨hcc, hl⟩ hc
          · rfl
        · rfl
      · simp only
        split
        · split <;> trivial
        · trivial
  | @bufferTimeout b hpc =>
    rw [hpc] at hheld
    simp only [HeldBuf] at hheld
    subst hheld
    by_cases hc : s.mgr.cancelled = true
    · left; left; simp [hc]
    · exact Or.inr ⟨V1, V2, buf, h.keep rfl rfl rfl (by simp [hc, HeldBuf]) (by simp [hc, SnapOK])⟩
  | @diff b msg hpc hd =>
    rw [hpc] at hheld
    simp only [HeldBuf] at hheld
    subst hheld
    obtain ⟨rfl, _⟩ := diffBatch_ok hd
    by_cases hz : (diffsOf buf).length = 0
    · have := List.length_eq_zero_iff.1 hz
      obtain ⟨V1', V2', h'⟩ := SrcInv.emit hΦ h (ev := .tau) (m := { s.mgr with pc := if (diffsOf buf).length = 0 then .idle else .sendUpdate (diffsOf buf) })
        (by rw [this]; rfl) rfl rfl (by simp [hz])
      exact Or.inr ⟨V1', V2', [], h'⟩
    · exact Or.inr ⟨V1, V2, buf, h.keep rfl rfl rfl (by simp [hz, HeldBuf]) (by simp [hz, SnapOK])⟩
  | @queueUpdate msg hpc hcap =>
    rw [hpc] at hheld
    simp only [HeldBuf] at hheld
    subst hheld
    obtain ⟨V1', V2', h'⟩ := SrcInv.emit hΦ h (ev := .queueUpdate (diffsOf buf)) (m := { s.mgr with sendQueue := s.mgr.sendQueue ++ [diffsOf buf], pc := .idle })
      (by simp [queued]) rfl rfl rfl
    exact Or.inr ⟨V1', V2', [], h'⟩
  | takeFlush hpc hq =>
    rw [hpc] at hheld
    simp only [HeldBuf] at hheld
    subst hheld
    refine Or.inr ⟨V1, V2, [], h.keep rfl rfl rfl ?_ ?_⟩
    · simp only; split <;> rfl
    · simp only; split <;> trivial
  | @drain n hpc hq =>
    rw [hpc] at hheld
    simp only [HeldBuf] at hheld
    subst hheld
    by_cases hc : s.mgr.cancelled = true ∧ n + 1 = drainMax
    · left; left; simp [hc]
    · refine Or.inr ⟨V1, V2, [], h.keep rfl rfl rfl ?_ ?_⟩
      · simp only
        split
        · rename_i hl
          split
          · rename_i hcc; exact absurd ⟨hcc, hl⟩ hc
          · rfl
        · rfl
      · simp only
        split
        · split <;> trivial
        · trivial
  | drainTimeout hpc =>
    rw [hpc] at hheld
    simp only [HeldBuf] at hheld
    subst hheld
    by_cases hc : s.mgr.cancelled = true
    · left; left; simp [hc]
    · exact Or.inr ⟨V1, V2, [], h.keep rfl rfl rfl (by simp [hc, HeldBuf]) (by simp [hc, SnapOK])⟩
  | flushBegin hpc =>
    rw [hpc] at hheld
    exact Or.inr ⟨V1, V2, buf, h.keep rfl rfl rfl hheld trivial⟩
  | flushEnd hpc =>
    rw [hpc] at hheld
    exact Or.inr ⟨V1, V2, buf, h.keep rfl rfl rfl hheld trivial⟩
  | @page i queue cont res nonce hpc hl =>
    rw [hpc] at hheld
    simp only [HeldBuf] at hheld
    subst hheld
    have hi : i < cfg.numStores := by
      rw [hpc] at hQ; exact hQ i List.mem_cons_self
    refine Or.inr ⟨V1, V2, [], h.keep rfl rfl rfl ?_ ?_⟩
    · simp only; split <;> rfl
    · simp only
      split
      · trivial
      · intro r hr
        obtain ⟨e, he, rfl⟩ := List.mem_map.1 hr
        obtain ⟨g1, g2⟩ := h.stores i hi e (list_listed hl e he)
        refine ⟨g1, fun hm => ?_⟩
        have hlast := g2 hm
        rw [h.versions, List.getLast?_append] at hlast
        cases h2 : V2.getLast? with
        | none =>
          rw [h2] at hlast
          simp only [Option.none_or] at hlast
          rw [hlast]; simp
        | some w =>
          rw [h2] at hlast
          simp only [Option.some_or, Option.some.injEq] at hlast
          subst hlast
          exact List.mem_append_right _ (List.mem_of_getLast? h2)
  | pageError nonce hpc hl => exact Or.inr ⟨V1, V2, buf, h.keep rfl rfl rfl h.held h.snap⟩
  | @queueFlush queue cont msg hpc hcap =>
    rw [hpc] at hheld
    simp only [HeldBuf] at hheld
    subst hheld
    have hsnap := h.snap
    rw [hpc] at hsnap
    have hq' : (queued (evs ++ [MgrEv.queueFlush msg])).flatten = (queued evs).flatten ++ msg := by
      rw [queued_snoc, List.flatten_append]; simp [queued]
    refine Or.inr ⟨V1, V2, [], h.versions, rfl, h.pending, h.good, trivial, h.stores, h.pub, h.kind, ?_, ?_⟩
    · rw [hq']
      have heq : ofMine id tm ((queued evs).flatten ++ msg) = ofMine id tm (queued evs).flatten ++ ofMine id tm msg := by simp [ofMine]
      rw [heq]
      refine hΦ.snaps hV ?_ h.value
      intro r hr
      simp only [ofMine, List.mem_filter, decide_eq_true_eq] at hr
      exact (hsnap r hr.1).2 hr.2
    · intro r hr
      rw [hq'] at hr
      rcases List.mem_append.1 hr with hr | hr
      · exact h.out r hr
      · exact (hsnap r hr).1

/-- A new version of the record. -/
theorem SrcInv.newVersion {Φ : Claim} (hΦ : Kept Φ) {cfg : MgrConfig} {id : String} {tm : TypeMeta} {evs : List MgrEv} {s : Src} {V1 V2 : List (GoRec GoTime)}
    {buf : List RecordUpdate} (h : SrcInv Φ cfg id tm evs s V1 V2 buf) {r : GoRec GoTime} (hk : OfKind id tm r) (he : (vanOps.encode r).isOk)
    {st : Stores (GoRec GoTime)} (hst : StoresHold cfg.numStores id tm (some r) st) :
    SrcInv Φ cfg id tm evs { s with versions := s.versions ++ [r], mgr := { s.mgr with stores := st } } V1 (V2 ++ [r]) buf := by
  obtain ⟨a, ha⟩ : ∃ a, vanOps.encode r = .ok a := by
    cases hh : vanOps.encode r with
    | ok a => exact ⟨a, rfl⟩
    | err _ => rw [hh] at he; simp [Res.isOk] at he
    | panic _ => rw [hh] at he; simp [Res.isOk] at he
  have hkind : ∀ w ∈ s.versions ++ [r], OfKind id tm w ∧ ∃ a, vanOps.encode w = .ok a := by
    intro w hw
    rcases List.mem_append.1 hw with hw | hw
    · exact h.kind w hw
    · simp only [List.mem_singleton] at hw
      subst hw; exact ⟨hk, a, ha⟩
  have hV : ∀ w ∈ (V1 ++ V2) ++ [r], Enc w := by
    intro w hw
    rw [← h.versions] at hw
    obtain ⟨⟨g, _, _⟩, a⟩ := hkind w hw
    exact ⟨g, a⟩
  refine ⟨by simp [h.versions], h.held, ?_, h.good, ?_, ?_, ?_, hkind, ?_, h.out⟩
  · have hdrop : (chain (s.versions ++ [r])).drop s.pub = (chain s.versions).drop s.pub ++ chainFrom (lastOr .nil s.versions) [r] := by
      unfold chain
      rw [chainFrom_append, List.drop_append_of_le_length]
      rw [chainFrom_length]; exact h.pub
    simp only
    rw [hdrop, chainFrom_append, ← List.append_assoc, h.pending, h.versions, lastOr_append]
  · have := h.snap
    simp only
    cases hp : s.mgr.pc <;> rw [hp] at this <;> try trivial
    intro w hw
    obtain ⟨g1, g2⟩ := this w hw
    exact ⟨g1, fun hm => by have := g2 hm; simp only [List.mem_append] at this ⊢; tauto⟩
  · simpa using hst
  · simp only [List.length_append]; have := h.pub; omega
  · exact hΦ.grow (fun w hw => hV w (by rw [List.append_assoc]; exact hw)) h.value

def SrcOK (Φ : Claim) (cfg : MgrConfig) (id : String) (tm : TypeMeta) (evs : List MgrEv) (s : Src) : Prop :=
  PcQueue cfg.numStores s.mgr.pc ∧ (Dead s.mgr ∨ ∃ V1 V2 buf, SrcInv Φ cfg id tm evs s V1 V2 buf)

theorem storeOp_eq {cfg : MgrConfig} {s s' : Mgr} {i : Nat} {op : Op (GoRec GoTime)} (h : Mgr.Step cfg s (.storeOp i op) s') :
    s' = { s with stores := s'.stores } := by cases h; rfl

theorem publish_eq {cfg : MgrConfig} {s s' : Mgr} {u : RecordUpdate} (h : Mgr.Step cfg s (.publish u) s') :
    s' = { s with changeQueue := s.changeQueue ++ [u] } := by cases h; rfl

theorem SrcInv.silent {Φ : Claim} {cfg : MgrConfig} {id : String} {tm : TypeMeta} {evs : List MgrEv} {s : Src} {V1 V2 : List (GoRec GoTime)}
    {buf : List RecordUpdate} (h : SrcInv Φ cfg id tm evs s V1 V2 buf) {ev : MgrEv} (hq : queued [ev] = []) :
    SrcInv Φ cfg id tm (evs ++ [ev]) s V1 V2 buf := by
  have hq' : queued (evs ++ [ev]) = queued evs := by rw [queued_snoc, hq, List.append_nil]
  exact ⟨h.versions, h.held, h.pending, h.good, h.snap, h.stores, h.pub, h.kind, by rw [hq']; exact h.value, by rw [hq']; exact h.out⟩

theorem srcOK_step {Φ : Claim} (hΦ : Kept Φ) {cfg : MgrConfig} {id : String} {tm : TypeMeta} {evs : List MgrEv} {s s' : Src} {ev : Option MgrEv}
    (h : SrcOK Φ cfg id tm evs s) (hs : Src.Step cfg id tm s ev s') : SrcOK Φ cfg id tm (evs ++ ev.toList) s' := by
  obtain ⟨hQ, h⟩ := h
  refine ⟨?_, ?_⟩
  · cases hs with
    | write hm | storeOther hm | publish hc hm | publishOther hg hn hm | mgr hu ho hm => exact pcQueue_step hQ hm
    | mint => exact hQ
  rcases h with hd | ⟨V1, V2, buf, h⟩
  · left
    cases hs with
    | write hm | storeOther hm | publish hc hm | publishOther hg hn hm | mgr hu ho hm => exact dead_step hd hm
    | mint => exact hd
  cases hs with
  | @write i op m r hm hk he hst =>
    rw [storeOp_eq hm]
    exact Or.inr ⟨V1, V2 ++ [r], buf, (SrcInv.newVersion hΦ h hk he hst).silent rfl⟩
  | @mint r hk he hst =>
    refine Or.inr ⟨V1, V2 ++ [r], buf, ?_⟩
    simpa using SrcInv.newVersion hΦ h hk he hst
  | @storeOther i op m hm hst =>
    rw [storeOp_eq hm]
    refine Or.inr ⟨V1, V2, buf, SrcInv.silent ?_ rfl⟩
    exact ⟨h.versions, h.held, h.pending, h.good, h.snap, hst, h.pub, h.kind, h.value, h.out⟩
  | @publish u m hc hm =>
    rw [publish_eq hm]
    have hlt : s.pub < (chain s.versions).length := (List.getElem?_eq_some_iff.1 hc).1
    have hdrop : (chain s.versions).drop s.pub = u :: (chain s.versions).drop (s.pub + 1) := by
      rw [List.drop_eq_getElem_cons hlt, (List.getElem?_eq_some_iff.1 hc).2]
    have hcur : u.curr ∈ s.versions := chainFrom_curr (List.mem_of_getElem? hc)
    obtain ⟨⟨g, gi, gt⟩, _⟩ := h.kind _ hcur
    refine Or.inr ⟨V1, V2, buf, SrcInv.silent ?_ rfl⟩
    refine ⟨h.versions, h.held, ?_, ?_, h.snap, h.stores, ?_, h.kind, h.value, h.out⟩
    · rw [← h.pending, hdrop]
      have hm : Mine id tm u.curr := ⟨gi, gt⟩
      simp [updOfMine, hm]
    · intro w hw
      simp only [← List.append_assoc] at hw
      rcases List.mem_append.1 hw with hw | hw
      · exact h.good w hw
      · simp only [List.mem_singleton] at hw
        subst hw; exact g
    · unfold chain at hlt; rw [chainFrom_length] at hlt; exact hlt
  | @publishOther u m hg hn hm =>
    rw [publish_eq hm]
    refine Or.inr ⟨V1, V2, buf, SrcInv.silent ?_ rfl⟩
    refine ⟨h.versions, h.held, ?_, ?_, h.snap, h.stores, h.pub, h.kind, h.value, h.out⟩
    · rw [← h.pending]
      simp [updOfMine, hn]
    · intro w hw
      simp only [← List.append_assoc] at hw
      rcases List.mem_append.1 hw with hw | hw
      · exact h.good w hw
      · simp only [List.mem_singleton] at hw
        subst hw; exact hg
  | mgr hu ho hm => exact srcInv_mgr hΦ h hu ho hQ hm

theorem srcOK_run {Φ : Claim} (hΦ : Kept Φ) {cfg : MgrConfig} {id : String} {tm : TypeMeta} {evs : List MgrEv} {s s' : Src}
    (h : SrcOK Φ cfg id tm [] s) (hr : Src.Run cfg id tm s evs s') : SrcOK Φ cfg id tm evs s' := by
  induction hr with
  | nil => exact h
  | snoc hr hs ih => exact srcOK_step hΦ ih hs

theorem srcOK_start {Φ : Claim} (h0 : Φ [] [] []) {cfg : MgrConfig} {id : String} {tm : TypeMeta} {s : Src} (h : Src.Start cfg id tm s) :
    SrcOK Φ cfg id tm [] s := by
  obtain ⟨⟨f1, f2, f3, f4, f5⟩, hv, hp, hst⟩ := h
  refine ⟨by simp_all [PcQueue], Or.inr ⟨[], [], [], ?_⟩⟩
  refine ⟨hv, ?_, ?_, ?_, ?_, ?_, ?_, ?_, ?_, ?_⟩ <;> simp_all [HeldBuf, SnapOK, updOfMine, chain, chainFrom, queued, ofMine]

/-- What holds when nothing is left to do. -/
theorem srcOK_drained {Φ : Claim} {cfg : MgrConfig} {id : String} {tm : TypeMeta} {evs : List MgrEv} {s' : Src} (h : SrcOK Φ cfg id tm evs s')
    (hd : s'.Drained) :
    Φ (ofMine id tm (queued evs).flatten) s'.versions [] ∧ (∀ r ∈ (queued evs).flatten, GoodRecord vanRegistry r) ∧
    (∀ r ∈ s'.versions, OfKind id tm r ∧ ∃ a, vanOps.encode r = .ok a) := by
  obtain ⟨hp, hpc, hcq, hsq⟩ := hd
  obtain ⟨_, hdead | ⟨V1, V2, buf, hi⟩⟩ := h
  · rcases hdead with hh | hh <;> rw [hpc] at hh <;> simp at hh
  · have hheld := hi.held
    rw [hpc] at hheld
    simp only [HeldBuf] at hheld
    subst hheld
    have hpend := hi.pending
    have : (chain s'.versions).length = s'.versions.length := chainFrom_length _ _
    rw [hcq, hp, ← this, List.drop_length] at hpend
    have hV2 : V2 = [] := by
      have := congrArg List.length hpend
      rw [chainFrom_length] at this
      exact List.length_eq_zero_iff.1 (by simpa [updOfMine] using this.symm)
    have hver := hi.versions
    have hval := hi.value
    subst hV2
    rw [List.append_nil] at hver
    subst hver
    exact ⟨hval, hi.out, hi.kind⟩

/-! ### The claim for a collector that gets everything -/

def AllTold : Claim := fun Q V1 V2 => ∀ k, latestFrom (latest Q k) (diffsOf (chainFrom (lastOr .nil V1) V2)) k = latest (V1 ++ V2) k

theorem allTold_kept : Kept AllTold where
  emit := by
    intro Q V1 va vb _ h k
    have h := h k
    rw [← List.append_assoc] at h
    rw [← h, lastOr_append, chainFrom_append, diffsOf_append, latestFrom_append]
    simp only [latest, latestFrom_append]
  snap := by
    intro Q V1 V2 r hV hr h k
    rw [latest_snoc]
    exact snapshot_absorbed hV (h k) hr
  grow := by
    intro Q V1 V2 r hV h k
    rw [chainFrom_append, diffsOf_append, latestFrom_append, h k, ← lastOr_append, ← List.append_assoc]
    exact version_added (fun w hw => hV w (by simp only [List.mem_append] at hw ⊢; tauto)) (hV r (by simp)) k

/-! ### The claim for a collector that has got a snapshot -/

/-- A snapshot of any version from the last one told about on, followed by the differences up to the last version, leaves every attribute of the
last version, whatever the collector had before. -/
theorem chain_heal {k v : Any} : ∀ {vs : List (GoRec GoTime)} {p : GoRec GoTime}, (p = .nil ∨ ∃ a, vanOps.encode p = .ok a) → (∀ r ∈ vs, Enc r) →
    attrOf (lastOr p vs) k = some v → ∀ r ∈ p :: vs, ∀ x, latestFrom ((attrOf r k).or x) (diffsOf (chainFrom p vs)) k = some v
  | [], p, _, _, hl, r, hr, x => by
    simp only [List.mem_singleton] at hr
    subst hr
    rw [show lastOr r [] = r from rfl] at hl
    rw [hl]; rfl
  | w :: ws, p, hp, hvs, hl, r, hr, x => by
    rw [lastOr_cons] at hl
    have hw := hvs w List.mem_cons_self
    have ih := chain_heal (vs := ws) (p := w) (Or.inr hw.2) (fun r hr => hvs r (List.mem_cons_of_mem _ hr)) hl
    have happ : ∀ x, latestFrom x (diffsOf (chainFrom p (w :: ws))) k =
        latestFrom (latestFrom x (diffsOf [{ prev := p, curr := w }]) k) (diffsOf (chainFrom w ws)) k := by
      intro x
      rw [← latestFrom_append, ← diffsOf_append]
      rfl
    rw [happ]
    have ihw := fun x => ih w List.mem_cons_self x
    rcases contribution (u := { prev := p, curr := w }) hp hw k with ⟨z, c1, c2⟩ | ⟨c1, c2⟩
    · simp only at c1
      rw [c2]
      have := ihw x
      rw [c1, Option.some_or] at this
      exact this
    · rw [c1]
      rcases List.mem_cons.1 hr with rfl | hr
      · cases hwk : attrOf w k with
        | none =>
          have := ihw ((attrOf r k).or x)
          rw [hwk, Option.none_or] at this
          exact this
        | some z =>
          rw [c2 z hwk]
          have := ihw x
          rw [hwk] at this
          exact this
      · exact ih r hr x

def Healed (m : List (GoRec GoTime)) : Claim := fun Q V1 V2 => ∀ x k v, attrOf (lastOr .nil (V1 ++ V2)) k = some v →
  latestFrom (latestFrom x (m ++ Q) k) (diffsOf (chainFrom (lastOr .nil V1) V2)) k = some v

theorem prev_enc {V1 : List (GoRec GoTime)} (hV : ∀ r ∈ V1, Enc r) : lastOr .nil V1 = .nil ∨ ∃ a, vanOps.encode (lastOr .nil V1) = .ok a := by
  cases hl : V1.getLast? with
  | none => left; simp [lastOr, hl]
  | some w =>
    right
    simp only [lastOr, hl, Option.getD_some]
    exact (hV w (List.mem_of_getLast? hl)).2

theorem snapshot_heals {V1 V2 : List (GoRec GoTime)} (hV : ∀ r ∈ V1 ++ V2, Enc r) {r : GoRec GoTime} (hr : r ∈ V1.getLast?.toList ++ V2)
    {k v : Any} (hv : attrOf (lastOr .nil (V1 ++ V2)) k = some v) (x : Option Any) :
    latestFrom ((attrOf r k).or x) (diffsOf (chainFrom (lastOr .nil V1) V2)) k = some v := by
  rw [lastOr_append] at hv
  refine chain_heal (prev_enc fun r hr => hV r (List.mem_append_left _ hr)) (fun r hr => hV r (List.mem_append_right _ hr)) hv r ?_ x
  rcases List.mem_append.1 hr with hr | hr
  · cases hl : V1.getLast? with
    | none => rw [hl] at hr; simp at hr
    | some w =>
      rw [hl] at hr
      simp at hr
      subst hr
      simp [lastOr, hl]
  · exact List.mem_cons_of_mem _ hr

theorem healed_kept (m : List (GoRec GoTime)) : Kept (Healed m) where
  emit := by
    intro Q V1 va vb _ h x k v hv
    rw [List.append_assoc] at hv
    have := h x k v hv
    rw [chainFrom_append, diffsOf_append, latestFrom_append] at this
    rw [lastOr_append, ← List.append_assoc, latestFrom_append x (m ++ Q)]
    exact this
  snap := by
    intro Q V1 V2 r hV hr h x k v hv
    rw [← List.append_assoc, latestFrom_append x (m ++ Q)]
    exact snapshot_heals hV hr hv _
  grow := by
    intro Q V1 V2 r hV h x k v hv
    have hV : ∀ w ∈ V1 ++ V2 ++ [r], Enc w := fun w hw => hV w (by rw [← List.append_assoc]; exact hw)
    rw [← List.append_assoc] at hv
    have hlast : lastOr .nil (V1 ++ V2 ++ [r]) = r := by simp [lastOr]
    rw [hlast] at hv
    rw [chainFrom_append, diffsOf_append, latestFrom_append, ← lastOr_append]
    have hp := prev_enc (V1 := V1 ++ V2) (fun w hw => hV w (List.mem_append_left _ hw))
    rcases contribution (u := { prev := lastOr .nil (V1 ++ V2), curr := r }) hp (hV r (by simp)) k with ⟨z, c1, c2⟩ | ⟨c1, c2⟩
    · simp only at c1
      rw [hv] at c1
      rw [c1]; exact c2 _
    · exact (c1 _).trans (h x k v (c2 v hv))

/-- What has been queued when nothing is left to do: in every attribute, the last queued value is the last version's that has one. -/
theorem src_drained {cfg : MgrConfig} {id : String} {tm : TypeMeta} {evs : List MgrEv} {s s' : Src} (h : Src.Start cfg id tm s)
    (hr : Src.Run cfg id tm s evs s') (hd : s'.Drained) :
    (∀ k, latest (ofMine id tm (queued evs).flatten) k = latest s'.versions k) ∧ (∀ r ∈ (queued evs).flatten, GoodRecord vanRegistry r) ∧
    (∀ r ∈ s'.versions, OfKind id tm r ∧ ∃ a, vanOps.encode r = .ok a) := by
  obtain ⟨h1, h2, h3⟩ := srcOK_drained (srcOK_run allTold_kept (srcOK_start (fun k => rfl) h) hr) hd
  refine ⟨fun k => ?_, h2, h3⟩
  have := h1 k
  rw [List.append_nil] at this
  exact this

/-! ## The way of the messages -/

/-- What a record becomes on the way: a good record of the same kind and identity, with the same attributes. -/
def Wire (g g' : GoRec GoTime) : Prop :=
  GoodRecord vanRegistry g' ∧ vanIdentity g' = vanIdentity g ∧ vanTypeMeta g' = vanTypeMeta g ∧ (∃ a, vanOps.encode g' = .ok a) ∧
  ∀ k, attrOf g' k = attrOf g k

theorem wire_record {g : GoRec GoTime} (hg : GoodRecord vanRegistry g) {a : Attrs} (ha : encode vanEnv vanRegistry g = .ok a) :
    ∃ g', decode vanEnv vanRegistry (some a) = .ok g' ∧ isRecord g' = true ∧ Wire g g' := by
  obtain ⟨rr, er, hrr, hnr, hkr, har, hidr, hor⟩ := GoodRecord.attrs hg ha
  have hk' : er.tname ∈ recordKinds := by rw [hnr]; exact hkr
  obtain ⟨m', h1, h2, c, h3, h4, h5, h6, h7⟩ := har.decodes hk'
  have hv1 : vanIdentity g = .ok (recIdentity rr) := by cases g <;> simp [recVal] at hrr <;> subst hrr <;> rfl
  have hv2 : vanTypeMeta g = .ok ⟨"flow/v1", rr.tname⟩ := by cases g <;> simp [recVal] at hrr <;> subst hrr <;> rfl
  refine ⟨_, h1, isRecord_pointer hk', h2, ?_, ?_, ⟨c, h3⟩, ?_⟩
  · rw [hv1]
    rw [hidr] at h7
    simp only [Option.some.injEq, Any.str.injEq] at h7
    rw [h7]; rfl
  · rw [hv2, ← hnr]; rfl
  · intro k
    rw [attrOf_ok (r := .pointer ⟨er.tname, m'⟩) (a := c) h3, attrOf_ok (r := g) (a := a) ha]
    by_cases hk0 : k = typeOfRecord
    · subst hk0; rw [h4, har.typ]
    · by_cases hf : ∃ f ∈ er.fields, k = .u32 f.codepoint
      · obtain ⟨f, hf, rfl⟩ := hf
        exact h5 f hf
      · have hf : ∀ f ∈ er.fields, k ≠ .u32 f.codepoint := fun f hm he => hf ⟨f, hm, he⟩
        rw [h6 k hk0 hf, hor k hk0 hf]

theorem wire_elems {gs : List (GoRec GoTime)} (hg : ∀ g ∈ gs, GoodRecord vanRegistry g) {es : List Elem}
    (h : encodeRecords vanRegistry gs = .ok es) : ∃ gs', decodeElems vanRegistry es = .ok gs' ∧ Pointwise Wire gs gs' := by
  induction gs generalizing es with
  | nil => simp [encodeRecords] at h; subst h; exact ⟨[], rfl, trivial⟩
  | cons g gs ih =>
    simp only [encodeRecords] at h
    rw [Res.bind_eq_ok] at h
    obtain ⟨a, ha, h⟩ := h
    rw [map_eq_ok] at h
    obtain ⟨es', he, rfl⟩ := h
    obtain ⟨g', h1, h3, h2⟩ := wire_record (hg g List.mem_cons_self) ha
    obtain ⟨gs', h4, h5⟩ := ih (fun x hx => hg x (List.mem_cons_of_mem _ hx)) he
    exact ⟨g' :: gs', by simp [decodeElems, h1, h3, h4], h2, h5⟩

theorem wire_msg {gs : List (GoRec GoTime)} (hg : ∀ g ∈ gs, GoodRecord vanRegistry g) {msg : Msg}
    (h : RecordMsg.encode vanRegistry { records := gs } = .ok msg) :
    ∃ rm, decodeMsg vanRegistry (some msg) = .ok (.record rm) ∧ Pointwise Wire gs rm.records := by
  unfold RecordMsg.encode at h
  rw [map_eq_ok] at h
  obtain ⟨es, hes, rfl⟩ := h
  obtain ⟨gs', h1, h2⟩ := wire_elems hg hes
  refine ⟨⟨⟨"", "RECORD", ""⟩, gs'⟩, ?_, h2⟩
  simp [decodeMsg, decodeRecord, decodeRecords, h1, derefOr]

theorem Src.Run.toMgr {cfg : MgrConfig} {id : String} {tm : TypeMeta} {s s' : Src} {evs : List MgrEv} (h : Src.Run cfg id tm s evs s') :
    Mgr.Run cfg s.mgr evs s'.mgr := by
  induction h with
  | nil => exact .nil
  | snoc hr hs ih =>
    cases hs with
    | write hm | storeOther hm | publish hc hm | publishOther hg hn hm | mgr hu ho hm => exact ih.snoc hm
    | mint => simpa using ih

/-- The messages sent are the encodings of the record lists the sender handled, if nothing was lost. -/
theorem sent_handled {cfg : MgrConfig} {s s' : Mgr} {evs : List MgrEv} (h : Mgr.Run cfg s evs s') (hl : Lossless evs) :
    Pointwise (fun rs m => RecordMsg.encode vanRegistry { records := rs } = .ok m) (handled evs) (sentMsgs evs) := by
  have snocP : ∀ {as : List (List (GoRec GoTime))} {bs : List Msg} {a b},
      Pointwise (fun rs m => RecordMsg.encode vanRegistry { records := rs } = .ok m) as bs → RecordMsg.encode vanRegistry { records := a } = .ok b →
      Pointwise (fun rs m => RecordMsg.encode vanRegistry { records := rs } = .ok m) (as ++ [a]) (bs ++ [b]) := by
    intro as
    induction as with
    | nil => intro bs a b h1 h2; cases bs with
      | nil => exact ⟨h2, trivial⟩
      | cons => exact h1.elim
    | cons x as ih => intro bs a b h1 h2; cases bs with
      | nil => exact h1.elim
      | cons y bs => exact ⟨h1.1, ih h1.2 h2⟩
  induction h with
  | nil => trivial
  | @snoc s' s'' evs ev hr hs ih =>
    have hl' : Lossless evs := fun rs => ⟨fun h => (hl rs).1 (List.mem_append_left _ h), fun h => (hl rs).2.1 (List.mem_append_left _ h),
      fun h => (hl rs).2.2 (List.mem_append_left _ h)⟩
    have hi := ih hl'
    unfold handled sentMsgs at hi ⊢
    rw [List.filterMap_append, List.filterMap_append]
    cases hs with
    | send hq he => exact snocP hi he
    | @skip records rest e hq he => exact absurd (by simp) (hl records).1
    | @sendFail records rest msg hq he => exact absurd (by simp) (hl records).2.1
    | @sendPanic records rest m hq he => exact absurd (by simp) (hl records).2.2
    | _ => simpa using hi

/-- The sender takes the messages in the order in which they are queued. -/
theorem fifo {cfg : MgrConfig} {s s' : Mgr} {evs : List MgrEv} (h : Mgr.Run cfg s evs s') :
    s.sendQueue ++ queued evs = handled evs ++ s'.sendQueue := by
  induction h with
  | nil => simp [queued, handled]
  | @snoc s' s'' evs ev hr hs ih =>
    have e1 : queued (evs ++ [ev]) = queued evs ++ queued [ev] := queued_snoc _ _
    have e2 : handled (evs ++ [ev]) = handled evs ++ handled [ev] := by simp [handled, List.filterMap_append]
    rw [e1, e2, ← List.append_assoc, ih, List.append_assoc, List.append_assoc]
    congr 1
    cases hs with
    | send hq he | skip hq he | sendFail hq he | sendPanic hq he => simp [queued, handled, hq]
    | _ => simp [queued, handled]

/-! ## The collector -/

theorem pointwise_append {α β : Type} {R : α → β → Prop} : ∀ {a a' : List α} {b b' : List β}, Pointwise R a b → Pointwise R a' b' →
    Pointwise R (a ++ a') (b ++ b')
  | [], _, [], _, _, h => h
  | _ :: _, _, _ :: _, _, h, h' => ⟨h.1, pointwise_append h.2 h'⟩

theorem wire_good {gs gs' : List (GoRec GoTime)} (h : Pointwise Wire gs gs') : ∀ g ∈ gs', GoodRecord vanRegistry g ∧ ∃ a, vanOps.encode g = .ok a := by
  induction gs generalizing gs' with
  | nil => cases gs' with
    | nil => simp
    | cons => exact h.elim
  | cons g gs ih => cases gs' with
    | nil => exact h.elim
    | cons g' gs' =>
      intro x hx
      rcases List.mem_cons.1 hx with rfl | hx
      · exact ⟨h.1.1, h.1.2.2.2.1⟩
      · exact ih h.2 x hx

theorem wire_mine {id : String} {tm : TypeMeta} {gs gs' : List (GoRec GoTime)} (h : Pointwise Wire gs gs') :
    (∀ k x, latestFrom x (ofMine id tm gs') k = latestFrom x (ofMine id tm gs) k) ∧ (ofMine id tm gs').length = (ofMine id tm gs).length := by
  have key : ∀ {gs gs' : List (GoRec GoTime)}, Pointwise Wire gs gs' →
      (∀ k x, latestFrom x (ofMine id tm gs') k = latestFrom x (ofMine id tm gs) k) ∧ (ofMine id tm gs').length = (ofMine id tm gs).length := by
    intro gs
    induction gs with
    | nil => intro gs' h; cases gs' with
      | nil => exact ⟨fun _ _ => rfl, rfl⟩
      | cons => exact h.elim
    | cons g gs ih => intro gs' h; cases gs' with
      | nil => exact h.elim
      | cons g' gs' =>
        obtain ⟨⟨_, h1, h2, _, h3⟩, h4⟩ := h
        obtain ⟨i1, i2⟩ := ih h4
        have hm : Mine id tm g' ↔ Mine id tm g := by unfold Mine; rw [h1, h2]
        by_cases hg : Mine id tm g
        · have hg' := hm.2 hg
          refine ⟨fun k x => ?_, by simpa [ofMine, hg, hg'] using i2⟩
          have e1 : ofMine id tm (g' :: gs') = g' :: ofMine id tm gs' := by simp [ofMine, hg']
          have e2 : ofMine id tm (g :: gs) = g :: ofMine id tm gs := by simp [ofMine, hg]
          rw [e1, e2]
          show latestFrom ((attrOf g' k).or x) _ k = latestFrom ((attrOf g k).or x) _ k
          rw [h3, i1]
        · have hg' : ¬ Mine id tm g' := fun h => hg (hm.1 h)
          have e1 : ofMine id tm (g' :: gs') = ofMine id tm gs' := by simp [ofMine, hg']
          have e2 : ofMine id tm (g :: gs) = ofMine id tm gs := by simp [ofMine, hg]
          rw [e1, e2]
          exact ⟨i1, i2⟩
  exact key h

theorem zipIdx_fst {α : Type} (f : Nat → GoTime) : ∀ (l : List α) (n : Nat), ((l.zipIdx n).map fun p => (p.1, f p.2)).map Prod.fst = l
  | [], _ => rfl
  | a :: l, n => by simp [List.zipIdx_cons, zipIdx_fst f l]

theorem routed_append (cs : List RegCmd) (src : SourceRef) (a b : List (GoRec GoTime × GoTime)) (i : Nat) :
    routed vanOps cs src (a ++ b) i = routed vanOps cs src a i ++ routed vanOps cs src b i := by
  simp [routed]

theorem collect_run (cs1 cs2 : List RegCmd) (src : SourceRef) (hreg : ∀ tm i, RegCmd.register tm i ∈ cs1 → PlainType tm)
    (cfg : Nat → CacheConfig (GoRec GoTime)) (hkey : ∀ i, (cfg i).key = none) (hc : ∀ i, GoodConfig (cfg i)) {d : Dispatcher}
    (hd : (runReg (cs1 ++ .newDispatcher src :: cs2) {}).2[(runReg cs1 {}).2.length]? = some d) (clock : Nat → Nat → GoTime) :
    ∀ (rss : List (List (GoRec GoTime))) (msgs : List Msg) (n : Nat) (h : Nat → List (Op (GoRec GoTime))),
    (∀ i, ∀ op ∈ h i, Op.All (GoodRecord vanRegistry) op) → (∀ rs ∈ rss, ∀ r ∈ rs, GoodRecord vanRegistry r) →
    Pointwise (fun rs m => RecordMsg.encode vanRegistry { records := rs } = .ok m) rss msgs →
    ∃ L : List (GoRec GoTime × GoTime), Pointwise Wire rss.flatten (L.map Prod.fst) ∧
      collect (runReg (cs1 ++ .newDispatcher src :: cs2) {}).1 d clock n msgs (fun i => after vanOps (cfg i) (h i)) =
        (fun i => after vanOps (cfg i) (h i ++ routed vanOps cs1 src L i), none)
  | [], [], n, h, _, _, _ => ⟨[], trivial, by simp [collect, routed]⟩
  | rs :: rss, m :: msgs, n, h, hh, hg, hp => by
    obtain ⟨rm, h1, h2⟩ := wire_msg (hg rs List.mem_cons_self) hp.1
    have hgood : ∀ p ∈ rm.records.zipIdx.map (fun p => (p.1, clock n p.2)), GoodRecord vanRegistry p.1 := by
      intro p hp'
      have : p.1 ∈ rm.records := by
        rw [← zipIdx_fst (clock n) rm.records 0]; exact List.mem_map_of_mem hp'
      exact (wire_good h2 _ this).1
    obtain ⟨d', hd', h3, h4⟩ := C30_routing_builtin cs1 cs2 src hreg cfg hkey hc h hh _ hgood
    rw [hd] at hd'
    simp only [Option.some.injEq] at hd'
    subst hd'
    have hdisp : (runReg (cs1 ++ .newDispatcher src :: cs2) {}).1.dispatch vanOps d (rm.records.zipIdx.map fun p => (p.1, clock n p.2))
        (fun i => after vanOps (cfg i) (h i)) =
        (fun i => after vanOps (cfg i) (h i ++ routed vanOps cs1 src (rm.records.zipIdx.map fun p => (p.1, clock n p.2)) i), none) :=
      Prod.ext (funext h4) h3
    obtain ⟨L, i1, i2⟩ := collect_run cs1 cs2 src hreg cfg hkey hc hd clock rss msgs (n + 1)
      (fun i => h i ++ routed vanOps cs1 src (rm.records.zipIdx.map fun p => (p.1, clock n p.2)) i)
      (by
        intro i op hop
        rcases List.mem_append.1 hop with hop | hop
        · exact hh i op hop
        · simp only [routed, List.mem_map, List.mem_filter] at hop
          obtain ⟨p, ⟨hp', _⟩, rfl⟩ := hop
          exact hgood p (List.mem_map.2 hp'))
      (fun rs hrs => hg rs (List.mem_cons_of_mem _ hrs)) hp.2
    refine ⟨(rm.records.zipIdx.map fun p => (p.1, clock n p.2)) ++ L, ?_, ?_⟩
    · rw [List.map_append, zipIdx_fst, List.flatten_cons]
      exact pointwise_append h2 i1
    · simp only [collect, h1, hdisp, i2, routed_append, List.append_assoc]

/-- The store holds what some records of our kind and identity accumulate to, starting from an entry with the source `S` and the attributes `f0`:
that entry (or none, if there was none and there are no records), or an entry with the latest value of every attribute. -/
def StoreHas (id : String) (tm : TypeMeta) (src S : SourceRef) (f0 : Any → Option Any) (c : Cache (GoRec GoTime)) (rs : List (GoRec GoTime)) : Prop :=
  (rs = [] ∧ view c id = none ∧ S = src ∧ f0 = fun _ => none) ∨ ∃ e, view c id = some e ∧ OfKind id tm e.record ∧ e.md.source = S ∧
    (∃ a, vanOps.encode e.record = .ok a) ∧ ∀ k, attrOf e.record k = latestFrom (f0 k) rs k

theorem storeHas_other {id : String} {tm : TypeMeta} {src S : SourceRef} {f0 : Any → Option Any} {c : Cache (GoRec GoTime)} {rs : List (GoRec GoTime)}
    (hkf : c.keyFunc = fun e => vanOps.identity e.record) (h : StoreHas id tm src S f0 c rs) {r : GoRec GoTime} (hg : GoodRecord vanRegistry r)
    (hn : vanIdentity r ≠ .ok id) (t : GoTime) : StoreHas id tm src S f0 (c.step vanOps (.accumulate src r t)).1 rs := by
  obtain ⟨id', hid⟩ := GoodRecord.identity hg
  have hne : id ≠ id' := fun he => hn (by rw [hid, he])
  have hv : view (c.step vanOps (.accumulate src r t)).1 id = view c id := by
    rw [accumulate_eq vanOps c src r t (k := id') (by rw [hkf]; exact hid)]
    split <;> first | rfl | (rw [view_put]; simp [Effect.apply, hne])
  unfold StoreHas at *
  rw [hv]; exact h

theorem latestFrom_snoc (x : Option Any) (rs : List (GoRec GoTime)) (r : GoRec GoTime) (k : Any) :
    latestFrom x (rs ++ [r]) k = (attrOf r k).or (latestFrom x rs k) := by rw [latestFrom_append]; rfl

theorem storeHas_mine {id : String} {tm : TypeMeta} {src S : SourceRef} {f0 : Any → Option Any} {c : Cache (GoRec GoTime)} {rs : List (GoRec GoTime)}
    (hkf : c.keyFunc = fun e => vanOps.identity e.record) (h : StoreHas id tm src S f0 c rs) {r : GoRec GoTime} (hk : OfKind id tm r)
    {b : Attrs} (hb : vanOps.encode r = .ok b) (t : GoTime) : StoreHas id tm src S f0 (c.step vanOps (.accumulate src r t)).1 (rs ++ [r]) := by
  have hstep := accumulate_eq vanOps c src r t (k := id) (by rw [hkf]; exact hk.2.1)
  rcases h with ⟨rfl, hv, rfl, rfl⟩ | ⟨e, hv, ho, hsrc, ⟨a, ha⟩, hl⟩
  · rw [hv] at hstep
    simp only [recordPatch, show vanOps.typeMeta r = .ok tm from hk.2.2] at hstep
    refine Or.inr ⟨{ record := r, md := { source := S, updatedAt := t, annotations := [] }, typeMeta := tm }, ?_, hk, rfl, ⟨b, hb⟩, ?_⟩
    · rw [hstep]
      exact (congrFun (view_put _ id _) id).trans (by simp [Effect.apply])
    · intro k; simp [latestFrom]
  · rw [hv] at hstep
    rcases recordPatch_merge (s := src) (now := t) hk.1 ho.1 ha hb with ⟨h1, h2⟩ | ⟨_, y, c', h1, h2, h3, h4, h5, h6, h7⟩
    · rw [h1] at hstep
      simp only at hstep
      rw [hstep]
      refine Or.inr ⟨e, hv, ho, hsrc, ⟨a, ha⟩, fun k => ?_⟩
      rw [latestFrom_snoc, ← hl k, attrOf_ok hb, attrOf_ok ha]
      cases hbk : b.get? k with
      | none => rfl
      | some v => rw [h2 (k, v) (GMap.mem_of_get? hbk)]; rfl
    · rw [h1] at hstep
      simp only at hstep
      refine Or.inr ⟨{ e with md := { e.md with updatedAt := t }, record := y }, ?_, ⟨h2, by rw [h3]; exact hk.2.1, by rw [h4]; exact hk.2.2⟩,
        hsrc, ⟨c', h5⟩, fun k => ?_⟩
      · rw [hstep]
        exact (congrFun (view_put _ id _) id).trans (by simp [Effect.apply])
      · rw [latestFrom_snoc, ← hl k, attrOf_ok hb, attrOf_ok ha, attrOf_ok h5, h7 (by rw [ho.2.2, hk.2.2]) k]

theorem storeHas_run {id : String} {tm : TypeMeta} {src S : SourceRef} {f0 : Any → Option Any} : ∀ (L : List (GoRec GoTime × GoTime))
    (c : Cache (GoRec GoTime)) (rs : List (GoRec GoTime)), c.keyFunc = (fun e => vanOps.identity e.record) → StoreHas id tm src S f0 c rs →
    (∀ p ∈ L, GoodRecord vanRegistry p.1 ∧ (∃ a, vanOps.encode p.1 = .ok a) ∧ vanTypeMeta p.1 = .ok tm) →
    StoreHas id tm src S f0 (c.run vanOps (L.map fun p => .accumulate src p.1 p.2)).1 (rs ++ ofMine id tm (L.map Prod.fst))
  | [], c, rs, _, h, _ => by simpa [ofMine, Cache.run] using h
  | (r, t) :: L, c, rs, hkf, h, hall => by
    obtain ⟨hg, ⟨a, ha⟩, htm⟩ := hall (r, t) List.mem_cons_self
    have hkf' : (c.step vanOps (.accumulate src r t)).1.keyFunc = fun e => vanOps.identity e.record := by
      rw [(step_keyFunc vanOps_lawful c _).1, hkf]
    have hrest := fun p hp => hall p (List.mem_cons_of_mem _ hp)
    by_cases hm : Mine id tm r
    · have e1 : ofMine id tm (((r, t) :: L).map Prod.fst) = r :: ofMine id tm (L.map Prod.fst) := by simp [ofMine, hm]
      rw [e1, List.append_cons]
      exact storeHas_run L _ _ hkf' (storeHas_mine hkf h ⟨hg, hm⟩ ha t) hrest
    · have e1 : ofMine id tm (((r, t) :: L).map Prod.fst) = ofMine id tm (L.map Prod.fst) := by simp [ofMine, hm]
      rw [e1]
      exact storeHas_run L _ _ hkf' (storeHas_other hkf h hg (fun hi => hm ⟨hi, htm⟩) t) hrest

theorem filter_ofMine {id : String} {tm : TypeMeta} (P : GoRec GoTime × GoTime → Bool) (hP : ∀ p, Mine id tm p.1 → P p = true) :
    ∀ L : List (GoRec GoTime × GoTime), ofMine id tm ((L.filter P).map Prod.fst) = ofMine id tm (L.map Prod.fst)
  | [] => rfl
  | p :: L => by
    have ih := filter_ofMine P hP L
    by_cases hm : Mine id tm p.1
    · rw [List.filter_cons, if_pos (hP p hm)]
      simp only [List.map_cons, ofMine, List.filter_cons, hm, decide_true, if_true]
      exact congrArg _ ih
    · have e1 : ofMine id tm ((p :: L).map Prod.fst) = ofMine id tm (L.map Prod.fst) := by simp [ofMine, hm]
      rw [e1, ← ih, List.filter_cons]
      by_cases hp : P p = true
      · rw [if_pos hp]; simp [ofMine, hm]
      · rw [if_neg hp]

/-- What a collector has after a sequence of record messages. -/
theorem collector_has {id : String} {tm : TypeMeta} (cs1 cs2 : List RegCmd) (src : SourceRef)
    (hreg : ∀ tm i, RegCmd.register tm i ∈ cs1 → PlainType tm) {i : Nat} (hi : ∀ tm', lastRegistered cs1 tm' = some i ↔ tm' = tm)
    (cfg : Nat → CacheConfig (GoRec GoTime)) (hkey : ∀ i, (cfg i).key = none) (hc : ∀ i, GoodConfig (cfg i))
    (h : Nat → List (Op (GoRec GoTime))) (hh : ∀ i, ∀ op ∈ h i, Op.All (GoodRecord vanRegistry) op) {S : SourceRef} {f0 : Any → Option Any}
    (hinit : StoreHas id tm src S f0 (after vanOps (cfg i) (h i)) []) (clock : Nat → Nat → GoTime) {rss : List (List (GoRec GoTime))} {msgs : List Msg}
    (hgood : ∀ r ∈ rss.flatten, GoodRecord vanRegistry r)
    (hpw : Pointwise (fun rs m => RecordMsg.encode vanRegistry { records := rs } = .ok m) rss msgs) :
    ∃ d, (runReg (cs1 ++ .newDispatcher src :: cs2) {}).2[(runReg cs1 {}).2.length]? = some d ∧
      let o := collect (runReg (cs1 ++ .newDispatcher src :: cs2) {}).1 d clock 0 msgs (fun i => after vanOps (cfg i) (h i))
      o.2 = none ∧ ∃ h' rs, o.1 i = after vanOps (cfg i) h' ∧ StoreHas id tm src S f0 (after vanOps (cfg i) h') rs ∧
        rs.length = (ofMine id tm rss.flatten).length ∧ ∀ x k, latestFrom x rs k = latestFrom x (ofMine id tm rss.flatten) k := by
  obtain ⟨d, hd1, _⟩ := C30_routing (R := GoRec GoTime) cs1 cs2 src hreg
  refine ⟨d, hd1, ?_⟩
  obtain ⟨L, hL1, hL2⟩ := collect_run cs1 cs2 src hreg cfg hkey hc hd1 clock rss msgs 0 h hh
    (fun rs hrs r hr => hgood r (List.mem_flatten.2 ⟨rs, hrs, hr⟩)) hpw
  intro o
  have ho : o = (fun i => after vanOps (cfg i) (h i ++ routed vanOps cs1 src L i), none) := hL2
  rw [ho]
  have hwg := wire_good hL1
  let M := L.filter fun p => match vanOps.typeMeta p.1 with
    | .ok tm => lastRegistered cs1 tm = some i
    | _ => false
  have hM : routed vanOps cs1 src L i = M.map fun p => .accumulate src p.1 p.2 := rfl
  have hMall : ∀ p ∈ M, GoodRecord vanRegistry p.1 ∧ (∃ a, vanOps.encode p.1 = .ok a) ∧ vanTypeMeta p.1 = .ok tm := by
    intro p hp
    obtain ⟨hp1, hp2⟩ := List.mem_filter.1 hp
    obtain ⟨g1, g2⟩ := hwg p.1 (List.mem_map_of_mem hp1)
    refine ⟨g1, g2, ?_⟩
    obtain ⟨tm', ht⟩ := GoodRecord.typeMeta g1
    rw [show vanOps.typeMeta p.1 = .ok tm' from ht] at hp2
    simp only [decide_eq_true_eq] at hp2
    rw [ht, (hi tm').1 hp2]
  have hMmine : ofMine id tm (M.map Prod.fst) = ofMine id tm (L.map Prod.fst) := by
    refine filter_ofMine _ (fun p hm => ?_) L
    rw [show vanOps.typeMeta p.1 = .ok tm from hm.2]; simp [(hi tm).2 rfl]
  have hkf : (after vanOps (cfg i) (h i)).keyFunc = (fun e => vanOps.identity e.record) := by
    rw [after_keyFunc vanOps_lawful (cfg i) (hc i)]; simp [keyOf, hkey i]
  have hst := storeHas_run M (after vanOps (cfg i) (h i)) [] hkf hinit hMall
  have hrunM : after vanOps (cfg i) (h i ++ routed vanOps cs1 src L i) =
      ((after vanOps (cfg i) (h i)).run vanOps (M.map fun p => .accumulate src p.1 p.2)).1 := by
    rw [hM]; unfold after; rw [(run_append vanOps (h i) _ _).1]
  rw [List.nil_append, hMmine, ← hrunM] at hst
  obtain ⟨w1, w2⟩ := wire_mine (id := id) (tm := tm) hL1
  exact ⟨rfl, h i ++ routed vanOps cs1 src L i, _, rfl, hst, w2, fun x k => w1 k x⟩

theorem collector_result {id : String} {tm : TypeMeta} (cs1 cs2 : List RegCmd) (src : SourceRef)
    (hreg : ∀ tm i, RegCmd.register tm i ∈ cs1 → PlainType tm) {i : Nat} (hi : ∀ tm', lastRegistered cs1 tm' = some i ↔ tm' = tm)
    (cfg : Nat → CacheConfig (GoRec GoTime)) (hkey : ∀ i, (cfg i).key = none) (hc : ∀ i, GoodConfig (cfg i))
    (h : Nat → List (Op (GoRec GoTime))) (hh : ∀ i, ∀ op ∈ h i, Op.All (GoodRecord vanRegistry) op) {S : SourceRef} {f0 : Any → Option Any}
    (hinit : StoreHas id tm src S f0 (after vanOps (cfg i) (h i)) []) (clock : Nat → Nat → GoTime) {rss : List (List (GoRec GoTime))} {msgs : List Msg}
    (hgood : ∀ r ∈ rss.flatten, GoodRecord vanRegistry r)
    (hpw : Pointwise (fun rs m => RecordMsg.encode vanRegistry { records := rs } = .ok m) rss msgs) :
    ∃ d, (runReg (cs1 ++ .newDispatcher src :: cs2) {}).2[(runReg cs1 {}).2.length]? = some d ∧
      let o := collect (runReg (cs1 ++ .newDispatcher src :: cs2) {}).1 d clock 0 msgs (fun i => after vanOps (cfg i) (h i))
      o.2 = none ∧ ∃ h', o.1 i = after vanOps (cfg i) h' ∧ (ofMine id tm rss.flatten ≠ [] →
        ∃ e a, content vanOps (cfg i) h' id = some e ∧ OfKind id tm e.record ∧
        e.md.source = S ∧ vanOps.encode e.record = .ok a ∧ ∀ k, a.get? k = latestFrom (f0 k) (ofMine id tm rss.flatten) k) := by
  obtain ⟨d, hd1, h2, h', rs, h3, hst, w2, w1⟩ := collector_has cs1 cs2 src hreg hi cfg hkey hc h hh hinit clock hgood hpw
  refine ⟨d, hd1, h2, h', h3, fun hne => ?_⟩
  rcases hst with ⟨hnil, _⟩ | ⟨e, g1, g2, g3, ⟨a, g5⟩, g6⟩
  · exfalso
    rw [hnil] at w2
    exact hne (List.length_eq_zero_iff.1 w2.symm)
  · refine ⟨e, a, ?_, g2, g3, g5, fun k => ?_⟩
    · rw [content_eq vanOps_lawful]; exact g1
    · rw [← attrOf_ok g5, g6, w1]

theorem true_kept : Kept fun _ _ _ => True := ⟨fun _ _ => trivial, fun _ _ _ => trivial, fun _ _ => trivial⟩

/-- After a flush message with the record is queued. -/
theorem healed_start {cfg : MgrConfig} {id : String} {tm : TypeMeta} {evs : List MgrEv} {s : Src}
    (h : SrcOK (fun _ _ _ => True) cfg id tm evs s) {m : List (GoRec GoTime)} {m1 : Mgr} (hs : Mgr.Step cfg s.mgr (.queueFlush m) m1)
    (hm : ∃ r ∈ m, Mine id tm r) : SrcOK (Healed (ofMine id tm m)) cfg id tm [] { s with mgr := m1 } ∧ ∀ r ∈ m, GoodRecord vanRegistry r := by
  obtain ⟨hQ, h⟩ := h
  have hQ' := pcQueue_step hQ hs
  cases hs with
  | @queueFlush queue cont _ hpc hcap =>
    rcases h with hd | ⟨V1, V2, buf, h⟩
    · rcases hd with hd | hd <;> rw [hpc] at hd <;> simp at hd
    have hheld := h.held
    rw [hpc] at hheld
    simp only [HeldBuf] at hheld
    subst hheld
    have hsnap := h.snap
    rw [hpc] at hsnap
    have hV : ∀ r ∈ V1 ++ V2, Enc r := by
      intro r hr
      rw [← h.versions] at hr
      obtain ⟨⟨g, _, _⟩, a⟩ := h.kind r hr
      exact ⟨g, a⟩
    refine ⟨⟨hQ', Or.inr ⟨V1, V2, [], h.versions, rfl, h.pending, h.good, trivial, h.stores, h.pub, h.kind, ?_, by simp [queued]⟩⟩,
      fun r hr => (hsnap r hr).1⟩
    intro x k v hv
    have hne : ofMine id tm m ≠ [] := by
      obtain ⟨r, hr, hmr⟩ := hm
      exact List.ne_nil_of_mem (List.mem_filter.2 ⟨hr, by simpa using hmr⟩)
    rcases List.eq_nil_or_concat (ofMine id tm m) with hn | ⟨l, r, hl⟩
    · exact absurd hn hne
    · have hr : r ∈ ofMine id tm m := by rw [hl]; simp
      simp only [ofMine, List.mem_filter, decide_eq_true_eq] at hr
      have : (ofMine id tm m ++ ofMine id tm (queued []).flatten) = l ++ [r] := by rw [hl]; simp [queued, ofMine]
      rw [this, latestFrom_snoc]
      exact snapshot_heals hV ((hsnap r hr.1).2 hr.2) hv _

end Verif.Proofs
