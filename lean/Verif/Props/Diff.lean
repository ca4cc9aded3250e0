import Verif.Proofs.Diff
import Verif.Props.Accumulate

/-!
# Manager property C35: the published difference
-/
namespace Verif.Props
open Verif Verif.Model Verif.Spec Verif.Proofs

/-! ## C35 -/

/-- A host record without a name. -/
def namelessHost (id : String) : GoRec GoTime := .pointer ⟨"HostRecord", fun p =>
  match p with
  | [0, 0] => .str id
  | _ => .nilp⟩

/-- C35 is false as stated: a difference cannot convey that an attribute was cleared.  The name of a host is cleared: nothing is sent, so a
collector keeps the old name. -/
theorem C35_counterexample :
    diffRecord { prev := hostRec "h1" "x", curr := namelessHost "h1" } = .ok none ∧
    vanOps.encode (hostRec "h1" "x") = .ok [(.u32 1, .str "h1"), (.u32 30, .str "x"), (.u32 0, .u32 13)] ∧
    vanOps.encode (namelessHost "h1") = .ok [(.u32 1, .str "h1"), (.u32 0, .u32 13)] := by
  exact ⟨by rfl, by rfl, by rfl⟩

/-- C35: the difference of two encodable records of one kind and identity.  Nothing is sent iff no attribute of the current record differs
from the previous one.  Otherwise what is sent is a record of that kind and identity whose attributes are exactly the attributes of the current
record that differ, plus type and identity (codes 0 and 1). -/
theorem C35_diff_exact {prev curr : GoRec GoTime} {id : String} {tm : TypeMeta} (_hp : OfKind id tm prev) (hc : OfKind id tm curr) {a b : Attrs}
    (ha : vanOps.encode prev = .ok a) (hb : vanOps.encode curr = .ok b) :
    (diffRecord { prev := prev, curr := curr } = .ok none ↔ ∀ k v, b.get? k = some v → a.get? k = some v) ∧
    ((∃ k v, b.get? k = some v ∧ a.get? k ≠ some v) → ∃ d c, diffRecord { prev := prev, curr := curr } = .ok (some d) ∧
      OfKind id tm d ∧ vanOps.encode d = .ok c ∧
      ∀ k v, c.get? k = some v ↔ b.get? k = some v ∧ (a.get? k ≠ some v ∨ k = .u32 0 ∨ k = .u32 1)) := by
  rcases diffRecord_spec (u := { prev := prev, curr := curr }) ha hc.1 hb with ⟨h1, h2⟩ | ⟨⟨k, v, hk1, hk2⟩, d, c, h1, h2, h3, h4, h5, h6⟩
  · refine ⟨⟨fun _ => h2, fun _ => h1⟩, ?_⟩
    rintro ⟨k, v, hk1, hk2⟩
    exact absurd (h2 k v hk1) hk2
  · refine ⟨⟨fun h => (by rw [h1] at h; simp at h), fun h => absurd (h k v hk1) hk2⟩, fun _ => ?_⟩
    refine ⟨d, c, h1, ⟨h2, by rw [h3]; exact hc.2.1, by rw [h4]; exact hc.2.2⟩, h5, ?_⟩
    intro k v
    rw [h6, deltaOf]
    cases hbk : b.get? k with
    | none => simp
    | some w =>
      simp only [Option.some.injEq]
      constructor
      · intro h
        split at h
        · rename_i hc
          simp only [Option.some.injEq] at h
          subst h
          exact ⟨rfl, hc⟩
        · simp at h
      · rintro ⟨rfl, hc⟩
        simp [hc]

/-- C35: records that cannot be encoded.  Without a previous record the current one is sent as it is; if the previous or the current one is refused by the encoder nothing is sent; if the encoder
panics on one of them, so does the manager. -/
theorem C35_unencodable (prev curr : GoRec GoTime) :
    diffRecord { prev := .nil, curr := curr } = .ok (some curr) ∧
    (prev ≠ .nil →
      (∀ e, vanOps.encode prev = .err e → diffRecord { prev := prev, curr := curr } = .ok none) ∧
      (∀ m, vanOps.encode prev = .panic m → ∃ m', diffRecord { prev := prev, curr := curr } = .panic m') ∧
      (∀ a e, vanOps.encode prev = .ok a → vanOps.encode curr = .err e → diffRecord { prev := prev, curr := curr } = .ok none) ∧
      (∀ a m, vanOps.encode prev = .ok a → vanOps.encode curr = .panic m → ∃ m', diffRecord { prev := prev, curr := curr } = .panic m')) := by
  refine ⟨rfl, fun hp => ?_⟩
  have hd : diffRecord { prev := prev, curr := curr } = (match encode vanEnv vanRegistry prev with
      | .panic m => .panic m
      | .err _ => .ok none
      | .ok a => match encode vanEnv vanRegistry curr with
        | .panic m => .panic m
        | .err _ => .ok none
        | .ok next => match diffLoop a next [] false with
          | (_, false) => .ok none
          | (delta, true) => match decode vanEnv vanRegistry (some delta) with
            | .panic m => .panic m
            | .err _ => .ok none
            | .ok r => if isRecord r then .ok (some r) else .panic "interface conversion: not a vanflow.Record") := by
    cases prev with
    | nil => exact absurd rfl hp
    | _ => rfl
  refine ⟨fun e h => ?_, fun m h => ?_, fun a e h h' => ?_, fun a m h h' => ?_⟩
  all_goals
    replace h : encode vanEnv vanRegistry prev = _ := h
    rw [hd, h]
  · exact ⟨m, rfl⟩
  · replace h' : encode vanEnv vanRegistry curr = _ := h'
    simp only [h']
  · replace h' : encode vanEnv vanRegistry curr = _ := h'
    exact ⟨m, by simp only [h']⟩

/-- A nil pointer to a record makes the encoder panic, a record without identity is refused. -/
example : (∃ m, vanOps.encode (.nilPointer "HostRecord") = .panic m) ∧ ∃ e, vanOps.encode (hostRec "" "x") = .err e := ⟨⟨_, rfl⟩, ⟨_, rfl⟩⟩

/-- C35, applying: a collector holding the previous record and accumulating what is sent ends with the attributes of the current record laid
over those of the previous one; these are the attributes of the current record iff no attribute was cleared.  Missing for C35: cleared
attributes (false, `C35_counterexample`). -/
theorem C35_apply_partial {prev curr : GoRec GoTime} {id : String} {tm : TypeMeta} (hp : OfKind id tm prev) (hc : OfKind id tm curr) {a b : Attrs}
    (ha : vanOps.encode prev = .ok a) (hb : vanOps.encode curr = .ok b) (src : SourceRef) (now : GoTime)
    (o : Entry (GoRec GoTime)) (ho : o.record = prev) :
    (diffRecord { prev := prev, curr := curr } = .ok none ∧ (∀ k, (b.get? k).or (a.get? k) = a.get? k)) ∨
    (∃ d e c, diffRecord { prev := prev, curr := curr } = .ok (some d) ∧ recordPatch vanOps src d now (some o) = .ok e ∧
      OfKind id tm e.record ∧ vanOps.encode e.record = .ok c ∧ (∀ k, c.get? k = (b.get? k).or (a.get? k)) ∧
      ((∀ k, c.get? k = b.get? k) ↔ ∀ k, a.get? k ≠ none → b.get? k ≠ none)) := by
  subst ho
  rcases diffRecord_spec (u := { prev := o.record, curr := curr }) ha hc.1 hb with ⟨h1, h2⟩ | ⟨⟨k0, v0, hk1, hk2⟩, d, c, h1, h2, h3, h4, h5, h6⟩
  · left
    refine ⟨h1, fun k => ?_⟩
    cases hbk : b.get? k with
    | none => rfl
    | some v => rw [h2 k v hbk]; rfl
  · right
    rcases recordPatch_merge (s := src) (now := now) h2 hp.1 ha h5 with ⟨g1, g2⟩ | ⟨g0, y, c', g1, g2, g3, g4, g5, g6, g7⟩
    · exfalso
      apply hk2
      have : c.get? k0 = some v0 := by rw [h6, deltaOf, hk1]; simp [hk2]
      exact g2 (k0, v0) (GMap.mem_of_get? this)
    · have hor : ∀ k, c'.get? k = (b.get? k).or (a.get? k) := by
        intro k
        rw [g7 (by rw [h4]; exact hp.2.2.trans hc.2.2.symm) k, h6, deltaOf]
        cases hbk : b.get? k with
        | none => rfl
        | some v =>
          simp only
          split
          · rfl
          · rename_i hn
            simp only [not_or, ne_eq, Classical.not_not] at hn
            rw [hn.1]; rfl
      refine ⟨d, _, c', h1, g1, ⟨g2, by rw [g3, h3]; exact hc.2.1, by rw [g4, h4]; exact hc.2.2⟩, g5, hor, ?_⟩
      constructor
      · intro h k hak hbk
        have := h k
        rw [hor, hbk] at this
        exact hak this
      · intro h k
        rw [hor]
        cases hbk : b.get? k with
        | some v => rfl
        | none =>
          cases hak : a.get? k with
          | none => rfl
          | some v => exact absurd hbk (h k (by simp [hak]))

/-- Instance: the name of a host changes and its provider stays away; the difference has the new name. -/
example : OfKind "h1" ⟨"flow/v1", "HostRecord"⟩ (hostRec "h1" "x") ∧ OfKind "h1" ⟨"flow/v1", "HostRecord"⟩ (hostRec "h1" "y") ∧
    ((diffRecord { prev := hostRec "h1" "x", curr := hostRec "h1" "y" }).bind fun d => match d with
      | some d => vanOps.encode d
      | none => .err "") = .ok [(.u32 1, .str "h1"), (.u32 30, .str "y"), (.u32 0, .u32 13)] := by
  refine ⟨⟨hostRec_good _ _, rfl, rfl⟩, ⟨hostRec_good _ _, rfl, rfl⟩, by rfl⟩

end Verif.Props
