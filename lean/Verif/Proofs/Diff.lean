import Verif.Model.Manager
import Verif.Proofs.Accumulate

/-!
# Record differences
-/
namespace Verif.Proofs
open Verif Verif.Model Verif.Spec Verif.Props

theorem diffLoop_get (prev : Attrs) : ∀ (next acc : Attrs) (d : Bool) (k : Any), GMap.WF next →
    (diffLoop prev next acc d).1.get? k =
      match next.get? k with
      | some v => if prev.get? k ≠ some v ∨ isIdentifying k = true then some v else acc.get? k
      | none => acc.get? k
  | [], acc, d, k, _ => rfl
  | (k0, v0) :: next, acc, d, k, hw => by
    have hw' : GMap.WF next := (List.nodup_cons.1 hw).2
    have hn : GMap.get? next k0 = none := GMap.get?_eq_none_iff.2 (List.nodup_cons.1 hw).1
    have ih := fun acc d => diffLoop_get prev next acc d k hw'
    rw [GMap.get?_cons]
    simp only [diffLoop]
    by_cases hk : k0 = k
    · subst hk
      simp only [if_true]
      cases hp : prev.get? k0 with
      | none => simp [ih, hn]
      | some pv =>
        simp only
        by_cases hv : v0 = pv
        · subst hv
          by_cases hi : isIdentifying k0 = true
          · simp [hi, ih, hn]
          · simp [hi, ih, hn]
        · have : ¬ pv = v0 := fun h => hv h.symm
          simp [hv, ih, hn, this]
    · simp only [hk, if_false]
      have hset : ∀ v, (GMap.set acc k0 v).get? k = acc.get? k := fun v => GMap.get?_set_ne acc v hk
      cases hp : prev.get? k0 with
      | none => simp only; rw [ih]; simp only [hset]
      | some pv =>
        simp only
        split
        · rw [ih]; simp only [hset]
        · split
          · rw [ih]; simp only [hset]
          · rw [ih]

theorem diffLoop_flag (prev : Attrs) : ∀ (next acc : Attrs) (d : Bool),
    (diffLoop prev next acc d).2 = true ↔ d = true ∨ ∃ p ∈ next, prev.get? p.1 ≠ some p.2
  | [], acc, d => by simp [diffLoop]
  | (k0, v0) :: next, acc, d => by
    simp only [diffLoop]
    cases hp : prev.get? k0 with
    | none => simp [diffLoop_flag prev next, hp]
    | some pv =>
      simp only
      by_cases hv : v0 = pv
      · subst hv
        by_cases hi : isIdentifying k0 = true
        · simp [hi, diffLoop_flag prev next, hp]
        · simp [hi, diffLoop_flag prev next, hp]
      · have : ¬ pv = v0 := fun h => hv h.symm
        simp [hv, diffLoop_flag prev next, hp, this]

/-- The attributes of a difference: those that differ, and the identifying ones. -/
def deltaOf (prev next : Attrs) (k : Any) : Option Any :=
  match next.get? k with
  | some v => if prev.get? k ≠ some v ∨ k = .u32 0 ∨ k = .u32 1 then some v else none
  | none => none

theorem isIdentifying_iff (k : Any) : isIdentifying k = true ↔ k = .u32 0 ∨ k = .u32 1 := by
  cases k <;> simp [isIdentifying]
  rename_i n
  constructor
  · intro h
    have : n.toNat < 2 := by simpa [UInt32.lt_iff_toNat_lt] using h
    rcases Nat.lt_or_ge n.toNat 1 with h1 | h1
    · left; apply UInt32.toNat_inj.1; simp; omega
    · right; apply UInt32.toNat_inj.1; simp; omega
  · rintro (rfl | rfl) <;> decide

theorem diffLoop_delta {prev next : Attrs} (hw : GMap.WF next) (k : Any) : (diffLoop prev next [] false).1.get? k = deltaOf prev next k := by
  rw [diffLoop_get prev next [] false k hw]
  unfold deltaOf
  cases next.get? k with
  | none => rfl
  | some v => simp only [isIdentifying_iff, GMap.get?_nil]

theorem encode_nil_ne {g : GoRec GoTime} {a : Attrs} (h : encode vanEnv vanRegistry g = .ok a) : g ≠ .nil := by
  rintro rfl; simp [encode] at h

/-- A record of the difference of two encodable records: nothing iff no attribute of the current one differs, otherwise a record with exactly
the attributes that differ, and type and identity. -/
theorem diffRecord_spec {u : RecordUpdate} {a b : Attrs} (ha : encode vanEnv vanRegistry u.prev = .ok a) (hg : GoodRecord vanRegistry u.curr)
    (hb : encode vanEnv vanRegistry u.curr = .ok b) :
    (diffRecord u = .ok none ∧ ∀ k v, b.get? k = some v → a.get? k = some v) ∨
    ((∃ k v, b.get? k = some v ∧ a.get? k ≠ some v) ∧
      ∃ d c, diffRecord u = .ok (some d) ∧ GoodRecord vanRegistry d ∧ vanIdentity d = vanIdentity u.curr ∧
        vanTypeMeta d = vanTypeMeta u.curr ∧ encode vanEnv vanRegistry d = .ok c ∧ ∀ k, c.get? k = deltaOf a b k) := by
  have hwb : GMap.WF b := vanOps_lawful.encode_wf u.curr b hb
  have hdr : diffRecord u = match diffLoop a b [] false with
        | (_, false) => .ok none
        | (delta, true) =>
          match decode vanEnv vanRegistry (some delta) with
          | .panic m => .panic m
          | .err _ => .ok none
          | .ok r => if isRecord r then .ok (some r) else .panic "interface conversion: not a vanflow.Record" := by
    obtain ⟨p, cu⟩ := u
    unfold diffRecord
    simp only at ha hb ⊢
    cases p with
    | nil => exact absurd rfl (encode_nil_ne ha)
    | value r => simp only [ha, hb]; rfl
    | pointer r => simp only [ha, hb]; rfl
    | nilPointer t => simp [encode] at ha
  have hfl := diffLoop_flag a b [] false
  have hget := fun k => diffLoop_delta (prev := a) hwb k
  cases hl : diffLoop a b [] false with
  | mk delta flag =>
    rw [hl] at hfl hget hdr
    simp only at hfl hget hdr
    cases flag with
    | false =>
      left
      refine ⟨hdr, ?_⟩
      intro k v hkv
      apply Classical.byContradiction
      intro hne
      have := hfl.2 (Or.inr ⟨(k, v), GMap.mem_of_get? hkv, hne⟩)
      simp at this
    | true =>
      right
      obtain ⟨p, hp, hpne⟩ : ∃ p ∈ b, a.get? p.1 ≠ some p.2 := by
        rcases hfl.1 rfl with h | h
        · cases h
        · exact h
      refine ⟨⟨p.1, p.2, GMap.get?_of_mem hwb hp, hpne⟩, ?_⟩
      obtain ⟨r, e, hr, hn, hk, hok, hid, hoth⟩ := GoodRecord.attrs hg hb
      have hd0 : delta.get? typeOfRecord = some (.u32 e.codepoint) := by
        rw [hget, deltaOf, hok.typ]; simp [typeOfRecord]
      have hd1 : delta.get? (.u32 1) = some (.str (recIdentity r)) := by
        rw [hget, deltaOf, hid]; simp
      have hokd : AttrsOK e delta := by
        refine ⟨hok.reg, hd0, ?_, ?_⟩
        · intro f hf v hv
          refine hok.attr f hf v ?_
          rw [hget, deltaOf] at hv
          cases hbk : b.get? (.u32 f.codepoint) with
          | none => rw [hbk] at hv; simp at hv
          | some w =>
            rw [hbk] at hv
            simp only at hv
            split at hv
            · exact hv
            · simp at hv
        · obtain ⟨s, hs, hs2⟩ := hok.id
          rw [hid] at hs2
          exact ⟨s, hs, by rw [hd1]; exact hs2⟩
      have hke : e.tname ∈ recordKinds := by rw [hn]; exact hk
      obtain ⟨m', h1, h2, c, h3, h4, h5, h6, h7⟩ := hokd.decodes hke
      simp only [h1, isRecord_pointer hke, if_true] at hdr
      have hv1 : vanIdentity u.curr = .ok (recIdentity r) := by
        cases hc : u.curr <;> rw [hc] at hr <;> simp [recVal] at hr <;> subst hr <;> rfl
      have hv2 : vanTypeMeta u.curr = .ok ⟨"flow/v1", r.tname⟩ := by
        cases hc : u.curr <;> rw [hc] at hr <;> simp [recVal] at hr <;> subst hr <;> rfl
      refine ⟨_, c, hdr, h2, ?_, ?_, h3, ?_⟩
      · rw [hv1]
        rw [hd1] at h7
        simp only [Option.some.injEq, Any.str.injEq] at h7
        simp [vanIdentity, h7]
      · rw [hv2]; simp [vanTypeMeta, hn]
      · intro k
        rw [← hget k]
        by_cases h0 : k = typeOfRecord
        · subst h0; rw [h4, hd0]
        · by_cases hex : ∀ f ∈ e.fields, k ≠ .u32 f.codepoint
          · rw [h6 k h0 hex, hget, deltaOf, hoth k h0 hex]
          · simp only [Classical.not_forall, Classical.not_not] at hex
            obtain ⟨f, hf, rfl⟩ := hex
            rw [h5 f hf]

end Verif.Proofs
