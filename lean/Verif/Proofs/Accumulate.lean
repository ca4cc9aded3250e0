import Verif.Proofs.Merge

/-!
# Accumulation, stored keys and events
-/
namespace Verif.Proofs
open Verif Verif.Model Verif.Spec Verif.Props

variable {R : Type} [Inhabited R]
set_option linter.unusedSectionVars false

theorem accumulate_eq (ops : RecOps R) (c : Cache R) (s : SourceRef) (r : R) (now : GoTime) {k : String}
    (hk : c.keyFunc (Entry.ofRecord r) = .ok k) :
    c.step ops (.accumulate s r now) =
      match recordPatch ops s r now (view c k) with
      | .noChange => (c, { res := .ok () })
      | .ok e => ({ c with storage := (c.storage.put k e).1 },
          { res := .ok (), events := deltaEvents c.handlers { prev := view c k, next := e } })
      | .err e => (c, { res := .err ("patch apply error: " ++ e), events := deltaEvents c.handlers { prev := none, next := default } })
      | .panic m => (c, { res := .panic m }) := by
  unfold view
  simp only [Cache.step, Cache.accumulate, hk, SIM.patch, firstFail]
  cases hp : recordPatch ops s r now ((c.storage.items.get? k).map VC.resource) <;> simp [put_delta]

/-- What a stored entry satisfies: it is stored under its own key, and its record is good. -/
def KeyInv (Good : R → Prop) (kf : KeyFunc R) (m : AMap R) : Prop := ∀ k e, m k = some e → kf e = .ok k ∧ Good e.record

theorem lastWithKey_mem {kf : KeyFunc R} {es : List (Entry R)} {k : String} {e : Entry R} (h : lastWithKey kf es k = some e) :
    e ∈ es ∧ kf e = .ok k := by
  have := List.mem_of_getLast? h
  simpa using this

theorem effect_keyInv {ops : RecOps R} {kf : KeyFunc R} {Good : R → Prop} (hcoh : CoherentKey ops kf Good) {m : AMap R}
    (hm : KeyInv Good kf m) (op : Op R) (hop : Op.All Good op) (res : Res Unit) :
    KeyInv Good kf ((effect ops kf m op res).apply m) := by
  have put : ∀ k e, kf e = .ok k → Good e.record → KeyInv Good kf ((Effect.put k e).apply m) := by
    intro k e h1 h2 k' e' h
    simp only [Effect.apply] at h
    split at h
    · rename_i hk; subst hk; simp only [Option.some.injEq] at h; subst h; exact ⟨h1, h2⟩
    · exact hm k' e' h
  cases op with
  | add e now =>
    cases res with
    | ok u =>
      cases hk : kf e with
      | ok k => simp only [effect, hk]; exact put k _ (by rw [hcoh.stamp]; exact hk) hop
      | err => simp only [effect, hk]; exact hm
      | panic => simp only [effect, hk]; exact hm
    | err => exact hm
    | panic => exact hm
  | update e im now =>
    cases res with
    | ok u =>
      cases hk : kf e with
      | ok k => simp only [effect, hk]; exact put k _ (by rw [hcoh.stamp]; exact hk) hop
      | err => simp only [effect, hk]; exact hm
      | panic => simp only [effect, hk]; exact hm
    | err => exact hm
    | panic => exact hm
  | delete e =>
    cases res with
    | ok u =>
      cases hk : kf e with
      | ok k =>
        simp only [effect, hk]
        intro k' e' h
        simp only [Effect.apply] at h
        split at h
        · simp at h
        · exact hm k' e' h
      | err => simp only [effect, hk]; exact hm
      | panic => simp only [effect, hk]; exact hm
    | err => exact hm
    | panic => exact hm
  | replace es =>
    cases res with
    | ok u =>
      intro k e h
      obtain ⟨h1, h2⟩ := lastWithKey_mem h
      exact ⟨h2, hop e h1⟩
    | err => exact hm
    | panic => exact hm
  | accumulate s r now =>
    cases res with
    | ok u =>
      cases hk : kf (Entry.ofRecord r) with
      | ok k =>
        simp only [effect, hk]
        cases ha : accumulated ops (m k) s r now with
        | none => exact hm
        | some e =>
          simp only
          cases hold : m k with
          | none =>
            rw [hold] at ha
            simp only [accumulated] at ha
            cases ht : ops.typeMeta r with
            | ok tm =>
              rw [ht] at ha
              simp only [Option.some.injEq] at ha
              subst ha
              exact put k _ (by rw [hcoh.fresh _ _ _ ht]; exact hk) hop
            | err => rw [ht] at ha; simp at ha
            | panic => rw [ht] at ha; simp at ha
          | some o =>
            rw [hold] at ha
            obtain ⟨ho1, ho2⟩ := hm k o hold
            simp only [accumulated] at ha
            split at ha
            · rename_i a b hea heb
              split at ha
              · simp at ha
              · split at ha
                · rename_i y hy
                  simp only [Option.some.injEq] at ha
                  subst ha
                  obtain ⟨g1, g2⟩ := hcoh.merge o r y a b { o.md with updatedAt := now } ho2 hop (by rw [ho1, hk]) hea heb hy
                  exact put k _ (by rw [← hk]; exact g2) g1
                · simp at ha
            · simp at ha
      | err => simp only [effect, hk]; exact hm
      | panic => simp only [effect, hk]; exact hm
    | err => exact hm
    | panic => exact hm
  | get e => exact hm
  | list sel n => exact hm
  | index i e sel n => exact hm
  | indexValues i => exact hm

theorem run_keyInv {ops : RecOps R} (hl : LawfulOps ops) {Good : R → Prop} : ∀ (h : List (Op R)) (c : Cache R),
    CoherentKey ops c.keyFunc Good → KeyInv Good c.keyFunc (view c) → (∀ op ∈ h, Op.All Good op) →
    KeyInv Good c.keyFunc (view (c.run ops h).1)
  | [], _, _, hm, _ => hm
  | op :: h, c, hcoh, hm, hall => by
    have hk := (step_keyFunc hl c op).1
    have := run_keyInv hl h (c.step ops op).1 (by rw [hk]; exact hcoh)
      (by rw [hk, step_view hl]; exact effect_keyInv hcoh hm op (hall op (by simp)) _) (fun o ho => hall o (by simp [ho]))
    rw [hk] at this
    exact this

theorem content_keyInv {ops : RecOps R} (hl : LawfulOps ops) {Good : R → Prop} {cfg : CacheConfig R}
    (hcoh : CoherentKey ops (keyOf ops cfg) Good) (h : List (Op R)) (hall : ∀ op ∈ h, Op.All Good op) :
    KeyInv Good (keyOf ops cfg) (content ops cfg h) := by
  rw [content_eq hl]
  have := run_keyInv hl (Good := Good) h (newCache ops cfg) (by rw [new_keyFunc]; exact hcoh) (by intro k e he; simp [view, newCache, SIM.new] at he) hall
  rw [new_keyFunc] at this
  exact this

/-! ## vanflow records -/

/-- The default key function is coherent for built-in records. -/
theorem van_coherent : CoherentKey vanOps (fun e => vanOps.identity e.record) (GoodRecord vanRegistry) where
  stamp := fun _ _ => rfl
  fresh := fun _ _ _ _ => rfl
  merge := by
    intro old r y a b md hg hr _ ha hb hy
    obtain ⟨y', c, h1, _, h3, h4, _⟩ := merge_records hg hr ha hb
    simp only [vanOps] at hy
    rw [hy] at h1
    injection h1 with h1
    subst h1
    exact ⟨h3, h4⟩

theorem GoodRecord.identity {g : GoRec GoTime} (h : GoodRecord vanRegistry g) : ∃ k, vanIdentity g = .ok k := by
  obtain ⟨r, _, _, hg, _⟩ := h
  rcases hg with rfl | rfl <;> exact ⟨_, rfl⟩

theorem GoodRecord.typeMeta {g : GoRec GoTime} (h : GoodRecord vanRegistry g) : ∃ tm, vanTypeMeta g = .ok tm := by
  obtain ⟨r, _, _, hg, _⟩ := h
  rcases hg with rfl | rfl <;> exact ⟨_, rfl⟩

theorem GoodRecord.encode_not_panic {g : GoRec GoTime} (h : GoodRecord vanRegistry g) (m : String) :
    encode vanEnv vanRegistry g ≠ .panic m := by
  obtain ⟨r, e, hr, _, he, _⟩ := GoodRecord.val h
  rw [encode_recVal hr]
  simp only [encode, he, encodeWith]
  cases hf : encodeFields vanEnv e.fields r.mem [] with
  | ok => simp
  | err => simp
  | panic p => exact absurd hf encodeFields_not_panic

/-- Accumulating a good record over a good entry: never a panic; with both encodable, the result. -/
theorem recordPatch_good {s : SourceRef} {r : GoRec GoTime} {now : GoTime} (hr : GoodRecord vanRegistry r)
    {old : Option (Entry (GoRec GoTime))} (ho : ∀ o, old = some o → GoodRecord vanRegistry o.record) (m : String) :
    recordPatch vanOps s r now old ≠ .panic m := by
  cases old with
  | none =>
    obtain ⟨tm, ht⟩ := GoodRecord.typeMeta hr
    simp [recordPatch, vanOps, ht]
  | some o =>
    have hgo := ho o rfl
    simp only [recordPatch]
    cases ha : vanOps.encode o.record with
    | err => simp
    | panic p => exact absurd ha (GoodRecord.encode_not_panic hgo p)
    | ok a =>
      cases hb : vanOps.encode r with
      | err => simp
      | panic p => exact absurd hb (GoodRecord.encode_not_panic hr p)
      | ok b =>
        simp only
        obtain ⟨hm1, hm2⟩ := mergeLoop_spec b a false (vanOps_lawful.encode_wf r b hb)
        cases hml : mergeLoop b a false with
        | mk ch merged =>
          cases ch with
          | false => simp
          | true =>
            obtain ⟨y, c, h1, h2, _⟩ := merge_records hgo hr ha hb
            rw [hml] at hm2
            have := vanOps_lawful.decode_congr merged (b ++ a) hm2
            simp only [this]
            rw [show vanOps.decode (b ++ a) = .ok y from h1]
            simp [show vanOps.isRecord y = true from h2]

/-- Accumulating an encodable record over an encodable one. -/
theorem recordPatch_merge {s : SourceRef} {r : GoRec GoTime} {now : GoTime} (hr : GoodRecord vanRegistry r)
    {o : Entry (GoRec GoTime)} (hgo : GoodRecord vanRegistry o.record) {a b : Attrs}
    (ha : vanOps.encode o.record = .ok a) (hb : vanOps.encode r = .ok b) :
    (recordPatch vanOps s r now (some o) = .noChange ∧ ∀ p ∈ b, a.get? p.1 = some p.2) ∨
    ((¬ ∀ p ∈ b, a.get? p.1 = some p.2) ∧
      ∃ y c, recordPatch vanOps s r now (some o) = .ok { o with md := { o.md with updatedAt := now }, record := y } ∧
        GoodRecord vanRegistry y ∧ vanIdentity y = vanIdentity r ∧ vanTypeMeta y = vanTypeMeta r ∧ vanOps.encode y = .ok c ∧
        (∀ k v, b.get? k = some v → c.get? k = some v) ∧
        (vanTypeMeta o.record = vanTypeMeta r → ∀ k, c.get? k = (b.get? k).or (a.get? k))) := by
  obtain ⟨y, c, h1, h2, h3, h4, h5, h6, h7, h8⟩ := merge_records hgo hr ha hb
  obtain ⟨hm1, hm2⟩ := mergeLoop_spec b a false (vanOps_lawful.encode_wf r b hb)
  cases hml : mergeLoop b a false with
  | mk ch merged =>
    rw [hml] at hm1 hm2
    simp only at hm1 hm2
    cases ch with
    | false =>
      left
      refine ⟨by simp [recordPatch, ha, hb, hml], ?_⟩
      exact Classical.not_not.1 fun hn => absurd (hm1.2 (Or.inr hn)) (by decide)
    | true =>
      right
      have hn := hm1.1 rfl
      simp only [Bool.false_eq_true, false_or] at hn
      refine ⟨hn, y, c, ?_, h3, h4, h5, h6, h7, h8⟩
      have := vanOps_lawful.decode_congr merged (b ++ a) hm2
      simp only [recordPatch, ha, hb, hml, this]
      rw [show vanOps.decode (b ++ a) = .ok y from h1]
      simp [show vanOps.isRecord y = true from h2, Entry.stamp]

end Verif.Proofs
