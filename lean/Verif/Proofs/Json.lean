import Verif.Model.Json
import Verif.Proofs.Rfc3339
import Verif.Props.Messages

/-!
# Reading what was written as JSON
-/
namespace Verif.Proofs
open Verif Verif.Model Verif.Spec Verif.Props

/-- With distinct names, an exact name finds its own field. -/
theorem jsonField_exact {σ : Type} {fold : String → String} {fs : JFields σ} (hn : (fs.map Prod.fst).Nodup) {f : String × (σ → Json → Option σ)} (hf : f ∈ fs) :
    jsonField fold fs f.1 = some f.2 := by
  have : fs.find? (fun g => g.1 = f.1) = some f := by
    induction fs with
    | nil => cases hf
    | cons g fs ih =>
      simp only [List.map_cons, List.nodup_cons] at hn
      rcases List.mem_cons.1 hf with rfl | hf
      · simp
      · have hne : g.1 ≠ f.1 := fun h => hn.1 (h ▸ List.mem_map_of_mem hf)
        simp [hne, ih hn.2 hf]
  simp [jsonField, this]

/-- The setters in order. -/
def setAll {σ : Type} : JFields σ → List Json → σ → Option σ
  | f :: fs, j :: js, s => (f.2 s j).bind (setAll fs js)
  | _, _, s => some s

theorem jsonMembers_exact {σ : Type} {fold : String → String} {fs : JFields σ} (hn : (fs.map Prod.fst).Nodup) : ∀ (gs : JFields σ) (js : List Json) (s : σ),
    (∀ g ∈ gs, g ∈ fs) → js.length = gs.length → jsonMembers fold fs ((gs.map Prod.fst).zip js) s = setAll gs js s
  | [], _, s, _, _ => rfl
  | g :: gs, [], s, _, h => by simp at h
  | g :: gs, j :: js, s, hm, hl => by
    simp only [List.map_cons, List.zip_cons_cons, jsonMembers, jsonField_exact hn (hm g List.mem_cons_self), setAll]
    cases g.2 s j with
    | none => rfl
    | some s' => exact jsonMembers_exact hn gs js s' (fun g hg => hm g (List.mem_cons_of_mem _ hg)) (by simpa using hl)

/-- A written struct is read by its setters in order. -/
theorem jsonStruct_exact {σ : Type} {fold : String → String} {fs : JFields σ} (hn : (fs.map Prod.fst).Nodup) {ms : List (String × Json)} (hm : ms.map Prod.fst = fs.map Prod.fst) (s : σ) :
    jsonStruct fold fs s (.obj ms) = setAll fs (ms.map Prod.snd) s := by
  have hz : ms = (fs.map Prod.fst).zip (ms.map Prod.snd) := by
    rw [← hm]
    clear hm
    induction ms with
    | nil => rfl
    | cons m ms ih => simp [← ih]
  have := jsonMembers_exact (fold := fold) hn fs (ms.map Prod.snd) s (fun g hg => hg) (by
    have := congrArg List.length hm
    simpa using this)
  rw [← hz] at this
  exact this

theorem jsonMembersOf_some {l : List (String × Option Json)} {ms : List (String × Json)} (h : jsonMembersOf l = some ms) :
    ms.map Prod.fst = l.map Prod.fst ∧ (ms.map fun m => some m.2) = l.map Prod.snd := by
  induction l generalizing ms with
  | nil => simp only [jsonMembersOf, Option.some.injEq] at h; subst h; exact ⟨rfl, rfl⟩
  | cons p l ih =>
    obtain ⟨k, v⟩ := p
    simp only [jsonMembersOf, Option.bind_eq_some_iff, Option.map_eq_some_iff] at h
    obtain ⟨j, rfl, r, hr, rfl⟩ := h
    obtain ⟨h1, h2⟩ := ih hr
    simp [h1, h2]

theorem jsonMembersOf_isSome {l : List (String × Option Json)} (h : ∀ p ∈ l, p.2.isSome = true) : (jsonMembersOf l).isSome = true := by
  induction l with
  | nil => rfl
  | cons p l ih =>
    obtain ⟨k, v⟩ := p
    obtain ⟨j, rfl⟩ := Option.isSome_iff_exists.1 (h (k, v) List.mem_cons_self)
    obtain ⟨r, hr⟩ := Option.isSome_iff_exists.1 (ih fun p hp => h p (List.mem_cons_of_mem _ hp))
    simp [jsonMembersOf, hr]

theorem jsonMembersOf_none {l : List (String × Option Json)} {k : String} (h : (k, none) ∈ l) : jsonMembersOf l = none := by
  induction l with
  | nil => cases h
  | cons p l ih =>
    obtain ⟨k', v⟩ := p
    cases v with
    | none => rfl
    | some j =>
      rcases List.mem_cons.1 h with h | h
      · simp at h
      · simp [jsonMembersOf, ih h]

/-! ## Field values -/

/-- A pointer to a pointer cannot be read back from `null`; the built-in types have none. -/
def flatTy : FTy → Bool
  | .ptr (.ptr _) => false
  | .ptr (.unsupported _) => false
  | .unsupported _ => false
  | _ => true

/-- The times in a value can be written, with nothing lost. -/
def TimeOK : FVal GoTime → Prop
  | .custom t => t.nsec < 1000000000 ∧ -62167219200 ≤ t.sec ∧ t.sec < 253402300800
  | .ptr v => TimeOK v
  | _ => True

theorem jsonVal_scalar {ty : FTy} {v : FVal GoTime} (hp : ∀ t, ty ≠ .ptr t) (hu : ∀ k, ty ≠ .unsupported k) (ht : HasTy ty v) (hw : TimeOK v) :
    ∃ j, jsonOfVal v = some j ∧ j ≠ .null ∧ ∀ old, jsonVal ty old j = some v := by
  cases ty with
  | ptr t => exact absurd rfl (hp t)
  | unsupported k => exact absurd rfl (hu k)
  | str => cases v <;> simp only [HasTy] at ht; exact ⟨_, rfl, by simp, fun old => by simp [jsonVal]⟩
  | u32 =>
    cases v <;> simp only [HasTy] at ht
    rename_i n
    have := n.toNat_lt
    exact ⟨_, rfl, by simp, fun old => by simp [jsonVal]; omega⟩
  | u64 =>
    cases v <;> simp only [HasTy] at ht
    rename_i n
    have := n.toNat_lt
    exact ⟨_, rfl, by simp, fun old => by simp [jsonVal]; omega⟩
  | i32 =>
    cases v <;> simp only [HasTy] at ht
    rename_i n
    have h1 := n.le_toInt
    have h2 := n.toInt_lt
    exact ⟨_, rfl, by simp, fun old => by simp [jsonVal]; omega⟩
  | i64 =>
    cases v <;> simp only [HasTy] at ht
    rename_i n
    have h1 := n.le_toInt
    have h2 := n.toInt_lt
    exact ⟨_, rfl, by simp, fun old => by simp [jsonVal]; omega⟩
  | custom c =>
    cases v <;> simp only [HasTy] at ht
    rename_i t
    obtain ⟨s, h1, h2⟩ := parse_format hw.1 hw.2.1 hw.2.2
    exact ⟨.str s, by simp [jsonOfVal, h1], by simp, fun old => by simp [jsonVal, h2]⟩

/-- A value of a field is read back, whatever the field held before. -/
theorem jsonVal_written {ty : FTy} {v : FVal GoTime} (hf : flatTy ty = true) (ht : HasTy ty v) (hw : TimeOK v) :
    ∃ j, jsonOfVal v = some j ∧ ∀ old, jsonVal ty old j = some v := by
  cases ty with
  | ptr t =>
    cases v with
    | nilp => exact ⟨.null, rfl, fun old => by simp [jsonVal]⟩
    | ptr v =>
      obtain ⟨j, h1, h2, h3⟩ := jsonVal_scalar (ty := t) (v := v) (by rintro t rfl; simp [flatTy] at hf) (by rintro t rfl; simp [flatTy] at hf) ht hw
      refine ⟨j, h1, fun old => ?_⟩
      rw [jsonVal]
      · rw [h3]; rfl
      · exact h2
    | _ => exact absurd ht (by simp [HasTy])
  | unsupported k => simp [flatTy] at hf
  | _ =>
    obtain ⟨j, h1, _, h3⟩ := jsonVal_scalar (by simp) (by simp) ht hw
    exact ⟨j, h1, h3⟩

/-! ## Structs -/

mutual
/-- Every field is exported. -/
def allExported : FieldDecl → Bool
  | .plain _ e _ _ => e
  | .embedded _ fs => allExportedList fs
  | .embeddedOther _ => true
def allExportedList : List FieldDecl → Bool
  | [] => true
  | d :: ds => allExported d && allExportedList ds
end

theorem allExported_at {ds : List FieldDecl} (h : allExportedList ds = true) {i : Nat} {d : FieldDecl} (hd : ds[i]? = some d) : allExported d = true := by
  induction ds generalizing i with
  | nil => simp at hd
  | cons x ds ih =>
    simp only [allExportedList, Bool.and_eq_true] at h
    cases i with
    | zero => simp only [List.getElem?_cons_zero, Option.some.injEq] at hd; exact hd ▸ h.1
    | succ i => exact ih h.2 (by simpa using hd)

theorem jsonFieldsType_at {ds : List FieldDecl} {index : Path} {i k : Nat} {d : FieldDecl} (hd : ds[k]? = some d) {f : JField} (hf : f ∈ jsonFieldsDecl index (i + k) d) :
    f ∈ jsonFieldsType index i ds := by
  induction ds generalizing i k with
  | nil => simp at hd
  | cons x ds ih =>
    simp only [jsonFieldsType, List.mem_append]
    cases k with
    | zero => simp only [List.getElem?_cons_zero, Option.some.injEq] at hd; left; subst hd; simpa using hf
    | succ k => right; exact ih (by simpa using hd) (by rw [Nat.add_assoc, Nat.add_comm 1]; exact hf)

/-- Every leaf field is among the JSON fields. -/
theorem jsonFieldsType_leaf {ds : List FieldDecl} {p : Path} {ty : FTy} (h : LeafField ds p ty) : ∀ index, allExportedList ds = true →
    ∃ f ∈ jsonFieldsType index 0 ds, f.path = index ++ p ∧ f.ty = ty := by
  induction h with
  | @here fs i name tag e ty h =>
    intro index hx
    have he : e = true := by simpa [allExported] using allExported_at hx h
    subst he
    exact ⟨⟨name, index ++ [i], ty⟩, jsonFieldsType_at (k := i) h (by simp [jsonFieldsDecl]), rfl, rfl⟩
  | @inside fs gs i name ty p h _ ih =>
    intro index hx
    have he : allExportedList gs = true := by simpa [allExported] using allExported_at hx h
    obtain ⟨f, h1, h2, h3⟩ := ih (index ++ [i]) he
    exact ⟨f, jsonFieldsType_at (k := i) h (by simpa [jsonFieldsDecl] using h1), by simpa using h2, h3⟩

/-- A struct type without surprises: distinct names and paths, all fields exported and of simple type; each JSON field is a leaf field. -/
def plainStruct (ds : List FieldDecl) : Bool :=
  decide (((jsonFieldsType [] 0 ds).map JField.name).Nodup) && decide (((jsonFieldsType [] 0 ds).map JField.path).Nodup) && allExportedList ds &&
    (jsonFieldsType [] 0 ds).all fun f => flatTy f.ty && decide (declAt ds f.path = some f.ty)

theorem setAll_fields (m : Mem GoTime) : ∀ (fs : List JField) (js : List Json) (m0 : Mem GoTime), (fs.map JField.path).Nodup →
    Pointwise (fun f j => ∀ old, jsonVal f.ty old j = some (m f.path)) fs js →
    ∃ m', setAll (fs.map fun f => (f.name, fun m j => (jsonVal f.ty (m f.path) j).map (m.set f.path))) js m0 = some m' ∧
      (∀ f ∈ fs, m' f.path = m f.path) ∧ ∀ p, p ∉ fs.map JField.path → m' p = m0 p
  | [], _, m0, _, _ => ⟨m0, rfl, by simp, fun _ _ => rfl⟩
  | f :: fs, [], m0, _, h => h.elim
  | f :: fs, j :: js, m0, hn, h => by
    obtain ⟨h1, h2⟩ := h
    · simp only [List.map_cons, List.nodup_cons] at hn
      obtain ⟨m', g1, g2, g3⟩ := setAll_fields m fs js (m0.set f.path (m f.path)) hn.2 h2
      refine ⟨m', ?_, ?_, ?_⟩
      · simp only [List.map_cons, setAll, h1, Option.map_some, Option.bind_some]
        exact g1
      · intro g hg
        rcases List.mem_cons.1 hg with rfl | hg
        · rw [g3 _ hn.1]; simp [Mem.set]
        · exact g2 g hg
      · intro p hp
        simp only [List.map_cons, List.mem_cons, not_or] at hp
        rw [g3 p hp.2]
        simp [Mem.set, hp.1]

/-- A struct is read back with the same fields. -/
theorem struct_written {ds : List FieldDecl} (hd : plainStruct ds = true) {m : Mem GoTime} (ht : HasStructTy ds m) (hw : ∀ p ty, LeafField ds p ty → TimeOK (m p)) :
    ∃ j, jsonOfStruct ds m = some j ∧ ∀ fold, ∃ m', jsonToStruct fold ds j = some m' ∧ ∀ p ty, LeafField ds p ty → m' p = m p := by
  simp only [plainStruct, Bool.and_eq_true, decide_eq_true_eq, List.all_eq_true] at hd
  obtain ⟨⟨⟨h1, h2⟩, h3⟩, h4⟩ := hd
  have hv : ∀ f ∈ jsonFieldsType [] 0 ds, ∃ j, jsonOfVal (m f.path) = some j ∧ ∀ old, jsonVal f.ty old j = some (m f.path) := by
    intro f hf
    have hl := declAt_iff.1 (h4 f hf).2
    exact jsonVal_written (h4 f hf).1 (ht _ _ hl) (hw _ _ hl)
  obtain ⟨ms, hms⟩ := Option.isSome_iff_exists.1 (jsonMembersOf_isSome (l := (jsonFieldsType [] 0 ds).map fun f => (f.name, jsonOfVal (m f.path))) (by
    intro p hp
    obtain ⟨f, hf, rfl⟩ := List.mem_map.1 hp
    obtain ⟨j, hj, _⟩ := hv f hf
    simp [hj]))
  obtain ⟨g1, g2⟩ := jsonMembersOf_some hms
  refine ⟨.obj ms, by simp [jsonOfStruct, hms], fun fold => ?_⟩
  have hall : Pointwise (fun (f : JField) j => ∀ old, jsonVal f.ty old j = some (m f.path)) (jsonFieldsType [] 0 ds) (ms.map Prod.snd) := by
    have : ∀ (fs : List JField) (js : List Json), (∀ f ∈ fs, ∃ j, jsonOfVal (m f.path) = some j ∧ ∀ old, jsonVal f.ty old j = some (m f.path)) →
        js.map some = fs.map (fun f => jsonOfVal (m f.path)) → Pointwise (fun (f : JField) j => ∀ old, jsonVal f.ty old j = some (m f.path)) fs js := by
      intro fs
      induction fs with
      | nil => intro js _ h; simp at h; subst h; trivial
      | cons f fs ih =>
        intro js hf h
        cases js with
        | nil => simp at h
        | cons j js =>
          simp only [List.map_cons, List.cons.injEq] at h
          obtain ⟨j', a, b⟩ := hf f List.mem_cons_self
          rw [a] at h
          obtain rfl := Option.some.inj h.1
          exact ⟨b, ih js (fun f hf' => hf f (List.mem_cons_of_mem _ hf')) h.2⟩
    refine this _ _ hv ?_
    simpa [List.map_map, Function.comp_def] using g2
  obtain ⟨m', k1, k2, _⟩ := setAll_fields m _ _ (zeroMem vanEnv ds) h2 hall
  refine ⟨m', ?_, ?_⟩
  · unfold jsonToStruct
    rw [jsonStruct_exact]
    · exact k1
    · simpa [List.map_map, Function.comp_def] using h1
    · simpa [List.map_map, Function.comp_def] using g1
  · intro p ty hl
    obtain ⟨f, hf, hp, _⟩ := jsonFieldsType_leaf hl [] h3
    simp only [List.nil_append] at hp
    rw [← hp]
    exact k2 f hf

/-- A struct with a time that cannot be written has no JSON. -/
theorem struct_unwritable {ds : List FieldDecl} (hd : plainStruct ds = true) {m : Mem GoTime} {p : Path} {ty : FTy} (hl : LeafField ds p ty) (hv : jsonOfVal (m p) = none) :
    jsonOfStruct ds m = none := by
  simp only [plainStruct, Bool.and_eq_true, decide_eq_true_eq, List.all_eq_true] at hd
  obtain ⟨f, hf, hp, _⟩ := jsonFieldsType_leaf hl [] hd.1.2
  simp only [List.nil_append] at hp
  rw [jsonOfStruct, jsonMembersOf_none (k := f.name) (List.mem_map.2 ⟨f, hf, by rw [hp, hv]⟩)]
  rfl

theorem van_plain : ∀ t ∈ vanTypes, ∀ n ds, t.2 = .struct n ds → plainStruct ds = true ∧ declsOf n = some ds := by
  have : (vanTypes.all fun t =>
    match t.2 with
    | .struct n ds => plainStruct ds
    | _ => true) = true := by decide +kernel
  intro t ht n ds hn
  refine ⟨?_, ?_⟩
  · have := List.all_eq_true.1 this t ht
    rw [hn] at this
    exact this
  · simp only [vanTypes, List.mem_cons, List.not_mem_nil, or_false] at ht
    rcases ht with rfl | rfl | rfl | rfl | rfl | rfl | rfl | rfl | rfl | rfl | rfl | rfl | rfl | rfl | rfl <;>
    · simp only [GoType.struct.injEq] at hn
      obtain ⟨rfl, rfl⟩ := hn
      rfl

end Verif.Proofs
