import Verif.Spec.Json
import Verif.Proofs.Json
import Verif.Proofs.Calendar
import Verif.Props.Serve

/-!
# C82: what the record server answers can be uploaded as a fixture, and nothing is lost
-/
namespace Verif.Props
open Verif Verif.Model Verif.Spec Verif.Proofs

/-- C82: a time is written if and only if its year is between 0 and 9999. -/
theorem C82_time_written (t : GoTime) : (formatTime t).isSome = true ↔ Writable t := by
  unfold formatTime Writable
  split <;> simp_all

/-- C82: and is then read back as the same time. -/
theorem C82_time {t : GoTime} (h : ExactTime t) : ∃ s, formatTime t = some s ∧ parseTime s = some t := parse_format h.2 h.1.1 h.1.2

/-- C82: what is written is the RFC 3339 text of the instant in UTC, by the Gregorian calendar, with no zero at the end of the fraction. -/
theorem C82_time_text {t : GoTime} (h : ExactTime t) : ∃ cs frac, formatTime t = some (String.ofList cs) ∧ TimeText cs frac ['Z'] t ∧ frac.getLast? ≠ some '0' :=
  format_text h.2 h.1.1 h.1.2

/-- C82: every RFC 3339 text, with any fraction and any zone, is read as the instant it says. -/
theorem C82_time_read {cs frac zone : List Char} {t : GoTime} (h : TimeText cs frac zone t) : parseTime (String.ofList cs) = some t := parse_text h

/-- Instances: the number of days of the calendar, and dates that are none. -/
example : civilDays 1970 1 1 = 0 ∧ civilDays 2000 3 1 = 11017 ∧ IsDate 2024 2 29 ∧ ¬ IsDate 2023 2 29 ∧ ¬ IsDate 1900 2 29 ∧ ¬ IsDate 2024 9 31 ∧ IsDate 2024 12 31 := by
  unfold IsDate; decide
example : TimeText "2024-02-29T14:34:56.12+02:00".toList ".12".toList "+02:00".toList ⟨1709210096, 120000000⟩ :=
  ⟨"2024".toList, "02".toList, "29".toList, "14".toList, "34".toList, "56".toList, 7200, by decide, by unfold IsNum; decide, by unfold IsNum; decide, by unfold IsNum; decide, by unfold IsNum; decide,
    by unfold IsNum; decide, by unfold IsNum; decide, by unfold IsDate; decide, by decide, by decide, by decide,
    .inr ⟨"12".toList, [], by decide, by unfold IsNum; decide, by unfold IsNum; decide, by decide, by decide, by decide, by decide⟩,
    .inr ⟨"02".toList, "00".toList, by unfold IsNum; decide, by unfold IsNum; decide, by decide, by decide, .inl ⟨by decide, by decide⟩⟩, by decide⟩

/-- Instances: some times and their texts. -/
example : formatTime ⟨0, 0⟩ = some "1970-01-01T00:00:00Z" ∧ formatTime ⟨-62167219200, 0⟩ = some "0000-01-01T00:00:00Z" ∧
    formatTime ⟨253402300799, 999999999⟩ = some "9999-12-31T23:59:59.999999999Z" ∧ formatTime ⟨1709210096, 120000000⟩ = some "2024-02-29T12:34:56.12Z" ∧
    formatTime GoTime.zero = some "0001-01-01T00:00:00Z" := by decide +kernel
example : parseTime "2024-02-29T14:34:56.12+02:00" = some ⟨1709210096, 120000000⟩ ∧ parseTime "2023-02-29T00:00:00Z" = none ∧ parseTime "2024-02-29 00:00:00Z" = none := by
  decide +kernel

/-! ## Records -/

theorem registerAll_from : ∀ (ts : List (UInt32 × GoType)) {reg reg' : Registry}, registerAll reg ts = .ok reg' → ∀ {n : String} {e : TypeEnc}, reg'.encodings.get? n = some e →
    reg.encodings.get? n = some e ∨ (e.codepoint, GoType.struct n e.decls) ∈ ts
  | [], reg, reg', h, n, e, he => by
    simp only [registerAll, Res.ok.injEq] at h
    subst h
    exact .inl he
  | (c, t) :: ts, reg, reg', h, n, e, he => by
    simp only [registerAll] at h
    cases hm : mustRegister reg c t with
    | err m => rw [hm] at h; cases h
    | panic m => rw [hm] at h; cases h
    | ok reg1 =>
      rw [hm] at h
      rcases registerAll_from ts h he with h1 | h1
      · unfold mustRegister at hm
        split at hm
        · cases hm
        · cases t with
          | nonStruct s => cases hm
          | struct name ds =>
            simp only [newEncodingForType] at hm
            cases hf : fieldsForType [] 0 ds with
            | err m => rw [hf] at hm; cases hm
            | panic m => rw [hf] at hm; cases hm
            | ok fields =>
              rw [hf] at hm
              simp only [Res.bind] at hm
              by_cases hrep : hasRepeatedCode fields [] = true
              · simp only [hrep, if_true] at hm; cases hm
              · simp only [hrep, if_false, Bool.false_eq_true] at hm
                split at hm
                · cases hm
                · simp only [Res.ok.injEq] at hm
                  subst hm
                  simp only [GMap.get?_set] at h1
                  split at h1
                  · rename_i hn
                    obtain rfl := Option.some.inj h1
                    right
                    subst hn
                    exact List.mem_cons_self
                  · exact .inl h1
      · exact .inr (List.mem_cons_of_mem _ h1)

theorem registered_declares {n : String} {ds : List FieldDecl} {c : UInt32} (h : Registered vanRegistry n ds c) : Declares n ds := by
  obtain ⟨e, h1, rfl, rfl⟩ := h
  have : vanInit = .ok vanRegistry := by rfl
  rcases registerAll_from _ this h1 with h2 | h2
  · cases h2
  · exact ⟨_, h2⟩

theorem declares_plain {n : String} {ds : List FieldDecl} (h : Declares n ds) : plainStruct ds = true ∧ declsOf n = some ds := by
  obtain ⟨c, hc⟩ := h
  exact van_plain _ hc _ _ rfl

theorem declares_unique {n : String} {ds ds' : List FieldDecl} (h : Declares n ds) (h' : Declares n ds') : ds = ds' := by
  have := (declares_plain h).2.symm.trans (declares_plain h').2
  exact Option.some.inj this

/-- The fields of a built-in type with times are the two of the base record. -/
def timesAtBase (ds : List FieldDecl) : Bool :=
  (jsonFieldsType [] 0 ds).all fun f =>
    match f.ty with
    | .custom _ => false
    | .ptr (.custom _) => f.path = [0, 1] || f.path = [0, 2]
    | _ => true

theorem declares_times {n : String} {ds : List FieldDecl} (h : Declares n ds) : timesAtBase ds = true := by
  obtain ⟨c, hc⟩ := h
  have key : (vanTypes.all fun t =>
    match t.2 with
    | .struct _ ds => timesAtBase ds
    | _ => true) = true := by decide +kernel
  have := List.all_eq_true.1 key _ hc
  exact this

theorem declares_base {n : String} {ds : List FieldDecl} (h : Declares n ds) : LeafField ds [0, 0] .str ∧ LeafField ds [0, 1] tTime ∧ LeafField ds [0, 2] tTime := by
  obtain ⟨c, hc⟩ := h
  have key : (vanTypes.all fun t =>
    match t.2 with
    | .struct _ ds => decide (declAt ds [0, 0] = some .str ∧ declAt ds [0, 1] = some tTime ∧ declAt ds [0, 2] = some tTime)
    | _ => true) = true := by decide +kernel
  have := List.all_eq_true.1 key _ hc
  simp only [decide_eq_true_eq] at this
  exact ⟨declAt_iff.1 this.1, declAt_iff.1 this.2.1, declAt_iff.1 this.2.2⟩

theorem leaf_field {ds : List FieldDecl} (hp : plainStruct ds = true) {p : Path} {ty : FTy} (hl : LeafField ds p ty) :
    ∃ f ∈ jsonFieldsType [] 0 ds, f.path = p ∧ f.ty = ty ∧ flatTy ty = true := by
  simp only [plainStruct, Bool.and_eq_true, decide_eq_true_eq, List.all_eq_true] at hp
  obtain ⟨f, hf, h1, h2⟩ := jsonFieldsType_leaf hl [] hp.1.2
  exact ⟨f, hf, h1, h2, h2 ▸ (hp.2 f hf).1⟩

theorem times_ok {n : String} {ds : List FieldDecl} (h : Declares n ds) {m : Mem GoTime} (ht : HasStructTy ds m)
    (hw : ∀ t ∈ ([m [0, 1], m [0, 2]]).filterMap timeIn, ExactTime t) : ∀ p ty, LeafField ds p ty → TimeOK (m p) := by
  intro p ty hl
  obtain ⟨f, hf, rfl, rfl, hflat⟩ := leaf_field (declares_plain h).1 hl
  have ha := List.all_eq_true.1 (declares_times h) f hf
  have hty := ht _ _ hl
  generalize hv : m f.path = v at hty
  have hin : ∀ t, v = .ptr (.custom t) → (f.path = [0, 1] ∨ f.path = [0, 2]) → ExactTime t := by
    intro t hvt hp
    apply hw t
    rw [List.mem_filterMap]
    rcases hp with hp | hp <;> rw [hp] at hv
    · exact ⟨m [0, 1], by simp, by rw [hv, hvt]; rfl⟩
    · exact ⟨m [0, 2], by simp, by rw [hv, hvt]; rfl⟩
  cases hft : f.ty with
  | custom c => rw [hft] at ha; simp at ha
  | ptr t =>
    rw [hft] at hty hflat ha
    cases v with
    | nilp => trivial
    | ptr w =>
      cases t with
      | custom c =>
        cases w with
        | custom t' =>
          have := hin t' rfl (by simpa using ha)
          exact ⟨this.2, this.1.1, this.1.2⟩
        | _ => exact absurd hty (by simp [HasTy])
      | ptr _ => simp [flatTy] at hflat
      | unsupported _ => simp [flatTy] at hflat
      | _ => cases w <;> first | trivial | exact absurd hty (by simp [HasTy])
    | _ => exact absurd hty (by simp [HasTy])
  | _ => rw [hft] at hty; cases v <;> first | trivial | exact absurd hty (by simp [HasTy])

/-- C82: a record of any built-in type, written as JSON, is read back with every field as it was, provided its times can be written. -/
theorem C82_record {n : String} {ds : List FieldDecl} (h : Declares n ds) {m : Mem GoTime} (ht : HasStructTy ds m)
    (hw : ∀ t ∈ ([m [0, 1], m [0, 2]]).filterMap timeIn, ExactTime t) :
    ∃ j, jsonOfRecord (.pointer ⟨n, m⟩) = some j ∧ ∀ fold, ∃ m', jsonUnmarshal fold n (some j) = some m' ∧ SameFields ds m m' := by
  obtain ⟨hp, hd⟩ := declares_plain h
  obtain ⟨j, h1, h2⟩ := struct_written hp ht (times_ok h ht hw)
  refine ⟨j, by simp [jsonOfRecord, hd, h1], fun fold => ?_⟩
  obtain ⟨m', h3, h4⟩ := h2 fold
  exact ⟨m', by simp [jsonUnmarshal, hd, h3], fun p ty hl => (h4 p ty hl).symm⟩

/-- C82: a number is read into an integer field if and only if it fits, and then it is the value of the field; a text, a truth value, a list or an object is not read into it. -/
theorem C82_number (old v : FVal GoTime) (n : Int) :
    (jsonVal .u32 old (.num n) = some v ↔ ∃ x : UInt32, v = .u32 x ∧ (x.toNat : Int) = n) ∧
    (jsonVal .u64 old (.num n) = some v ↔ ∃ x : UInt64, v = .u64 x ∧ (x.toNat : Int) = n) ∧
    (jsonVal .i32 old (.num n) = some v ↔ ∃ x : Int32, v = .i32 x ∧ x.toInt = n) ∧
    (jsonVal .i64 old (.num n) = some v ↔ ∃ x : Int64, v = .i64 x ∧ x.toInt = n) := by
  refine ⟨?_, ?_, ?_, ?_⟩
  · simp only [jsonVal]
    split
    · rename_i h
      constructor
      · intro he; cases he
        exact ⟨_, rfl, by rw [UInt32.toNat_ofNat_of_lt' (by show n.toNat < 2 ^ 32; omega)]; omega⟩
      · rintro ⟨x, rfl, rfl⟩; simp
    · rename_i h
      constructor
      · intro he; cases he
      · rintro ⟨x, rfl, rfl⟩; have := x.toNat_lt; omega
  · simp only [jsonVal]
    split
    · rename_i h
      constructor
      · intro he; cases he
        exact ⟨_, rfl, by rw [UInt64.toNat_ofNat_of_lt' (by show n.toNat < 2 ^ 64; omega)]; omega⟩
      · rintro ⟨x, rfl, rfl⟩; simp
    · rename_i h
      constructor
      · intro he; cases he
      · rintro ⟨x, rfl, rfl⟩; have := x.toNat_lt; omega
  · simp only [jsonVal]
    split
    · rename_i h
      constructor
      · intro he; cases he
        exact ⟨_, rfl, Int32.toInt_ofInt_of_le (by omega) (by omega)⟩
      · rintro ⟨x, rfl, rfl⟩; simp
    · rename_i h
      constructor
      · intro he; cases he
      · rintro ⟨x, rfl, rfl⟩; have h1 := x.le_toInt; have h2 := x.toInt_lt; omega
  · simp only [jsonVal]
    split
    · rename_i h
      constructor
      · intro he; cases he
        exact ⟨_, rfl, Int64.toInt_ofInt_of_le (by omega) (by omega)⟩
      · rintro ⟨x, rfl, rfl⟩; simp
    · rename_i h
      constructor
      · intro he; cases he
      · rintro ⟨x, rfl, rfl⟩; have h1 := x.le_toInt; have h2 := x.toInt_lt; omega

/-- C82: a value of another kind than the field is refused, whatever the field held. -/
theorem C82_wrong_kind (old : FVal GoTime) (j : Json) (hj : j ≠ .null) :
    ((∀ s, j ≠ .str s) → jsonVal .str old j = none ∧ ∀ c, jsonVal (.custom c) old j = none) ∧
    ((∀ n, j ≠ .num n) → jsonVal .u32 old j = none ∧ jsonVal .u64 old j = none ∧ jsonVal .i32 old j = none ∧ jsonVal .i64 old j = none) := by
  cases j with
  | null => exact absurd rfl hj
  | _ => simp [jsonVal]

/-- C82: null empties a pointer and leaves any other field as it is; a pointer to a value is read like the value. -/
theorem C82_null_field (t : FTy) (old : FVal GoTime) :
    jsonVal (.ptr t) old .null = some .nilp ∧ (t = .str ∨ t = .u32 ∨ t = .u64 ∨ t = .i32 ∨ t = .i64 ∨ (∃ c, t = .custom c) → jsonVal t old .null = some old) ∧
    ∀ j, j ≠ .null → jsonVal (.ptr t) .nilp j = (jsonVal t (t.zero vanEnv) j).map .ptr := by
  refine ⟨by simp [jsonVal], ?_, ?_⟩
  · rintro (rfl | rfl | rfl | rfl | rfl | ⟨c, rfl⟩) <;> simp [jsonVal]
  · intro j hj
    cases j with
    | null => exact absurd rfl hj
    | _ => simp [jsonVal, pointee]

/-- C82: a value other than null is read whatever the field held. -/
theorem C82_overwrites (ty : FTy) (old old' : FVal GoTime) {j : Json} (hj : j ≠ .null) : jsonVal ty old j = jsonVal ty old' j := by
  induction ty generalizing old old' with
  | ptr t ih =>
    have := ih (pointee t old) (pointee t old')
    cases j with
    | null => exact absurd rfl hj
    | _ => simp only [jsonVal]; rw [this]
  | _ => cases j <;> first | exact absurd rfl hj | simp [jsonVal]

/-- C82: with a time that cannot be written there is no JSON for the record. -/
theorem C82_record_unwritable {n : String} {ds : List FieldDecl} (h : Declares n ds) {m : Mem GoTime}
    (hw : ∃ t ∈ ([m [0, 1], m [0, 2]]).filterMap timeIn, ¬ Writable t) : jsonOfRecord (.pointer ⟨n, m⟩) = none := by
  obtain ⟨hp, hd⟩ := declares_plain h
  obtain ⟨t, ht, hn⟩ := hw
  have hnone : formatTime t = none := by
    have := C82_time_written t
    cases hf : formatTime t with
    | none => rfl
    | some s => exact absurd (this.1 (by simp [hf])) hn
  rw [List.mem_filterMap] at ht
  obtain ⟨v, hv, hvt⟩ := ht
  have hvt' : v = .ptr (.custom t) := by
    unfold timeIn at hvt
    split at hvt
    · simpa using hvt
    · cases hvt
  have key : ∀ p, LeafField ds p tTime → m p = v → jsonOfRecord (.pointer ⟨n, m⟩) = none := by
    intro p hl hm
    have := struct_unwritable hp hl (m := m) (by rw [hm, hvt']; simp [jsonOfVal, hnone])
    simp [jsonOfRecord, hd, this]
  simp only [List.mem_cons, List.not_mem_nil, or_false] at hv
  rcases hv with hv | hv
  · exact key _ (declares_base h).2.1 hv.symm
  · exact key _ (declares_base h).2.2 hv.symm

/-! ## Entries -/

theorem jsonString_str (o s : String) : jsonString o (.str s) = some s := rfl

theorem source_written (fold : String → String) (r r0 : SourceRef) : jsonStruct fold sourceFields r0 (jsonOfSource r) = some r := by
  rw [jsonOfSource, jsonStruct_exact (by decide) rfl]
  rfl

theorem typeMeta_written (fold : String → String) (r r0 : TypeMeta) : jsonStruct fold typeMetaFields r0 (jsonOfTypeMeta r) = some r := by
  rw [jsonOfTypeMeta, jsonStruct_exact (by decide) rfl]
  rfl

theorem map_written : ∀ (m acc : GMap String String), m.WF →
    ∃ m', jsonMapMembers (m.map fun p => (p.1, Json.str p.2)) acc = some m' ∧ ∀ k, m'.get? k = (m.get? k).or (acc.get? k)
  | [], acc, _ => ⟨acc, rfl, fun k => rfl⟩
  | (k0, v) :: m, acc, hw => by
    have hw' : GMap.WF m := (List.nodup_cons.1 hw).2
    have hn : k0 ∉ GMap.keys m := (List.nodup_cons.1 hw).1
    obtain ⟨m', h1, h2⟩ := map_written m (acc.set k0 v) hw'
    refine ⟨m', by simpa [jsonMapMembers, jsonString] using h1, fun k => ?_⟩
    rw [h2, GMap.get?_set, GMap.get?_cons]
    by_cases hk : k0 = k
    · subst hk
      rw [GMap.get?_eq_none_iff.2 hn]
      simp
    · simp [hk]

theorem annotations_written {m : GMap String String} (hw : m.WF) : ∃ m', jsonMap [] (jsonOfMap m) = some m' ∧ ∀ k, m'.get? k = m.get? k := by
  unfold jsonOfMap
  split
  · rename_i h; subst h; exact ⟨[], rfl, fun _ => rfl⟩
  · obtain ⟨m', h1, h2⟩ := map_written m [] hw
    exact ⟨m', h1, fun k => by rw [h2]; simp [GMap.get?_nil]⟩

theorem metadata_written {md : Metadata} (ht : ExactTime md.updatedAt) (hw : md.annotations.WF) :
    ∃ j, jsonOfMetadata md = some j ∧ ∀ fold, ∃ md', jsonStruct fold (metadataFields fold) Metadata.zero j = some md' ∧ md'.source = md.source ∧ md'.updatedAt = md.updatedAt ∧
      ∀ k, md'.annotations.get? k = md.annotations.get? k := by
  obtain ⟨s, h1, h2⟩ := C82_time ht
  obtain ⟨a, h3, h4⟩ := annotations_written hw
  refine ⟨_, by simp only [jsonOfMetadata, h1, Option.map_some, jsonMembersOf, Option.bind_some]; rfl, fun fold => ?_⟩
  rw [jsonStruct_exact (by simp [metadataFields]) rfl]
  simp only [metadataFields, List.map_cons, List.map_nil, setAll, source_written, Option.map_some, Option.bind_some, jsonTime, h2, Metadata.zero, h3]
  exact ⟨_, rfl, rfl, rfl, h4⟩

/-- An entry, written and read as a partial entry. -/
theorem entry_written {e : Entry (GoRec GoTime)} (h : Captured e) :
    ∃ j, jsonOfEntry e = some j ∧ ∀ fold, ∃ p, jsonStruct fold (partialFields fold) partialZero j = some p ∧ p.typeMeta = e.typeMeta ∧ p.md.source = e.md.source ∧
      ∃ m, jsonUnmarshal fold e.typeMeta.type p.record = some m ∧ SameEntry e ⟨p.md, p.typeMeta, .pointer ⟨e.typeMeta.type, m⟩⟩ := by
  obtain ⟨r, ds, hr, hd, ht, htm⟩ := h.record
  have htimes : ∀ t ∈ ([r.mem [0, 1], r.mem [0, 2]]).filterMap timeIn, ExactTime t := by
    intro t hin
    apply h.times
    unfold timesOf
    rcases hr with hr | hr <;> rw [hr] <;> exact List.mem_cons_of_mem _ hin
  obtain ⟨j1, h1, h2⟩ := C82_record hd ht htimes
  have h1' : jsonOfRecord e.record = some j1 := by rcases hr with hr | hr <;> rw [hr] <;> exact h1
  obtain ⟨j2, h3, h4⟩ := metadata_written (md := e.md) (h.times _ List.mem_cons_self) h.annotations
  refine ⟨_, by simp only [jsonOfEntry, h1', h3, jsonMembersOf, Option.bind_some, Option.map_some]; rfl, fun fold => ?_⟩
  obtain ⟨md', g1, g2, g3, g4⟩ := h4 fold
  obtain ⟨m', k1, k2⟩ := h2 fold
  rw [jsonStruct_exact (by simp [partialFields]) rfl]
  simp only [partialFields, List.map_cons, List.map_nil, setAll, typeMeta_written, Option.map_some, Option.bind_some, partialZero, g1]
  refine ⟨_, rfl, rfl, g2, m', ?_, ?_⟩
  · rw [htm]; exact k1
  · exact ⟨g2.symm, g3.symm, fun k => (g4 k).symm, rfl, r, _, ds, hr, .inr rfl, by rw [htm], hd, k2⟩

/-- C82: an entry can be written if and only if its times can: the test in the model of the record server (`Verif/Model/Serve.lean`) is the right one. -/
theorem C82_entry_written {e : Entry (GoRec GoTime)}
    (hr : ∃ (r : RecVal GoTime) (ds : List FieldDecl), (e.record = .value r ∨ e.record = .pointer r) ∧ Declares r.tname ds ∧ HasStructTy ds r.mem ∧ e.typeMeta = ⟨"flow/v1", r.tname⟩)
    (hn : ∀ t ∈ timesOf e, t.nsec < 1000000000) (ha : e.md.annotations.WF) : (jsonOfEntry e).isSome = jsonEntryOk e := by
  by_cases hw : ∀ t ∈ timesOf e, Writable t
  · obtain ⟨j, h1, _⟩ := entry_written (e := e) ⟨hr, fun t ht => ⟨hw t ht, hn t ht⟩, ha⟩
    rw [h1, (jsonEntryOk_iff e).2 hw]
    rfl
  · have h2 : jsonEntryOk e = false := by
      cases h : jsonEntryOk e with
      | false => rfl
      | true => exact absurd ((jsonEntryOk_iff e).1 h) hw
    rw [h2]
    simp only [Classical.not_forall] at hw
    obtain ⟨t, ht, hnw⟩ := hw
    have hnone : formatTime t = none := by
      cases hf : formatTime t with
      | none => rfl
      | some s => exact absurd ((C82_time_written t).1 (by simp [hf])) hnw
    unfold timesOf at ht
    rcases List.mem_cons.1 ht with rfl | ht
    · have : jsonOfMetadata e.md = none := by simp [jsonOfMetadata, jsonMembersOf, hnone]
      simp [jsonOfEntry, jsonMembersOf, this]
    · obtain ⟨r, ds, h1, h3, _⟩ := hr
      have hrec : jsonOfRecord (.pointer r) = none := C82_record_unwritable h3 (m := r.mem) ⟨t, by rcases h1 with h1 | h1 <;> rw [h1] at ht <;> exact ht, hnw⟩
      have hrec' : jsonOfRecord e.record = none := by rcases h1 with h1 | h1 <;> rw [h1] <;> exact hrec
      rw [jsonOfEntry, jsonMembersOf_none (k := "Record") (by rw [hrec']; simp)]
      rfl

theorem jsonAll_pointwise {A B C : Type} {f : A → Option B} {g : B → Option C} {R : A → C → Prop} : ∀ (l : List A), (∀ a ∈ l, ∃ b, f a = some b ∧ ∃ c, g b = some c ∧ R a c) →
    ∃ bs cs, jsonAll f l = some bs ∧ jsonAll g bs = some cs ∧ Pointwise R l cs
  | [], _ => ⟨[], [], rfl, rfl, trivial⟩
  | a :: l, h => by
    obtain ⟨b, h1, c, h2, h3⟩ := h a List.mem_cons_self
    obtain ⟨bs, cs, g1, g2, g3⟩ := jsonAll_pointwise l fun a ha => h a (List.mem_cons_of_mem _ ha)
    exact ⟨b :: bs, c :: cs, by simp [jsonAll, h1, g1], by simp [jsonAll, h2, g2], h3, g3⟩

/-- What the upload of a written entry satisfies. -/
def ReadBack (fold : String → String) (e : Entry (GoRec GoTime)) (p : PartialEntry (Option Json)) : Prop :=
  p.typeMeta = e.typeMeta ∧ p.md.source = e.md.source ∧ ∃ m, jsonUnmarshal fold e.typeMeta.type p.record = some m ∧ SameEntry e ⟨p.md, p.typeMeta, .pointer ⟨e.typeMeta.type, m⟩⟩

theorem response_written {l : List (Entry (GoRec GoTime))} (h : ∀ e ∈ l, Captured e) (fold : String → String) :
    ∃ j data, jsonOfResponse l = some j ∧ jsonToRequest fold j = some data ∧ Pointwise (ReadBack fold) l data := by
  obtain ⟨bs, cs, h1, h2, h3⟩ := jsonAll_pointwise (f := jsonOfEntry) (g := jsonStruct fold (partialFields fold) partialZero) (R := ReadBack fold) l (by
    intro e he
    obtain ⟨j, g1, g2⟩ := entry_written (h e he)
    obtain ⟨p, g3, g4⟩ := g2 fold
    exact ⟨j, g1, p, g3, g4⟩)
  refine ⟨_, cs, by simp only [jsonOfResponse, h1, Option.map_some]; rfl, ?_, h3⟩
  rw [jsonToRequest, jsonStruct_exact (by simp [requestFields]) rfl]
  simp only [requestFields, List.map_cons, List.map_nil, setAll, h2, Option.bind_some]

theorem idOf_same {a b : Entry (GoRec GoTime)} (h : SameEntry a b) : idOf a = idOf b := by
  obtain ⟨_, _, _, _, r, r', ds, h1, h2, _, h4, h5⟩ := h
  have : r.mem [0, 0] = r'.mem [0, 0] := h5 _ _ (declares_base h4).1
  unfold idOf idOfRecord
  rcases h1 with h1 | h1 <;> rcases h2 with h2 | h2 <;> rw [h1, h2] <;> simp only [this]

/-- The loaded entries of the upload. -/
theorem groups_written {fold : String → String} {flows logs : Bool} (src : SourceRef) : ∀ {l : List (Entry (GoRec GoTime))} {data : List (PartialEntry (Option Json))},
    Pointwise (ReadBack fold) l data →
    Pointwise SameEntry (l.filter fun e => e.md.source = src ∧ configured flows logs e.typeMeta) (groupOf (jsonUnmarshal fold) flows logs data src)
  | [], [], _ => trivial
  | [], _ :: _, h => h.elim
  | _ :: _, [], h => h.elim
  | e :: l, p :: data, ⟨⟨h1, h2, m, h3, h4⟩, h⟩ => by
    have ih := groups_written (flows := flows) (logs := logs) src h
    unfold groupOf at ih ⊢
    by_cases hc : configured flows logs e.typeMeta
    · have hl : loadedEntry (jsonUnmarshal fold) flows logs p = some ⟨p.md, p.typeMeta, .pointer ⟨e.typeMeta.type, m⟩⟩ := by
        simp [loadedEntry, h1, hc, h3]
      rw [List.filterMap_cons_some hl, List.filter_cons, List.filter_cons]
      simp only [h2, hc, and_true]
      by_cases hs : e.md.source = src
      · simp only [hs, decide_true, if_true]
        exact ⟨h4, by simpa [hs, hc] using ih⟩
      · simp only [hs, decide_false, Bool.false_eq_true, if_false]
        exact ih
    · have hl : loadedEntry (jsonUnmarshal fold) flows logs p = none := by simp [loadedEntry, h1, hc]
      rw [List.filterMap_cons_none hl, List.filter_cons]
      simp only [hc, and_false, decide_false, Bool.false_eq_true, if_false]
      exact ih

theorem sameRecord_id {flows logs : Bool} {a b : Entry (GoRec GoTime)} (ha : Loaded flows logs a) (hb : Loaded flows logs b) {x y : Entry (GoRec GoTime)} (hx : SameEntry x a) (hy : SameEntry y b)
    (h : sameRecord a b = true) : x.typeMeta = y.typeMeta ∧ idOf x = idOf y := by
  simp only [sameRecord, decide_eq_true_eq] at h
  have key : ∀ a : Entry (GoRec GoTime), Loaded flows logs a → idOf a = entryID a := by
    rintro a ⟨_, m, hm⟩
    simp only [idOf, idOfRecord, entryID, hm]
    cases m [0, 0] <;> rfl
  refine ⟨by rw [hx.2.2.2.1, hy.2.2.2.1]; exact h.1, ?_⟩
  rw [idOf_same hx, idOf_same hy, key a ha, key b hb, h.2]

theorem survivors_all : ∀ {es : List (Entry (GoRec GoTime))}, es.Pairwise (fun a b => ¬ sameRecord a b = true) → survivors es = es
  | [], _ => rfl
  | e :: es, h => by
    rw [List.pairwise_cons] at h
    have : es.any (sameRecord e) = false := by
      rw [List.any_eq_false]
      exact h.1
    simp [survivors, this, survivors_all h.2]

theorem pointwise_pairwise {A B : Type} {R : A → B → Prop} {P : A → A → Prop} {Q : B → B → Prop} {G : B → Prop} (hpq : ∀ a a' b b', R a b → R a' b' → G b → G b' → P a a' → Q b b') :
    ∀ {as : List A} {bs : List B}, Pointwise R as bs → (∀ b ∈ bs, G b) → as.Pairwise P → bs.Pairwise Q
  | [], [], _, _, _ => .nil
  | [], _ :: _, h, _, _ => h.elim
  | _ :: _, [], h, _, _ => h.elim
  | a :: as, b :: bs, ⟨h1, h2⟩, hg, hp => by
    rw [List.pairwise_cons] at hp ⊢
    refine ⟨fun b' hb' => ?_, pointwise_pairwise hpq h2 (fun b hb => hg b (List.mem_cons_of_mem _ hb)) hp.2⟩
    have : ∃ a' ∈ as, R a' b' := by
      clear hp hg
      induction as generalizing bs with
      | nil =>
        cases bs with
        | nil => cases hb'
        | cons _ _ => exact h2.elim
      | cons x as ih =>
        cases bs with
        | nil => cases hb'
        | cons y bs =>
          rcases List.mem_cons.1 hb' with rfl | hb'
          · exact ⟨x, List.mem_cons_self, h2.1⟩
          · obtain ⟨a', h3, h4⟩ := ih _ h2.2 hb'
            exact ⟨a', List.mem_cons_of_mem _ h3, h4⟩
    obtain ⟨a', ha', hr⟩ := this
    exact hpq _ _ _ _ h1 hr (hg b List.mem_cons_self) (hg b' (List.mem_cons_of_mem _ hb')) (hp.1 a' ha')

/-- C82: a list of captured entries can be written as an answer; uploading the answer is accepted, and gives one store per source with entries of configured types, listing exactly these entries of
the source, each with everything as it was. -/
theorem C82_list {l : List (Entry (GoRec GoTime))} (h : ∀ e ∈ l, Captured e) (hd : DistinctRecords l) (fold : String → String) (flows logs : Bool) :
    ∃ j cfg, jsonOfResponse l = some j ∧ uploadJson fold flows logs j = some (.ok cfg) ∧ cfg.WF ∧ ∀ src,
      ((l.filter fun e => e.md.source = src ∧ configured flows logs e.typeMeta) = [] → cfg.get? src = none) ∧
      ((l.filter fun e => e.md.source = src ∧ configured flows logs e.typeMeta) ≠ [] → ∃ c es es', cfg.get? src = some c ∧ c.list none 0 = .ok { entries := es, cont := "" } ∧
        es.Perm es' ∧ Pointwise SameEntry (l.filter fun e => e.md.source = src ∧ configured flows logs e.typeMeta) es') := by
  obtain ⟨j, data, h1, h2, h3⟩ := response_written h fold
  obtain ⟨cfg, h4, h5, h6⟩ := C71_upload (jsonUnmarshal fold) flows logs data
  refine ⟨j, cfg, h1, by simp [uploadJson, h2, h4], h5, fun src => ?_⟩
  have hg := groups_written (flows := flows) (logs := logs) src h3
  have hlen := hg.length
  refine ⟨fun he => (h6 src).1 ?_, fun hne => ?_⟩
  · rw [he] at hlen
    exact List.eq_nil_of_length_eq_zero hlen.symm
  · obtain ⟨c, es, g1, g2, g3⟩ := (h6 src).2 (by
      intro hnil
      rw [hnil] at hlen
      exact hne (List.eq_nil_of_length_eq_zero hlen))
    refine ⟨c, es, _, g1, g2, ?_, hg⟩
    rw [survivors_all] at g3
    · exact g3
    · refine pointwise_pairwise (G := fun e => Loaded flows logs e ∧ e.md.source = src)
        (P := fun a b : Entry (GoRec GoTime) => ¬ (a.md.source = b.md.source ∧ a.typeMeta = b.typeMeta ∧ idOf a = idOf b)) ?_ hg (fun b hb => groupOf_loaded hb) (hd.filter _)
      intro a a' b b' hab hab' hb hb' hp hs
      have := sameRecord_id hb.1 hb'.1 hab hab' hs
      exact hp ⟨by rw [hab.1, hab'.1, hb.2, hb'.2], this⟩

/-! ## Uploads that were not captured -/

/-- C82: a body that is not an object is refused (`null` is an empty upload). -/
theorem C82_bad_body (fold : String → String) (flows logs : Bool) {body : Json} (h1 : ∀ ms, body ≠ .obj ms) (h2 : body ≠ .null) : uploadJson fold flows logs body = none := by
  unfold uploadJson jsonToRequest
  cases body with
  | obj ms => exact absurd rfl (h1 ms)
  | null => exact absurd rfl h2
  | _ => rfl

theorem jsonMembers_record {fold : String → String} : ∀ {ms : List (String × Json)} {p q : PartialEntry (Option Json)}, (∀ m ∈ ms, m.1 ≠ "Record" ∧ fold "Record" ≠ fold m.1) →
    jsonMembers fold (partialFields fold) ms p = some q → q.record = p.record
  | [], p, q, _, h => by simp only [jsonMembers, Option.some.injEq] at h; rw [h]
  | (k, j) :: ms, p, q, hn, h => by
    have hk := hn (k, j) List.mem_cons_self
    have hn' := fun m hm => hn m (List.mem_cons_of_mem _ hm)
    simp only [jsonMembers] at h
    have key : ∀ set, jsonField fold (partialFields fold) k = some set → ∀ p', set p j = some p' → p'.record = p.record := by
      intro set hs p' hp'
      have hm : ∃ f ∈ partialFields fold, f.1 ≠ "Record" ∧ f.2 = set := by
        unfold jsonField at hs
        split at hs
        · rename_i f hf
          have h1 := List.mem_of_find?_eq_some hf
          have h2 := List.find?_some hf
          simp only [decide_eq_true_eq] at h2
          exact ⟨f, h1, by rw [h2]; exact hk.1, Option.some.inj hs⟩
        · cases hf : (partialFields fold).find? (fun f => fold f.1 = fold k) with
          | none => rw [hf] at hs; cases hs
          | some f =>
            rw [hf] at hs
            have h1 := List.mem_of_find?_eq_some hf
            have h2 := List.find?_some hf
            simp only [decide_eq_true_eq] at h2
            exact ⟨f, h1, fun he => hk.2 (by rw [← h2, he]), Option.some.inj hs⟩
      obtain ⟨f, hf, hne, rfl⟩ := hm
      simp only [partialFields, List.mem_cons, List.not_mem_nil, or_false] at hf
      rcases hf with rfl | rfl | rfl
      · simp only [Option.map_eq_some_iff] at hp'
        obtain ⟨_, _, rfl⟩ := hp'
        rfl
      · simp only [Option.map_eq_some_iff] at hp'
        obtain ⟨_, _, rfl⟩ := hp'
        rfl
      · exact absurd rfl hne
    cases hf : jsonField fold (partialFields fold) k with
    | none =>
      rw [hf] at h
      exact jsonMembers_record hn' h
    | some set =>
      rw [hf] at h
      cases hs : set p j with
      | none => simp only [hs] at h; cases h
      | some p' =>
        simp only [hs, Option.bind_some] at h
        exact (jsonMembers_record hn' h).trans (key set hf p' hs)

/-- C82: an uploaded entry without a record is not loaded, and does not keep the upload from being accepted. -/
theorem C82_no_record (fold : String → String) (flows logs : Bool) {ms : List (String × Json)} (hn : ∀ m ∈ ms, m.1 ≠ "Record" ∧ fold "Record" ≠ fold m.1) {data : List (PartialEntry (Option Json))}
    (h : jsonToRequest fold (.obj [("data", .arr [.obj ms])]) = some data) : uploadJson fold flows logs (.obj [("data", .arr [.obj ms])]) = some (.ok []) := by
  unfold uploadJson
  rw [h, Option.map_some]
  have hd : ∃ p, data = [p] ∧ p.record = none := by
    rw [jsonToRequest, jsonStruct_exact (by simp [requestFields]) rfl] at h
    simp only [requestFields, List.map_cons, List.map_nil, setAll, jsonAll, jsonStruct] at h
    cases hp : jsonMembers fold (partialFields fold) ms partialZero with
    | none => rw [hp] at h; cases h
    | some p =>
      rw [hp] at h
      simp only [Option.bind_some, Option.map_some, Option.some.injEq] at h
      exact ⟨p, h.symm, jsonMembers_record hn hp⟩
  obtain ⟨p, rfl, hp⟩ := hd
  unfold serveFixture groupEntriesBySource
  simp only [groupLoop, hp, jsonUnmarshal]
  split <;> rfl

example : uploadJson id true true (.obj [("data", .arr [.obj [("TypeMeta", .obj [("APIVersion", .str "flow/v1"), ("Type", .str "SiteRecord")])]])]) = some (.ok []) :=
  C82_no_record id true true (data := [{ partialZero with typeMeta := ⟨"flow/v1", "SiteRecord"⟩ }]) (by decide) rfl

theorem jsonField_mem {σ : Type} {fold : String → String} {fs : JFields σ} {n : String} {set : σ → Json → Option σ} (h : jsonField fold fs n = some set) :
    ∃ f ∈ fs, f.2 = set ∧ (f.1 = n ∨ fold f.1 = fold n) := by
  unfold jsonField at h
  split at h
  · rename_i f hf
    exact ⟨f, List.mem_of_find?_eq_some hf, Option.some.inj h, .inl (by simpa using List.find?_some hf)⟩
  · cases hf : fs.find? (fun f => fold f.1 = fold n) with
    | none => rw [hf] at h; cases h
    | some f =>
      rw [hf] at h
      exact ⟨f, List.mem_of_find?_eq_some hf, Option.some.inj h, .inr (by simpa using List.find?_some hf)⟩

theorem jsonMembers_null {σ : Type} {fold : String → String} {fs : JFields σ} {n : String} (h : ∀ f ∈ fs, (f.1 = n ∨ fold f.1 = fold n) → ∀ s, f.2 s .null = some s) (ms2 : List (String × Json)) :
    ∀ (ms1 : List (String × Json)) (s : σ), jsonMembers fold fs (ms1 ++ (n, .null) :: ms2) s = jsonMembers fold fs (ms1 ++ ms2) s
  | [], s => by
    simp only [List.nil_append, jsonMembers]
    split
    · rfl
    · rename_i set hs
      obtain ⟨f, h1, rfl, h2⟩ := jsonField_mem hs
      rw [h f h1 h2]
      rfl
  | (k, j) :: ms1, s => by
    simp only [List.cons_append, jsonMembers]
    split
    · exact jsonMembers_null h ms2 ms1 s
    · congr 1
      funext s'
      exact jsonMembers_null h ms2 ms1 s'

/-- C82: in the part of an uploaded entry that names the source or the type, or holds the time of the update, a member `null` is as good as none.  (Annotations are emptied by `null`.) -/
theorem C82_null (fold : String → String) (n : String) (ms1 ms2 : List (String × Json)) :
    (∀ r, jsonStruct fold sourceFields r (.obj (ms1 ++ (n, .null) :: ms2)) = jsonStruct fold sourceFields r (.obj (ms1 ++ ms2))) ∧
    (∀ r, jsonStruct fold typeMetaFields r (.obj (ms1 ++ (n, .null) :: ms2)) = jsonStruct fold typeMetaFields r (.obj (ms1 ++ ms2))) ∧
    (n ≠ "Annotations" → fold n ≠ fold "Annotations" →
      ∀ r, jsonStruct fold (metadataFields fold) r (.obj (ms1 ++ (n, .null) :: ms2)) = jsonStruct fold (metadataFields fold) r (.obj (ms1 ++ ms2))) := by
  refine ⟨fun r => jsonMembers_null ?_ ms2 ms1 r, fun r => jsonMembers_null ?_ ms2 ms1 r, fun h1 h2 r => jsonMembers_null ?_ ms2 ms1 r⟩
  · simp [sourceFields, jsonString]
  · simp [typeMetaFields, jsonString]
  · intro f hf hn s
    simp only [metadataFields, List.mem_cons, List.not_mem_nil, or_false] at hf
    rcases hf with rfl | rfl | rfl
    · rfl
    · rfl
    · rcases hn with hn | hn
      · exact absurd hn.symm h1
      · exact absurd hn.symm h2

example : jsonStruct id (metadataFields id) { Metadata.zero with updatedAt := ⟨5, 7⟩ } (.obj [("UpdatedAt", .null), ("Source", .obj [("Name", .str "a"), ("Type", .null)])]) =
    some { Metadata.zero with updatedAt := ⟨5, 7⟩, source := ⟨"", "", "a"⟩ } := rfl

end Verif.Props
