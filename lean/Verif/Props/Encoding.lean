import Verif.Proofs.Registry

/-!
# Properties C01–C07: record encoding

`env` are the user attribute codecs, `reg` any registry reachable by `MustRegisterRecord` calls, `decls` the fields of an
arbitrary registered struct type.
-/
namespace Verif.Props
open Verif Verif.Model Verif.Spec Verif.Proofs

variable {X : Type}

/-! ## Concrete data used in the examples -/

/-- A HostRecord value: ID "h1", Provider "aws", StartTime 1 s + 1500 ns, Name → pointer to "". -/
def exHostMem : Mem GoTime := fun p =>
  if p = [0, 0] then .str "h1"
  else if p = [0, 1] then .ptr (.custom ⟨1, 1500⟩)
  else if p = [1] then .ptr (.str "aws")
  else if p = [2] then .ptr (.str "")
  else .nilp

def hostDecls : List FieldDecl := [base, fS "Provider" "10", fS "Name" "30"]

theorem hostRegistered : Registered vanRegistry "HostRecord" hostDecls 13 := by
  refine ⟨_, (rfl : vanRegistry.encodings.get? "HostRecord" = some _), rfl, rfl⟩

theorem hostNoZero : NoCodeZero hostDecls := by
  obtain ⟨e, h1, _, h3, _, h5, _⟩ := Registered.good vanRegistry_reach hostRegistered
  rw [← h5]
  apply h3.noCodeZero
  have h2 : vanRegistry.encodings.get? "HostRecord" = some _ := rfl
  rw [h2] at h1; injection h1 with h1; subst h1
  decide

theorem leaf_host {p : Path} {ty : FTy} (h : LeafField hostDecls p ty) :
    (p = [0, 0] ∧ ty = .str) ∨ (p = [0, 1] ∧ ty = tTime) ∨ (p = [0, 2] ∧ ty = tTime) ∨ (p = [1] ∧ ty = tStr) ∨
      (p = [2] ∧ ty = tStr) := by
  cases h with
  | @here _ i _ _ _ _ h =>
    match i with
    | 0 => simp [hostDecls, base] at h
    | 1 => simp [hostDecls, fS] at h; simp [h]
    | 2 => simp [hostDecls, fS] at h; simp [h]
    | n + 3 => simp [hostDecls] at h
  | @inside _ _ i _ _ _ h hin =>
    match i with
    | 1 => simp [hostDecls, fS] at h
    | 2 => simp [hostDecls, fS] at h
    | n + 3 => simp [hostDecls] at h
    | 0 =>
      simp [hostDecls, base] at h
      obtain ⟨_, rfl⟩ := h
      cases hin with
      | @here _ i _ _ _ _ h =>
        match i with
        | 0 => simp [baseDecls] at h; simp [h]
        | 1 => simp [baseDecls] at h; simp [h]
        | 2 => simp [baseDecls] at h; simp [h]
        | n + 3 => simp [baseDecls] at h
      | @inside _ _ i _ _ _ h hin =>
        match i with
        | 0 => simp [baseDecls] at h
        | 1 => simp [baseDecls] at h
        | 2 => simp [baseDecls] at h
        | n + 3 => simp [baseDecls] at h

theorem exHost_typed : HasStructTy hostDecls exHostMem := by
  intro p ty h
  rcases leaf_host h with ⟨rfl, rfl⟩ | ⟨rfl, rfl⟩ | ⟨rfl, rfl⟩ | ⟨rfl, rfl⟩ | ⟨rfl, rfl⟩ <;>
    simp [exHostMem, HasTy, tTime, tStr]

def exHostAttrs : Attrs := [(.u32 1, .str "h1"), (.u32 3, .u64 1000001), (.u32 10, .str "aws"), (.u32 0, .u32 13)]

theorem exHost_encodes : encode vanEnv vanRegistry (.value ⟨"HostRecord", exHostMem⟩) = .ok exHostAttrs := by decide

/-! ## C01 -/

/-- The canonical form of a value is unique, so C01 determines the decoded record completely. -/
theorem C01_canon_unique {env : CodecEnv X} {rt : String → X → X} {ty : FTy} {v w w' : FVal X}
    (h : Canon env rt ty v w) (h' : Canon env rt ty v w') : w = w' := by
  induction h generalizing w' with
  | unset hu =>
    cases h' with
    | unset _ => rfl
    | ptr hn _ => exact absurd hu (by simpa [Unset] using hn)
    | _ => simp_all [Unset]
  | ptr hn _ ih =>
    cases h' with
    | unset hu => exact absurd hu (by simpa [Unset] using hn)
    | ptr _ h2 => rw [ih h2]
  | _ => cases h' <;> simp_all [Unset]

/-- **C01.** Decode(Encode(v)) succeeds with a record of the same type whose tagged fields hold the canonical form of the
fields of `v`, and whose untagged fields are zero. -/
theorem C01_roundtrip {env : CodecEnv X} {rt : String → X → X} (hl : LawfulCodecs env rt) {reg : Registry}
    (hr : ReachReg reg) {name : String} {decls : List FieldDecl} {code : UInt32}
    (hreg : Registered reg name decls code) (hz : NoCodeZero decls) {m : Mem X} (hm : HasStructTy decls m) {attrs : Attrs}
    (h : encode env reg (.value ⟨name, m⟩) = .ok attrs) :
    ∃ m', decode env reg (some attrs) = .ok (.pointer ⟨name, m'⟩) ∧
      CanonStruct env rt decls m m' := by
  obtain ⟨e, he, hd, hg, rfl, rfl, rfl⟩ := Registered.good hr hreg
  obtain ⟨h0, h1, h2, h3, h4⟩ := encode_get he hg (hg.noZero hz) h
  have hdec : ∀ f ∈ e.fields, ∀ a, attrs.get? (.u32 f.codepoint) = some a →
      f.encoder.encode env (m f.index) = .ok a ∧ ∃ w, f.decoder.decode env f.ty a = .ok w ∧ Canon env rt f.ty (m f.index) w := by
    intro f hf a ha
    obtain ⟨⟨tag, ht, _⟩, hen, hde⟩ := hg.sound f hf
    rw [h1 f hf] at ha
    unfold encAttr at ha
    split at ha
    · simp at ha
    · rename_i b hb hb'
      injection ha with ha; subst ha
      obtain ⟨_, w, hw, hc⟩ := encode_decode hl hen hde (hm _ _ ht.leaf) hb'
      exact ⟨hb', w, hw, hc⟩
    · simp at ha
  have hnone : ∀ f ∈ e.fields, attrs.get? (.u32 f.codepoint) = none → f.encoder.encode env (m f.index) = .error .notSet := by
    intro f hf ha
    obtain ⟨⟨tag, ht, _⟩, hen, hde⟩ := hg.sound f hf
    rw [h1 f hf] at ha
    unfold encAttr at ha
    split at ha
    · rename_i hb
      exact absurd rfl (encode_decode hl hen hde (hm _ _ ht.leaf) hb).1
    · simp at ha
    · rename_i er hb
      cases er with
      | notSet => exact hb
      | fail x => exact absurd hb (h4 f hf x)
  obtain ⟨m', hm'⟩ := decodeFields_isOk (env := env) (attrs := attrs) (mem := zeroMem env e.decls) (fs := e.fields)
    (fun f hf ha => by
      rcases h3 f hf with h | h
      · exact absurd (hnone f hf ha) h
      · exact h)
    (fun f hf a ha => by obtain ⟨_, w, hw, _⟩ := hdec f hf a ha; exact ⟨w, hw⟩)
  refine ⟨m', by simp [decode, h0, hd, hm'], ?_, ?_⟩
  · intro p tag ty ht
    obtain ⟨f, hf, rfl, rfl⟩ := hg.complete ht
    obtain ⟨d1, d2, _⟩ := decodeFields_ok hg.indexes hm'
    cases ha : attrs.get? (.u32 f.codepoint) with
    | none =>
      rw [(d1 f hf ha).2, zeroMem_leaf env ht.leaf]
      obtain ⟨_, hen, _⟩ := hg.sound f hf
      exact .unset ((encode_notSet hen (hm _ _ ht.leaf)).1 (hnone f hf ha))
    | some a =>
      have := d2 f hf a ha
      obtain ⟨_, w, hw, hc⟩ := hdec f hf a ha
      rw [hw] at this; injection this with this; rw [← this]; exact hc
  · intro p ty hl' hnt
    obtain ⟨_, _, d3⟩ := decodeFields_ok hg.indexes hm'
    rw [d3 p, zeroMem_leaf env hl']
    rintro f hf rfl
    obtain ⟨⟨tag, ht, _⟩, _, _⟩ := hg.sound f hf
    have := declAt_iff.2 ht.leaf
    rw [declAt_iff.2 hl'] at this
    injection this with this; subst this
    exact hnt tag ht

/-- Encoding through a pointer is the same as encoding the value. -/
theorem C01_pointer_argument (env : CodecEnv X) (reg : Registry) (r : RecVal X) :
    encode env reg (.pointer r) = encode env reg (.value r) := rfl

/-- Non-vacuity of C01: a HostRecord with a time, a string and a pointer to the empty string. -/
example : ∃ m', decode vanEnv vanRegistry (some exHostAttrs) = .ok (.pointer ⟨"HostRecord", m'⟩) ∧
    CanonStruct vanEnv timeRT hostDecls exHostMem m' :=
  C01_roundtrip vanEnv_lawful vanRegistry_reach hostRegistered hostNoZero exHost_typed exHost_encodes

/-- A registry holding one type whose only field uses attribute code 0. -/
def zeroCodeReg : Registry :=
  match mustRegister Registry.empty 7 (.struct "T" [.plain "A" true "0" .str]) with
  | .ok r => r
  | _ => Registry.empty

/-- The exclusion of attribute code 0 in C01 is needed: registration accepts such a type, Encode accepts its values, and Decode
of the result fails. -/
theorem C01_code_zero_counterexample :
    ReachReg zeroCodeReg ∧ ∃ attrs, encode vanEnv zeroCodeReg (.value ⟨"T", fun _ => .str "x"⟩) = .ok attrs ∧
      (decode vanEnv zeroCodeReg (some attrs)).isErr = true := by
  refine ⟨.register .empty (c := 7) (t := .struct "T" [.plain "A" true "0" .str]) rfl, [(.u32 0, .u32 7)], by decide, by decide⟩

/-- A codec that answers `nil, nil`, and a type with a required field of it. -/
def nilEnv : CodecEnv Unit := fun _ => { enc := fun _ => .ok .nil, dec := fun _ => .ok (), zero := () }
def nilCodecReg : Registry :=
  match mustRegister Registry.empty 7 (.struct "T" [.plain "A" true "1,required" (.custom "N")]) with
  | .ok r => r
  | _ => Registry.empty

/-- The hypothesis that an encoder does not answer `nil, nil` is needed in C01: such a value of a required field is
accepted by Encode, left out, and Decode then misses it. -/
theorem C01_nil_codec_counterexample :
    ReachReg nilCodecReg ∧ ∃ attrs, encode nilEnv nilCodecReg (.value ⟨"T", fun _ => .custom ()⟩) = .ok attrs ∧
      (decode nilEnv nilCodecReg (some attrs)).isErr = true := by
  refine ⟨.register .empty (c := 7) (t := .struct "T" [.plain "A" true "1,required" (.custom "N")]) rfl,
    [(.u32 0, .u32 7)], by decide, by decide⟩

/-! ## C02 -/

/-- **C02.** Decode then Encode keeps exactly the known attributes that are present and not the zero of their scalar type. -/
theorem C02_decode_encode {env : CodecEnv X} (hs : StableCodecs env) (hzu : ZeroUnset env) {reg : Registry}
    (hr : ReachReg reg) {name : String} {decls : List FieldDecl} {code : UInt32} (hreg : Registered reg name decls code)
    (hz : NoCodeZero decls) {attrs attrs' : Attrs} {r : GoRec X}
    (hty : attrs.get? (.u32 0) = some (.u32 code))
    (hdec : decode env reg (some attrs) = .ok r) (henc : encode env reg r = .ok attrs') :
    attrs'.get? (.u32 0) = some (.u32 code) ∧
    (∀ p tag ty (n : UInt32), TaggedField decls p tag ty → TagCode tag n.toNat → ∀ a,
      (attrs'.get? (.u32 n) = some a ↔ attrs.get? (.u32 n) = some a ∧ ¬ (IsScalar ty ∧ ZeroAttr a))) ∧
    (∀ k, k ≠ .u32 0 → (∀ p tag ty (n : UInt32), TaggedField decls p tag ty → TagCode tag n.toNat → k ≠ .u32 n) →
      attrs'.get? k = none) := by
  obtain ⟨e, he, hd, hg, rfl, rfl, rfl⟩ := Registered.good hr hreg
  have hnz := hg.noZero hz
  simp only [decode, typeOfRecord, hty, hd] at hdec
  rw [map_eq_ok] at hdec
  obtain ⟨m, hm, rfl⟩ := hdec
  rw [C01_pointer_argument] at henc
  obtain ⟨h0, h1, h2, _, _⟩ := encode_get he hg hnz henc
  obtain ⟨d1, d2, _⟩ := decodeFields_ok hg.indexes hm
  refine ⟨h0, ?_, ?_⟩
  · intro p tag ty n ht hn a
    obtain ⟨f, hf, rfl, rfl, rfl, _⟩ := hg.field_of_code ht hn
    obtain ⟨_, hfe, hfd⟩ := hg.sound f hf
    rw [h1 f hf]
    cases ha : attrs.get? (.u32 f.codepoint) with
    | none =>
      have hzero : m f.index = f.ty.zero env := by rw [(d1 f hf ha).2, zeroMem_leaf env ht.leaf]
      have : f.encoder.encode env (m f.index) = .error .notSet := by
        rw [hzero, encode_notSet hfe (encode_zero_type hfe)]
        exact unset_zero hfe hzu
      simp [encAttr, this]
    | some b =>
      obtain ⟨_, hnil, h⟩ := decode_encode hs hfe hfd (d2 f hf b ha)
      rcases h with ⟨s1, s2, s3⟩ | ⟨s1, s3⟩
      · simp only [encAttr, s3, reduceCtorEq, Option.some.injEq, false_iff, not_and]
        rintro rfl hn
        exact hn s1 s2
      · have : encAttr env f m = some b := by
          unfold encAttr; rw [s3]
          cases b with
          | nil => exact absurd rfl hnil
          | _ => rfl
        rw [this]
        constructor
        · intro h; injection h with h; subst h; exact ⟨rfl, s1⟩
        · exact fun h => h.1
  · intro k hk hk'
    apply h2 k hk
    intro f hf
    obtain ⟨tag, ht, hc, _⟩ := hg.tag_of_field hf
    exact hk' _ tag _ _ ht hc

/-- vanflow's `Time` meets the codec hypotheses of C02. -/
theorem vanEnv_zeroUnset : ZeroUnset vanEnv := fun _ => rfl

/-- An attribute set with an unknown attribute (99), a key of another type, and a zero value (30). -/
def exAttrsIn : Attrs :=
  [(.u32 0, .u32 13), (.u32 99, .i64 5), (.u64 1, .str "no"), (.u32 1, .str "h1"), (.u32 30, .str ""), (.u32 4, .u64 77)]
def exAttrsOut : Attrs := [(.u32 1, .str "h1"), (.u32 4, .u64 77), (.u32 0, .u32 13)]

/-- Decode followed by Encode, as one function. -/
def reencode (env : CodecEnv X) (reg : Registry) (attrs : Attrs) : Res Attrs := (decode env reg (some attrs)).bind (encode env reg)

/-- Non-vacuity of C02. -/
example : ∃ r, decode vanEnv vanRegistry (some exAttrsIn) = .ok r ∧ encode vanEnv vanRegistry r = .ok exAttrsOut ∧
    exAttrsIn.get? (.u32 0) = some (.u32 13) ∧ NoCodeZero hostDecls ∧ Registered vanRegistry "HostRecord" hostDecls 13 := by
  have h : reencode vanEnv vanRegistry exAttrsIn = .ok exAttrsOut := by decide
  unfold reencode at h
  rw [Res.bind_eq_ok] at h
  obtain ⟨r, h1, h2⟩ := h
  exact ⟨r, h1, h2, by decide, hostNoZero, hostRegistered⟩

/-! ## C03 -/

/-- **C03 (decode).** An attribute set lacking a required attribute of its record type does not decode. -/
theorem C03_decode_requires {env : CodecEnv X} {reg : Registry} (hr : ReachReg reg) {name : String} {decls : List FieldDecl}
    {code : UInt32} (hreg : Registered reg name decls code) {attrs : Attrs} (hty : attrs.get? (.u32 0) = some (.u32 code))
    {p : Path} {tag : String} {ty : FTy} {n : UInt32} (ht : TaggedField decls p tag ty) (hn : TagCode tag n.toNat)
    (hreq : TagRequired tag) (hmiss : attrs.get? (.u32 n) = none) (r : GoRec X) :
    decode env reg (some attrs) ≠ .ok r := by
  obtain ⟨e, he, hd, hg, rfl, rfl, rfl⟩ := Registered.good hr hreg
  obtain ⟨f, hf, rfl, rfl, rfl, hid⟩ := hg.field_of_code ht hn
  intro h
  simp only [decode, typeOfRecord, hty, hd] at h
  rw [map_eq_ok] at h
  obtain ⟨m, hm, _⟩ := h
  have := ((decodeFields_ok hg.indexes hm).1 f hf hmiss).1
  rw [hid.2 hreq] at this
  exact absurd this (by decide)

/-- **C03 (encode).** A record with an empty required field is rejected with an error. -/
theorem C03_encode_requires {env : CodecEnv X} {reg : Registry} (hr : ReachReg reg) {name : String} {decls : List FieldDecl}
    {code : UInt32} (hreg : Registered reg name decls code) {m : Mem X} (hm : HasStructTy decls m)
    {p : Path} {tag : String} {ty : FTy} (ht : TaggedField decls p tag ty) (hreq : TagRequired tag)
    (hempty : Unset env ty (m p)) : ∃ msg, encode env reg (.value ⟨name, m⟩) = .err msg := by
  obtain ⟨e, he, hd, hg, rfl, rfl, rfl⟩ := Registered.good hr hreg
  obtain ⟨f, hf, rfl, rfl, _, hid⟩ := hg.field_of_tag ht
  obtain ⟨_, hfe, _⟩ := hg.sound f hf
  simp only [encode, he, encodeWith]
  cases hc : encodeFields env e.fields m [] with
  | err msg => exact ⟨msg, rfl⟩
  | panic msg => exact absurd hc encodeFields_not_panic
  | ok out =>
    exfalso
    rcases (encodeFields_ok hg.codes hc).2.2.1 f hf with h | h
    · exact h ((encode_notSet hfe (hm _ _ ht.leaf)).2 hempty)
    · rw [hid.2 hreq] at h; exact absurd h (by decide)

/-- **C03 (consequence).** Every encoded record carries each of its required attributes, with a value that is not nil. -/
theorem C03_encoded_has_required {env : CodecEnv X} {rt : String → X → X} (hl : LawfulCodecs env rt) {reg : Registry}
    (hr : ReachReg reg) {name : String} {decls : List FieldDecl} {code : UInt32} (hreg : Registered reg name decls code)
    (hz : NoCodeZero decls) {m : Mem X} (hm : HasStructTy decls m) {attrs : Attrs}
    (h : encode env reg (.value ⟨name, m⟩) = .ok attrs) {p : Path} {tag : String} {ty : FTy} {n : UInt32}
    (ht : TaggedField decls p tag ty) (hn : TagCode tag n.toNat) (hreq : TagRequired tag) :
    ∃ a, attrs.get? (.u32 n) = some a ∧ a ≠ .nil := by
  obtain ⟨e, he, hd, hg, rfl, rfl, rfl⟩ := Registered.good hr hreg
  obtain ⟨f, hf, rfl, rfl, rfl, hid⟩ := hg.field_of_code ht hn
  obtain ⟨_, hfe, hfd⟩ := hg.sound f hf
  obtain ⟨_, h1, _, h3, h4⟩ := encode_get he hg (hg.noZero hz) h
  rw [h1 f hf]
  cases hc : f.encoder.encode env (m f.index) with
  | error er =>
    cases er with
    | notSet =>
      rcases h3 f hf with h | h
      · exact absurd hc h
      · rw [hid.2 hreq] at h; exact absurd h (by decide)
    | fail x => exact absurd hc (h4 f hf x)
  | ok a =>
    have hnil := (encode_decode hl hfe hfd (hm _ _ ht.leaf) hc).1
    refine ⟨a, ?_, hnil⟩
    unfold encAttr; rw [hc]
    cases a with
    | nil => exact absurd rfl hnil
    | _ => rfl

/-- Encode accepts every record whose required fields are set and whose user values encode. -/
theorem C03_encode_accepts {env : CodecEnv X} {reg : Registry} (hr : ReachReg reg) {name : String} {decls : List FieldDecl}
    {code : UInt32} (hreg : Registered reg name decls code) {m : Mem X} (hm : HasStructTy decls m)
    (hset : ∀ p tag ty, TaggedField decls p tag ty → TagRequired tag → ¬ Unset env ty (m p))
    (hcod : ∀ c x msg, (env c).enc x ≠ .error (.fail msg)) : ∃ attrs, encode env reg (.value ⟨name, m⟩) = .ok attrs := by
  obtain ⟨e, he, hd, hg, rfl, rfl, rfl⟩ := Registered.good hr hreg
  obtain ⟨out, ho⟩ := encodeFields_isOk (env := env) (fs := e.fields) (mem := m) (acc := [])
    (fun f hf => by
      obtain ⟨tag, ht, _, hid⟩ := hg.tag_of_field hf
      obtain ⟨_, hfe, _⟩ := hg.sound f hf
      by_cases hi : f.identity = true
      · left
        rw [ne_eq, encode_notSet hfe (hm _ _ ht.leaf)]
        exact hset _ _ _ ht (hid.1 hi)
      · right; simpa using hi)
    (fun f hf msg => by
      obtain ⟨tag, ht, _, _⟩ := hg.tag_of_field hf
      obtain ⟨_, hfe, _⟩ := hg.sound f hf
      exact encode_not_fail hcod hfe (hm _ _ ht.leaf))
  exact ⟨out.set typeOfRecord (.u32 e.codepoint), by simp [encode, he, encodeWith, ho]⟩

theorem exId_tag : TaggedField hostDecls [0, 0] "1,required" .str :=
  .inside (name := "BaseRecord") rfl (.here (name := "ID") rfl (by decide))
theorem exId_code : TagCode "1,required" (1 : UInt32).toNat :=
  ⟨['1'], ",required".toList, by decide, by decide, by decide, by decide, Or.inr ⟨"required".toList, by decide⟩⟩
theorem exId_required : TagRequired "1,required" := ⟨['1'], by decide, by decide⟩

/-- Non-vacuity of C03: host attributes without the identity; a host record without identity; a good one. -/
example (r : GoRec GoTime) : decode vanEnv vanRegistry (some [(.u32 10, .str "aws"), (.u32 0, .u32 13)]) ≠ .ok r :=
  C03_decode_requires vanRegistry_reach hostRegistered rfl exId_tag exId_code exId_required rfl r
example : ∃ msg, encode vanEnv vanRegistry (.value ⟨"HostRecord", zeroMem vanEnv hostDecls⟩) = .err msg :=
  C03_encode_requires vanRegistry_reach hostRegistered
    (fun p ty h => by
      rcases leaf_host h with ⟨rfl, rfl⟩ | ⟨rfl, rfl⟩ | ⟨rfl, rfl⟩ | ⟨rfl, rfl⟩ | ⟨rfl, rfl⟩ <;> exact trivial)
    exId_tag exId_required rfl
example : ∃ a, exHostAttrs.get? (.u32 1) = some a ∧ a ≠ .nil :=
  C03_encoded_has_required vanEnv_lawful vanRegistry_reach hostRegistered hostNoZero exHost_typed exHost_encodes
    exId_tag exId_code exId_required

/-- Finding beside C03: the two directions do not agree on the *empty* identity. Decode accepts it, Encode rejects it. -/
theorem C03_empty_identity_asymmetry :
    ∃ r, decode vanEnv vanRegistry (some [(.u32 0, .u32 13), (.u32 1, .str "")]) = .ok r ∧
      (encode vanEnv vanRegistry r).isErr = true := by
  have h1 : (decode vanEnv vanRegistry (some [(.u32 0, .u32 13), (.u32 1, .str "")])).isOk = true := by decide
  have h2 : (reencode vanEnv vanRegistry [(.u32 0, .u32 13), (.u32 1, .str "")]).isErr = true := by decide
  unfold reencode at h2
  cases h : decode vanEnv vanRegistry (some [(.u32 0, .u32 13), (.u32 1, .str "")]) with
  | ok r => rw [h] at h2; exact ⟨r, rfl, h2⟩
  | _ => rw [h] at h1; simp at h1

/-! ## C04 -/

/-- **C04.** Decoding depends only on key uint32(0) and the attribute codes of the record type it names. -/
theorem C04_unknown_ignored {env : CodecEnv X} {reg : Registry} (hr : ReachReg reg) {a b : Attrs}
    (h0 : a.get? (.u32 0) = b.get? (.u32 0))
    (hk : ∀ name decls code, Registered reg name decls code → a.get? (.u32 0) = some (.u32 code) →
      ∀ p tag ty (n : UInt32), TaggedField decls p tag ty → TagCode tag n.toNat → a.get? (.u32 n) = b.get? (.u32 n)) :
    decode env reg (some a) = decode env reg (some b) := by
  simp only [decode, typeOfRecord, ← h0]
  cases hc : a.get? (.u32 0) with
  | none => rfl
  | some x =>
    cases x <;> try rfl
    rename_i code
    simp only
    cases hd : reg.decodings.get? code with
    | none => rfl
    | some e =>
      obtain ⟨hcode, he⟩ := hr.inv.goodD code e hd
      obtain ⟨hg, _, _⟩ := hr.inv.goodE _ _ he
      simp only
      rw [decodeFields_congr (b := b)]
      intro f hf
      obtain ⟨tag, ht, hn, _⟩ := hg.tag_of_field hf
      exact hk e.tname e.decls code ⟨e, he, rfl, hcode⟩ hc _ _ _ _ ht hn

/-- Non-vacuity of C04: extra unknown code and a key of another type; the sets differ, the outcome does not. -/
example : decode vanEnv vanRegistry (some exAttrsIn) =
    decode vanEnv vanRegistry (some (exAttrsIn.filter (fun kv => kv.1 ≠ .u32 99 ∧ kv.1 ≠ .u64 1))) := by
  apply C04_unknown_ignored vanRegistry_reach (by decide)
  intro name decls code hreg hc p tag ty n ht hn
  have : (∀ n : UInt32, n ≠ 99 → exAttrsIn.get? (.u32 n) =
      GMap.get? (exAttrsIn.filter (fun kv => kv.1 ≠ .u32 99 ∧ kv.1 ≠ .u64 1)) (.u32 n)) := by
    intro n h
    simp [exAttrsIn, GMap.get?, Ne.symm h]
  apply this
  rintro rfl
  have hcode : code = 13 := by
    simp only [exAttrsIn, GMap.get?, if_true, Option.some.injEq, Any.u32.injEq] at hc; exact hc.symm
  subst hcode
  obtain ⟨e, h1, h2, hg, rfl, rfl, h6⟩ := Registered.good vanRegistry_reach hreg
  obtain ⟨f, hf, _, _, hcp, _⟩ := hg.field_of_code ht hn
  have key : ∀ o, vanRegistry.decodings.get? 13 = o → ∀ g ∈ (o.map TypeEnc.fields).getD [], g.codepoint ≠ 99 := by
    rintro o rfl; decide
  exact key _ h2 f hf hcp

/-! ## C05 -/

/-- C05 is false: a null attribute makes Decode panic (here attribute 30 of a HostRecord is null). -/
theorem C05_counterexample :
    (decode vanEnv vanRegistry (some [(.u32 0, .u32 13), (.u32 1, .str "h1"), (.u32 30, .nil)])).isPanic = true := by decide

/-- **C05 (partial).** The only way to make Decode panic is a null value under an attribute code of the record type. Missing
for the full statement: null values (see `C05_counterexample`). -/
theorem C05_panics_only_on_null_partial {env : CodecEnv X} {reg : Registry} (hr : ReachReg reg) {attrs : Option Attrs} {msg : String}
    (h : decode env reg attrs = .panic msg) :
    ∃ m name decls code, attrs = some m ∧ Registered reg name decls code ∧ m.get? (.u32 0) = some (.u32 code) ∧
      ∃ p tag ty, ∃ n : UInt32, TaggedField decls p tag ty ∧ TagCode tag n.toNat ∧ m.get? (.u32 n) = some .nil := by
  cases attrs with
  | none => simp [decode] at h
  | some m =>
    simp only [decode, typeOfRecord] at h
    split at h
    · simp at h
    · rename_i code hc
      split at h
      · simp at h
      · rename_i e hd
        obtain ⟨hcode, he⟩ := hr.inv.goodD code e hd
        obtain ⟨hg, _, _⟩ := hr.inv.goodE _ _ he
        cases hp : decodeFields env e.fields m (zeroMem env e.decls) with
        | ok _ => rw [hp] at h; simp at h
        | err _ => rw [hp] at h; simp at h
        | panic msg' =>
          obtain ⟨f, hf, hnil⟩ := decodeFields_panic hp
          obtain ⟨tag, ht, hn, _⟩ := hg.tag_of_field hf
          exact ⟨m, e.tname, e.decls, code, rfl, ⟨e, he, rfl, hcode⟩, hc, _, tag, _, _, ht, hn, hnil⟩
    · simp at h

/-- Corollary in API terms: an attribute set without null values never makes Decode panic. -/
theorem C05_no_null_no_panic_partial {env : CodecEnv X} {reg : Registry} (hr : ReachReg reg) {attrs : Attrs}
    (hn : ∀ k, attrs.get? k ≠ some .nil) (msg : String) : decode env reg (some attrs) ≠ .panic msg := by
  intro h
  obtain ⟨m, _, _, _, hm, _, _, _, _, _, n, _, _, hnil⟩ := C05_panics_only_on_null_partial hr h
  injection hm with hm; subst hm
  exact hn _ hnil

/-- Non-vacuity: wrongly typed attributes are fine (an error, not a panic). -/
example : ∀ msg, decode vanEnv vanRegistry (some [(.u32 0, .u32 13), (.u32 1, .i64 4), (.u32 3, .other "bool")]) ≠ .panic msg :=
  C05_no_null_no_panic_partial vanRegistry_reach (by
    intro k; simp only [GMap.get?]; repeat' split
    all_goals simp)

/-! ## C06 -/

/-- **C06 (bijection).** In every reachable registry no two types share a record code. -/
theorem C06_codes_unique {reg : Registry} (hr : ReachReg reg) {n1 n2 : String} {d1 d2 : List FieldDecl} {code : UInt32}
    (h1 : Registered reg n1 d1 code) (h2 : Registered reg n2 d2 code) : n1 = n2 ∧ d1 = d2 := by
  obtain ⟨e1, a1, b1, _, rfl, rfl, _⟩ := Registered.good hr h1
  obtain ⟨e2, a2, b2, _, rfl, rfl, _⟩ := Registered.good hr h2
  rw [b1] at b2; injection b2 with b2; subst b2
  exact ⟨rfl, rfl⟩

/-- **C06 (bijection).** In every reachable registry no type has two codes. -/
theorem C06_types_unique {reg : Registry} {n : String} {d1 d2 : List FieldDecl} {c1 c2 : UInt32}
    (h1 : Registered reg n d1 c1) (h2 : Registered reg n d2 c2) : c1 = c2 ∧ d1 = d2 := by
  obtain ⟨e1, a1, rfl, rfl⟩ := h1
  obtain ⟨e2, a2, rfl, rfl⟩ := h2
  rw [a1] at a2; injection a2 with a2; subst a2
  exact ⟨rfl, rfl⟩

/-- **C06 (encodable ⇒ decodable under the code carried).** Whatever Encode produces names a code whose registered type is the
encoded type, so Decode picks that type (its result, if any, has that type). -/
theorem C06_encode_code_decodes {env : CodecEnv X} {reg : Registry} (hr : ReachReg reg) {r : RecVal X} {attrs : Attrs}
    (h : encode env reg (.value r) = .ok attrs) :
    ∃ decls code, Registered reg r.tname decls code ∧ attrs.get? (.u32 0) = some (.u32 code) ∧
      ∀ out, decode env reg (some attrs) = .ok out → ∃ m, out = .pointer ⟨r.tname, m⟩ := by
  simp only [encode] at h
  split at h
  · simp at h
  · rename_i e he
    obtain ⟨hg, hn, hd⟩ := hr.inv.goodE _ _ he
    simp only [encodeWith] at h
    rw [map_eq_ok] at h
    obtain ⟨o, _, rfl⟩ := h
    refine ⟨e.decls, e.codepoint, ⟨e, he, rfl, rfl⟩, by simp [typeOfRecord], ?_⟩
    intro out ho
    simp only [decode, GMap.get?_set_self, hd] at ho
    rw [map_eq_ok] at ho
    obtain ⟨m, _, rfl⟩ := ho
    exact ⟨m, by rw [hn]⟩

/-- **C06 (registration).** A successful registration adds exactly its type under its code, keeps all others, and was
refused iff the code or the type was taken or the type is not encodable. -/
theorem C06_register_adds {reg reg' : Registry} {c : UInt32} {name : String} {decls : List FieldDecl}
    (h : mustRegister reg c (.struct name decls) = .ok reg') :
    Registered reg' name decls c ∧
    (∀ n d k, Registered reg n d k → Registered reg' n d k) ∧
    (∀ n d k, Registered reg' n d k → Registered reg n d k ∨ (n = name ∧ d = decls ∧ k = c)) := by
  obtain ⟨e, he, hd, hen, rfl⟩ := mustRegister_ok h
  have hcp := newEncodingForType_codepoint he
  have hnm : e.tname = name ∧ e.decls = decls := by
    simp only [newEncodingForType] at he
    rw [Res.bind_eq_ok] at he
    obtain ⟨fs, _, he⟩ := he
    split at he
    · simp at he
    · injection he with he; subst he; exact ⟨rfl, rfl⟩
  refine ⟨⟨e, by simp [hnm.1], hnm.2, hcp⟩, ?_, ?_⟩
  · rintro n d k ⟨e', h1, h2, h3⟩
    refine ⟨e', ?_, h2, h3⟩
    rw [GMap.get?_set_ne _ _ (by intro hc; rw [hc, h1] at hen; simp at hen)]; exact h1
  · rintro n d k ⟨e', h1, h2, h3⟩
    rw [GMap.get?_set] at h1
    split at h1
    · rename_i hc
      injection h1 with h1; subst h1
      right; exact ⟨by rw [← hc, hnm.1], by rw [← h2, hnm.2], by rw [← h3, hcp]⟩
    · left; exact ⟨e', h1, h2, h3⟩

/-- **C06 (refusal).** Registering a code or a type that is in use always panics; `mustRegister` returns no registry then, i.e. the
global maps are not touched (both assignments come after both checks). -/
theorem C06_register_refuses {reg : Registry} (hr : ReachReg reg) {n : String} {d : List FieldDecl} {k : UInt32}
    (h : Registered reg n d k) {c : UInt32} {name : String} {decls : List FieldDecl} (hc : c = k ∨ name = n) :
    (mustRegister reg c (.struct name decls)).isOk = false := by
  obtain ⟨e, a1, b1, _, hn, _, _⟩ := Registered.good hr h
  cases hm : mustRegister reg c (.struct name decls) with
  | ok r =>
    exfalso
    obtain ⟨e', he', hd, hen, _⟩ := mustRegister_ok hm
    have hnm : e'.tname = name := by
      simp only [newEncodingForType] at he'
      rw [Res.bind_eq_ok] at he'
      obtain ⟨fs, _, he'⟩ := he'
      split at he'
      · simp at he'
      · injection he' with he'; subst he'; rfl
    rcases hc with rfl | rfl
    · rw [b1] at hd; simp at hd
    · rw [hnm, a1] at hen; simp at hen
  | err _ => rfl
  | panic _ => rfl

/-- **C06 (stability).** A later registration does not change how an already registered type is encoded. -/
theorem C06_encode_stable {env : CodecEnv X} {reg reg' : Registry} {c : UInt32} {t : GoType}
    (h : mustRegister reg c t = .ok reg') {r : RecVal X} {n : List FieldDecl} {k : UInt32}
    (hreg : Registered reg r.tname n k) : encode env reg' (.value r) = encode env reg (.value r) := by
  obtain ⟨e, he, hd, hen, rfl⟩ := mustRegister_ok h
  obtain ⟨e', h1, _, _⟩ := hreg
  simp only [encode]
  rw [GMap.get?_set_ne _ _ (by intro hc; rw [hc, h1] at hen; simp at hen)]

/-- **C06 (stability).** … nor how attribute sets of registered codes are decoded. -/
theorem C06_decode_stable {env : CodecEnv X} {reg reg' : Registry} (hr : ReachReg reg) {c : UInt32} {t : GoType}
    (h : mustRegister reg c t = .ok reg') {attrs : Attrs} {n : String} {d : List FieldDecl} {k : UInt32}
    (hreg : Registered reg n d k) (hk : attrs.get? (.u32 0) = some (.u32 k)) :
    decode env reg' (some attrs) = decode env reg (some attrs) := by
  obtain ⟨e, he, hd, hen, rfl⟩ := mustRegister_ok h
  obtain ⟨e', h1, h2, _, _, _, _⟩ := Registered.good hr hreg
  simp only [decode, typeOfRecord, hk]
  rw [GMap.get?_set_ne _ _ (by intro hc; rw [hc, h2] at hd; simp at hd)]

/-- What Encode refuses before it looks at the fields: no record at all, and a record of a type that is not registered, are errors; only a nil pointer to a record makes it
panic. -/
theorem C06_encode_refuses (env : CodecEnv X) (reg : Registry) : (encode env reg (.nil : GoRec X)).isErr = true ∧
    (∀ r : RecVal X, reg.encodings.get? r.tname = none → (encode env reg (.value r)).isErr = true ∧ (encode env reg (.pointer r)).isErr = true) ∧
    ∀ n, (encode env reg (.nilPointer n : GoRec X)).isPanic = true := by
  refine ⟨rfl, fun r h => ?_, fun n => rfl⟩
  simp [encode, h, Res.isErr]

/-- **C06 (built-ins).** The fifteen registrations of package init succeed, and codes 0..14 are the ones in use. -/
theorem C06_builtin_ok : vanInit = .ok vanRegistry ∧ ReachReg vanRegistry ∧
    ∀ c : UInt32, (∃ n d, Registered vanRegistry n d c) ↔ c < 15 := by
  refine ⟨vanInit_ok, vanRegistry_reach, ?_⟩
  intro c
  have hk : vanRegistry.decodings.keys = [0, 1, 2, 3, 4, 5, 6, 7, 8, 9, 10, 11, 12, 13, 14] := by decide
  have h1 : (∃ n d, Registered vanRegistry n d c) ↔ c ∈ vanRegistry.decodings.keys := by
    rw [GMap.mem_keys_iff]
    constructor
    · rintro ⟨n, d, h⟩
      obtain ⟨e, _, h2, _⟩ := Registered.good vanRegistry_reach h
      exact ⟨e, h2⟩
    · rintro ⟨e, h⟩
      obtain ⟨h1, h2⟩ := vanRegistry_reach.inv.goodD c e h
      exact ⟨e.tname, e.decls, e, h2, rfl, h1⟩
  rw [h1, hk]
  constructor
  · intro h
    simp only [List.mem_cons, List.not_mem_nil, or_false] at h
    rcases h with h | h | h | h | h | h | h | h | h | h | h | h | h | h | h <;> subst h <;> decide
  · intro h
    have h' : c.toNat < 15 := h
    have : ∀ k : Fin 15, UInt32.ofNat k.val ∈ ([0, 1, 2, 3, 4, 5, 6, 7, 8, 9, 10, 11, 12, 13, 14] : List UInt32) := by decide
    have := this ⟨c.toNat, h'⟩
    simpa using this

/-- Non-vacuity of C06: registering one more type on top of the built-in registry. -/
example : ∃ reg', mustRegister vanRegistry 15 (.struct "My" [.plain "ID" true "1" .str]) = .ok reg' ∧
    (mustRegister vanRegistry 13 (.struct "My" [.plain "ID" true "1" .str])).isPanic = true ∧
    (mustRegister vanRegistry 15 (.struct "HostRecord" [.plain "ID" true "1" .str])).isPanic = true := by
  refine ⟨_, rfl, by decide, by decide⟩

/-! ## C07 -/

/-- C07 is false: HostRecord.Name points to the empty string, and attribute 30 is not transmitted. -/
theorem C07_counterexample : exHostMem [2] = .ptr (.str "") ∧
    encode vanEnv vanRegistry (.value ⟨"HostRecord", exHostMem⟩) = .ok exHostAttrs ∧ exHostAttrs.get? (.u32 30) = none :=
  ⟨rfl, exHost_encodes, by decide⟩

/-- **C07 (partial).** A scalar attribute, plain or behind pointers, is transmitted with its value exactly when it is not the
zero value (and not nil). Missing for the full statement: pointers to zero values. -/
theorem C07_nonzero_transmitted_partial {env : CodecEnv X} {reg : Registry} (hr : ReachReg reg) {name : String}
    {decls : List FieldDecl} {code : UInt32} (hreg : Registered reg name decls code) (hz : NoCodeZero decls)
    {m : Mem X} (hm : HasStructTy decls m) {attrs : Attrs}
    (h : encode env reg (.value ⟨name, m⟩) = .ok attrs) {p : Path} {tag : String} {n : UInt32} :
    (∀ s, TaggedField decls p tag (.ptr .str) → TagCode tag n.toNat → m p = .ptr (.str s) →
      attrs.get? (.u32 n) = if s = "" then none else some (.str s)) ∧
    (∀ u, TaggedField decls p tag (.ptr .u64) → TagCode tag n.toNat → m p = .ptr (.u64 u) →
      attrs.get? (.u32 n) = if u = 0 then none else some (.u64 u)) ∧
    (∀ ty, TaggedField decls p tag (.ptr ty) → TagCode tag n.toNat → m p = .nilp → attrs.get? (.u32 n) = none) ∧
    (∀ ty, TaggedField decls p tag ty → TagCode tag n.toNat → Unset env ty (m p) → attrs.get? (.u32 n) = none) := by
  obtain ⟨e, he, hd, hg, rfl, rfl, rfl⟩ := Registered.good hr hreg
  obtain ⟨_, h1, _, _, _⟩ := encode_get he hg (hg.noZero hz) h
  have hun : ∀ ty, TaggedField e.decls p tag ty → TagCode tag n.toNat → Unset env ty (m p) →
      attrs.get? (.u32 n) = none := by
    intro ty ht hn hu
    obtain ⟨f, hf, rfl, rfl, rfl, _⟩ := hg.field_of_code ht hn
    obtain ⟨_, hfe, _⟩ := hg.sound f hf
    rw [h1 f hf, encAttr, (encode_notSet hfe (hm _ _ ht.leaf)).2 hu]
  refine ⟨?_, ?_, ?_, hun⟩
  · intro s ht hn hmp
    obtain ⟨f, hf, rfl, hty, rfl, _⟩ := hg.field_of_code ht hn
    obtain ⟨_, hfe, _⟩ := hg.sound f hf
    rw [hty] at hfe
    simp [getFieldEncoder] at hfe
    rw [h1 f hf, encAttr, ← hfe, hmp]
    by_cases hs : s = "" <;> simp [FieldEncoder.encode, FVal.isZeroScalar, FVal.toAny, hs]
  · intro s ht hn hmp
    obtain ⟨f, hf, rfl, hty, rfl, _⟩ := hg.field_of_code ht hn
    obtain ⟨_, hfe, _⟩ := hg.sound f hf
    rw [hty] at hfe
    simp [getFieldEncoder] at hfe
    rw [h1 f hf, encAttr, ← hfe, hmp]
    by_cases hs : s = 0 <;> simp [FieldEncoder.encode, FVal.isZeroScalar, FVal.toAny, hs]
  · intro ty ht hn hmp
    exact hun _ ht hn (by rw [hmp]; trivial)

/-- Non-vacuity of C07: Provider "aws" of the example host is transmitted. -/
example : exHostAttrs.get? (.u32 10) = some (.str "aws") := by
  have := (C07_nonzero_transmitted_partial vanRegistry_reach hostRegistered hostNoZero exHost_typed exHost_encodes
    (p := [1]) (tag := "10") (n := 10)).1 "aws" (.here (name := "Provider") rfl (by decide))
    ⟨['1', '0'], [], by decide, by decide, by decide, by decide, Or.inl rfl⟩ rfl
  simpa using this

end Verif.Props
