import Verif.Proofs.Store
import Verif.Props.Messages

/-!
# Merging the attribute sets of built-in records
-/
namespace Verif.Proofs
open Verif Verif.Model Verif.Spec Verif.Props

theorem encodeFields_wf {X : Type} {env : CodecEnv X} : ∀ {fs : List Field} {mem : Mem X} {acc out : Attrs}, GMap.WF acc →
    encodeFields env fs mem acc = .ok out → GMap.WF out
  | [], _, acc, out, hw, h => by simp [encodeFields] at h; subst h; exact hw
  | f :: fs, mem, acc, out, hw, h => by
    simp only [encodeFields] at h
    split at h
    · split at h
      · simp at h
      · exact encodeFields_wf hw h
    · simp at h
    · exact encodeFields_wf hw h
    · exact encodeFields_wf (hw.set _ _) h

theorem encode_wf {X : Type} {env : CodecEnv X} {reg : Registry} {g : GoRec X} {a : Attrs} (h : encode env reg g = .ok a) :
    GMap.WF a := by
  have key : ∀ r : RecVal X, encode env reg (.value r) = .ok a → GMap.WF a := by
    intro r h
    cases he : reg.encodings.get? r.tname with
    | none => simp [encode, he] at h
    | some e =>
      obtain ⟨out, h1, rfl⟩ := encode_value_eq he h
      exact (encodeFields_wf GMap.WF_nil h1).set _ _
  cases g with
  | nil => simp [encode] at h
  | nilPointer n => simp [encode] at h
  | value r => exact key r h
  | pointer r => exact key r h

theorem vanOps_lawful : LawfulOps vanOps where
  encode_wf := fun _ _ h => encode_wf h
  decode_congr := fun _ _ h => C04_unknown_ignored vanRegistry_reach (h _) (fun _ _ _ _ _ _ _ _ _ _ _ => h _)

/-- An attribute that the encoder of a field of type `ty` can produce. -/
def AttrFor (ty : FTy) (a : Any) : Prop :=
  ∃ e v, getFieldEncoder ty = .ok e ∧ HasTy ty v ∧ e.encode vanEnv v = .ok a

theorem encode_not_zero {X : Type} {env : CodecEnv X} {ty : FTy} {e : FieldEncoder} {v : FVal X} {a : Any}
    (he : getFieldEncoder ty = .ok e) (ht : HasTy ty v) (h : e.encode env v = .ok a) : ¬ (IsScalar ty ∧ ZeroAttr a) := by
  induction ty generalizing e v with
  | unsupported k => simp [getFieldEncoder] at he
  | custom c => simp [IsScalar]
  | ptr t ih =>
    by_cases hc : ∃ c, t = .custom c
    · obtain ⟨c, rfl⟩ := hc; simp [IsScalar]
    · rw [getFieldEncoder_ptr (by simpa using hc), map_eq_ok] at he
      obtain ⟨se, hse, rfl⟩ := he
      cases v with
      | ptr w =>
        simp only [HasTy] at ht
        simp only [FieldEncoder.encode] at h
        simpa [IsScalar] using ih hse ht h
      | _ => simp_all [HasTy, FieldEncoder.encode]
  | _ =>
    simp [getFieldEncoder] at he; subst he
    cases v <;> simp only [HasTy] at ht
    simp only [FieldEncoder.encode] at h
    split at h
    · simp at h
    · rename_i hz
      injection h with h; subst h
      simp [FVal.isZeroScalar] at hz
      simp [ZeroAttr, FVal.toAny, hz]

/-- Such an attribute decodes to a typed value which encodes to the attribute again. -/
theorem AttrFor.stable {ty : FTy} {a : Any} (h : AttrFor ty a) {e : FieldEncoder} {d : FieldDecoder}
    (he : getFieldEncoder ty = .ok e) (hd : getFieldDecoder ty = .ok d) :
    a ≠ .nil ∧ ∃ w, d.decode vanEnv ty a = .ok w ∧ HasTy ty w ∧ e.encode vanEnv w = .ok a := by
  obtain ⟨e', v, he', ht, hv⟩ := h
  rw [he] at he'; injection he' with he'; subst he'
  obtain ⟨h1, w, hw, _⟩ := encode_decode vanEnv_lawful he hd ht hv
  obtain ⟨h2, _, h3⟩ := decode_encode vanEnv_stable he hd hw
  refine ⟨h1, w, hw, h2, ?_⟩
  rcases h3 with ⟨h4, h5, _⟩ | ⟨_, h4⟩
  · exact absurd ⟨h4, h5⟩ (encode_not_zero he ht hv)
  · exact h4

/-- All fields of all built-in types. -/
def vanFields : List Field := vanRegistry.encodings.flatMap fun kv => kv.2.fields

/-- The Go type of the attribute `code`, the same in every built-in record type. -/
def vanTy (code : UInt32) : Option FTy := (vanFields.find? fun f => f.codepoint == code).map Field.ty

theorem vanTy_consistent : ∀ kv ∈ vanRegistry.encodings, ∀ f ∈ kv.2.fields, vanTy f.codepoint = some f.ty := by decide

theorem van_only_id_required : ∀ kv ∈ vanRegistry.encodings, ∀ f ∈ kv.2.fields,
    (f.identity = true ↔ f.codepoint = 1) ∧ (f.codepoint = 1 ↔ f.index = [0, 0]) := by decide

theorem van_has_id : ∀ kv ∈ vanRegistry.encodings, ∃ f ∈ kv.2.fields, f.index = [0, 0] ∧ f.codepoint = 1 ∧ f.ty = .str ∧
    f.identity = true := by decide

theorem van_noZero : ∀ kv ∈ vanRegistry.encodings, ∀ f ∈ kv.2.fields, f.codepoint ≠ 0 := by decide

/-- An attribute set that decodes to a record of the type encoded by `enc`. -/
structure AttrsOK (enc : TypeEnc) (a : Attrs) : Prop where
  reg : vanRegistry.encodings.get? enc.tname = some enc
  typ : a.get? typeOfRecord = some (.u32 enc.codepoint)
  attr : ∀ f ∈ vanFields, ∀ v, a.get? (.u32 f.codepoint) = some v → AttrFor f.ty v
  id : ∃ s, s ≠ "" ∧ a.get? (.u32 1) = some (.str s)

theorem mem_vanFields {e : TypeEnc} {n : String} (h : vanRegistry.encodings.get? n = some e) {f : Field} (hf : f ∈ e.fields) :
    f ∈ vanFields := List.mem_flatMap.2 ⟨(n, e), GMap.mem_of_get? h, hf⟩

theorem vanFields_ty {f g : Field} (hf : f ∈ vanFields) (hg : g ∈ vanFields) (h : f.codepoint = g.codepoint) : f.ty = g.ty := by
  obtain ⟨kv, hkv, hf'⟩ := List.mem_flatMap.1 hf
  obtain ⟨kw, hkw, hg'⟩ := List.mem_flatMap.1 hg
  have h1 := vanTy_consistent kv hkv f hf'
  have h2 := vanTy_consistent kw hkw g hg'
  rw [h, h2] at h1
  injection h1 with h1
  exact h1.symm

/-- The underlying struct value of a record. -/
def recVal : GoRec GoTime → Option (RecVal GoTime)
  | .value r | .pointer r => some r
  | _ => none

theorem encode_recVal {g : GoRec GoTime} {r : RecVal GoTime} (h : recVal g = some r) :
    encode vanEnv vanRegistry g = encode vanEnv vanRegistry (.value r) := by
  cases g <;> simp [recVal] at h <;> subst h <;> rfl

theorem GoodRecord.val {g : GoRec GoTime} (h : GoodRecord vanRegistry g) :
    ∃ r e, recVal g = some r ∧ r.tname ∈ recordKinds ∧ vanRegistry.encodings.get? r.tname = some e ∧ GoodEnc e ∧
      e.tname = r.tname ∧ vanRegistry.decodings.get? e.codepoint = some e ∧ HasStructTy e.decls r.mem := by
  obtain ⟨r, decls, code, hg, hk, hreg, ht⟩ := h
  obtain ⟨e, h1, h2, h3, h4, rfl, rfl⟩ := Registered.good vanRegistry_reach hreg
  refine ⟨r, e, ?_, hk, h1, h3, h4, h2, ht⟩
  rcases hg with rfl | rfl <;> rfl

/-- The attributes of an encodable record. -/
theorem GoodRecord.attrs {g : GoRec GoTime} (h : GoodRecord vanRegistry g) {a : Attrs}
    (ha : encode vanEnv vanRegistry g = .ok a) :
    ∃ r e, recVal g = some r ∧ e.tname = r.tname ∧ r.tname ∈ recordKinds ∧ AttrsOK e a ∧
      a.get? (.u32 1) = some (.str (recIdentity r)) ∧
      (∀ k, k ≠ typeOfRecord → (∀ f ∈ e.fields, k ≠ .u32 f.codepoint) → a.get? k = none) := by
  obtain ⟨r, e, hr, hk, he, hg, hn, hd, ht⟩ := GoodRecord.val h
  rw [encode_recVal hr] at ha
  have hmem := GMap.mem_of_get? he
  have hz := van_noZero _ hmem
  obtain ⟨h0, h1, h2, h3, h4⟩ := encode_get he hg hz ha
  have hattr : ∀ f ∈ e.fields, ∀ v, a.get? (.u32 f.codepoint) = some v → AttrFor f.ty v := by
    intro f hf v hv
    rw [h1 f hf] at hv
    obtain ⟨⟨tag, htag, _⟩, hen, hde⟩ := hg.sound f hf
    unfold encAttr at hv
    split at hv
    · simp at hv
    · rename_i x hx hv'
      simp only [Option.some.injEq] at hv; subst hv
      exact ⟨_, _, hen, ht _ _ htag.leaf, hv'⟩
    · simp at hv
  obtain ⟨fid, hfid, hix, hcp, hty, hident⟩ := van_has_id _ hmem
  simp only at hfid
  have hid : a.get? (.u32 1) = some (.str (recIdentity r)) ∧ recIdentity r ≠ "" := by
    have e1 := h1 fid hfid
    obtain ⟨⟨tag, htag, _⟩, hen, hde⟩ := hg.sound fid hfid
    have htyped := ht _ _ htag.leaf
    rw [hty] at hen htyped
    simp only [getFieldEncoder, Res.ok.injEq] at hen
    rcases h3 fid hfid with h5 | h5
    · rw [hix] at h5 htyped
      rw [hcp] at e1
      rw [e1]
      unfold encAttr recIdentity
      rw [← hen] at h5 ⊢
      rw [hix]
      cases hm : r.mem [0, 0] <;> rw [hm] at htyped <;> simp only [HasTy] at htyped
      rename_i s
      rw [hm] at h5
      simp only [FieldEncoder.encode, FVal.isZeroScalar] at h5 ⊢
      by_cases hs : s = ""
      · subst hs; simp at h5
      · simp [hs, FVal.toAny]
    · rw [hident] at h5; exact absurd h5 (by decide)
  refine ⟨r, e, hr, hn, hk, ⟨by rw [hn]; exact he, h0, ?_, ⟨_, hid.2, hid.1⟩⟩, hid.1, h2⟩
  intro f hf v hv
  by_cases hex : ∃ g ∈ e.fields, g.codepoint = f.codepoint
  · obtain ⟨g, hg', hgc⟩ := hex
    rw [← vanFields_ty (mem_vanFields he hg') hf hgc]
    rw [← hgc] at hv
    exact hattr g hg' v hv
  · exfalso
    rw [h2 (.u32 f.codepoint)] at hv
    · simp at hv
    · intro hc
      simp only [typeOfRecord, Any.u32.injEq] at hc
      obtain ⟨kv, hkv, hf'⟩ := List.mem_flatMap.1 hf
      exact van_noZero kv hkv f hf' hc
    · intro g hg' hc
      simp only [Any.u32.injEq] at hc
      exact hex ⟨g, hg', hc.symm⟩

/-- An attribute set like that decodes, to a record which encodes to the same attributes (those of its type). -/
theorem AttrsOK.decodes {e : TypeEnc} {a : Attrs} (h : AttrsOK e a) (hk : e.tname ∈ recordKinds) :
    ∃ m', decode vanEnv vanRegistry (some a) = .ok (.pointer ⟨e.tname, m'⟩) ∧
      GoodRecord vanRegistry (.pointer ⟨e.tname, m'⟩) ∧
      ∃ c, encode vanEnv vanRegistry (.pointer ⟨e.tname, m'⟩) = .ok c ∧
        c.get? typeOfRecord = some (.u32 e.codepoint) ∧
        (∀ f ∈ e.fields, c.get? (.u32 f.codepoint) = a.get? (.u32 f.codepoint)) ∧
        (∀ k, k ≠ typeOfRecord → (∀ f ∈ e.fields, k ≠ .u32 f.codepoint) → c.get? k = none) ∧
        a.get? (.u32 1) = some (.str (recIdentity ⟨e.tname, m'⟩)) := by
  obtain ⟨hg, hn, hd⟩ := vanRegistry_reach.inv.goodE _ _ h.reg
  have hmem := GMap.mem_of_get? h.reg
  have hz := van_noZero _ hmem
  have hdec : ∀ f ∈ e.fields, ∀ v, a.get? (.u32 f.codepoint) = some v →
      v ≠ .nil ∧ ∃ w, f.decoder.decode vanEnv f.ty v = .ok w ∧ HasTy f.ty w ∧ f.encoder.encode vanEnv w = .ok v := by
    intro f hf v hv
    obtain ⟨_, hen, hde⟩ := hg.sound f hf
    exact (h.attr f (mem_vanFields h.reg hf) v hv).stable hen hde
  obtain ⟨m', hm'⟩ := decodeFields_isOk (env := vanEnv) (attrs := a) (mem := zeroMem vanEnv e.decls) (fs := e.fields)
    (fun f hf hnone => by
      cases hid : f.identity with
      | false => rfl
      | true =>
        have := (van_only_id_required _ hmem f hf).1.1 hid
        obtain ⟨s, _, hs⟩ := h.id
        rw [this, hs] at hnone; simp at hnone)
    (fun f hf v hv => by obtain ⟨_, w, hw, _⟩ := hdec f hf v hv; exact ⟨w, hw⟩)
  obtain ⟨d1, d2, d3⟩ := decodeFields_ok hg.indexes hm'
  have hty : HasStructTy e.decls m' := by
    intro p ty hl
    by_cases hex : ∃ f ∈ e.fields, f.index = p
    · obtain ⟨f, hf, rfl⟩ := hex
      obtain ⟨⟨tag, htag, _⟩, hen, hde⟩ := hg.sound f hf
      have hty : ty = f.ty := by
        have h1 := declAt_iff.2 hl
        rw [declAt_iff.2 htag.leaf] at h1
        injection h1 with h1; exact h1.symm
      subst hty
      cases hv : a.get? (.u32 f.codepoint) with
      | none =>
        rw [(d1 f hf hv).2, zeroMem_leaf vanEnv htag.leaf]
        exact encode_zero_type hen
      | some v =>
        obtain ⟨_, w, hw, hw2, _⟩ := hdec f hf v hv
        have := d2 f hf v hv
        rw [hw] at this; injection this with this; rw [← this]; exact hw2
    · rw [d3 p (fun f hf hc => hex ⟨f, hf, hc.symm⟩), zeroMem_leaf vanEnv hl]
      cases ty <;> simp [FTy.zero, HasTy]
  have henc : ∀ f ∈ e.fields, encAttr vanEnv f m' = a.get? (.u32 f.codepoint) ∧
      (f.encoder.encode vanEnv (m' f.index) ≠ .error .notSet ∨ f.identity = false) ∧
      (∀ x, f.encoder.encode vanEnv (m' f.index) ≠ .error (.fail x)) := by
    intro f hf
    obtain ⟨⟨tag, htag, _⟩, hen, hde⟩ := hg.sound f hf
    cases hv : a.get? (.u32 f.codepoint) with
    | none =>
      obtain ⟨hi, h0⟩ := d1 f hf hv
      have hns : f.encoder.encode vanEnv (m' f.index) = .error .notSet := by
        rw [h0, zeroMem_leaf vanEnv htag.leaf, encode_notSet hen (encode_zero_type hen)]
        exact unset_zero hen vanEnv_zeroUnset
      exact ⟨by simp [encAttr, hns], Or.inr hi, by simp [hns]⟩
    | some v =>
      obtain ⟨hnil, w, hw, _, hw3⟩ := hdec f hf v hv
      have := d2 f hf v hv
      rw [hw] at this; injection this with this; subst this
      refine ⟨?_, by simp [hw3], by simp [hw3]⟩
      unfold encAttr; rw [hw3]
      cases v with
      | nil => exact absurd rfl hnil
      | _ => rfl
  obtain ⟨out, hout⟩ := encodeFields_isOk (env := vanEnv) (fs := e.fields) (mem := m') (acc := [])
    (fun f hf => (henc f hf).2.1) (fun f hf => (henc f hf).2.2)
  have hen : encode vanEnv vanRegistry (.value ⟨e.tname, m'⟩) = .ok (out.set typeOfRecord (.u32 e.codepoint)) := by
    simp [encode, h.reg, encodeWith, hout]
  obtain ⟨g0, g1, g2, _, _⟩ := encode_get h.reg hg hz hen
  have hgood : GoodRecord vanRegistry (.pointer ⟨e.tname, m'⟩) :=
    ⟨⟨e.tname, m'⟩, e.decls, e.codepoint, Or.inr rfl, hk, ⟨e, h.reg, rfl, rfl⟩, hty⟩
  refine ⟨m', ?_, hgood, _, hen, g0, ?_, g2, ?_⟩
  · simp [decode, h.typ, hd, hm']
  · intro f hf; rw [g1 f hf]; exact (henc f hf).1
  · obtain ⟨r, e', hr, _, _, _, hid, _⟩ := GoodRecord.attrs hgood hen
    simp only [recVal, Option.some.injEq] at hr
    subst hr
    obtain ⟨fid, hfid, _, hcp, _⟩ := van_has_id _ hmem
    have := (henc fid hfid).1
    rw [← g1 fid hfid, hcp] at this
    rw [← this]; exact hid

theorem get?_append (b a : Attrs) (k : Any) : GMap.get? (b ++ a) k = (GMap.get? b k).or (GMap.get? a k) := by
  induction b with
  | nil => simp
  | cons p b ih =>
    obtain ⟨x, y⟩ := p
    simp only [List.cons_append, GMap.get?_cons]
    split <;> simp [ih]

/-- Laying the attributes of one record over those of another gives again the attributes of a record, of the kind of the
upper one. -/
theorem AttrsOK.over {e e' : TypeEnc} {a b : Attrs} (ha : AttrsOK e a) (hb : AttrsOK e' b) : AttrsOK e' (b ++ a) where
  reg := hb.reg
  typ := by rw [get?_append, hb.typ]; rfl
  attr := by
    intro f hf v hv
    rw [get?_append] at hv
    cases h : b.get? (.u32 f.codepoint) with
    | some w => rw [h] at hv; simp at hv; subst hv; exact hb.attr f hf w h
    | none => rw [h] at hv; exact ha.attr f hf v hv
  id := by
    obtain ⟨s, hs, h⟩ := hb.id
    exact ⟨s, hs, by rw [get?_append, h]; rfl⟩

theorem isRecord_pointer {n : String} {m : Mem GoTime} (h : n ∈ recordKinds) : isRecord (.pointer ⟨n, m⟩) = true := by
  simpa [isRecord] using h

/-- The merge of two encodable built-in records. -/
theorem merge_records {x r : GoRec GoTime} (hx : GoodRecord vanRegistry x) (hr : GoodRecord vanRegistry r) {a b : Attrs}
    (ha : encode vanEnv vanRegistry x = .ok a) (hb : encode vanEnv vanRegistry r = .ok b) :
    ∃ y c, decode vanEnv vanRegistry (some (b ++ a)) = .ok y ∧ isRecord y = true ∧ GoodRecord vanRegistry y ∧
      vanIdentity y = vanIdentity r ∧ vanTypeMeta y = vanTypeMeta r ∧
      encode vanEnv vanRegistry y = .ok c ∧
      (∀ k v, b.get? k = some v → c.get? k = some v) ∧
      (vanTypeMeta x = vanTypeMeta r → ∀ k, c.get? k = (b.get? k).or (a.get? k)) := by
  obtain ⟨rx, ex, hrx, hnx, hkx, hax, hidx, hox⟩ := GoodRecord.attrs hx ha
  obtain ⟨rr, er, hrr, hnr, hkr, har, hidr, hor⟩ := GoodRecord.attrs hr hb
  have hk' : er.tname ∈ recordKinds := by rw [hnr]; exact hkr
  obtain ⟨m', h1, h2, c, h3, h4, h5, h6, h7⟩ := (hax.over har).decodes hk'
  have hv1 : vanIdentity r = .ok (recIdentity rr) := by cases r <;> simp [recVal] at hrr <;> subst hrr <;> rfl
  have hv2 : ∀ {g : GoRec GoTime} {v : RecVal GoTime}, recVal g = some v → vanTypeMeta g = .ok ⟨"flow/v1", v.tname⟩ := by
    intro g v hg; cases g <;> simp [recVal] at hg <;> subst hg <;> rfl
  refine ⟨_, c, h1, isRecord_pointer hk', h2, ?_, ?_, h3, ?_, ?_⟩
  · rw [hv1]
    rw [get?_append, hidr] at h7
    simp only [Option.some_or, Option.some.injEq, Any.str.injEq] at h7
    simp [vanIdentity, h7]
  · rw [hv2 hrr]; simp [vanTypeMeta, hnr]
  · intro k v hv
    by_cases h0 : k = typeOfRecord
    · subst h0; rw [h4, ← hv, har.typ]
    · by_cases hex : ∀ f ∈ er.fields, k ≠ .u32 f.codepoint
      · rw [hor k h0 hex] at hv; simp at hv
      · simp only [Classical.not_forall, Classical.not_not] at hex
        obtain ⟨f, hf, rfl⟩ := hex
        rw [h5 f hf, get?_append, hv]; rfl
  · intro hsame k
    rw [hv2 hrx, hv2 hrr] at hsame
    simp only [Res.ok.injEq, TypeMeta.mk.injEq, true_and] at hsame
    have hee : ex = er := by
      have e1 := hax.reg
      have e2 := har.reg
      rw [hnx, hsame, ← hnr, e2] at e1
      injection e1 with e1; exact e1.symm
    subst hee
    by_cases h0 : k = typeOfRecord
    · subst h0; rw [h4, har.typ]; rfl
    · by_cases hex : ∀ f ∈ ex.fields, k ≠ .u32 f.codepoint
      · rw [h6 k h0 hex, hor k h0 hex, hox k h0 hex]; rfl
      · simp only [Classical.not_forall, Classical.not_not] at hex
        obtain ⟨f, hf, rfl⟩ := hex
        rw [h5 f hf, get?_append]

end Verif.Proofs
