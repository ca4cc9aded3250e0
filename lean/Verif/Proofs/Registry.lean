import Verif.Proofs.Encoding
import Verif.Proofs.Time
import Verif.Model.Records

/-!
# The registry: history lemmas, and the built-in registry
-/
namespace Verif.Proofs
open Verif Verif.Model Verif.Spec

variable {X : Type}

theorem registerAll_reach {ts : List (UInt32 × GoType)} {reg reg' : Registry} (hr : ReachReg reg)
    (h : registerAll reg ts = .ok reg') : ReachReg reg' := by
  induction ts generalizing reg with
  | nil => simp [registerAll] at h; subst h; exact hr
  | cons t ts ih =>
    simp only [registerAll] at h
    rw [Res.bind_eq_ok] at h
    obtain ⟨r1, h1, h2⟩ := h
    exact ih (.register hr h1) h2

theorem vanInit_ok : vanInit = .ok vanRegistry := by
  have h : vanInit.isOk = true := by decide
  unfold vanRegistry
  cases hv : vanInit with
  | ok r => rfl
  | _ => rw [hv] at h; simp at h

theorem vanRegistry_reach : ReachReg vanRegistry := registerAll_reach .empty vanInit_ok

/-- Registered types have good encodings. -/
theorem _root_.Verif.Spec.Registered.good {reg : Registry} (hr : ReachReg reg) {name : String} {decls : List FieldDecl} {code : UInt32}
    (h : Registered reg name decls code) :
    ∃ e, reg.encodings.get? name = some e ∧ reg.decodings.get? code = some e ∧ GoodEnc e ∧ e.tname = name ∧
      e.decls = decls ∧ e.codepoint = code := by
  obtain ⟨e, he, rfl, rfl⟩ := h
  obtain ⟨h1, h2, h3⟩ := hr.inv.goodE name e he
  exact ⟨e, he, h3, h1, h2, rfl, rfl⟩

theorem GoodEnc.noZero {e : TypeEnc} (h : GoodEnc e) (hz : NoCodeZero e.decls) : ∀ f ∈ e.fields, f.codepoint ≠ 0 := by
  intro f hf hc
  obtain ⟨tag, ht, hcode, _⟩ := h.tag_of_field hf
  rw [hc] at hcode
  exact hz _ _ _ ht hcode

theorem GoodEnc.noCodeZero {e : TypeEnc} (h : GoodEnc e) (hz : ∀ f ∈ e.fields, f.codepoint ≠ 0) : NoCodeZero e.decls := by
  intro p tag ty ht hc
  obtain ⟨f, hf, _, _, h1, _⟩ := h.field_of_tag ht
  exact hz f hf (UInt32.toNat_inj.1 (TagCode.functional h1 hc))

theorem encode_value_eq {env : CodecEnv X} {reg : Registry} {name : String} {m : Mem X} {e : TypeEnc} {attrs : Attrs}
    (he : reg.encodings.get? name = some e) (h : encode env reg (.value ⟨name, m⟩) = .ok attrs) :
    ∃ out, encodeFields env e.fields m [] = .ok out ∧ attrs = out.set typeOfRecord (.u32 e.codepoint) := by
  simp only [encode, he, encodeWith] at h
  rw [map_eq_ok] at h
  obtain ⟨out, h1, h2⟩ := h
  exact ⟨out, h1, h2.symm⟩

/-- The attributes of an encoded value, field by field. -/
theorem encode_get {env : CodecEnv X} {reg : Registry} {name : String} {m : Mem X} {e : TypeEnc} {attrs : Attrs}
    (he : reg.encodings.get? name = some e) (hg : GoodEnc e) (hz : ∀ f ∈ e.fields, f.codepoint ≠ 0)
    (h : encode env reg (.value ⟨name, m⟩) = .ok attrs) :
    attrs.get? typeOfRecord = some (.u32 e.codepoint) ∧
    (∀ f ∈ e.fields, attrs.get? (.u32 f.codepoint) = encAttr env f m) ∧
    (∀ k, k ≠ typeOfRecord → (∀ f ∈ e.fields, k ≠ .u32 f.codepoint) → attrs.get? k = none) ∧
    (∀ f ∈ e.fields, f.encoder.encode env (m f.index) ≠ .error .notSet ∨ f.identity = false) ∧
    (∀ f ∈ e.fields, ∀ x, f.encoder.encode env (m f.index) ≠ .error (.fail x)) := by
  obtain ⟨out, h1, rfl⟩ := encode_value_eq he h
  obtain ⟨a, b, c, d⟩ := encodeFields_ok hg.codes h1
  refine ⟨by simp, ?_, ?_, c, d⟩
  · intro f hf
    rw [GMap.get?_set_ne, a f hf]
    · cases encAttr env f m <;> rfl
    · intro hc; simp only [typeOfRecord, Any.u32.injEq] at hc; exact hz f hf hc.symm
  · intro k hk hk'
    rw [GMap.get?_set_ne _ _ (Ne.symm hk), b k hk']; rfl

end Verif.Proofs
