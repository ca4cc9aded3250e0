import Verif.Spec.FieldTypes
import Verif.Spec.Encoding

/-!
# C98: field types that registration accepts
-/
namespace Verif.Props
open Verif Verif.Model Verif.Spec

variable {X : Type}

/-! ## The simple model is a part of this one -/

theorem toGo_encoder (env : CodecEnv X) : ∀ t : FTy,
    (∀ e, getFieldEncoder t = .ok e → gEncoder env.toGo t.toGo = some e.toGo) ∧ ((∀ e, getFieldEncoder t ≠ .ok e) → gEncoder env.toGo t.toGo = none)
  | .str | .u32 | .u64 | .i32 | .i64 => by simp [getFieldEncoder, gEncoder, FTy.toGo, GKind.scalar, FieldEncoder.toGo]
  | .custom n => by simp [getFieldEncoder, gEncoder, FTy.toGo, implementsEnc, CodecEnv.toGo, FieldEncoder.toGo]
  | .unsupported k => by simp [getFieldEncoder, gEncoder, FTy.toGo, GKind.scalar]
  | .ptr t => by
    obtain ⟨h1, h2⟩ := toGo_encoder env t
    cases t with
    | custom n => simp [getFieldEncoder, gEncoder, FTy.toGo, implementsEnc, CodecEnv.toGo, FieldEncoder.toGo]
    | str | u32 | u64 | i32 | i64 => simp [getFieldEncoder, gEncoder, FTy.toGo, implementsEnc, GKind.scalar, FieldEncoder.toGo, Res.map]
    | unsupported k => simp [getFieldEncoder, gEncoder, FTy.toGo, implementsEnc, GKind.scalar, Res.map]
    | ptr t =>
      have hg : gEncoder env.toGo (FTy.ptr (FTy.ptr t)).toGo = (gEncoder env.toGo (FTy.ptr t).toGo).map .pointer := by
        rw [show (FTy.ptr (FTy.ptr t)).toGo = .ptr (FTy.ptr t).toGo from rfl, gEncoder.eq_1]
        simp [implementsEnc, FTy.toGo]
      have hs : getFieldEncoder (.ptr (.ptr t)) = (getFieldEncoder (.ptr t)).map .pointer := rfl
      rw [hg, hs]
      cases he : getFieldEncoder (.ptr t) with
      | ok e => rw [h1 e he]; simp [Res.map, FieldEncoder.toGo]
      | err m => rw [h2 (by rw [he]; simp)]; simp [Res.map]
      | panic m => rw [h2 (by rw [he]; simp)]; simp [Res.map]

theorem toGo_decoder (env : CodecEnv X) : ∀ t : FTy,
    (∀ d, getFieldDecoder t = .ok d → gDecoder env.toGo t.toGo = some d.toGo) ∧ ((∀ d, getFieldDecoder t ≠ .ok d) → gDecoder env.toGo t.toGo = none)
  | .str | .u32 | .u64 | .i32 | .i64 => by simp [getFieldDecoder, gDecoder, FTy.toGo, GKind.scalar, FieldDecoder.toGo]
  | .custom n => by simp [getFieldDecoder, gDecoder, FTy.toGo, implementsDec, CodecEnv.toGo, FieldDecoder.toGo]
  | .unsupported k => by simp [getFieldDecoder, gDecoder, FTy.toGo, GKind.scalar]
  | .ptr t => by
    obtain ⟨h1, h2⟩ := toGo_decoder env t
    cases t with
    | custom n => simp [getFieldDecoder, gDecoder, FTy.toGo, implementsDec, CodecEnv.toGo, FieldDecoder.toGo]
    | str | u32 | u64 | i32 | i64 => simp [getFieldDecoder, gDecoder, FTy.toGo, implementsDec, GKind.scalar, FieldDecoder.toGo, Res.map]
    | unsupported k => simp [getFieldDecoder, gDecoder, FTy.toGo, implementsDec, GKind.scalar, Res.map]
    | ptr t =>
      have hg : gDecoder env.toGo (FTy.ptr (FTy.ptr t)).toGo = (gDecoder env.toGo (FTy.ptr t).toGo).map .pointer := by
        rw [show (FTy.ptr (FTy.ptr t)).toGo = .ptr (FTy.ptr t).toGo from rfl, gDecoder.eq_1]
        simp [implementsDec, FTy.toGo]
      have hs : getFieldDecoder (.ptr (.ptr t)) = (getFieldDecoder (.ptr t)).map .pointer := rfl
      rw [hg, hs]
      cases he : getFieldDecoder (.ptr t) with
      | ok d => rw [h1 d he]; simp [Res.map, FieldDecoder.toGo]
      | err m => rw [h2 (by rw [he]; simp)]; simp [Res.map]
      | panic m => rw [h2 (by rw [he]; simp)]; simp [Res.map]

/-- C98: the simple model of the encoders (`Verif/Model/Encoding.lean`) is this one on its types: registration accepts the same fields, with the same encoders and decoders. -/
theorem C98_simple_accepts (env : CodecEnv X) (t : FTy) :
    Accepts env.toGo t.toGo ↔ (∃ e, getFieldEncoder t = .ok e) ∧ ∃ d, getFieldDecoder t = .ok d := by
  obtain ⟨h1, h2⟩ := toGo_encoder env t
  obtain ⟨h3, h4⟩ := toGo_decoder env t
  unfold Accepts
  constructor
  · rintro ⟨⟨e, he⟩, d, hd⟩
    constructor
    · apply Classical.byContradiction
      intro hn
      rw [h2 fun e h => hn ⟨e, h⟩] at he
      cases he
    · apply Classical.byContradiction
      intro hn
      rw [h4 fun e h => hn ⟨e, h⟩] at hd
      cases hd
  · rintro ⟨⟨e, he⟩, d, hd⟩
    exact ⟨⟨_, h1 e he⟩, _, h3 d hd⟩

theorem simple_toGo (a : Any) : a.toGo.simple = a := by cases a <;> simp [Any.toGo, DAny.simple]

theorem ptr_encoder {t : FTy} {e : FieldEncoder} (hc : ∀ n, t ≠ .custom n) (h : getFieldEncoder (.ptr t) = .ok e) : ∃ e', getFieldEncoder t = .ok e' ∧ e = .pointer e' := by
  have : getFieldEncoder (.ptr t) = (getFieldEncoder t).map .pointer := by cases t <;> first | rfl | exact absurd rfl (hc _)
  rw [this] at h
  cases hg : getFieldEncoder t <;> rw [hg] at h <;> cases h
  exact ⟨_, rfl, rfl⟩

theorem ptr_decoder {t : FTy} {d : FieldDecoder} (hc : ∀ n, t ≠ .custom n) (h : getFieldDecoder (.ptr t) = .ok d) : ∃ d', getFieldDecoder t = .ok d' ∧ d = .pointer d' := by
  have : getFieldDecoder (.ptr t) = (getFieldDecoder t).map .pointer := by cases t <;> first | rfl | exact absurd rfl (hc _)
  rw [this] at h
  cases hg : getFieldDecoder t <;> rw [hg] at h <;> cases h
  exact ⟨_, rfl, rfl⟩

theorem ite_encRes (b : Bool) (a : Any) : (if b = true then EncRes.notSet else .ok a.toGo) = .of ((if b = true then .error EncErr.notSet else .ok a : Except EncErr Any).map Any.toGo) := by
  cases b <;> rfl

/-- C98: … they encode every value alike … -/
theorem C98_simple_encode (env : CodecEnv X) {t : FTy} {e : FieldEncoder} {v : FVal X} (he : getFieldEncoder t = .ok e) (hv : HasTy t v) :
    e.toGo.encode env.toGo t.toGo v.toGo = .of ((e.encode env v).map Any.toGo) := by
  induction t generalizing e v with
  | str =>
    cases he
    cases v <;> simp [HasTy] at hv
    rename_i x
    exact ite_encRes (FVal.isZeroScalar (.str x : FVal X)) (.str x)
  | u32 =>
    cases he
    cases v <;> simp [HasTy] at hv
    rename_i x
    exact ite_encRes (FVal.isZeroScalar (.u32 x : FVal X)) (.u32 x)
  | u64 =>
    cases he
    cases v <;> simp [HasTy] at hv
    rename_i x
    exact ite_encRes (FVal.isZeroScalar (.u64 x : FVal X)) (.u64 x)
  | i32 =>
    cases he
    cases v <;> simp [HasTy] at hv
    rename_i x
    exact ite_encRes (FVal.isZeroScalar (.i32 x : FVal X)) (.i32 x)
  | i64 =>
    cases he
    cases v <;> simp [HasTy] at hv
    rename_i x
    exact ite_encRes (FVal.isZeroScalar (.i64 x : FVal X)) (.i64 x)
  | custom n =>
    cases he
    cases v <;> simp [HasTy] at hv
    rfl
  | unsupported k => cases he
  | ptr t ih =>
    cases t with
    | custom n =>
      cases he
      cases v with
      | nilp => rfl
      | ptr v =>
        cases v <;> simp [HasTy] at hv
        rfl
      | _ => simp [HasTy] at hv
    | _ =>
      obtain ⟨e, h1, rfl⟩ := ptr_encoder (by simp) he
      cases v with
      | nilp => rfl
      | ptr v => exact ih h1 hv
      | _ => simp [HasTy] at hv

/-- C98: … and decode every attribute alike. -/
theorem C98_simple_decode (env : CodecEnv X) {t : FTy} {d : FieldDecoder} (a : Any) (hd : getFieldDecoder t = .ok d) :
    d.toGo.decode env.toGo t.toGo a.toGo = (d.decode env t a).map FVal.toGo := by
  induction t generalizing d with
  | str | u32 | u64 | i32 | i64 => cases hd; cases a <;> rfl
  | custom n =>
    cases hd
    simp only [FieldDecoder.toGo, FTy.toGo, GDecoder.decode, FieldDecoder.decode, recordAttrDecode, CodecEnv.toGo, simple_toGo]
    cases (env n).dec a <;> rfl
  | unsupported k => cases hd
  | ptr t ih =>
    cases t with
    | custom n =>
      cases hd
      simp only [FieldDecoder.toGo, FTy.toGo, GDecoder.decode, FieldDecoder.decode, recordAttrDecode, CodecEnv.toGo, simple_toGo]
      cases (env n).dec a <;> rfl
    | _ =>
      obtain ⟨d, h1, rfl⟩ := ptr_decoder (by simp) hd
      have := ih h1
      simp only [FieldDecoder.toGo, FTy.toGo, GDecoder.decode, FieldDecoder.decode] at this ⊢
      rw [this]
      generalize FieldDecoder.decode env _ _ a = r
      cases r <;> rfl

/-! ## What is accepted -/

theorem gEncoder_iff (env : GEnv X) : ∀ t : GTy, (∃ e, gEncoder env t = some e) ↔
    match core t with
    | .basic k => k ≠ .other
    | .defined n k => k ≠ .other ∨ (env.methods n).enc = .value ∨ ((env.methods n).enc = .pointer ∧ 0 < depth t)
    | .iface e _ => e = true
    | .ptr _ => False
  | .basic k => by cases k <;> simp [gEncoder, core, GKind.scalar]
  | .defined n k => by
    cases hm : (env.methods n).enc <;> cases k <;> simp [gEncoder, core, GKind.scalar, implementsEnc, hm, depth]
  | .iface e d => by cases e <;> simp [gEncoder, core, implementsEnc]
  | .ptr t => by
    have ih := gEncoder_iff env t
    cases t with
    | basic k => cases k <;> simp [gEncoder, core, GKind.scalar, implementsEnc]
    | defined n k => cases hm : (env.methods n).enc <;> cases k <;> simp [gEncoder, core, GKind.scalar, implementsEnc, hm, depth]
    | iface e d => cases e <;> simp [gEncoder, core, implementsEnc]
    | ptr t =>
      have hg : (∃ e, gEncoder env (.ptr (.ptr t)) = some e) ↔ ∃ e, gEncoder env (.ptr t) = some e := by
        conv => lhs; rw [gEncoder.eq_1]
        simp only [implementsEnc, Bool.false_eq_true, if_false]
        cases gEncoder env (.ptr t) <;> simp
      rw [hg, ih]
      simp [core, depth]

theorem gDecoder_iff (env : GEnv X) : ∀ t : GTy, (∃ d, gDecoder env t = some d) ↔
    match core t with
    | .basic k => k ≠ .other
    | .defined n k => k ≠ .other ∨ (env.methods n).dec ≠ .absent
    | .iface _ d => d = true
    | .ptr _ => False
  | .basic k => by cases k <;> simp [gDecoder, core, GKind.scalar]
  | .defined n k => by
    cases hm : (env.methods n).dec <;> cases k <;> simp [gDecoder, core, GKind.scalar, implementsDec, hm]
  | .iface e d => by cases d <;> simp [gDecoder, core, implementsDec]
  | .ptr t => by
    have ih := gDecoder_iff env t
    cases t with
    | basic k => cases k <;> simp [gDecoder, core, GKind.scalar, implementsDec]
    | defined n k => cases hm : (env.methods n).dec <;> cases k <;> simp [gDecoder, core, GKind.scalar, implementsDec, hm]
    | iface e d => cases d <;> simp [gDecoder, core, implementsDec]
    | ptr t =>
      have hg : (∃ e, gDecoder env (.ptr (.ptr t)) = some e) ↔ ∃ e, gDecoder env (.ptr t) = some e := by
        conv => lhs; rw [gDecoder.eq_1]
        simp only [implementsDec, Bool.false_eq_true, if_false]
        cases gDecoder env (.ptr t) <;> simp
      rw [hg, ih]
      simp [core]

/-- C98: which field types are accepted: pointers, of any number, to a scalar kind (whatever the methods of the type), to a type that has both methods (the encoder on the value, or the field is
a pointer), or to an interface with both methods. -/
theorem C98_accepts (env : GEnv X) (t : GTy) : Accepts env t ↔
    match core t with
    | .basic k => k ≠ .other
    | .defined n k => k ≠ .other ∨ ((env.methods n).enc = .value ∨ ((env.methods n).enc = .pointer ∧ 0 < depth t)) ∧ (env.methods n).dec ≠ .absent
    | .iface e d => e = true ∧ d = true
    | .ptr _ => False := by
  unfold Accepts
  rw [gEncoder_iff, gDecoder_iff]
  cases core t <;> simp
  rename_i n k
  cases k <;> simp

/-- C98: the coherent types are accepted. -/
theorem C98_coherent_accepted {env : GEnv X} {t : GTy} (h : Coherent env t) : Accepts env t := by
  rw [C98_accepts]
  unfold Coherent at h
  cases hc : core t with
  | basic k => simpa [hc] using h
  | defined n k =>
    simp only [hc] at h ⊢
    rcases h with ⟨-, -, h⟩ | ⟨h1, h2⟩
    · exact .inl h
    · exact .inr ⟨h2, by simp [h1]⟩
  | ptr t => simp [hc] at h
  | iface e d => simp [hc] at h

/-! ## Coherent types -/

theorem of_ok {r : Except EncErr DAny} {a : DAny} (h : EncRes.of r = .ok a) : r = .ok a := by
  cases r with
  | ok b => cases h; rfl
  | error e => cases e <;> cases h

theorem of_panic {r : Except EncErr DAny} : EncRes.of r ≠ .panic := by
  cases r with
  | ok b => simp [EncRes.of]
  | error e => cases e <;> simp [EncRes.of]

theorem raw_holds {k : GKind} {c : Any} (h : IsOf (X := X) (.basic k) (.sc c)) : k.holds c = true := by cases h <;> rfl

theorem core_ptr (t : GTy) : ∀ u, core t ≠ .ptr u := by
  induction t with
  | ptr t ih => exact ih
  | _ => simp [core]

/-- C98, for a field of a coherent type: what is encoded is decoded to the value it came from, provided the attribute is handed over as it is, with its Go type, and the methods of the type lose
nothing. -/
theorem C98_handed_over {env : GEnv X} {t : GTy} {e : GEncoder} {d : GDecoder} {v : GVal X} {a : DAny} (hc : Coherent env t) (hl : LosslessMethods env) (he : gEncoder env t = some e)
    (hd : gDecoder env t = some d) (hv : IsOf t v) (h : e.encode env t v = .ok a) : d.decode env t a = .ok v := by
  induction t generalizing e d v with
  | basic k =>
    have hk : k ≠ .other := hc
    have hs : k.scalar = true := by cases k <;> simp_all [GKind.scalar]
    simp only [gEncoder, gDecoder, hs, if_true, Option.some.injEq] at he hd
    subst he hd
    cases v with
    | sc c =>
      simp only [GEncoder.encode] at h
      split at h
      · cases h
      · cases h
        simp [GDecoder.decode, GTy.dyn, GTy.kind, raw_holds hv]
    | _ => cases hv <;> exact absurd rfl hk
  | defined n k =>
    have hc : ((env.methods n).enc = .absent ∧ (env.methods n).dec = .absent ∧ k ≠ .other) ∨
      ((env.methods n).dec = .pointer ∧ ((env.methods n).enc = .value ∨ ((env.methods n).enc = .pointer ∧ 0 < 0))) := hc
    rcases hc with ⟨h1, h2, h3⟩ | ⟨h1, h2 | ⟨-, h2⟩⟩
    · have hs : k.scalar = true := by cases k <;> simp_all [GKind.scalar]
      simp only [gEncoder, gDecoder, implementsEnc, implementsDec, h1, h2, hs] at he hd
      cases he
      cases hd
      cases hv with
      | named hv =>
        simp only [GEncoder.encode] at h
        split at h
        · cases h
        · cases h
          simp [GDecoder.decode, GTy.dyn, GTy.kind, raw_holds hv]
      | struct x => exact absurd rfl h3
    · simp only [gEncoder, gDecoder, implementsEnc, implementsDec, h1, h2] at he hd
      cases he
      cases hd
      simp only [GEncoder.encode] at h
      simp [GDecoder.decode, hl _ _ _ (of_ok h), h1]
    · omega
  | iface e d => exact hc.elim
  | ptr t ih =>
    cases t with
    | basic k =>
      have hs : k.scalar = true := by
        have : k ≠ .other := hc
        cases k <;> simp_all [GKind.scalar]
      simp only [gEncoder, gDecoder, implementsEnc, implementsDec, hs, if_true, Option.map_some] at he hd
      cases he
      cases hd
      cases hv with
      | nil => cases h
      | ptr hv =>
        have := ih (e := .raw) (d := .raw) hc (by simp [gEncoder, hs]) (by simp [gDecoder, hs]) hv h
        simp [GDecoder.decode, this, Res.map]
    | iface e d => exact hc.elim
    | ptr t =>
      have hg1 : gEncoder env (.ptr (.ptr t)) = (gEncoder env (.ptr t)).map .pointer := by rw [gEncoder.eq_1]; simp [implementsEnc]
      have hg2 : gDecoder env (.ptr (.ptr t)) = (gDecoder env (.ptr t)).map .pointer := by rw [gDecoder.eq_1]; simp [implementsDec]
      rw [hg1] at he
      rw [hg2] at hd
      obtain ⟨e, he', rfl⟩ := Option.map_eq_some_iff.1 he
      obtain ⟨d, hd', rfl⟩ := Option.map_eq_some_iff.1 hd
      cases hv with
      | nil => cases h
      | ptr hv =>
        have hc' : Coherent env (.ptr t) := by
          unfold Coherent at hc ⊢
          simpa [core, depth] using hc
        have := ih hc' he' hd' hv h
        simp [GDecoder.decode, this, Res.map]
    | defined n k =>
      have hc : ((env.methods n).enc = .absent ∧ (env.methods n).dec = .absent ∧ k ≠ .other) ∨
        ((env.methods n).dec = .pointer ∧ ((env.methods n).enc = .value ∨ ((env.methods n).enc = .pointer ∧ 0 < 1))) := hc
      rcases hc with ⟨h1, h2, h3⟩ | ⟨h1, h2⟩
      · have hs : k.scalar = true := by cases k <;> simp_all [GKind.scalar]
        simp only [gEncoder, gDecoder, implementsEnc, implementsDec, h1, h2, hs] at he hd
        cases he
        cases hd
        cases hv with
        | nil => cases h
        | ptr hv =>
          have := ih (e := .raw) (d := .raw) (.inl ⟨h1, h2, h3⟩) (by simp [gEncoder, implementsEnc, h1, hs]) (by simp [gDecoder, implementsDec, h2, hs]) hv h
          simp [GDecoder.decode, this, Res.map]
      · have h2 : (env.methods n).enc ≠ .absent := by rcases h2 with h2 | ⟨h2, -⟩ <;> simp [h2]
        simp only [gEncoder, gDecoder, implementsEnc, implementsDec, h1, h2, ne_eq, not_false_eq_true, decide_true, if_true, reduceCtorEq, Option.some.injEq] at he hd
        subst he hd
        cases hv with
        | nil => cases h
        | ptr hv =>
          simp only [GEncoder.encode] at h
          simp [GDecoder.decode, hl _ _ _ (of_ok h), h1]

/-- C98, the part that holds: a value of a field that is a scalar of a predeclared type, or of a type with both methods, below any number of pointers, arrives as it was sent, over any transport that
hands over values of predeclared types; provided the methods lose nothing and encode to such values.  Missing: defined scalar types without methods, which never arrive (`C98_named_never_arrives`); types
with one of the methods, or with the decoder on the value (`C98_value_receiver`); interfaces (`C98_iface_panics`). -/
theorem C98_arrives_partial {env : GEnv X} {t : GTy} {e : GEncoder} {d : GDecoder} {v : GVal X} {a : DAny} (hc : Coherent env t) (hn : ∀ n k, core t = .defined n k → (env.methods n).enc ≠ .absent)
    (hl : LosslessMethods env) (hp : ∀ n v n' c, env.encM n v = .ok (.val n' c) → n' = "") {wire : DAny → Option DAny} (hw : ∀ c, wire (.val "" c) = some (.val "" c)) (hw' : wire .nil = some .nil)
    (he : gEncoder env t = some e) (hd : gDecoder env t = some d) (hv : IsOf t v) (h : e.encode env t v = .ok a) : ∃ b, wire a = some b ∧ d.decode env t b = .ok v := by
  suffices ha : a = .nil ∨ ∃ c, a = .val "" c by
    have hk : wire a = some a := by
      rcases ha with rfl | ⟨c, rfl⟩
      · exact hw'
      · exact hw c
    exact ⟨a, hk, C98_handed_over hc hl he hd hv h⟩
  have hm : ∀ n v, EncRes.of (env.encM n v) = .ok a → a = .nil ∨ ∃ c, a = .val "" c := by
    intro n v h
    cases a with
    | nil => exact .inl rfl
    | val n' c => exact .inr ⟨c, by rw [hp n v n' c (of_ok h)]⟩
  clear hd hl hw hw' d
  induction t generalizing e v with
  | basic k =>
    cases hv <;> (cases e <;> simp only [GEncoder.encode] at h <;> try (cases h; done))
    all_goals
      split at h
      · cases h
      · cases h; exact .inr ⟨_, rfl⟩
  | defined n k =>
    have he' := hn n k rfl
    have hm' : (env.methods n).enc = .value := by
      rcases hc with ⟨h1, -⟩ | ⟨-, h1 | ⟨-, h1⟩⟩
      · exact absurd h1 he'
      · exact h1
      · exact absurd h1 (Nat.lt_irrefl 0)
    simp only [gEncoder, implementsEnc, hm', decide_true, if_true, Option.some.injEq] at he
    subst he
    exact hm n v h
  | iface e d => exact hc.elim
  | ptr t ih =>
    cases hv with
    | nil => cases e <;> cases h
    | @ptr _ v hv =>
      cases e with
      | raw => cases h
      | attr =>
        cases t with
        | defined n k => exact hm n v h
        | _ => cases h
      | pointer sub =>
        have hs : gEncoder env t = some sub := by
          rw [gEncoder.eq_1] at he
          split at he
          · cases he
          · obtain ⟨x, hx, hx'⟩ := Option.map_eq_some_iff.1 he
            cases hx'
            exact hx
        have hc' : Coherent env t := by
          cases t with
          | defined n k =>
            rcases hc with ⟨h1, h2⟩ | ⟨h1, h2⟩
            · exact .inl ⟨h1, h2⟩
            · have : (env.methods n).enc ≠ .absent := by rcases h2 with h2 | ⟨h2, -⟩ <;> simp [h2]
              simp [gEncoder, implementsEnc, this] at he
          | ptr t => unfold Coherent at hc ⊢; simpa [core, depth] using hc
          | _ => exact hc
        exact ih hc' hn hs hv h

/-! ## The others -/

/-- C98 is false for a defined scalar type without methods, such as `type Direction string`: it is accepted, its values are encoded, but over a transport that hands over predeclared types the attribute
is never decoded (the assignment wants the very same type). -/
theorem C98_named_never_arrives {env : GEnv X} {n : String} {k : GKind} (hne : n ≠ "") (hk : k ≠ .other) (h1 : (env.methods n).enc = .absent) (h2 : (env.methods n).dec = .absent) :
    Accepts env (.defined n k) ∧ ∀ e d, gEncoder env (.defined n k) = some e → gDecoder env (.defined n k) = some d →
      (∀ c, IsOf (X := X) (.defined n k) (.sc c) → zeroContent c = false → e.encode env (.defined n k) (.sc c) = .ok (.val n c)) ∧
      ∀ wire, Plain wire → ∀ a b, wire a = some b → ∀ v, d.decode env (.defined n k) b ≠ .ok v := by
  have hs : k.scalar = true := by cases k <;> simp_all [GKind.scalar]
  refine ⟨?_, fun e d he hd => ?_⟩
  · rw [C98_accepts]; exact .inl hk
  · simp only [gEncoder, gDecoder, implementsEnc, implementsDec, h1, h2, hs] at he hd
    cases he
    cases hd
    refine ⟨fun c _ hz => by simp [GEncoder.encode, hz, GTy.dyn], fun wire hw a b hab v h => ?_⟩
    cases b with
    | nil => cases h
    | val n' c =>
      have : n' = "" := hw a _ hab n' c rfl
      simp [GDecoder.decode, GTy.dyn, this, hne] at h

/-- C98 is false for an interface type with both methods: it is accepted; encoding panics when the field is nil, and if there is a value in it sends what its method gives; decoding panics always. -/
theorem C98_iface_panics (env : GEnv X) :
    Accepts env (.iface true true) ∧ ∀ e d, gEncoder env (.iface true true) = some e → gDecoder env (.iface true true) = some d →
      e.encode env (.iface true true) .nilIface = .panic ∧ (∀ n v a, env.encM n v = .ok a → e.encode env (.iface true true) (.iface n v) = .ok a) ∧
      ∀ a, ∃ m, d.decode env (.iface true true) a = .panic m := by
  refine ⟨by rw [C98_accepts]; exact ⟨rfl, rfl⟩, fun e d he hd => ?_⟩
  simp only [gEncoder, gDecoder, implementsEnc, implementsDec, if_true, Option.some.injEq] at he hd
  subst he hd
  exact ⟨rfl, fun n v a h => by simp [GEncoder.encode, EncRes.of, h], fun a => ⟨_, rfl⟩⟩

/-- C98 is false for a type whose decoder is declared on the value: it is accepted, but whatever arrives the field keeps its zero value. -/
theorem C98_value_receiver {env : GEnv X} {n : String} {k : GKind} (h1 : (env.methods n).enc = .value) (h2 : (env.methods n).dec = .value) :
    Accepts env (.defined n k) ∧ ∀ d, gDecoder env (.defined n k) = some d → ∀ a v, d.decode env (.defined n k) a = .ok v → v = (GTy.defined n k).zero env := by
  refine ⟨by rw [C98_accepts]; exact .inr ⟨.inl h1, by simp [h2]⟩, fun d hd a v h => ?_⟩
  simp only [gDecoder, implementsDec, h2] at hd
  cases hd
  simp only [GDecoder.decode, h2] at h
  split at h
  · cases h
  · cases h; rfl

/-- C98 is false for a scalar type that has only the encoder, such as a `type Millis uint64` that encodes to a `uint64`: it is accepted, and encoded by its method, but never decoded. -/
theorem C98_encoder_only {env : GEnv X} {n : String} {k : GKind} (hne : n ≠ "") (hk : k ≠ .other) (h1 : (env.methods n).enc = .value) (h2 : (env.methods n).dec = .absent) :
    Accepts env (.defined n k) ∧ ∀ e d, gEncoder env (.defined n k) = some e → gDecoder env (.defined n k) = some d →
      (∀ v, e.encode env (.defined n k) v = .of (env.encM n v)) ∧ ∀ wire, Plain wire → ∀ a b, wire a = some b → ∀ v, d.decode env (.defined n k) b ≠ .ok v := by
  have hs : k.scalar = true := by cases k <;> simp_all [GKind.scalar]
  refine ⟨?_, fun e d he hd => ?_⟩
  · rw [C98_accepts]; exact .inl hk
  · simp only [gEncoder, gDecoder, implementsEnc, implementsDec, h1, h2, hs] at he hd
    cases he
    cases hd
    refine ⟨fun v => by simp [GEncoder.encode], fun wire hw a b hab v h => ?_⟩
    cases b with
    | nil => cases h
    | val n' c =>
      have : n' = "" := hw a _ hab n' c rfl
      simp [GDecoder.decode, GTy.dyn, this, hne] at h

/-- The zero value of a type is a value of the type; and of what is no interface and has no encoder method, nothing is sent for it. -/
theorem C98_zero (env : GEnv X) (t : GTy) : IsOf t (t.zero env) ∧
    ((∀ e d, t ≠ .iface e d) → (∀ n k, t = .defined n k → (env.methods n).enc ≠ .value) → ∀ e, gEncoder env t = some e → e.encode env t (t.zero env) = .notSet) := by
  cases t with
  | basic k =>
    refine ⟨by cases k <;> constructor, fun _ _ e he => ?_⟩
    cases k <;> simp [gEncoder, GKind.scalar] at he <;> subst he <;> rfl
  | defined n k =>
    refine ⟨by cases k <;> first | exact .named (by constructor) | exact .struct _, fun _ h e he => ?_⟩
    have := h n k rfl
    cases k <;> simp [gEncoder, implementsEnc, this, GKind.scalar] at he <;> subst he <;> rfl
  | ptr t =>
    refine ⟨.nil, fun _ _ e he => ?_⟩
    simp only [gEncoder] at he
    split at he
    · cases he; rfl
    · cases hs : gEncoder env t with
      | none => rw [hs] at he; cases he
      | some e' => rw [hs] at he; cases he; rfl
  | iface e d => exact ⟨.nilIface, fun h => absurd rfl (h e d)⟩

/-- What the method of a field's type answers is what the encoder answers, through any number of pointers: an attribute, that there is nothing to send, or the failure itself.  Nothing
is mistaken for the other. -/
theorem C98_method_answers {env : GEnv X} {n : String} {k : GKind} (h : (env.methods n).enc = .value) (j : Nat) {e : GEncoder} (he : gEncoder env (ptrTo j (.defined n k)) = some e) (v : GVal X) :
    (∀ a, env.encM n v = .ok a → e.encode env (ptrTo j (.defined n k)) (addrOf j v) = .ok a) ∧
    (env.encM n v = .error .notSet → e.encode env (ptrTo j (.defined n k)) (addrOf j v) = .notSet) ∧
    (∀ m, env.encM n v = .error (.fail m) → e.encode env (ptrTo j (.defined n k)) (addrOf j v) = .fail m) := by
  have key : e.encode env (ptrTo j (.defined n k)) (addrOf j v) = .of (env.encM n v) := by
    induction j generalizing e with
    | zero =>
      simp only [ptrTo, gEncoder, implementsEnc, h] at he
      cases he; rfl
    | succ j ih =>
      simp only [ptrTo, gEncoder] at he
      split at he
      · cases he
        cases j with
        | zero => rfl
        | succ j => next hi => simp [ptrTo, implementsEnc] at hi
      · cases hs : gEncoder env (ptrTo j (.defined n k)) with
        | none => rw [hs] at he; cases he
        | some e' =>
          rw [hs] at he; cases he
          exact ih hs
  rw [key]
  exact ⟨fun a ha => by rw [ha]; rfl, fun ha => by rw [ha]; rfl, fun m hm => by rw [hm]; rfl⟩

/-- C98: for fields without interfaces encoding does not panic, and decoding panics only on null in a scalar (C05). -/
theorem C98_panics {env : GEnv X} {t : GTy} (hi : ∀ e d, core t ≠ .iface e d) :
    (∀ e v, gEncoder env t = some e → e.encode env t v ≠ .panic) ∧
    (∀ d a m, gDecoder env t = some d → d.decode env t a = .panic m → a = .nil ∧ ∃ k, core t = .basic k ∨ ∃ n, core t = .defined n k ∧ (env.methods n).dec = .absent) := by
  induction t with
  | basic k =>
    constructor
    · intro e v he h
      simp only [gEncoder] at he
      split at he <;> cases he
      cases v <;> simp only [GEncoder.encode] at h <;> try cases h
      split at h <;> cases h
    · intro d a m hd h
      simp only [gDecoder] at hd
      split at hd <;> cases hd
      cases a with
      | nil => exact ⟨rfl, k, .inl rfl⟩
      | val n c => simp only [GDecoder.decode] at h; split at h <;> cases h
  | defined n k =>
    constructor
    · intro e v he h
      simp only [gEncoder] at he
      split at he
      · cases he; simp only [GEncoder.encode] at h; exact of_panic h
      · split at he <;> cases he
        cases v <;> simp only [GEncoder.encode] at h <;> try cases h
        split at h <;> cases h
    · intro d a m hd h
      simp only [gDecoder] at hd
      split at hd
      · cases hd
        simp only [GDecoder.decode] at h
        split at h <;> cases h
      · rename_i hm
        split at hd <;> cases hd
        cases a with
        | nil =>
          refine ⟨rfl, k, .inr ⟨n, rfl, ?_⟩⟩
          cases hx : (env.methods n).dec <;> simp [implementsDec, hx] at hm ⊢
        | val n c => simp only [GDecoder.decode] at h; split at h <;> cases h
  | iface e d => exact absurd rfl (hi e d)
  | ptr t ih =>
    obtain ⟨i1, i2⟩ := ih hi
    constructor
    · intro e v he h
      rw [gEncoder.eq_1] at he
      split at he
      · cases he
        cases t <;> cases v <;> simp only [GEncoder.encode] at h <;> first | cases h; done | exact of_panic h
      · obtain ⟨x, hx, rfl⟩ := Option.map_eq_some_iff.1 he
        cases v with
        | ptr v => exact i1 x v hx h
        | _ => cases h
    · intro d a m hd h
      rw [gDecoder.eq_1] at hd
      split at hd
      · cases hd
        cases t <;> simp only [GDecoder.decode] at h <;> try (cases h; done)
        split at h <;> cases h
      · obtain ⟨x, hx, rfl⟩ := Option.map_eq_some_iff.1 hd
        simp only [GDecoder.decode] at h
        cases hr : x.decode env t a with
        | ok v => rw [hr] at h; cases h
        | err v => rw [hr] at h; cases h
        | panic m' => exact i2 x a m' hx hr

/-- The types of the examples: `Direction`, a string without methods; `Stamp`, a struct with both methods; `Clock`, whose decoder is on the value; `Millis` with an encoder only. -/
def exampleEnv : GEnv UInt64 where
  methods := fun n => if n = "Stamp" then ⟨.value, .pointer⟩ else if n = "Clock" then ⟨.value, .value⟩ else if n = "Millis" then ⟨.value, .absent⟩ else {}
  encM := fun n v => match v with
    | .st x => if n = "Millis" then .error .notSet else .ok (.val "" (.u64 x))
    | .sc (.u64 x) => if n = "Millis" then .ok (.val "" (.u64 x)) else .error .notSet
    | _ => .error .notSet
  decM := fun n a => match a with
    | .val _ (.u64 x) => .ok (if n = "Millis" then .sc (.u64 x) else .st x)
    | _ => .error "expected type uint64"
  zero := fun _ => 0

example : LosslessMethods exampleEnv ∧ ∀ n v n' c, exampleEnv.encM n v = .ok (.val n' c) → n' = "" := by
  constructor
  · intro n v a h
    simp only [exampleEnv] at h ⊢
    split at h
    · split at h
      · cases h
      · rename_i hn; cases h; simp [hn]
    · split at h
      · rename_i hn; cases h; simp [hn]
      · cases h
    · cases h
  · intro n v n' c h
    simp only [exampleEnv] at h
    split at h
    · split at h <;> cases h; rfl
    · split at h <;> cases h; rfl
    · cases h

example : Coherent exampleEnv (.ptr (.ptr (.defined "Stamp" .other))) ∧ Coherent exampleEnv (.ptr (.basic .str)) ∧ Coherent exampleEnv (.defined "Direction" .str) ∧
    ¬ Coherent exampleEnv (.defined "Clock" .other) ∧ ¬ Coherent exampleEnv (.defined "Millis" .u64) ∧ Accepts exampleEnv (.defined "Millis" .u64) ∧
    ¬ Accepts exampleEnv (.defined "Direction" .other) := by
  simp only [Coherent, C98_accepts, core, depth]
  decide

/-- A stamp behind two pointers arrives; a direction does not, and nor do milliseconds. -/
example : (gEncoder exampleEnv (.ptr (.ptr (.defined "Stamp" .other)))).map (fun e => e.encode exampleEnv (.ptr (.ptr (.defined "Stamp" .other))) (.ptr (.ptr (.st 7)))) =
      some (.ok (.val "" (.u64 7))) ∧
    (gEncoder exampleEnv (.defined "Direction" .str)).map (fun e => e.encode exampleEnv (.defined "Direction" .str) (.sc (.str "in"))) = some (.ok (.val "Direction" (.str "in"))) ∧
    (gDecoder exampleEnv (.defined "Direction" .str)).map (fun d => (d.decode exampleEnv (.defined "Direction" .str) (.val "" (.str "in"))).isErr) = some true ∧
    (gEncoder exampleEnv (.defined "Millis" .u64)).map (fun e => e.encode exampleEnv (.defined "Millis" .u64) (.sc (.u64 5))) = some (.ok (.val "" (.u64 5))) ∧
    (gDecoder exampleEnv (.defined "Millis" .u64)).map (fun d => (d.decode exampleEnv (.defined "Millis" .u64) (.val "" (.u64 5))).isErr) = some true := by
  decide

end Verif.Props
