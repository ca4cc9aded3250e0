import Verif.Spec.Encoding

/-!
# Lemmas about the encoding model
-/
namespace Verif.Proofs
open Verif Verif.Model Verif.Spec

variable {X : Type}

/-! ## Fields of a type -/

/-- The facts about one element of `fieldsForType`. -/
structure FieldOf (ds : List FieldDecl) (p : Path) (f : Field) : Prop where
  ex : ∃ tag, TaggedField ds p tag f.ty ∧ parseFieldOpts tag = .ok (some (f.codepoint, f.identity))
  enc : getFieldEncoder f.ty = .ok f.encoder
  dec : getFieldDecoder f.ty = .ok f.decoder

theorem _root_.Verif.Spec.TaggedField.functional {ds : List FieldDecl} {p : Path} {t1 t2 : String} {ty1 ty2 : FTy}
    (h1 : TaggedField ds p t1 ty1) (h2 : TaggedField ds p t2 ty2) : t1 = t2 ∧ ty1 = ty2 := by
  induction h1 with
  | here h _ =>
    cases h2 with
    | here h' _ => rw [h] at h'; injection h' with h'; injection h' with _ _ a b; exact ⟨a, b⟩
    | inside h' h'' => cases h''
  | inside h hin ih =>
    cases h2 with
    | here h' _ => cases hin
    | inside h' h'' =>
      rw [h] at h'; injection h' with h'; injection h' with _ a; subst a; exact ih h''

theorem _root_.Verif.Spec.TaggedField.ne_nil {ds : List FieldDecl} {p : Path} {t : String} {ty : FTy}
    (h : TaggedField ds p t ty) : p ≠ [] := by cases h <;> simp

theorem _root_.Verif.Spec.TaggedField.leaf {ds : List FieldDecl} {p : Path} {t : String} {ty : FTy}
    (h : TaggedField ds p t ty) : LeafField ds p ty := by
  induction h with
  | here h _ => exact .here h
  | inside h _ ih => exact .inside h ih

theorem _root_.Verif.Spec.LeafField.ne_nil {ds : List FieldDecl} {p : Path} {ty : FTy}
    (h : LeafField ds p ty) : p ≠ [] := by cases h <;> simp

theorem declAt_iff {ds : List FieldDecl} {p : Path} {ty : FTy} : declAt ds p = some ty ↔ LeafField ds p ty := by
  constructor
  · intro h
    induction p generalizing ds with
    | nil => simp [declAt] at h
    | cons i p ih =>
      unfold declAt at h
      split at h
      · rename_i heq; injection h with h; subst h; exact .here heq
      · rename_i heq; exact .inside heq (ih h)
      · simp at h
  · intro h
    induction h with
    | here h => unfold declAt; simp [h]
    | inside h _ ih => unfold declAt; simp [h, ih]

theorem zeroMem_leaf (env : CodecEnv X) {ds : List FieldDecl} {p : Path} {ty : FTy} (h : LeafField ds p ty) :
    zeroMem env ds p = ty.zero env := by
  unfold zeroMem; rw [declAt_iff.2 h]

/-- A tagged field starting with declaration `d` at position 0. -/
theorem _root_.Verif.Spec.TaggedField.cons_succ {d : FieldDecl} {ds : List FieldDecl} {i : Nat} {p : Path} {t : String} {ty : FTy} :
    TaggedField (d :: ds) ((i + 1) :: p) t ty ↔ TaggedField ds (i :: p) t ty := by
  constructor
  · intro h
    cases h with
    | here h h' => exact .here (by simpa using h) h'
    | inside h h' => exact .inside (by simpa using h) h'
  · intro h
    cases h with
    | here h h' => exact .here (by simpa using h) h'
    | inside h h' => exact .inside (by simpa using h) h'

theorem map_eq_ok {α β : Type} {x : Res α} {f : α → β} {b : β} :
    x.map f = .ok b ↔ ∃ a, x = .ok a ∧ f a = b := by
  cases x <;> simp

mutual
theorem fieldsForDecl_mem (index : Path) (i : Nat) (d : FieldDecl) (ds : List FieldDecl) {fs : List Field}
    (h : fieldsForDecl index i d = .ok fs) :
    ∀ f ∈ fs, ∃ p, f.index = index ++ i :: p ∧ FieldOf (d :: ds) (0 :: p) f := by
  match d, h with
  | .embeddedOther n, h => simp [fieldsForDecl] at h; subst h; simp
  | .embedded n gs, h =>
    simp only [fieldsForDecl] at h
    intro f hf
    obtain ⟨j, p, hidx, hF⟩ := fieldsForType_mem (index ++ [i]) 0 gs h f hf
    refine ⟨j :: p, by simp [hidx], ?_⟩
    obtain ⟨⟨tag, ht, hp⟩, he, hd⟩ := hF
    exact ⟨⟨tag, .inside (name := n) (by simp) ht, hp⟩, he, hd⟩
  | .plain name ex tag ty, h =>
    simp only [fieldsForDecl] at h
    cases ex with
    | false => simp at h; subst h; simp
    | true =>
      simp only [Bool.not_true, Bool.false_eq_true, if_false] at h
      split at h
      · simp at h
      · simp at h
      · simp at h; subst h; simp
      · rename_i code req hpo
        split at h
        · rename_i enc henc
          split at h
          · rename_i dec hdec
            injection h with h; subst h
            intro f hf
            simp only [List.mem_singleton] at hf; subst hf
            refine ⟨[], rfl, ⟨tag, .here (name := name) (by simp) ?_, hpo⟩, henc, hdec⟩
            · rintro rfl; simp [parseFieldOpts] at hpo
          · simp at h
        · simp at h

theorem fieldsForType_mem (index : Path) (i : Nat) (ds : List FieldDecl) {fs : List Field}
    (h : fieldsForType index i ds = .ok fs) :
    ∀ f ∈ fs, ∃ j p, f.index = index ++ (i + j) :: p ∧ FieldOf ds (j :: p) f := by
  match ds, h with
  | [], h => simp [fieldsForType] at h; subst h; simp
  | d :: ds, h =>
    simp only [fieldsForType] at h
    rw [Res.bind_eq_ok] at h
    obtain ⟨a, ha, h⟩ := h
    rw [map_eq_ok] at h
    obtain ⟨b, hb, h⟩ := h
    subst h
    intro f hf
    rcases List.mem_append.1 hf with hf | hf
    · obtain ⟨p, h1, h2⟩ := fieldsForDecl_mem index i d ds ha f hf
      exact ⟨0, p, by simpa using h1, h2⟩
    · obtain ⟨j, p, h1, ⟨⟨tag, ht, hp⟩, he, hd⟩⟩ := fieldsForType_mem index (i + 1) ds hb f hf
      exact ⟨j + 1, p, by rw [h1]; congr 2; omega, ⟨tag, TaggedField.cons_succ.2 ht, hp⟩, he, hd⟩
end

mutual
theorem fieldsForDecl_complete (index : Path) (i : Nat) (d : FieldDecl) (ds : List FieldDecl) {fs : List Field}
    (h : fieldsForDecl index i d = .ok fs) {p : Path} {tag : String} {ty : FTy}
    (ht : TaggedField (d :: ds) (0 :: p) tag ty) :
    ∃ f ∈ fs, f.index = index ++ i :: p ∧ f.ty = ty := by
  match d, h, ht with
  | .embeddedOther n, h, ht => cases ht with
    | here hd _ => simp at hd
    | inside hd _ => simp at hd
  | .plain name ex tag' ty', h, ht =>
    cases ht with
    | inside hd _ => simp at hd
    | here hd htag =>
    simp at hd
    obtain ⟨rfl, rfl, rfl, rfl⟩ := hd
    simp only [fieldsForDecl, Bool.not_true, Bool.false_eq_true, if_false] at h
    split at h
    · simp at h
    · simp at h
    · rename_i hpo
      exfalso
      simp only [parseFieldOpts, htag, if_false] at hpo
      split at hpo
      · simp at hpo
      · split at hpo
        · simp at hpo
        · split at hpo <;> simp at hpo
    · split at h
      · split at h
        · injection h with h; subst h
          exact ⟨_, List.mem_singleton.2 rfl, rfl, rfl⟩
        · simp at h
      · simp at h
  | .embedded n gs, h, ht =>
    cases ht with
    | here hd _ => simp at hd
    | inside hd hin =>
    simp at hd; obtain ⟨rfl, rfl⟩ := hd
    simp only [fieldsForDecl] at h
    match p, hin with
    | j :: q, hin =>
      obtain ⟨f, hf, h1, h2⟩ := fieldsForType_complete (index ++ [i]) 0 gs h hin
      exact ⟨f, hf, by simpa using h1, h2⟩
    | [], hin => exact absurd rfl hin.ne_nil

theorem fieldsForType_complete (index : Path) (i : Nat) (ds : List FieldDecl) {fs : List Field}
    (h : fieldsForType index i ds = .ok fs) {j : Nat} {p : Path} {tag : String} {ty : FTy}
    (ht : TaggedField ds (j :: p) tag ty) :
    ∃ f ∈ fs, f.index = index ++ (i + j) :: p ∧ f.ty = ty := by
  match ds, h, ht with
  | [], _, ht => cases ht with
    | here h _ => simp at h
    | inside h _ => simp at h
  | d :: ds, h, ht =>
    simp only [fieldsForType] at h
    rw [Res.bind_eq_ok] at h
    obtain ⟨a, ha, h⟩ := h
    rw [map_eq_ok] at h
    obtain ⟨b, hb, h⟩ := h
    subst h
    match j, ht with
    | 0, ht =>
      obtain ⟨f, hf, h1, h2⟩ := fieldsForDecl_complete index i d ds ha ht
      exact ⟨f, List.mem_append_left _ hf, by simpa using h1, h2⟩
    | j + 1, ht =>
      obtain ⟨f, hf, h1, h2⟩ := fieldsForType_complete index (i + 1) ds hb (TaggedField.cons_succ.1 ht)
      exact ⟨f, List.mem_append_right _ hf, by rw [h1]; congr 2; omega, h2⟩
end

theorem hasRepeatedCode_false {fs : List Field} {seen : List UInt32} (h : hasRepeatedCode fs seen = false) :
    (fs.map Field.codepoint).Nodup ∧ ∀ f ∈ fs, f.codepoint ∉ seen := by
  induction fs generalizing seen with
  | nil => simp
  | cons f fs ih =>
    simp only [hasRepeatedCode, Bool.or_eq_false_iff] at h
    obtain ⟨h1, h2⟩ := ih h.2
    simp only [List.map_cons, List.nodup_cons, List.mem_map, List.mem_cons]
    refine ⟨⟨?_, h1⟩, ?_⟩
    · rintro ⟨g, hg, hgf⟩
      exact h2 g hg (by simp [hgf])
    · rintro g (rfl | hg)
      · simpa using h.1
      · intro hc; exact h2 g hg (by simp [hc])

/-- What registration guarantees about a type encoding. -/
structure GoodEnc (e : TypeEnc) : Prop where
  sound : ∀ f ∈ e.fields, FieldOf e.decls f.index f
  complete : ∀ {p tag ty}, TaggedField e.decls p tag ty → ∃ f ∈ e.fields, f.index = p ∧ f.ty = ty
  codes : (e.fields.map Field.codepoint).Nodup

theorem newEncodingForType_good {cp : UInt32} {t : GoType} {e : TypeEnc} (h : newEncodingForType cp t = .ok e) :
    GoodEnc e := by
  cases t with
  | nonStruct n => simp [newEncodingForType] at h
  | struct name decls =>
    simp only [newEncodingForType] at h
    rw [Res.bind_eq_ok] at h
    obtain ⟨fs, hfs, h⟩ := h
    split at h
    · simp at h
    · rename_i hrep
      injection h with h; subst h
      refine ⟨?_, ?_, ?_⟩
      · intro f hf
        obtain ⟨j, p, h1, h2⟩ := fieldsForType_mem [] 0 decls hfs f hf
        simp at h1; rw [h1]; exact h2
      · intro p tag ty ht
        match p, ht with
        | [], ht => exact absurd rfl ht.ne_nil
        | j :: p, ht =>
          obtain ⟨f, hf, h1, h2⟩ := fieldsForType_complete [] 0 decls hfs ht
          exact ⟨f, hf, by simpa using h1, h2⟩
      · exact (hasRepeatedCode_false (by simpa using hrep)).1

theorem nodup_map_inj {α β : Type} {l : List α} {g : α → β} (h : (l.map g).Nodup) {a b : α} (ha : a ∈ l) (hb : b ∈ l)
    (hab : g a = g b) : a = b := by
  induction l with
  | nil => simp at ha
  | cons x l ih =>
    simp only [List.map_cons, List.nodup_cons, List.mem_map, not_exists, not_and] at h
    rcases List.mem_cons.1 ha with rfl | ha <;> rcases List.mem_cons.1 hb with rfl | hb
    · rfl
    · exact absurd hab.symm (h.1 b hb)
    · exact absurd hab (h.1 a (by assumption))
    · exact ih h.2 ha hb

theorem nodup_map_of_inj {α β γ : Type} {l : List α} {g : α → β} {k : α → γ} (h : (l.map g).Nodup)
    (hk : ∀ a ∈ l, ∀ b ∈ l, k a = k b → g a = g b) : (l.map k).Nodup := by
  induction l with
  | nil => simp
  | cons x l ih =>
    simp only [List.map_cons, List.nodup_cons, List.mem_map, not_exists, not_and] at h ⊢
    refine ⟨?_, ih h.2 (fun a ha b hb => hk a (List.mem_cons_of_mem _ ha) b (List.mem_cons_of_mem _ hb))⟩
    intro y hy hxy
    exact h.1 y hy (hk y (List.mem_cons_of_mem _ hy) x (List.mem_cons_self) hxy)

theorem GoodEnc.index_inj {e : TypeEnc} (h : GoodEnc e) {f g : Field} (hf : f ∈ e.fields) (hg : g ∈ e.fields)
    (hi : f.index = g.index) : f = g := by
  obtain ⟨⟨t1, ht1, hp1⟩, _, _⟩ := h.sound f hf
  obtain ⟨⟨t2, ht2, hp2⟩, _, _⟩ := h.sound g hg
  rw [hi] at ht1
  obtain ⟨rfl, _⟩ := TaggedField.functional ht1 ht2
  rw [hp1] at hp2
  simp only [Res.ok.injEq, Option.some.injEq, Prod.mk.injEq] at hp2
  exact nodup_map_inj h.codes hf hg hp2.1

theorem GoodEnc.indexes {e : TypeEnc} (h : GoodEnc e) : (e.fields.map Field.index).Nodup :=
  nodup_map_of_inj h.codes (fun a ha b hb hab => by rw [h.index_inj ha hb hab])

/-! ## Tags -/

theorem parseDigits_eq {ds : List Char} {acc n : Nat} (h : parseDigits ds acc = some n) :
    (∀ c ∈ ds, c.isDigit) ∧ n = ds.foldl (fun n c => 10 * n + (c.toNat - 48)) acc := by
  induction ds generalizing acc with
  | nil => simp [parseDigits] at h; simp [h]
  | cons c cs ih =>
    simp only [parseDigits] at h
    split at h
    · rename_i hc
      obtain ⟨h1, h2⟩ := ih h
      refine ⟨?_, by simpa using h2⟩
      intro d hd
      rcases List.mem_cons.1 hd with rfl | hd
      · simp only [Char.isDigit, Bool.and_eq_true, decide_eq_true_eq]
        exact ⟨hc.1, hc.2⟩
      · exact h1 d hd
    · simp at h

theorem cutComma_spec (cs : List Char) :
    (cs = (cutComma cs).1 ∧ (cutComma cs).2 = []) ∨ cs = (cutComma cs).1 ++ ',' :: (cutComma cs).2 := by
  induction cs with
  | nil => simp [cutComma]
  | cons c cs ih =>
    simp only [cutComma]
    split
    · rename_i h; right; simp [h]
    · rcases ih with ⟨h1, h2⟩ | h
      · left; simp [h2]; exact h1
      · right; simp; exact h

theorem parseFieldOpts_spec {tag : String} {code : UInt32} {req : Bool}
    (h : parseFieldOpts tag = .ok (some (code, req))) :
    TagCode tag code.toNat ∧ (req = true ↔ TagRequired tag) := by
  unfold parseFieldOpts at h
  split at h
  · simp at h
  · have hcut := cutComma_spec tag.toList
    revert h
    generalize (cutComma tag.toList).1 = ds at *
    generalize (cutComma tag.toList).2 = opt at *
    intro h
    simp only at h
    split at h
    · simp at h
    · rename_i c hc
      unfold parseUint32 at hc
      split at hc
      · simp at hc
      · rename_i hne
        split at hc
        · rename_i n hn
          split at hc
          · rename_i hlt
            injection hc with hc
            obtain ⟨hd, hdec⟩ := parseDigits_eq hn
            have hcode : c.toNat = decimal ds := by
              rw [← hc, UInt32.toNat_ofNat', Nat.mod_eq_of_lt hlt, hdec]; rfl
            have hnocomma : ',' ∉ ds := by
              intro hm; have := hd ',' hm; revert this; decide
            split at h
            · rename_i hopt
              simp only [Res.ok.injEq, Option.some.injEq, Prod.mk.injEq] at h
              obtain ⟨rfl, rfl⟩ := h
              rcases hcut with ⟨h1, h2⟩ | h1
              · rw [hopt] at h2; exact absurd h2 (by decide)
              · refine ⟨⟨ds, ',' :: opt, h1, ?_, hd, hcode.symm, Or.inr ⟨_, rfl⟩⟩, ?_⟩
                · intro hx; exact hne hx
                · simp only [true_iff]
                  exact ⟨ds, by rw [h1, hopt]; rfl, hd⟩
            · split at h
              · rename_i hopt1 hopt
                simp only [Res.ok.injEq, Option.some.injEq, Prod.mk.injEq] at h
                obtain ⟨rfl, rfl⟩ := h
                refine ⟨⟨ds, if tag.toList = ds then [] else [','], ?_, ?_, hd, hcode.symm, ?_⟩, ?_⟩
                · rcases hcut with ⟨h1, h2⟩ | h1
                  · simp [h1]
                  · split
                    · rename_i hx; simp [hx]
                    · rw [h1, hopt]
                · intro hx; exact hne hx
                · split
                  · simp
                  · exact Or.inr ⟨[], rfl⟩
                · simp only [Bool.false_eq_true, false_iff]
                  rintro ⟨ds', h', hd'⟩
                  have hlen : ∀ s : List Char, tag.toList = s → ('d' ∈ s) := by
                    intro s hs; rw [← hs, h']; simp
                  rcases hcut with ⟨h1, h2⟩ | h1
                  · have := hd 'd' (hlen _ h1); revert this; decide
                  · have := hlen _ h1
                    rw [hopt] at this
                    rcases List.mem_append.1 this with h3 | h3
                    · have := hd 'd' h3; revert this; decide
                    · revert h3; decide
              · simp at h
          · simp at hc
        · simp at hc

theorem decimal_comma {ds ds' rest rest' : List Char} (h : ds ++ rest = ds' ++ rest')
    (hd : ∀ c ∈ ds, c.isDigit) (hd' : ∀ c ∈ ds', c.isDigit)
    (hr : rest = [] ∨ ∃ r, rest = ',' :: r) (hr' : rest' = [] ∨ ∃ r, rest' = ',' :: r) : ds = ds' := by
  induction ds generalizing ds' with
  | nil =>
    cases ds' with
    | nil => rfl
    | cons c cs =>
      rcases hr with rfl | ⟨r, rfl⟩
      · simp at h
      · simp at h
        have := hd' c (by simp)
        rw [← h.1] at this; exact absurd this (by decide)
  | cons c cs ih =>
    cases ds' with
    | nil =>
      rcases hr' with rfl | ⟨r, rfl⟩
      · simp at h
      · simp at h
        have := hd c (by simp)
        rw [h.1] at this; exact absurd this (by decide)
    | cons c' cs' =>
      simp at h
      rw [h.1, ih h.2 (fun c hc => hd c (by simp [hc])) (fun c hc => hd' c (by simp [hc]))]

theorem _root_.Verif.Spec.TagCode.functional {tag : String} {n m : Nat} (h1 : TagCode tag n) (h2 : TagCode tag m) : n = m := by
  obtain ⟨ds, rest, h, _, hd, hn, hr⟩ := h1
  obtain ⟨ds', rest', h', _, hd', hn', hr'⟩ := h2
  have := decimal_comma (h.symm.trans h') hd hd' hr hr'
  rw [← hn, ← hn', this]

/-- For a registered type: the tagged field at a path, with the meaning of its tag. -/
theorem GoodEnc.field_of_tag {e : TypeEnc} (h : GoodEnc e) {p : Path} {tag : String} {ty : FTy}
    (ht : TaggedField e.decls p tag ty) :
    ∃ f ∈ e.fields, f.index = p ∧ f.ty = ty ∧ TagCode tag f.codepoint.toNat ∧ (f.identity = true ↔ TagRequired tag) := by
  obtain ⟨f, hf, h1, h2⟩ := h.complete ht
  obtain ⟨⟨t2, ht2, hp2⟩, _, _⟩ := h.sound f hf
  rw [h1] at ht2
  obtain ⟨rfl, _⟩ := TaggedField.functional ht ht2
  obtain ⟨h3, h4⟩ := parseFieldOpts_spec hp2
  exact ⟨f, hf, h1, h2, h3, h4⟩

theorem GoodEnc.field_of_code {e : TypeEnc} (h : GoodEnc e) {p : Path} {tag : String} {ty : FTy} {n : UInt32}
    (ht : TaggedField e.decls p tag ty) (hn : TagCode tag n.toNat) :
    ∃ f ∈ e.fields, f.index = p ∧ f.ty = ty ∧ f.codepoint = n ∧ (f.identity = true ↔ TagRequired tag) := by
  obtain ⟨f, hf, h1, h2, h3, h4⟩ := h.field_of_tag ht
  exact ⟨f, hf, h1, h2, UInt32.toNat_inj.1 (TagCode.functional h3 hn), h4⟩

theorem GoodEnc.tag_of_field {e : TypeEnc} (h : GoodEnc e) {f : Field} (hf : f ∈ e.fields) :
    ∃ tag, TaggedField e.decls f.index tag f.ty ∧ TagCode tag f.codepoint.toNat ∧
      (f.identity = true ↔ TagRequired tag) := by
  obtain ⟨⟨t, ht, hp⟩, _, _⟩ := h.sound f hf
  obtain ⟨h3, h4⟩ := parseFieldOpts_spec hp
  exact ⟨t, ht, h3, h4⟩

/-! ## Encode -/

/-- The attribute one field contributes. -/
def encAttr (env : CodecEnv X) (f : Field) (mem : Mem X) : Option Any :=
  match f.encoder.encode env (mem f.index) with
  | .ok .nil => none
  | .ok a => some a
  | .error _ => none

theorem encodeFields_ok {env : CodecEnv X} {fs : List Field} {mem : Mem X} {acc out : Attrs}
    (hn : (fs.map Field.codepoint).Nodup) (h : encodeFields env fs mem acc = .ok out) :
    (∀ f ∈ fs, out.get? (.u32 f.codepoint) = (encAttr env f mem).or (acc.get? (.u32 f.codepoint))) ∧
    (∀ k, (∀ f ∈ fs, k ≠ .u32 f.codepoint) → out.get? k = acc.get? k) ∧
    (∀ f ∈ fs, f.encoder.encode env (mem f.index) ≠ .error .notSet ∨ f.identity = false) ∧
    (∀ f ∈ fs, ∀ e, f.encoder.encode env (mem f.index) ≠ .error (.fail e)) := by
  induction fs generalizing acc with
  | nil => simp [encodeFields] at h; subst h; simp
  | cons f fs ih =>
    simp only [List.map_cons, List.nodup_cons, List.mem_map, not_exists, not_and] at hn
    have key : ∀ acc', encodeFields env fs mem acc' = .ok out →
        (acc'.get? (.u32 f.codepoint) = (encAttr env f mem).or (acc.get? (.u32 f.codepoint))) →
        (∀ k, k ≠ .u32 f.codepoint → acc'.get? k = acc.get? k) →
        (f.encoder.encode env (mem f.index) ≠ .error .notSet ∨ f.identity = false) →
        (∀ e, f.encoder.encode env (mem f.index) ≠ .error (.fail e)) →
        (∀ g ∈ f :: fs, out.get? (.u32 g.codepoint) = (encAttr env g mem).or (acc.get? (.u32 g.codepoint))) ∧
        (∀ k, (∀ g ∈ f :: fs, k ≠ .u32 g.codepoint) → out.get? k = acc.get? k) ∧
        (∀ g ∈ f :: fs, g.encoder.encode env (mem g.index) ≠ .error .notSet ∨ g.identity = false) ∧
        (∀ g ∈ f :: fs, ∀ e, g.encoder.encode env (mem g.index) ≠ .error (.fail e)) := by
      intro acc' h' hf hk hi hfail
      obtain ⟨h1, h2, h3, h4⟩ := ih hn.2 h'
      have hne : ∀ g ∈ fs, (Any.u32 g.codepoint) ≠ .u32 f.codepoint := by
        intro g hg hc; injection hc with hc; exact hn.1 g hg hc
      refine ⟨?_, ?_, ?_, ?_⟩
      · intro g hg
        rcases List.mem_cons.1 hg with rfl | hg
        · rw [h2 _ (fun g' hg' => (hne g' hg').symm), hf]
        · rw [h1 g hg, hk _ (hne g hg)]
      · intro k hk'
        rw [h2 k (fun g hg => hk' g (List.mem_cons_of_mem _ hg)), hk k (hk' f List.mem_cons_self)]
      · intro g hg
        rcases List.mem_cons.1 hg with rfl | hg
        · exact hi
        · exact h3 g hg
      · intro g hg
        rcases List.mem_cons.1 hg with rfl | hg
        · exact hfail
        · exact h4 g hg
    simp only [encodeFields] at h
    split at h
    · rename_i he
      split at h
      · simp at h
      · rename_i hid
        exact key acc h (by simp [encAttr, he]) (fun _ _ => rfl) (Or.inr (by simpa using hid)) (by simp [he])
    · simp at h
    · rename_i he
      exact key acc h (by simp [encAttr, he]) (fun _ _ => rfl) (Or.inl (by simp [he])) (by simp [he])
    · rename_i a hnil he
      refine key _ h ?_ ?_ (Or.inl (by simp [he])) (by simp [he])
      · rw [GMap.get?_set_self, encAttr, he]
        cases a with
        | nil => exact absurd rfl hnil
        | _ => rfl
      · intro k hk; exact GMap.get?_set_ne _ _ (Ne.symm hk)

theorem encodeFields_isOk {env : CodecEnv X} {fs : List Field} {mem : Mem X} {acc : Attrs}
    (h1 : ∀ f ∈ fs, f.encoder.encode env (mem f.index) ≠ .error .notSet ∨ f.identity = false)
    (h2 : ∀ f ∈ fs, ∀ e, f.encoder.encode env (mem f.index) ≠ .error (.fail e)) :
    ∃ out, encodeFields env fs mem acc = .ok out := by
  induction fs generalizing acc with
  | nil => exact ⟨acc, rfl⟩
  | cons f fs ih =>
    have ih' := fun acc => ih (acc := acc) (fun g hg => h1 g (List.mem_cons_of_mem _ hg))
      (fun g hg => h2 g (List.mem_cons_of_mem _ hg))
    simp only [encodeFields]
    split
    · rename_i he
      rcases h1 f List.mem_cons_self with h | h
      · exact absurd he h
      · simp [h, ih']
    · rename_i e he; exact absurd he (h2 f List.mem_cons_self e)
    · exact ih' _
    · exact ih' _

theorem encodeFields_not_panic {env : CodecEnv X} {fs : List Field} {mem : Mem X} {acc : Attrs} {m : String} :
    encodeFields env fs mem acc ≠ .panic m := by
  induction fs generalizing acc with
  | nil => simp [encodeFields]
  | cons f fs ih =>
    simp only [encodeFields]
    split
    · split
      · simp
      · exact ih
    · simp
    · exact ih
    · exact ih

/-! ## Decode -/

theorem decodeFields_ok {env : CodecEnv X} {fs : List Field} {attrs : Attrs} {mem out : Mem X}
    (hn : (fs.map Field.index).Nodup) (h : decodeFields env fs attrs mem = .ok out) :
    (∀ f ∈ fs, attrs.get? (.u32 f.codepoint) = none → f.identity = false ∧ out f.index = mem f.index) ∧
    (∀ f ∈ fs, ∀ a, attrs.get? (.u32 f.codepoint) = some a → f.decoder.decode env f.ty a = .ok (out f.index)) ∧
    (∀ p, (∀ f ∈ fs, p ≠ f.index) → out p = mem p) := by
  induction fs generalizing mem with
  | nil => simp [decodeFields] at h; subst h; simp
  | cons f fs ih =>
    simp only [List.map_cons, List.nodup_cons, List.mem_map, not_exists, not_and] at hn
    simp only [decodeFields] at h
    split at h
    · rename_i hnone
      split at h
      · simp at h
      · rename_i hid
        obtain ⟨h1, h2, h3⟩ := ih hn.2 h
        refine ⟨?_, ?_, ?_⟩
        · intro g hg hgn
          rcases List.mem_cons.1 hg with rfl | hg
          · exact ⟨by simpa using hid, h3 _ (fun g' hg' hc => hn.1 g' hg' hc.symm)⟩
          · exact h1 g hg hgn
        · intro g hg a ha
          rcases List.mem_cons.1 hg with rfl | hg
          · rw [hnone] at ha; simp at ha
          · exact h2 g hg a ha
        · intro p hp; exact h3 p (fun g hg => hp g (List.mem_cons_of_mem _ hg))
    · rename_i obj hobj
      rw [Res.bind_eq_ok] at h
      obtain ⟨v, hv, h⟩ := h
      obtain ⟨h1, h2, h3⟩ := ih hn.2 h
      refine ⟨?_, ?_, ?_⟩
      · intro g hg hgn
        rcases List.mem_cons.1 hg with rfl | hg
        · rw [hobj] at hgn; simp at hgn
        · obtain ⟨ha, hb⟩ := h1 g hg hgn
          refine ⟨ha, ?_⟩
          rw [hb, Mem.set, if_neg (hn.1 g hg)]
      · intro g hg a ha
        rcases List.mem_cons.1 hg with rfl | hg
        · rw [hobj] at ha; injection ha with ha; subst ha
          rw [hv, h3 _ (fun g' hg' hc => hn.1 g' hg' hc.symm)]; simp [Mem.set]
        · exact h2 g hg a ha
      · intro p hp
        rw [h3 p (fun g hg => hp g (List.mem_cons_of_mem _ hg)), Mem.set, if_neg (hp f List.mem_cons_self)]

theorem decodeFields_isOk {env : CodecEnv X} {fs : List Field} {attrs : Attrs} {mem : Mem X}
    (h1 : ∀ f ∈ fs, attrs.get? (.u32 f.codepoint) = none → f.identity = false)
    (h2 : ∀ f ∈ fs, ∀ a, attrs.get? (.u32 f.codepoint) = some a → ∃ v, f.decoder.decode env f.ty a = .ok v) :
    ∃ out, decodeFields env fs attrs mem = .ok out := by
  induction fs generalizing mem with
  | nil => exact ⟨mem, rfl⟩
  | cons f fs ih =>
    have ih' := fun mem => ih (mem := mem) (fun g hg => h1 g (List.mem_cons_of_mem _ hg))
      (fun g hg => h2 g (List.mem_cons_of_mem _ hg))
    simp only [decodeFields]
    split
    · rename_i hn
      simp [h1 f List.mem_cons_self hn, ih']
    · rename_i obj ho
      obtain ⟨v, hv⟩ := h2 f List.mem_cons_self obj ho
      rw [hv]; exact ih' _

theorem decodeFields_congr {env : CodecEnv X} {fs : List Field} {a b : Attrs} {mem : Mem X}
    (h : ∀ f ∈ fs, a.get? (.u32 f.codepoint) = b.get? (.u32 f.codepoint)) :
    decodeFields env fs a mem = decodeFields env fs b mem := by
  induction fs generalizing mem with
  | nil => rfl
  | cons f fs ih =>
    simp only [decodeFields, h f List.mem_cons_self]
    split
    · split
      · rfl
      · exact ih (fun g hg => h g (List.mem_cons_of_mem _ hg))
    · congr 1
      funext v
      exact ih (fun g hg => h g (List.mem_cons_of_mem _ hg))

/-- Where a panic of the field decoders comes from. -/
theorem decode_panic {env : CodecEnv X} {d : FieldDecoder} {ty : FTy} {a : Any} {m : String}
    (h : d.decode env ty a = .panic m) : a = .nil := by
  induction d generalizing ty m with
  | raw =>
    simp only [FieldDecoder.decode, rawDecode] at h
    split at h <;> simp_all
  | pointer sub ih =>
    cases ty <;> simp only [FieldDecoder.decode] at h <;> try (simp at h)
    rename_i t
    cases hs : sub.decode env t a with
    | panic m' => exact ih hs
    | _ => simp [hs] at h
  | recordAttr c =>
    simp only [FieldDecoder.decode, recordAttrDecode] at h
    split at h
    · simp at h
    · split at h <;> simp at h

theorem decodeFields_panic {env : CodecEnv X} {fs : List Field} {attrs : Attrs} {mem : Mem X} {m : String}
    (h : decodeFields env fs attrs mem = .panic m) :
    ∃ f ∈ fs, attrs.get? (.u32 f.codepoint) = some .nil := by
  induction fs generalizing mem with
  | nil => simp [decodeFields] at h
  | cons f fs ih =>
    simp only [decodeFields] at h
    split at h
    · split at h
      · simp at h
      · obtain ⟨g, hg, h'⟩ := ih h
        exact ⟨g, List.mem_cons_of_mem _ hg, h'⟩
    · rename_i obj ho
      cases hd : f.decoder.decode env f.ty obj with
      | ok v =>
        rw [hd] at h
        obtain ⟨g, hg, h'⟩ := ih h
        exact ⟨g, List.mem_cons_of_mem _ hg, h'⟩
      | err e => rw [hd] at h; simp at h
      | panic m' =>
        have : obj = .nil := decode_panic hd
        subst this
        exact ⟨f, List.mem_cons_self, ho⟩

/-! ## One field there and back -/

/-- Encoder and decoder chosen for a type. -/
theorem getFieldEncoder_ptr_custom (c : String) : getFieldEncoder (.ptr (.custom c)) = .ok (.recordAttr c) := rfl

theorem getFieldEncoder_ptr {t : FTy} (h : ∀ c, t ≠ .custom c) :
    getFieldEncoder (.ptr t) = (getFieldEncoder t).map .pointer := by
  cases t <;> first | rfl | exact absurd rfl (h _)

theorem getFieldDecoder_ptr {t : FTy} (h : ∀ c, t ≠ .custom c) :
    getFieldDecoder (.ptr t) = (getFieldDecoder t).map .pointer := by
  cases t <;> first | rfl | exact absurd rfl (h _)

theorem encode_notSet {env : CodecEnv X} {ty : FTy} {e : FieldEncoder} {v : FVal X}
    (he : getFieldEncoder ty = .ok e) (ht : HasTy ty v) :
    e.encode env v = .error .notSet ↔ Unset env ty v := by
  induction ty generalizing e v with
  | str => simp [getFieldEncoder] at he; subst he; cases v <;> simp_all [HasTy, Unset, FieldEncoder.encode, FVal.isZeroScalar]
  | u32 => simp [getFieldEncoder] at he; subst he; cases v <;> simp_all [HasTy, Unset, FieldEncoder.encode, FVal.isZeroScalar]
  | u64 => simp [getFieldEncoder] at he; subst he; cases v <;> simp_all [HasTy, Unset, FieldEncoder.encode, FVal.isZeroScalar]
  | i32 => simp [getFieldEncoder] at he; subst he; cases v <;> simp_all [HasTy, Unset, FieldEncoder.encode, FVal.isZeroScalar]
  | i64 => simp [getFieldEncoder] at he; subst he; cases v <;> simp_all [HasTy, Unset, FieldEncoder.encode, FVal.isZeroScalar]
  | custom c => simp [getFieldEncoder] at he; subst he; cases v <;> simp_all [HasTy, Unset, FieldEncoder.encode]
  | unsupported k => simp [getFieldEncoder] at he
  | ptr t ih =>
    by_cases hc : ∃ c, t = .custom c
    · obtain ⟨c, rfl⟩ := hc
      simp [getFieldEncoder] at he; subst he
      cases v with
      | ptr w => cases w <;> simp_all [HasTy, Unset, FieldEncoder.encode]
      | _ => simp_all [HasTy, Unset, FieldEncoder.encode]
    · rw [getFieldEncoder_ptr (by simpa using hc), map_eq_ok] at he
      obtain ⟨sub, hs, rfl⟩ := he
      cases v with
      | ptr w => simp only [HasTy] at ht; simpa [Unset, FieldEncoder.encode] using ih hs ht
      | _ => simp_all [HasTy, Unset, FieldEncoder.encode]

/-- What the decoder makes of an attribute produced by the encoder: the canonical form of the value. -/
theorem encode_decode {env : CodecEnv X} {rt : String → X → X} (hl : LawfulCodecs env rt) {ty : FTy} {e : FieldEncoder}
    {d : FieldDecoder} {v : FVal X} {a : Any}
    (he : getFieldEncoder ty = .ok e) (hd : getFieldDecoder ty = .ok d) (ht : HasTy ty v)
    (h : e.encode env v = .ok a) :
    a ≠ .nil ∧ ∃ w, d.decode env ty a = .ok w ∧ Canon env rt ty v w := by
  induction ty generalizing e d v with
  | unsupported k => simp [getFieldEncoder] at he
  | custom c =>
    simp [getFieldEncoder] at he; simp [getFieldDecoder] at hd; subst he; subst hd
    cases v <;> simp_all [HasTy, FieldEncoder.encode]
    rename_i x
    obtain ⟨h1, h2⟩ := hl _ _ _ h
    refine ⟨h1, .custom (rt c x), by simp [FieldDecoder.decode, recordAttrDecode, h2], .custom (by simp [h])⟩
  | ptr t ih =>
    by_cases hc : ∃ c, t = .custom c
    · obtain ⟨c, rfl⟩ := hc
      simp [getFieldEncoder] at he; simp [getFieldDecoder] at hd; subst he; subst hd
      cases v with
      | ptr w =>
        cases w <;> simp_all [HasTy, FieldEncoder.encode]
        rename_i x
        obtain ⟨h1, h2⟩ := hl _ _ _ h
        exact ⟨h1, .ptr (.custom (rt c x)), by simp [FieldDecoder.decode, recordAttrDecode, h2],
          .ptr (by simp [Unset, h]) (.custom (by simp [h]))⟩
      | _ => simp_all [HasTy, FieldEncoder.encode]
    · have hc' : ∀ c, t ≠ .custom c := by simpa using hc
      rw [getFieldEncoder_ptr hc', map_eq_ok] at he
      rw [getFieldDecoder_ptr hc', map_eq_ok] at hd
      obtain ⟨se, hse, rfl⟩ := he
      obtain ⟨sd, hsd, rfl⟩ := hd
      cases v with
      | ptr w =>
        simp only [HasTy] at ht
        simp only [FieldEncoder.encode] at h
        obtain ⟨h1, w', h2, h3⟩ := ih hse hsd ht h
        refine ⟨h1, .ptr w', by simp [FieldDecoder.decode, h2], .ptr ?_ h3⟩
        rw [← encode_notSet hse ht, h]; simp
      | _ => simp_all [HasTy, FieldEncoder.encode]
  | _ =>
    simp [getFieldEncoder] at he; simp [getFieldDecoder] at hd; subst he; subst hd
    cases v <;> simp only [HasTy] at ht
    simp only [FieldEncoder.encode] at h
    split at h
    · simp at h
    · rename_i hz
      injection h with h; subst h
      refine ⟨by simp [FVal.toAny], _, by simp [FieldDecoder.decode, rawDecode, FVal.toAny]; rfl, ?_⟩
      simp [FVal.isZeroScalar] at hz
      constructor
      exact hz

/-- What the encoder makes of a decoded attribute. -/
theorem decode_encode {env : CodecEnv X} (hs : StableCodecs env) {ty : FTy} {e : FieldEncoder} {d : FieldDecoder}
    {w : FVal X} {a : Any} (he : getFieldEncoder ty = .ok e) (hd : getFieldDecoder ty = .ok d)
    (h : d.decode env ty a = .ok w) :
    HasTy ty w ∧ a ≠ .nil ∧
    ((IsScalar ty ∧ ZeroAttr a ∧ e.encode env w = .error .notSet) ∨
     (¬ (IsScalar ty ∧ ZeroAttr a) ∧ e.encode env w = .ok a)) := by
  induction ty generalizing e d w with
  | unsupported k => simp [getFieldEncoder] at he
  | custom c =>
    simp [getFieldEncoder] at he; simp [getFieldDecoder] at hd; subst he; subst hd
    simp only [FieldDecoder.decode, recordAttrDecode] at h
    split at h
    · simp at h
    · rename_i x hx
      injection h with h; subst h
      obtain ⟨h1, h2⟩ := hs _ _ _ hx
      exact ⟨trivial, h1, Or.inr ⟨by simp [IsScalar], by simpa [FieldEncoder.encode] using h2⟩⟩
  | ptr t ih =>
    by_cases hc : ∃ c, t = .custom c
    · obtain ⟨c, rfl⟩ := hc
      simp [getFieldEncoder] at he; simp [getFieldDecoder] at hd; subst he; subst hd
      simp only [FieldDecoder.decode, recordAttrDecode] at h
      split at h
      · simp at h
      · rename_i x hx
        injection h with h; subst h
        obtain ⟨h1, h2⟩ := hs _ _ _ hx
        exact ⟨trivial, h1, Or.inr ⟨by simp [IsScalar], by simpa [FieldEncoder.encode] using h2⟩⟩
    · have hc' : ∀ c, t ≠ .custom c := by simpa using hc
      rw [getFieldEncoder_ptr hc', map_eq_ok] at he
      rw [getFieldDecoder_ptr hc', map_eq_ok] at hd
      obtain ⟨se, hse, rfl⟩ := he
      obtain ⟨sd, hsd, rfl⟩ := hd
      simp only [FieldDecoder.decode] at h
      rw [map_eq_ok] at h
      obtain ⟨w', hw', rfl⟩ := h
      simpa [IsScalar, HasTy, FieldEncoder.encode] using ih hse hsd hw'
  | str =>
    simp [getFieldEncoder] at he; simp [getFieldDecoder] at hd; subst he; subst hd
    simp only [FieldDecoder.decode] at h
    cases a <;> simp [rawDecode] at h
    subst h
    rename_i s
    by_cases hz : s = "" <;> simp [HasTy, IsScalar, ZeroAttr, FieldEncoder.encode, FVal.isZeroScalar, FVal.toAny, hz]
  | _ =>
    simp [getFieldEncoder] at he; simp [getFieldDecoder] at hd; subst he; subst hd
    simp only [FieldDecoder.decode] at h
    cases a <;> simp [rawDecode] at h
    subst h
    rename_i n
    by_cases hz : n = 0 <;> simp [HasTy, IsScalar, ZeroAttr, FieldEncoder.encode, FVal.isZeroScalar, FVal.toAny, hz]

theorem encode_zero_type {env : CodecEnv X} {ty : FTy} {e : FieldEncoder} (he : getFieldEncoder ty = .ok e) :
    HasTy ty (ty.zero env) := by
  cases ty <;> simp [FTy.zero, HasTy]

theorem unset_zero {env : CodecEnv X} {ty : FTy} {e : FieldEncoder} (he : getFieldEncoder ty = .ok e) (hz : ZeroUnset env) :
    Unset env ty (ty.zero env) := by
  cases ty with
  | custom c => exact hz c
  | unsupported k => simp [getFieldEncoder] at he
  | _ => simp [FTy.zero, Unset]

/-- Field encoders fail only when a user encoder fails. -/
theorem encode_not_fail {env : CodecEnv X} (hc : ∀ c x msg, (env c).enc x ≠ .error (.fail msg)) {ty : FTy} {e : FieldEncoder}
    {v : FVal X} (he : getFieldEncoder ty = .ok e) (ht : HasTy ty v) {msg : String} :
    e.encode env v ≠ .error (.fail msg) := by
  induction ty generalizing e v with
  | unsupported k => simp [getFieldEncoder] at he
  | custom c => simp [getFieldEncoder] at he; subst he; cases v <;> simp_all [HasTy, FieldEncoder.encode]
  | ptr t ih =>
    by_cases hcu : ∃ c, t = .custom c
    · obtain ⟨c, rfl⟩ := hcu
      simp [getFieldEncoder] at he; subst he
      cases v with
      | ptr w => cases w <;> simp_all [HasTy, FieldEncoder.encode]
      | _ => simp_all [HasTy, FieldEncoder.encode]
    · rw [getFieldEncoder_ptr (by simpa using hcu), map_eq_ok] at he
      obtain ⟨sub, hs, rfl⟩ := he
      cases v with
      | ptr w => simp only [HasTy] at ht; simpa [FieldEncoder.encode] using ih hs ht
      | _ => simp_all [HasTy, FieldEncoder.encode]
  | _ =>
    simp [getFieldEncoder] at he; subst he
    simp only [FieldEncoder.encode]
    split <;> simp

/-! ## Registry -/

structure RegInv (reg : Registry) : Prop where
  goodE : ∀ n e, reg.encodings.get? n = some e → GoodEnc e ∧ e.tname = n ∧ reg.decodings.get? e.codepoint = some e
  goodD : ∀ c e, reg.decodings.get? c = some e → e.codepoint = c ∧ reg.encodings.get? e.tname = some e

theorem mustRegister_ok {reg reg' : Registry} {c : UInt32} {t : GoType} (h : mustRegister reg c t = .ok reg') :
    ∃ e, newEncodingForType c t = .ok e ∧ reg.decodings.get? c = none ∧ reg.encodings.get? e.tname = none ∧
      reg' = { encodings := reg.encodings.set e.tname e, decodings := reg.decodings.set c e } := by
  unfold mustRegister at h
  split at h
  · simp at h
  · rename_i hd
    rw [Res.bind_eq_ok] at h
    obtain ⟨e, he, h⟩ := h
    split at h
    · simp at h
    · rename_i hen
      injection h with h
      exact ⟨e, he, hd, hen, h.symm⟩

theorem newEncodingForType_codepoint {c : UInt32} {t : GoType} {e : TypeEnc} (h : newEncodingForType c t = .ok e) :
    e.codepoint = c := by
  cases t with
  | nonStruct n => simp [newEncodingForType] at h
  | struct name decls =>
    simp only [newEncodingForType] at h
    rw [Res.bind_eq_ok] at h
    obtain ⟨fs, hfs, h⟩ := h
    split at h
    · simp at h
    · injection h with h; subst h; rfl

theorem _root_.Verif.Spec.ReachReg.inv {reg : Registry} (h : ReachReg reg) : RegInv reg := by
  induction h with
  | empty => constructor <;> simp [Registry.empty]
  | register _ hr ih =>
    rename_i reg reg' c t _
    obtain ⟨e, he, hd, hen, rfl⟩ := mustRegister_ok hr
    have hcp := newEncodingForType_codepoint he
    constructor
    · intro n e' h
      rw [GMap.get?_set] at h
      split at h
      · rename_i hn
        injection h with h; subst h
        exact ⟨newEncodingForType_good he, hn, by rw [hcp]; simp⟩
      · obtain ⟨h1, h2, h3⟩ := ih.goodE n e' h
        refine ⟨h1, h2, ?_⟩
        rw [GMap.get?_set_ne]
        · exact h3
        · intro hc; rw [← hc, hd] at h3; simp at h3
    · intro c' e' h
      rw [GMap.get?_set] at h
      split at h
      · rename_i hn
        injection h with h; subst h
        exact ⟨hcp.trans hn, by simp⟩
      · obtain ⟨h1, h2⟩ := ih.goodD c' e' h
        refine ⟨h1, ?_⟩
        rw [GMap.get?_set_ne]
        · exact h2
        · intro hc; rw [← hc, hen] at h2; simp at h2

end Verif.Proofs
