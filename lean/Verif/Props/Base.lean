import Verif.Model.Base
import Verif.Props.Messages
import Verif.Props.Time

/-!
# C85: `NewBase`; C86: which registered kinds can be received
-/
namespace Verif.Props
open Verif Verif.Model Verif.Spec Verif.Proofs

/-! ## C85 -/

/-- **C85.** With at most two times, the first one is the start, the second one the end, and a missing one is nil. -/
theorem C85_times (id : String) (ts : List GoTime) (h : ts.length ≤ 2) :
    newBase id ts = .ok { id := id, startTime := ts[0]?, endTime := ts[1]? } := by
  match ts, h with
  | [], _ => rfl
  | [_], _ => rfl
  | [_, _], _ => rfl
  | _ :: _ :: _ :: _, h => simp at h

/-- **C85.** `NewBase` panics exactly with more than two times. -/
theorem C85_panics_iff (id : String) (ts : List GoTime) : (∃ msg, newBase id ts = .panic msg) ↔ 2 < ts.length := by
  match ts with
  | [] => simp [newBase, nextTime]
  | [_] => simp [newBase, nextTime]
  | [_, _] => simp [newBase, nextTime]
  | _ :: _ :: _ :: _ => simp [newBase, nextTime]

/-- What a field of a built-in kind is. -/
def fieldShape (f : Field) : Bool :=
  decide (f.index = [0, 0] ∧ f.codepoint = 1 ∧ f.ty = .str ∨
    f.index = [0, 1] ∧ f.codepoint = 3 ∧ f.ty = tTime ∧ f.identity = false ∨
    f.index = [0, 2] ∧ f.codepoint = 4 ∧ f.ty = tTime ∧ f.identity = false ∨
    f.index.length = 1 ∧ (f.ty = tStr ∨ f.ty = tU64) ∧ f.identity = false)

theorem van_fields {n : String} {e : TypeEnc} (h : vanRegistry.encodings.get? n = some e) :
    (∀ f ∈ e.fields, fieldShape f = true) ∧ (∃ f ∈ e.fields, f.index = [0, 0] ∧ f.codepoint = 1 ∧ f.ty = .str) ∧
      (∃ f ∈ e.fields, f.index = [0, 1] ∧ f.codepoint = 3 ∧ f.ty = tTime) ∧
      (∃ f ∈ e.fields, f.index = [0, 2] ∧ f.codepoint = 4 ∧ f.ty = tTime) := by
  have key : ∀ kv ∈ vanRegistry.encodings,
    (∀ f ∈ kv.2.fields, fieldShape f = true) ∧ (∃ f ∈ kv.2.fields, f.index = [0, 0] ∧ f.codepoint = 1 ∧ f.ty = .str) ∧
      (∃ f ∈ kv.2.fields, f.index = [0, 1] ∧ f.codepoint = 3 ∧ f.ty = tTime) ∧
      (∃ f ∈ kv.2.fields, f.index = [0, 2] ∧ f.codepoint = 4 ∧ f.ty = tTime) := by decide +kernel
  exact key (n, e) (GMap.mem_of_get? h)

/-- The time attribute of a given time: its microseconds since the epoch. -/
def microAttr (t : GoTime) : Any := .u64 (UInt64.ofNat (instant t / 1000).toNat)

theorem enc_time {t : GoTime} (h : Representable t) : timeCodec.enc t = .ok (microAttr t) := (C08_encode h).1

/-- What the encoder gives for an optional time. -/
def encTime : Option GoTime → Except EncErr Any
  | none => .error .notSet
  | some t => .ok (microAttr t)

theorem enc_timePtr (o : Option GoTime) (h : ∀ t, o = some t → Representable t) {en : FieldEncoder} (he : getFieldEncoder tTime = .ok en) :
    en.encode vanEnv (timePtr o) = encTime o := by
  have : en = .recordAttr "vanflow.Time" := by
    have h2 : getFieldEncoder tTime = .ok (.recordAttr "vanflow.Time") := rfl
    rw [h2] at he; injection he with he; exact he.symm
  subst this
  cases o with
  | none => rfl
  | some t => exact enc_time (h t rfl)

/-- **C85 (on the wire).** A record of any built-in kind whose base was made with a non-empty identity and at most two representable times can be
encoded, and its attributes say what was given: identity in 1, start in 3, end in 4; a time not given is not sent. -/
theorem C85_wire {n : String} {decls : List FieldDecl} {c : UInt32} (hreg : Registered vanRegistry n decls c) {m : Mem GoTime}
    {id : String} {ts : List GoTime} {b : BaseVal} (hb : newBase id ts = .ok b) (hid : id ≠ "") (hts : ∀ t ∈ ts, Representable t)
    (hm : HasStructTy decls (b.into m)) :
    ∃ attrs, encode vanEnv vanRegistry (.value ⟨n, b.into m⟩) = .ok attrs ∧ attrs.get? (.u32 1) = some (.str id) ∧
      attrs.get? (.u32 3) = ts[0]?.map microAttr ∧ attrs.get? (.u32 4) = ts[1]?.map microAttr := by
  have hlen : ts.length ≤ 2 := by
    rcases Nat.lt_or_ge 2 ts.length with hc | hc
    · obtain ⟨msg, h⟩ := (C85_panics_iff id ts).2 hc
      rw [hb] at h; simp at h
    · exact hc
  rw [C85_times id ts hlen] at hb
  injection hb with hb
  obtain ⟨e, he, hd, hg, rfl, rfl, rfl⟩ := Registered.good vanRegistry_reach hreg
  obtain ⟨hsh, hf1, hf3, hf4⟩ := van_fields he
  have m0 : b.into m [0, 0] = .str id := by subst hb; simp [BaseVal.into, Mem.set]
  have m1 : b.into m [0, 1] = timePtr ts[0]? := by subst hb; simp [BaseVal.into, Mem.set]
  have m2 : b.into m [0, 2] = timePtr ts[1]? := by subst hb; simp [BaseVal.into, Mem.set]
  have r0 : ∀ t, ts[0]? = some t → Representable t := fun t h => hts t (List.mem_of_getElem? h)
  have r1 : ∀ t, ts[1]? = some t → Representable t := fun t h => hts t (List.mem_of_getElem? h)
  have hid' : ∀ f ∈ e.fields, f.index = [0, 0] → f.ty = .str → f.encoder.encode vanEnv (b.into m f.index) = .ok (.str id) := by
    intro f hf hi hty
    obtain ⟨_, hfe, _⟩ := hg.sound f hf
    rw [hty] at hfe
    simp [getFieldEncoder] at hfe
    rw [← hfe, hi, m0]
    simp [FieldEncoder.encode, FVal.isZeroScalar, FVal.toAny, hid]
  have hst : ∀ f ∈ e.fields, f.index = [0, 1] → f.ty = tTime → f.encoder.encode vanEnv (b.into m f.index) = encTime ts[0]? := by
    intro f hf hi hty
    obtain ⟨_, hfe, _⟩ := hg.sound f hf
    rw [hty] at hfe
    rw [hi, m1]; exact enc_timePtr _ r0 hfe
  have hen : ∀ f ∈ e.fields, f.index = [0, 2] → f.ty = tTime → f.encoder.encode vanEnv (b.into m f.index) = encTime ts[1]? := by
    intro f hf hi hty
    obtain ⟨_, hfe, _⟩ := hg.sound f hf
    rw [hty] at hfe
    rw [hi, m2]; exact enc_timePtr _ r1 hfe
  obtain ⟨out, ho⟩ := encodeFields_isOk (env := vanEnv) (fs := e.fields) (mem := b.into m) (acc := [])
    (fun f hf => by
      have := hsh f hf
      simp only [fieldShape, decide_eq_true_eq] at this
      rcases this with ⟨h1, _, h3⟩ | ⟨_, _, _, h⟩ | ⟨_, _, _, h⟩ | ⟨_, _, h⟩
      · left; rw [hid' f hf h1 h3]; simp
      · exact Or.inr h
      · exact Or.inr h
      · exact Or.inr h)
    (fun f hf msg => by
      have := hsh f hf
      simp only [fieldShape, decide_eq_true_eq] at this
      rcases this with ⟨h1, _, h3⟩ | ⟨h1, _, h3, _⟩ | ⟨h1, _, h3, _⟩ | ⟨_, h, _⟩
      · rw [hid' f hf h1 h3]; simp
      · rw [hst f hf h1 h3]; cases ts[0]? <;> simp [encTime]
      · rw [hen f hf h1 h3]; cases ts[1]? <;> simp [encTime]
      · obtain ⟨⟨tag, ht, _⟩, hfe, _⟩ := hg.sound f hf
        have hty := hm _ _ ht.leaf
        rcases h with h | h
        · rw [h] at hfe hty
          simp [getFieldEncoder, tStr] at hfe
          rw [← hfe]
          revert hty
          cases b.into m f.index with
          | nilp => intro _; simp [FieldEncoder.encode]
          | ptr v => cases v <;> simp [tStr, HasTy, FieldEncoder.encode] <;> split <;> simp
          | _ => simp [tStr, HasTy]
        · rw [h] at hfe hty
          simp [getFieldEncoder, tU64] at hfe
          rw [← hfe]
          revert hty
          cases b.into m f.index with
          | nilp => intro _; simp [FieldEncoder.encode]
          | ptr v => cases v <;> simp [tU64, HasTy, FieldEncoder.encode] <;> split <;> simp
          | _ => simp [tU64, HasTy])
  have henc : encode vanEnv vanRegistry (.value ⟨e.tname, b.into m⟩) = .ok (out.set typeOfRecord (.u32 e.codepoint)) := by
    simp [encode, he, encodeWith, ho]
  obtain ⟨_, h1, _⟩ := encode_get he hg (hg.noZero (vanRegistry_noZero hreg)) henc
  refine ⟨_, henc, ?_, ?_, ?_⟩
  · obtain ⟨f, hf, hi, hc, hty⟩ := hf1
    rw [← hc, h1 f hf, encAttr, hid' f hf hi hty]
  · obtain ⟨f, hf, hi, hc, hty⟩ := hf3
    rw [← hc, h1 f hf, encAttr, hst f hf hi hty]
    cases ts[0]? <;> rfl
  · obtain ⟨f, hf, hi, hc, hty⟩ := hf4
    rw [← hc, h1 f hf, encAttr, hen f hf hi hty]
    cases ts[1]? <;> rfl

/-- Non-vacuity of C85: a host that has started and not ended. -/
example : newBase "h1" [⟨1, 500000000⟩] = .ok ⟨"h1", some ⟨1, 500000000⟩, none⟩ ∧ Representable ⟨1, 500000000⟩ ∧
    HasStructTy hostDecls ((⟨"h1", some ⟨1, 500000000⟩, none⟩ : BaseVal).into exHostMem) ∧ microAttr ⟨1, 500000000⟩ = .u64 1500000 := by
  refine ⟨rfl, ?_, ?_, by decide⟩
  · unfold Representable instant; decide
  · intro p ty h
    rcases leaf_host h with ⟨rfl, rfl⟩ | ⟨rfl, rfl⟩ | ⟨rfl, rfl⟩ | ⟨rfl, rfl⟩ | ⟨rfl, rfl⟩ <;> exact (by trivial)

/-- And the panic. -/
example : ∃ msg, newBase "h1" [GoTime.zero, GoTime.zero, GoTime.zero] = .panic msg := (C85_panics_iff _ _).2 (by decide)

/-! ## C86 -/

/-- Records an encoder of the built-in registry could have made: they decode. -/
def WellFormed (a : Attrs) : Prop := ∃ g, decode vanEnv vanRegistry (some a) = .ok g

/-- The record codes of records.go:9-25 whose kinds cannot be received. -/
def lostCodes : List UInt32 := [8, 9, 10, 11, 12]

theorem decode_code {a : Attrs} {g : GoRec GoTime} (h : decode vanEnv vanRegistry (some a) = .ok g) :
    ∃ c, a.get? (.u32 0) = some (.u32 c) ∧ (isRecord g = true ↔ c ∉ lostCodes) ∧ c < 15 := by
  have h' := h
  simp only [decode] at h
  split at h
  · simp at h
  · rename_i c hc
    refine ⟨c, hc, ?_⟩
    split at h
    · simp at h
    · rename_i enc henc
      rw [map_eq_ok] at h
      obtain ⟨mem, _, rfl⟩ := h
      have key : ∀ kv ∈ vanRegistry.decodings, (kv.2.tname ∈ recordKinds ↔ kv.1 ∉ lostCodes) ∧ kv.1 < 15 := by decide +kernel
      have := key (c, enc) (GMap.mem_of_get? henc)
      simpa [isRecord] using this
  · simp at h

/-- C86 is false: this image record is encoded by the sender and decoded by the codec, but a message with it is not delivered. -/
theorem C86_counterexample :
    (encode vanEnv vanRegistry (.value ⟨"ImageRecord", exHostMem⟩)) = .ok [(.u32 1, .str "h1"), (.u32 3, .u64 1000001), (.u32 0, .u32 8)] ∧
    (decodeMsg vanRegistry (some { props := some { subject := some "RECORD" }
                                   value := .list [.map (some [(.u32 1, .str "h1"), (.u32 3, .u64 1000001), (.u32 0, .u32 8)])] })).isErr = true := by
  refine ⟨by decide, by decide⟩

/-- **C86 (the lost kinds).** A message with a record of one of the five kinds (image, ingress, egress, collector, process group) is never delivered,
whatever else is in it. -/
theorem C86_lost {m : Msg} {p : MsgProps} (hp : m.props = some p) (hs : p.subject = some "RECORD") {es : List Elem}
    (hv : m.value = .list es) {a : Attrs} (ha : .map (some a) ∈ es) {c : UInt32} (hc : a.get? (.u32 0) = some (.u32 c)) (hl : c ∈ lostCodes)
    (d : Decoded) : decodeMsg vanRegistry (some m) ≠ .ok d := by
  refine C12_one_bad_rejects vanRegistry hp hs hv ha ?_ d
  rintro r ⟨m', hm, hdec, hrec⟩
  injection hm with hm; subst hm
  obtain ⟨c', hc', hiff, _⟩ := decode_code hdec
  rw [hc] at hc'; injection hc' with hc'; injection hc' with hc'; subst hc'
  exact hiff.1 hrec hl

/-- **C86 (partial).** A message is delivered if all its records are well formed and none of these is of the five kinds. Missing: the five kinds. -/
theorem C86_received_partial {m : Msg} {p : MsgProps} (hp : m.props = some p) (hs : p.subject = some "RECORD") {as : List Attrs}
    (hv : m.value = .list (as.map fun a => .map (some a))) (hwf : ∀ a ∈ as, WellFormed a)
    (hk : ∀ a ∈ as, ∀ c ∈ lostCodes, a.get? (.u32 0) ≠ some (.u32 c)) :
    ∃ rm, decodeMsg vanRegistry (some m) = .ok (.record rm) ∧ Pointwise (fun a r => decode vanEnv vanRegistry (some a) = .ok r) as rm.records := by
  have : ∃ rs, Pointwise (Delivers vanRegistry) (as.map fun a => .map (some a)) rs ∧
      Pointwise (fun a r => decode vanEnv vanRegistry (some a) = .ok r) as rs := by
    clear hv
    induction as with
    | nil => exact ⟨[], trivial, trivial⟩
    | cons a as ih =>
      obtain ⟨rs, h1, h2⟩ := ih (fun a h => hwf a (List.mem_cons_of_mem _ h)) (fun a h => hk a (List.mem_cons_of_mem _ h))
      obtain ⟨g, hg⟩ := hwf a List.mem_cons_self
      obtain ⟨c, hc, hiff, _⟩ := decode_code hg
      have hrec : isRecord g = true := hiff.2 fun hl => hk a List.mem_cons_self c hl hc
      exact ⟨g :: rs, ⟨⟨some a, rfl, hg, hrec⟩, h1⟩, ⟨hg, h2⟩⟩
  obtain ⟨rs, h1, h2⟩ := this
  obtain ⟨rm, hrm, rfl⟩ := (C12_all_or_nothing_partial vanRegistry hp hs hv rs).2 h1
  exact ⟨rm, hrm, h2⟩

/-- Non-vacuity of the partial result: the two hosts of `twoHostMsg`. -/
example : (∀ a ∈ [exHostAttrs, exHostAttrs], WellFormed a) ∧ (∀ a ∈ [exHostAttrs, exHostAttrs], ∀ c ∈ lostCodes, a.get? (.u32 0) ≠ some (.u32 c)) ∧
    twoHostMsg.value = .list ([exHostAttrs, exHostAttrs].map fun a => .map (some a)) := by
  obtain ⟨g', h1, _, _⟩ := record_roundtrip (g := .value ⟨"HostRecord", exHostMem⟩)
    ⟨⟨"HostRecord", exHostMem⟩, hostDecls, 13, Or.inl rfl, by decide, hostRegistered, exHost_typed⟩ exHost_encodes
  refine ⟨?_, by decide, rfl⟩
  intro a ha
  have : a = exHostAttrs := by simpa using ha
  exact ⟨g', this ▸ h1⟩

end Verif.Props
