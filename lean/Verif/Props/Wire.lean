import Verif.Proofs.Wire
import Verif.Spec.Wire
import Verif.Props.Messages

/-!
# C118: messages on the wire
-/
namespace Verif.Props
open Verif Verif.Model Verif.Spec Verif.Proofs

/-- **C118 (values).** Whatever form of the standard a value comes in, it is read as that value, and reading stops behind it. -/
theorem C118_read {v : WVal} {bs : List UInt8} (h : Enc v bs) (r : List UInt8) : readWire (bs ++ r) = some (v, r) :=
  readWire_enc h r

/-- **C118 (values).** What is written is a form of the standard. -/
theorem C118_written {v : WVal} (hp : Paired v) (hl : (marshal v).length < 2 ^ 32) : Enc v (marshal v) := marshal_enc v hp hl

/-- The sections, one after the other. -/
def applySections : List (UInt64 × WVal) → Msg → Option Msg
  | [], m => some m
  | (c, v) :: l, m => (readSection c v m).bind (applySections l)

theorem readSections_enc {secs : List (UInt64 × WVal)} {bs : List UInt8} (h : SectionsEnc secs bs) :
    ∀ (fuel : Nat) (m : Msg), bs.length + 1 ≤ fuel → readSections fuel bs m = applySections secs m := by
  induction h with
  | nil =>
    intro fuel m hf
    cases fuel with
    | zero => simp at hf
    | succ fuel => simp [readSections, applySections]
  | @cons c v l a b h hs ih =>
    intro fuel m hf
    obtain ⟨d, a', hd, ha, rfl⟩ := h
    cases fuel with
    | zero => simp at hf
    | succ fuel =>
      have e1 : readWire (d ++ (a' ++ b)) = some (.ulong c, a' ++ b) := readWire_enc hd _
      have e2 : readWire (a' ++ b) = some (v, b) := readWire_enc ha _
      simp at hf
      simp only [List.cons_append, List.append_assoc, readSections, applySections, e1, e2, ne_eq, not_true_eq_false, if_false]
      congr 1
      funext m'
      exact ih fuel m' (by omega)

theorem unmarshal_enc {secs : List (UInt64 × WVal)} {bs : List UInt8} (h : SectionsEnc secs bs) :
    unmarshal bs = applySections secs {} := readSections_enc h _ _ (Nat.le_refl _)

theorem applySections_append (a b : List (UInt64 × WVal)) (m : Msg) :
    applySections (a ++ b) m = (applySections a m).bind (applySections b) := by
  induction a generalizing m with
  | nil => rfl
  | cons p a ih =>
    obtain ⟨c, v⟩ := p
    simp only [List.cons_append, applySections, Option.bind_assoc]
    congr 1
    funext m'
    exact ih m'

theorem applySections_own {l : List (UInt64 × WVal)} (h : RoutersOwn l) (m : Msg) : applySections l m = some m := by
  induction l with
  | nil => rfl
  | cons p l ih =>
    obtain ⟨c, v⟩ := p
    have h1 : readSection c v m = some m := by
      rcases h (c, v) List.mem_cons_self with h | h | h | h <;> simp only at h <;> subst h <;> simp [readSection]
    rw [applySections, h1, Option.bind_some]
    exact ih (fun p hp => h p (List.mem_cons_of_mem _ hp))

theorem _root_.Verif.Spec.SectionsEnc.append {a b : List (UInt64 × WVal)} {x y : List UInt8} (h : SectionsEnc a x) (h' : SectionsEnc b y) :
    SectionsEnc (a ++ b) (x ++ y) := by
  induction h with
  | nil => exact h'
  | cons h hs ih => rw [List.append_assoc]; exact .cons h ih

theorem writeSection_enc {code : UInt8} {v : WVal} (hp : Paired v) (hl : (writeSection code v).length < 2 ^ 32) :
    SectionsEnc [(code.toUInt64, v)] (writeSection code v) := by
  have h : SectionEnc code.toUInt64 v (writeSection code v) :=
    ⟨[0x53, code], marshal v, .ulong8 (by simp), marshal_enc v hp (by simp [writeSection] at hl; omega), rfl⟩
  have := SectionsEnc.cons h .nil
  rwa [List.append_nil] at this

/-! ## Attributes -/

theorem wireAny_toAny {a : Any} {v : WVal} (h : wireAny a = some v) : v.toAny = a := by
  cases a <;> simp [wireAny] at h <;> subst h <;> rfl

theorem wireAny_isKey {a : Any} {v : WVal} (h : wireAny a = some v) (hn : a ≠ .nil) : v.isKey = true := by
  cases a <;> simp [wireAny] at h <;> first | exact absurd rfl hn | (subst h; rfl)

theorem wireAny_paired {a : Any} {v : WVal} (h : wireAny a = some v) : Paired v := by
  cases a <;> simp [wireAny] at h <;> subst h <;> trivial

theorem wireAttrs_fill {m acc : Attrs} {l : List WVal} (h : wireAttrs m = some l) (hw : GMap.WF (acc ++ m))
    (hn : ∀ p ∈ m, p.1 ≠ .nil) : fillAny l acc = some (acc ++ m) := by
  induction m generalizing acc l with
  | nil => simp [wireAttrs] at h; subst h; simp [fillAny]
  | cons p m ih =>
    obtain ⟨k, v⟩ := p
    simp only [wireAttrs, Option.bind_eq_some_iff, Option.map_eq_some_iff] at h
    obtain ⟨k', hk, v', hv, l', hl, rfl⟩ := h
    have hno : acc.get? k = none := by
      rw [GMap.get?_eq_none_iff]
      intro hc
      simp only [GMap.WF, GMap.keys, List.map_append, List.map_cons, List.nodup_append] at hw
      exact hw.2.2 k hc k (by simp) rfl
    rw [fillAny, if_pos (wireAny_isKey hk (hn (k, v) List.mem_cons_self)), wireAny_toAny hk, wireAny_toAny hv, GMap.set_eq_append hno,
      ih hl (by simpa using hw) (fun p hp => hn p (List.mem_cons_of_mem _ hp))]
    simp

theorem wireText_fill {m acc : GMap String Any} {l : List WVal} (h : wireText m = some l) (hw : GMap.WF (acc ++ m)) :
    fillText l acc = some (acc ++ m) := by
  induction m generalizing acc l with
  | nil => simp [wireText] at h; subst h; simp [fillText]
  | cons p m ih =>
    obtain ⟨k, v⟩ := p
    simp only [wireText, Option.bind_eq_some_iff, Option.map_eq_some_iff] at h
    obtain ⟨v', hv, l', hl, rfl⟩ := h
    have hno : acc.get? k = none := by
      rw [GMap.get?_eq_none_iff]
      intro hc
      simp only [GMap.WF, GMap.keys, List.map_append, List.map_cons, List.nodup_append] at hw
      exact hw.2.2 k hc k (by simp) rfl
    rw [fillText, wireAny_toAny hv, GMap.set_eq_append hno, ih hl (by simpa using hw)]
    simp

theorem wireAttrs_paired {m : Attrs} {l : List WVal} (h : wireAttrs m = some l) : Paired (.map l) := by
  suffices l.length % 2 = 0 ∧ PairedAll l by simpa [Paired] using this
  induction m generalizing l with
  | nil => simp [wireAttrs] at h; subst h; simp [PairedAll]
  | cons p m ih =>
    obtain ⟨k, v⟩ := p
    simp only [wireAttrs, Option.bind_eq_some_iff, Option.map_eq_some_iff] at h
    obtain ⟨k', hk, v', hv, l', hl, rfl⟩ := h
    have := ih hl
    exact ⟨by simp; omega, wireAny_paired hk, wireAny_paired hv, this.2⟩

theorem wireText_paired {m : GMap String Any} {l : List WVal} (h : wireText m = some l) : Paired (.map l) := by
  suffices l.length % 2 = 0 ∧ PairedAll l by simpa [Paired] using this
  induction m generalizing l with
  | nil => simp [wireText] at h; subst h; simp [PairedAll]
  | cons p m ih =>
    obtain ⟨k, v⟩ := p
    simp only [wireText, Option.bind_eq_some_iff, Option.map_eq_some_iff] at h
    obtain ⟨v', hv, l', hl, rfl⟩ := h
    have := ih hl
    exact ⟨by simp; omega, trivial, wireAny_paired hv, this.2⟩

/-- Not all keys are strings. -/
theorem wireAttrs_textKeys {m : Attrs} {l : List WVal} (h : wireAttrs m = some l) {n : UInt32} {v : Any} (hm : (.u32 n, v) ∈ m) :
    textKeys l = false := by
  induction m generalizing l with
  | nil => simp at hm
  | cons p m ih =>
    obtain ⟨k, w⟩ := p
    simp only [wireAttrs, Option.bind_eq_some_iff, Option.map_eq_some_iff] at h
    obtain ⟨k', hk, v', hv, l', hl, rfl⟩ := h
    rcases List.mem_cons.1 hm with hm | hm
    · injection hm with h1 h2
      subst h1
      simp [wireAny] at hk
      subst hk
      simp [textKeys, WVal.isText]
    · simp [textKeys, ih hl hm]

/-! ## Messages -/

/-- Attribute sets as `Encode` makes them: no key twice, keys codes, the record type among them, values of the five kinds. -/
def RecordSet (a : Attrs) : Prop :=
  GMap.WF a ∧ (∀ p ∈ a, ∃ n : UInt32, p.1 = .u32 n) ∧ a ≠ [] ∧ ∀ p ∈ a, ∃ v, wireAny p.2 = some v

theorem RecordSet.perm {a b : Attrs} (h : RecordSet a) (hp : a.Perm b) : RecordSet b := by
  obtain ⟨h1, h2, h3, h4⟩ := h
  refine ⟨?_, fun p hm => h2 p (hp.mem_iff.2 hm), ?_, fun p hm => h4 p (hp.mem_iff.2 hm)⟩
  · exact (hp.map Prod.fst).nodup_iff.1 h1
  · rintro rfl; exact h3 hp.eq_nil

theorem RecordSet.wire {a : Attrs} (h : RecordSet a) : ∃ l, wireAttrs a = some l := by
  obtain ⟨h1, h2, h3, h4⟩ := h
  clear h1 h3
  induction a with
  | nil => exact ⟨[], rfl⟩
  | cons p a ih =>
    obtain ⟨k, v⟩ := p
    obtain ⟨l, hl⟩ := ih (fun p hp => h2 p (List.mem_cons_of_mem _ hp)) (fun p hp => h4 p (List.mem_cons_of_mem _ hp))
    obtain ⟨n, hk⟩ := h2 _ List.mem_cons_self
    obtain ⟨w, hv⟩ := h4 _ List.mem_cons_self
    simp only at hk hv
    subst hk
    have hk : wireAny (.u32 n) = some (.uint n) := rfl
    exact ⟨.uint n :: w :: l, by simp [wireAttrs, hk, hv, hl]⟩

theorem RecordSet.toElem {a : Attrs} (h : RecordSet a) {v : WVal} (hv : wireElem (.map (some a)) = some v) :
    v.toElem = some (.map (some a)) ∧ Paired v := by
  obtain ⟨h1, h2, h3, h4⟩ := h
  simp only [wireElem, Option.map_eq_some_iff] at hv
  obtain ⟨l, hl, rfl⟩ := hv
  have hf : fillAny l [] = some a := by
    simpa using wireAttrs_fill (acc := []) hl (by simpa using h1) (fun p hp => by obtain ⟨n, hn⟩ := h2 p hp; rw [hn]; simp)
  have ht : textKeys l = false := by
    cases a with
    | nil => exact absurd rfl h3
    | cons p a =>
      obtain ⟨n, hn⟩ := h2 p List.mem_cons_self
      exact wireAttrs_textKeys hl (n := n) (v := p.2) (by rw [← hn]; exact List.mem_cons_self)
  exact ⟨by simp [WVal.toElem, hf, ht], wireAttrs_paired hl⟩

/-- Bodies as `RecordMessage.Encode` makes them. -/
def RecordBody (es : List Elem) : Prop := ∀ e ∈ es, ∃ a, e = .map (some a) ∧ RecordSet a

theorem RecordBody.wire {es : List Elem} (h : RecordBody es) : ∃ l, wireElems es = some l ∧ toElems l = some es ∧ PairedAll l := by
  induction es with
  | nil => exact ⟨[], rfl, rfl, trivial⟩
  | cons e es ih =>
    obtain ⟨l, h1, h2, h3⟩ := ih (fun e he => h e (List.mem_cons_of_mem _ he))
    obtain ⟨a, rfl, ha⟩ := h e List.mem_cons_self
    obtain ⟨x, hx⟩ := ha.wire
    have hv : wireElem (.map (some a)) = some (.map x) := by simp [wireElem, hx]
    obtain ⟨h4, h5⟩ := ha.toElem hv
    exact ⟨.map x :: l, by simp [wireElems, hv, h1], by simp [toElems, h4, h2], h5, h3⟩

/-- Messages as the four `Encode` methods make them. -/
structure Sendable (m : Msg) : Prop where
  app : m.appProps.WF
  appVals : ∀ p ∈ m.appProps, ∃ v, wireAny p.2 = some v
  body : m.value = .nil ∨ ∃ es, m.value = .list es ∧ RecordBody es

theorem wireText_some {m : GMap String Any} (h : ∀ p ∈ m, ∃ v, wireAny p.2 = some v) : ∃ l, wireText m = some l := by
  induction m with
  | nil => exact ⟨[], rfl⟩
  | cons p m ih =>
    obtain ⟨k, v⟩ := p
    obtain ⟨l, hl⟩ := ih (fun p hp => h p (List.mem_cons_of_mem _ hp))
    obtain ⟨w, hv⟩ := h _ List.mem_cons_self
    simp only at hv
    exact ⟨.str k :: w :: l, by simp [wireText, hv, hl]⟩

theorem propsOf_wireProps (p : MsgProps) : propsOf (wireProps p) = some p := by
  obtain ⟨t, s, r⟩ := p
  cases t <;> cases s <;> cases r <;> rfl

theorem wireProps_paired (p : MsgProps) : Paired (.list (wireProps p)) := by
  obtain ⟨t, s, r⟩ := p
  cases t <;> cases s <;> cases r <;> simp [wireProps, wireOpt, Paired, PairedAll]

theorem Sendable.writable {m : Msg} (h : Sendable m) : ∃ bs, marshalMsg m = some bs := by
  obtain ⟨l, hl⟩ := wireText_some h.appVals
  rcases h.body with hb | ⟨es, hb, hes⟩
  · simp [marshalMsg, hl, hb]
  · obtain ⟨x, hx, _⟩ := hes.wire
    simp [marshalMsg, hl, hb, hx]

theorem Sendable.sections {m : Msg} (h : Sendable m) {bs : List UInt8} (hw : marshalMsg m = some bs) (hl : bs.length < 2 ^ 32) :
    ∃ secs, SectionsEnc secs bs ∧ applySections secs {} = some m := by
  obtain ⟨app, happ⟩ := wireText_some h.appVals
  have hfill : fillText app [] = some m.appProps := by simpa using wireText_fill (acc := []) happ (by simpa using h.app)
  have P : (writeProps m.props).length < 2 ^ 32 →
      ∃ s, SectionsEnc s (writeProps m.props) ∧ applySections s {} = some { props := m.props } := by
    intro hlen
    cases hp : m.props with
    | none => exact ⟨[], .nil, rfl⟩
    | some q =>
      rw [hp] at hlen
      exact ⟨_, writeSection_enc (wireProps_paired q) hlen, by simp [applySections, readSection, propsOf_wireProps]⟩
  have A : (writeApp app).length < 2 ^ 32 →
      ∃ s, SectionsEnc s (writeApp app) ∧ ∀ q, applySections s { props := q } = some { props := q, appProps := m.appProps } := by
    intro hlen
    cases hp : app with
    | nil =>
      subst hp
      simp [fillText] at hfill
      exact ⟨[], .nil, fun q => by rw [← hfill]; rfl⟩
    | cons x xs =>
      have e : writeApp (x :: xs) = writeSection 0x74 (.map (x :: xs)) := rfl
      rw [hp, e] at hlen
      rw [hp] at happ hfill
      rw [e]
      exact ⟨_, writeSection_enc (wireText_paired happ) hlen, fun q => by simp [applySections, readSection, hfill]⟩
  simp only [marshalMsg, happ, Option.bind_some] at hw
  rcases h.body with hb | ⟨es, hb, hes⟩
  · simp only [hb, Option.some.injEq] at hw
    subst hw
    simp only [List.length_append] at hl
    obtain ⟨s1, h1, e1⟩ := P (by omega)
    obtain ⟨s2, h2, e2⟩ := A (by omega)
    refine ⟨s1 ++ s2, h1.append h2, ?_⟩
    rw [applySections_append, e1, Option.bind_some, e2, ← hb]
  · obtain ⟨x, hx, hx2, hx3⟩ := hes.wire
    simp only [hb, hx, Option.map_some, Option.some.injEq] at hw
    subst hw
    simp only [List.length_append] at hl
    obtain ⟨s1, h1, e1⟩ := P (by omega)
    obtain ⟨s2, h2, e2⟩ := A (by omega)
    refine ⟨s1 ++ s2 ++ _, (h1.append h2).append (writeSection_enc (v := .list x) (by simpa [Paired] using hx3) (by omega)), ?_⟩
    rw [applySections_append, applySections_append, e1, Option.bind_some, e2]
    simp [applySections, readSection, WVal.toValue, hx2, ← hb]

/-! ## What the encoders make can be written -/

theorem encode_wires {ty : FTy} {e : FieldEncoder} {v : FVal GoTime} {a : Any} (he : getFieldEncoder ty = .ok e) (ht : HasTy ty v)
    (h : e.encode vanEnv v = .ok a) : ∃ w, wireAny a = some w := by
  have hc : ∀ (c : String) (x : GoTime) (a : Any), (vanEnv c).enc x = .ok a → ∃ w, wireAny a = some w := by
    intro c x a h
    simp only [vanEnv, timeCodec, timeEncode] at h
    split at h
    · simp at h
    · split at h
      · simp at h
      · injection h with h; subst h; exact ⟨_, rfl⟩
  induction ty generalizing e v with
  | unsupported k => simp [getFieldEncoder] at he
  | custom c =>
    simp [getFieldEncoder] at he; subst he
    cases v <;> simp_all [HasTy, FieldEncoder.encode]
    exact hc _ _ _ h
  | ptr t ih =>
    by_cases hcu : ∃ c, t = .custom c
    · obtain ⟨c, rfl⟩ := hcu
      simp [getFieldEncoder] at he; subst he
      cases v with
      | ptr w =>
        cases w <;> simp_all [HasTy, FieldEncoder.encode]
        exact hc _ _ _ h
      | _ => simp_all [HasTy, FieldEncoder.encode]
    · rw [getFieldEncoder_ptr (by simpa using hcu), map_eq_ok] at he
      obtain ⟨se, hse, rfl⟩ := he
      cases v with
      | ptr w => simp only [HasTy] at ht; simp only [FieldEncoder.encode] at h; exact ih hse ht h
      | _ => simp_all [HasTy, FieldEncoder.encode]
  | _ =>
    simp [getFieldEncoder] at he; subst he
    cases v <;> simp only [HasTy] at ht
    simp only [FieldEncoder.encode] at h
    split at h
    · simp at h
    · injection h with h; subst h; exact ⟨_, rfl⟩

theorem mem_of_mem_set {K V : Type} [DecidableEq K] {m : GMap K V} {k : K} {v : V} {p : K × V} (h : p ∈ m.set k v) : p ∈ m ∨ p = (k, v) := by
  induction m with
  | nil => simp [GMap.set] at h; exact .inr h
  | cons q m ih =>
    obtain ⟨a, b⟩ := q
    simp only [GMap.set] at h
    split at h
    · rcases List.mem_cons.1 h with h | h
      · exact .inr h
      · exact .inl (List.mem_cons_of_mem _ h)
    · rcases List.mem_cons.1 h with h | h
      · exact .inl (by rw [h]; exact List.mem_cons_self)
      · rcases ih h with h | h
        · exact .inl (List.mem_cons_of_mem _ h)
        · exact .inr h

/-- Keys codes, values of the five kinds, no key twice. -/
def CodeSet (a : Attrs) : Prop := GMap.WF a ∧ (∀ p ∈ a, ∃ n : UInt32, p.1 = .u32 n) ∧ ∀ p ∈ a, ∃ v, wireAny p.2 = some v

theorem CodeSet.set {a : Attrs} (h : CodeSet a) (n : UInt32) {v : Any} (hv : ∃ w, wireAny v = some w) : CodeSet (a.set (.u32 n) v) := by
  obtain ⟨h1, h2, h3⟩ := h
  refine ⟨h1.set _ _, fun p hp => ?_, fun p hp => ?_⟩
  · rcases mem_of_mem_set hp with hp | rfl
    · exact h2 p hp
    · exact ⟨n, rfl⟩
  · rcases mem_of_mem_set hp with hp | rfl
    · exact h3 p hp
    · exact hv

theorem encodeFields_set {fs : List Field} {mem : Mem GoTime} {acc out : Attrs} (ha : CodeSet acc)
    (hf : ∀ f ∈ fs, ∀ a, f.encoder.encode vanEnv (mem f.index) = .ok a → ∃ w, wireAny a = some w)
    (h : encodeFields vanEnv fs mem acc = .ok out) : CodeSet out := by
  induction fs generalizing acc with
  | nil => simp [encodeFields] at h; subst h; exact ha
  | cons f fs ih =>
    have hf' := fun g hg => hf g (List.mem_cons_of_mem _ hg)
    simp only [encodeFields] at h
    split at h
    · split at h
      · simp at h
      · exact ih ha hf' h
    · simp at h
    · exact ih ha hf' h
    · next a hn he => exact ih (ha.set _ (hf f List.mem_cons_self _ he)) hf' h

theorem encode_recordSet {g : GoRec GoTime} (hg : GoodRecord vanRegistry g) {a : Attrs} (h : encode vanEnv vanRegistry g = .ok a) :
    RecordSet a := by
  obtain ⟨r, decls, code, hgr, hk, hreg, hty⟩ := hg
  have he : encode vanEnv vanRegistry (.value r) = .ok a := by rcases hgr with rfl | rfl <;> exact h
  obtain ⟨e, h1, h2, h3, h4, rfl, _⟩ := Registered.good vanRegistry_reach hreg
  simp only [encode, h1, encodeWith, map_eq_ok] at he
  obtain ⟨x, hx, rfl⟩ := he
  have hs := encodeFields_set (acc := []) ⟨GMap.WF_nil, by simp, by simp⟩ (fun f hf a ha => by
    have hF := h3.sound f hf
    obtain ⟨t, ht, _⟩ := hF.ex
    exact encode_wires hF.enc (hty _ _ ht.leaf) ha) hx
  have := hs.set 0 (v := .u32 e.codepoint) ⟨_, rfl⟩
  refine ⟨this.1, this.2.1, ?_, this.2.2⟩
  intro hc
  have h0 := GMap.get?_set_self x (.u32 0) (.u32 e.codepoint)
  have hc' : x.set (.u32 0) (.u32 e.codepoint) = [] := hc
  rw [hc'] at h0
  simp at h0

/-- The messages vanflow sends: what the four `Encode` methods return. -/
inductive Produced : Msg → Prop
  | beacon (m : Beacon) : Produced m.encode
  | heartbeat (m : Heartbeat) : Produced m.encode
  | flush (m : Flush) : Produced m.encode
  | record {m : RecordMsg} {msg : Msg} (hg : ∀ g ∈ m.records, GoodRecord vanRegistry g) (h : m.encode vanRegistry = .ok msg) :
      Produced msg

theorem encodeRecords_body {gs : List (GoRec GoTime)} (hg : ∀ g ∈ gs, GoodRecord vanRegistry g) {es : List Elem}
    (h : encodeRecords vanRegistry gs = .ok es) : RecordBody es := by
  induction gs generalizing es with
  | nil => simp [encodeRecords] at h; subst h; intro e he; simp at he
  | cons g gs ih =>
    simp only [encodeRecords] at h
    rw [Res.bind_eq_ok] at h
    obtain ⟨a, ha, h⟩ := h
    rw [map_eq_ok] at h
    obtain ⟨es', he, rfl⟩ := h
    intro e hm
    rcases List.mem_cons.1 hm with rfl | hm
    · exact ⟨a, rfl, encode_recordSet (hg g List.mem_cons_self) ha⟩
    · exact ih (fun x hx => hg x (List.mem_cons_of_mem _ hx)) he e hm

theorem Produced.sendable {m : Msg} (h : Produced m) : Sendable m := by
  cases h with
  | beacon m => exact ⟨by simp [Beacon.encode, GMap.WF, GMap.keys], by simp [Beacon.encode, wireAny], .inl rfl⟩
  | heartbeat m => exact ⟨by simp [Heartbeat.encode, GMap.WF, GMap.keys], by simp [Heartbeat.encode, wireAny], .inl rfl⟩
  | flush m => exact ⟨by simp [Flush.encode, GMap.WF, GMap.keys], by simp [Flush.encode], .inl rfl⟩
  | record hg h =>
    unfold RecordMsg.encode at h
    rw [map_eq_ok] at h
    obtain ⟨es, hes, rfl⟩ := h
    exact ⟨by simp [GMap.WF, GMap.keys], by simp, .inr ⟨es, rfl, encodeRecords_body hg hes⟩⟩

theorem SameElems.body {es fs : List Elem} (h : SameElems es fs) (hb : RecordBody es) : RecordBody fs := by
  induction es generalizing fs with
  | nil => cases fs with
    | nil => exact hb
    | cons f fs => simp [SameElems] at h
  | cons e es ih =>
    obtain ⟨a, rfl, ha⟩ := hb e List.mem_cons_self
    match fs, h with
    | .map (some b) :: fs, h =>
      simp only [SameElems] at h
      intro f hf
      rcases List.mem_cons.1 hf with rfl | hf
      · exact ⟨b, rfl, ha.perm h.1⟩
      · exact ih h.2 (fun e he => hb e (List.mem_cons_of_mem _ he)) f hf

theorem Sendable.same {m m' : Msg} (h : Sendable m) (hs : SameEntries m m') : Sendable m' := by
  obtain ⟨hp, ha, hb⟩ := hs
  refine ⟨(ha.map Prod.fst).nodup_iff.1 h.app, fun p hp => h.appVals p (ha.mem_iff.2 hp), ?_⟩
  rcases h.body with hv | ⟨es, hv, hes⟩
  · rw [hv] at hb
    cases hv' : m'.value with
    | nil => exact .inl rfl
    | _ => rw [hv'] at hb; simp [SameBody] at hb
  · rw [hv] at hb
    cases hv' : m'.value with
    | list fs => rw [hv'] at hb; exact .inr ⟨fs, rfl, SameElems.body hb hes⟩
    | _ => rw [hv'] at hb; simp [SameBody] at hb

theorem get?_of_perm {K V : Type} [DecidableEq K] {a b : GMap K V} (hw : a.WF) (h : a.Perm b) (k : K) : a.get? k = b.get? k := by
  have hwb : b.WF := (h.map Prod.fst).nodup_iff.1 hw
  cases ha : a.get? k with
  | some v => exact (GMap.get?_of_mem hwb (h.mem_iff.1 (GMap.mem_of_get? ha))).symm
  | none =>
    cases hb : b.get? k with
    | none => rfl
    | some v => rw [GMap.get?_of_mem hw (h.mem_iff.2 (GMap.mem_of_get? hb))] at ha; simp at ha

theorem decode_perm (reg : Registry) {a b : Attrs} (hw : a.WF) (h : a.Perm b) :
    decode vanEnv reg (some a) = decode vanEnv reg (some b) := by
  simp only [decode, get?_of_perm hw h]
  split
  · rfl
  · split
    · rfl
    · rw [decodeFields_congr (fun f _ => get?_of_perm hw h _)]
  · rfl

theorem decodeElems_same (reg : Registry) {es fs : List Elem} (h : SameElems es fs) (hb : RecordBody es) :
    decodeElems reg es = decodeElems reg fs := by
  induction es generalizing fs with
  | nil => cases fs with
    | nil => rfl
    | cons f fs => simp [SameElems] at h
  | cons e es ih =>
    obtain ⟨a, rfl, ha⟩ := hb e List.mem_cons_self
    match fs, h with
    | .map (some b) :: fs, h =>
      simp only [SameElems] at h
      simp only [decodeElems, decode_perm reg ha.1 h.1, ih h.2 (fun e he => hb e (List.mem_cons_of_mem _ he))]

/-- The order of iteration does not matter to the decoders. -/
theorem decodeMsg_same (reg : Registry) {m m' : Msg} (h : Sendable m) (hs : SameEntries m m') :
    decodeMsg reg (some m) = decodeMsg reg (some m') := by
  obtain ⟨hp, ha, hb⟩ := hs
  have hr : decodeRecords reg m = decodeRecords reg m' := by
    rcases h.body with hv | ⟨es, hv, hes⟩
    · rw [hv] at hb
      cases hv' : m'.value with
      | nil => simp [decodeRecords, hv, hv']
      | _ => rw [hv'] at hb; simp [SameBody] at hb
    · rw [hv] at hb
      cases hv' : m'.value with
      | list fs => rw [hv'] at hb; simp only [decodeRecords, hv, hv']; exact decodeElems_same reg hb hes
      | _ => rw [hv'] at hb; simp [SameBody] at hb
  simp only [decodeMsg, decodeBeacon, decodeHeartbeat, decodeFlush, decodeRecord, hp, hr, u32Prop, u64Prop, strProp,
    get?_of_perm h.app ha]

/-- **C118 (nothing is refused).** Whatever vanflow's encoders return can be written, in any order of the entries of its maps. -/
theorem C118_writable {msg m' : Msg} (hp : Produced msg) (hs : SameEntries msg m') : ∃ bs, marshalMsg m' = some bs :=
  (hp.sendable.same hs).writable

/-- **C118.** A message vanflow sends, its maps iterated in any order, is read back by the receiver into a message from which the
same is decoded — also if routers wrote its values in other forms of the standard, or added sections of their own. -/
theorem C118_message {msg m' : Msg} (hp : Produced msg) (hs : SameEntries msg m') {bs bs' : List UInt8}
    (hw : marshalMsg m' = some bs) (hl : bs.length < 2 ^ 32) (hc : Carries bs bs') (reg : Registry) :
    unmarshal bs' = some m' ∧ decodeMsg reg (some m') = decodeMsg reg (some msg) := by
  refine ⟨?_, (decodeMsg_same reg hp.sendable hs).symm⟩
  obtain ⟨secs, h1, h2⟩ := (hp.sendable.same hs).sections hw hl
  obtain ⟨secs', pre, post, h3, h4, h5, h6⟩ := hc
  have h7 : applySections secs' {} = some m' := by rw [← unmarshal_enc h3, unmarshal_enc h1, h2]
  rw [unmarshal_enc h6, applySections_append, applySections_append, applySections_own h4, Option.bind_some, h7, Option.bind_some,
    applySections_own h5]

/-- What is written is carried unchanged. -/
theorem C118_direct {msg m' : Msg} (hp : Produced msg) (hs : SameEntries msg m') {bs : List UInt8} (hw : marshalMsg m' = some bs)
    (hl : bs.length < 2 ^ 32) : Carries bs bs := by
  obtain ⟨secs, h1, _⟩ := (hp.sendable.same hs).sections hw hl
  exact ⟨secs, [], [], h1, by simp [RoutersOwn], by simp [RoutersOwn], by simpa using h1⟩

/-- **C118 (records).** Records sent are the records received, over the wire. -/
theorem C118_records {m : RecordMsg} (hg : ∀ g ∈ m.records, GoodRecord vanRegistry g) {msg m' : Msg}
    (h : m.encode vanRegistry = .ok msg) (hs : SameEntries msg m') {bs bs' : List UInt8} (hw : marshalMsg m' = some bs)
    (hl : bs.length < 2 ^ 32) (hc : Carries bs bs') :
    ∃ got d, unmarshal bs' = some got ∧ decodeMsg vanRegistry (some got) = .ok (.record d) ∧ d.hdr.to = m.hdr.to ∧
      d.records.length = m.records.length ∧
      ∀ (i : Nat) g g', m.records[i]? = some g → d.records[i]? = some g' → SameRecord vanRegistry g g' := by
  obtain ⟨h1, h2⟩ := C118_message (.record hg h) hs hw hl hc vanRegistry
  obtain ⟨d, h3, h4, _, h5, h6⟩ := C10_record_roundtrip hg h
  exact ⟨m', d, h1, by rw [h2, h3], h4, h5, h6⟩

/-- **C118 (beacons).** -/
theorem C118_beacon (m : Beacon) {m' : Msg} (hs : SameEntries m.encode m') {bs bs' : List UInt8} (hw : marshalMsg m' = some bs)
    (hl : bs.length < 2 ^ 32) (hc : Carries bs bs') (reg : Registry) :
    ∃ got d, unmarshal bs' = some got ∧ decodeMsg reg (some got) = .ok (.beacon d) ∧ d.version = m.version ∧
      d.sourceType = m.sourceType ∧ d.address = m.address ∧ d.direct = m.direct ∧ d.identity = m.identity := by
  obtain ⟨h1, h2⟩ := C118_message (.beacon m) hs hw hl hc reg
  obtain ⟨d, h3, h4, h5, h6, h7, h8, _⟩ := C09_beacon_roundtrip reg m
  exact ⟨m', d, h1, by rw [h2, h3], h4, h5, h6, h7, h8⟩

/-- **C118 (heartbeats).** -/
theorem C118_heartbeat (m : Heartbeat) {m' : Msg} (hs : SameEntries m.encode m') {bs bs' : List UInt8} (hw : marshalMsg m' = some bs)
    (hl : bs.length < 2 ^ 32) (hc : Carries bs bs') (reg : Registry) :
    ∃ got d, unmarshal bs' = some got ∧ decodeMsg reg (some got) = .ok (.heartbeat d) ∧ d.version = m.version ∧ d.now = m.now ∧
      d.identity = m.identity := by
  obtain ⟨h1, h2⟩ := C118_message (.heartbeat m) hs hw hl hc reg
  obtain ⟨d, h3, h4, h5, h6, _⟩ := C09_heartbeat_roundtrip reg m
  exact ⟨m', d, h1, by rw [h2, h3], h4, h5, h6⟩

/-- **C118 (flushes).** -/
theorem C118_flush (m : Flush) {m' : Msg} (hs : SameEntries m.encode m') {bs bs' : List UInt8} (hw : marshalMsg m' = some bs)
    (hl : bs.length < 2 ^ 32) (hc : Carries bs bs') (reg : Registry) :
    ∃ got d, unmarshal bs' = some got ∧ decodeMsg reg (some got) = .ok (.flush d) ∧
      d.hdr = { to := m.hdr.to, subject := "FLUSH", replyTo := m.hdr.replyTo } := by
  obtain ⟨h1, h2⟩ := C118_message (.flush m) hs hw hl hc reg
  obtain ⟨d, h3, h4⟩ := C09_flush_roundtrip reg m
  exact ⟨m', d, h1, by rw [h2, h3], h4⟩

/-- Keys and values in turn, all keys strings. -/
def textEntries : List (String × WVal) → List WVal
  | [] => []
  | (k, v) :: l => .str k :: v :: textEntries l

theorem textEntries_keys (l : List (String × WVal)) : textKeys (textEntries l) = true := by
  induction l with
  | nil => rfl
  | cons p l ih => simp [textEntries, textKeys, WVal.isText, ih]

theorem toElems_mem {l : List WVal} {es : List Elem} (h : toElems l = some es) {v : WVal} (hv : v ∈ l) :
    ∃ e ∈ es, v.toElem = some e := by
  induction l generalizing es with
  | nil => simp at hv
  | cons x l ih =>
    simp only [toElems, Option.bind_eq_some_iff, Option.map_eq_some_iff] at h
    obtain ⟨e, he, es', hes, rfl⟩ := h
    rcases List.mem_cons.1 hv with rfl | hv
    · exact ⟨e, List.mem_cons_self, he⟩
    · obtain ⟨e', h1, h2⟩ := ih hes hv
      exact ⟨e', List.mem_cons_of_mem _ h1, h2⟩

/-- **C118 (string keys).** A record message with a record whose keys are all strings — a peer that names the attributes rather
than numbering them — comes back from the library with another Go type for that record, and the whole message is refused. -/
theorem C118_string_keys {fields l : List WVal} {p : MsgProps} (hf : propsOf fields = some p) (hsub : p.subject = some "RECORD")
    {kv : List (String × WVal)} (hkv : kv ≠ []) (hm : .map (textEntries kv) ∈ l) {bs : List UInt8}
    (hb : SectionsEnc [(0x73, .list fields), (0x77, .list l)] bs) {got : Msg} (hu : unmarshal bs = some got) (reg : Registry)
    (d : Decoded) : decodeMsg reg (some got) ≠ .ok d := by
  rw [unmarshal_enc hb] at hu
  simp [applySections, readSection, hf, WVal.toValue] at hu
  obtain ⟨es, hes, rfl⟩ := hu
  obtain ⟨e, h1, h2⟩ := toElems_mem hes hm
  refine C12_one_bad_rejects reg (p := p) rfl hsub (es := es) rfl h1 ?_ d
  rintro r ⟨a, rfl, _⟩
  have hne : (textEntries kv).isEmpty = false := by
    cases kv with
    | nil => exact absurd rfl hkv
    | cons p l => rfl
  simp [WVal.toElem, textEntries_keys, hne] at h2

/-- Sections of a body that is not a single value: octets, or sequences (AMQP 1.0, part 3, 3.2.6 and 3.2.7). -/
def OtherBody (l : List (UInt64 × WVal)) : Prop := ∀ s ∈ l, (∃ bs, s = (0x75, .bin bs)) ∨ ∃ vs, s = (0x76, .list vs)

theorem applySections_body {l : List (UInt64 × WVal)} (h : OtherBody l) (m : Msg) : applySections l m = some m := by
  induction l with
  | nil => rfl
  | cons s l ih =>
    have hl : OtherBody l := fun x hx => h x (List.mem_cons_of_mem _ hx)
    rcases h s List.mem_cons_self with ⟨bs, rfl⟩ | ⟨vs, rfl⟩ <;> simp [applySections, readSection, ih hl]

/-- **C118 (other bodies).** A message whose body is octets or sequences of values — the other two forms of the standard — is read
by the library, and a record message of that kind is refused for its body, even when the sequence holds records. -/
theorem C118_other_body {fields : List WVal} {p : MsgProps} (hf : propsOf fields = some p) (hsub : p.subject = some "RECORD")
    {body : List (UInt64 × WVal)} (ho : OtherBody body) {bs : List UInt8} (hb : SectionsEnc ((0x73, .list fields) :: body) bs)
    (reg : Registry) : unmarshal bs = some { props := some p } ∧
      decodeMsg reg (some { props := some p }) = .err "unexpected type for message Value" := by
  constructor
  · rw [unmarshal_enc hb]
    simp [applySections, readSection, hf, applySections_body ho]
  · simp [decodeMsg, hsub, decodeRecord, decodeRecords, Res.map]

/-! ## Examples -/

/-- A record message as `Encode` returns it, and the same with the maps iterated the other way round. -/
def exRecordMsg : Msg := { props := some { to := some "mc/sfe.h1", subject := some "RECORD" }, value := .list [.map (some exHostAttrs)] }

def exRecordMsg' : Msg := { exRecordMsg with value := .list [.map (some exHostAttrs.reverse)] }

/-- Instance: the hypotheses of `C118_records` hold of a host record, written in the other order. -/
example : ∃ bs, marshalMsg exRecordMsg' = some bs ∧ bs.length < 2 ^ 32 ∧ Carries bs bs ∧ SameEntries exRecordMsg exRecordMsg' ∧
    (RecordMsg.encode vanRegistry { hdr := { to := "mc/sfe.h1" }, records := [.value ⟨"HostRecord", exHostMem⟩] }) = .ok exRecordMsg := by
  have he : (RecordMsg.encode vanRegistry { hdr := { to := "mc/sfe.h1" }, records := [.value ⟨"HostRecord", exHostMem⟩] }) =
      .ok exRecordMsg := by simp [RecordMsg.encode, encodeRecords, exHost_encodes, exRecordMsg]
  have hp : Produced exRecordMsg := .record (fun g hg =>
    ⟨⟨"HostRecord", exHostMem⟩, hostDecls, 13, .inl (by simpa using hg), by decide, hostRegistered, exHost_typed⟩) he
  have hs : SameEntries exRecordMsg exRecordMsg' := ⟨rfl, .refl _, (List.reverse_perm _).symm, trivial⟩
  have hl : (marshalMsg exRecordMsg').map (fun bs => decide (bs.length < 2 ^ 32)) = some true := by decide +kernel
  cases hw : marshalMsg exRecordMsg' with
  | none => rw [hw] at hl; simp at hl
  | some bs =>
    rw [hw] at hl
    have hl' : bs.length < 2 ^ 32 := by simpa using hl
    exact ⟨bs, rfl, hl', C118_direct hp hs hw hl', hs, he⟩

/-- Instance: the octets of a flush, and the flush read from them. -/
example : marshalMsg (Flush.encode { hdr := { to := "sfe.r1", replyTo := "me" } }) =
    some [0x00, 0x53, 0x73, 0xd0, 0, 0, 0, 0x19, 0, 0, 0, 5, 0x40, 0x40, 0xa1, 6, 0x73, 0x66, 0x65, 0x2e, 0x72, 0x31,
      0xa1, 5, 0x46, 0x4c, 0x55, 0x53, 0x48, 0xa1, 2, 0x6d, 0x65] := by decide +kernel

/-- Instance: the same flush as a peer with short lists writes it, behind a header. -/
example : unmarshal ([0x00, 0x53, 0x70, 0xc0, 3, 2, 0x41, 0x50, 4] ++ [0x00, 0x80, 0, 0, 0, 0, 0, 0, 0, 0x73, 0xc0, 0x16, 5, 0x40, 0x40,
      0xa1, 6, 0x73, 0x66, 0x65, 0x2e, 0x72, 0x31, 0xa1, 5, 0x46, 0x4c, 0x55, 0x53, 0x48, 0xa1, 2, 0x6d, 0x65]) =
    some (Flush.encode { hdr := { to := "sfe.r1", replyTo := "me" } }) := by decide +kernel

/-- Instance: a version sent as an unsigned long is not the version of the beacon. -/
example : ∃ got d, unmarshal [0x00, 0x53, 0x73, 0xc0, 13, 4, 0x40, 0x40, 0x40, 0xa1, 6, 0x42, 0x45, 0x41, 0x43, 0x4f, 0x4e,
      0x00, 0x53, 0x74, 0xc1, 6, 2, 0xa1, 1, 0x76, 0x53, 1] = some got ∧
    decodeMsg vanRegistry (some got) = .ok (.beacon d) ∧ d.version = 0 :=
  ⟨{ props := some { subject := some "BEACON" }, appProps := [("v", .u64 1)] }, _, by decide +kernel, rfl, rfl⟩

/-- Instance: a record whose one attribute is named; the message can be read, and is refused. -/
example : ∃ got, unmarshal [0x00, 0x53, 0x73, 0xc0, 12, 4, 0x40, 0x40, 0x40, 0xa1, 6, 0x52, 0x45, 0x43, 0x4f, 0x52, 0x44,
      0x00, 0x53, 0x77, 0xc0, 9, 1, 0xc1, 6, 2, 0xa1, 1, 0x74, 0x52, 13] = some got ∧
    decodeMsg vanRegistry (some got) = .err "unexpected type in message Value slice" :=
  ⟨{ props := some { subject := some "RECORD" }, value := .list [.other "map[string]interface {}"] }, by decide +kernel, rfl⟩

/-- Instance: a record as a sequence. -/
example : unmarshal [0x00, 0x53, 0x73, 0xc0, 12, 4, 0x40, 0x40, 0x40, 0xa1, 6, 0x52, 0x45, 0x43, 0x4f, 0x52, 0x44,
      0x00, 0x53, 0x76, 0xc0, 9, 1, 0xc1, 6, 2, 0x52, 0, 0x52, 13, 0x43, 0x43] = none ∧
    unmarshal [0x00, 0x53, 0x73, 0xc0, 12, 4, 0x40, 0x40, 0x40, 0xa1, 6, 0x52, 0x45, 0x43, 0x4f, 0x52, 0x44,
      0x00, 0x53, 0x76, 0xc0, 8, 1, 0xc1, 5, 2, 0x52, 0, 0x52, 13] = some { props := some { subject := some "RECORD" } } := by
  decide +kernel

/-- The AMQP types, where strings and symbols are one: both come as strings. -/
def wireType : WVal → Nat
  | .null => 0
  | .bool _ => 1
  | .ubyte _ => 2
  | .uint _ => 3
  | .ulong _ => 4
  | .int _ => 5
  | .long _ => 6
  | .time _ => 7
  | .bin _ => 8
  | .str _ | .sym _ => 9
  | .list _ => 10
  | .map _ => 11

/-- Values of different types are never received as the same value. -/
theorem C118_types {v w : WVal} (h : v.toAny = w.toAny) : wireType v = wireType w := by
  cases v <;> cases w <;> first | rfl | (exfalso; revert h; simp [WVal.toAny])

/-- A key and its value, anywhere in a map. -/
def HasKey (k : WVal) (l : List WVal) : Prop := ∃ (pre : List (WVal × WVal)) (v : WVal) (post : List WVal), l = pre.flatMap (fun p => [p.1, p.2]) ++ k :: v :: post

theorem fillAny_key {k : WVal} (hk : k.isKey = false) (v : WVal) (post : List WVal) : ∀ (pre : List (WVal × WVal)) (acc : Attrs), fillAny (pre.flatMap (fun p => [p.1, p.2]) ++ k :: v :: post) acc = none
  | [], acc => by simp [fillAny, hk]
  | p :: pre, acc => by
    simp only [List.flatMap_cons, List.cons_append, List.nil_append, fillAny]
    split
    · exact fillAny_key hk v post pre _
    · rfl

/-- **C118 (keys).** A record with a key that is no key in Go — octets, a list, a map or null — cannot be received at all: the whole message is refused by the library. -/
theorem C118_bad_key {k : WVal} (hk : (∃ b, k = .bin b) ∨ (∃ l, k = .list l) ∨ (∃ l, k = .map l) ∨ k = .null) {l es : List WVal} (hl : HasKey k l) (hm : .map l ∈ es) {fields : List WVal} {bs : List UInt8}
    (hb : SectionsEnc [(0x73, .list fields), (0x77, .list es)] bs) : unmarshal bs = none := by
  have hk' : k.isKey = false := by rcases hk with ⟨_, rfl⟩ | ⟨_, rfl⟩ | ⟨_, rfl⟩ | rfl <;> rfl
  cases hu : unmarshal bs with
  | none => rfl
  | some got =>
    exfalso
    rw [unmarshal_enc hb] at hu
    have hes : ∃ es', toElems es = some es' := by
      cases hp : propsOf fields with
      | none => simp [applySections, readSection, hp] at hu
      | some p =>
        simp [applySections, readSection, hp, WVal.toValue] at hu
        obtain ⟨es', h, _⟩ := hu
        exact ⟨es', h⟩
    obtain ⟨es', hes⟩ := hes
    obtain ⟨e, _, h2⟩ := toElems_mem hes hm
    obtain ⟨pre, v, post, rfl⟩ := hl
    simp [WVal.toElem, fillAny_key hk'] at h2

/-- **C118 (properties).** All the fields the standard has may be sent, 13, and no more. -/
theorem C118_properties {fields : List WVal} (ht : ∀ v ∈ fields, v = .null ∨ ∃ s, v = .str s) {bs : List UInt8} (hb : SectionsEnc [(0x73, .list fields)] bs) :
    (∃ got, unmarshal bs = some got) ↔ fields.length ≤ 13 := by
  rw [unmarshal_enc hb]
  have text : ∀ i, ∃ x, (fields.getD i .null).toText = some x := by
    intro i
    rw [List.getD_eq_getElem?_getD]
    cases h : fields[i]? with
    | none => exact ⟨none, rfl⟩
    | some v =>
      rcases ht v (List.mem_of_getElem? h) with rfl | ⟨s, rfl⟩
      · exact ⟨none, rfl⟩
      · exact ⟨some s, rfl⟩
  obtain ⟨x, hx⟩ := text 2
  obtain ⟨y, hy⟩ := text 3
  obtain ⟨z, hz⟩ := text 4
  by_cases h : 13 < fields.length
  · simp [applySections, readSection, propsOf, h]
  · simp only [applySections, readSection, propsOf, h, hx, hy, hz]
    simp
    omega

/-- **C118 (a value that is no list).** A record message whose body is one value, but not a list — a map of attributes, say, in place of the list of one map — is refused. -/
theorem C118_one_value {v : WVal} (hv : ∀ l, v ≠ .list l) {fields : List WVal} {p : MsgProps} (hf : propsOf fields = some p) (hsub : p.subject = some "RECORD") {bs : List UInt8}
    (hb : SectionsEnc [(0x73, .list fields), (0x77, v)] bs) {got : Msg} (hu : unmarshal bs = some got) (reg : Registry) :
    decodeMsg reg (some got) = .err "unexpected type for message Value" := by
  rw [unmarshal_enc hb] at hu
  cases v with
  | list l => exact absurd rfl (hv l)
  | map l =>
    simp [applySections, readSection, hf, WVal.toValue] at hu
    obtain ⟨_, _, rfl⟩ := hu
    simp [decodeMsg, hsub, decodeRecord, decodeRecords, Res.map]
  | _ =>
    simp [applySections, readSection, hf, WVal.toValue] at hu
    subst hu
    simp [decodeMsg, hsub, decodeRecord, decodeRecords, Res.map]

/-- Instance: the hypotheses of `C118_one_value` hold of the map `{30: "a"}`. -/
example : ∃ bs got, SectionsEnc [(0x73, .list [.null, .null, .null, .str "RECORD"]), (0x77, .map [.uint 30, .str "a"])] bs ∧ unmarshal bs = some got := by
  have h1 := writeSection_enc (code := 0x73) (v := .list [.null, .null, .null, .str "RECORD"]) (by simp [Paired, PairedAll]) (by decide +kernel)
  have h2 := writeSection_enc (code := 0x77) (v := .map [.uint 30, .str "a"]) (by simp [Paired, PairedAll]) (by decide +kernel)
  exact ⟨_, { props := some { subject := some "RECORD" }, value := .other "map" }, h1.append h2, by rw [unmarshal_enc (h1.append h2)]; rfl⟩

theorem wireAny_known {a : Any} {v : WVal} (h : wireAny a = some v) : ∀ t, a ≠ .other t := by
  rintro t rfl
  simp [wireAny] at h

theorem wireAttrs_known {m : Attrs} {l : List WVal} (h : wireAttrs m = some l) : ∀ p ∈ m, (∀ t, p.1 ≠ .other t) ∧ ∀ t, p.2 ≠ .other t := by
  induction m generalizing l with
  | nil => simp
  | cons p m ih =>
    obtain ⟨k, v⟩ := p
    simp only [wireAttrs, Option.bind_eq_some_iff, Option.map_eq_some_iff] at h
    obtain ⟨_, h1, _, h2, _, h3, _⟩ := h
    simp only [List.forall_mem_cons]
    exact ⟨⟨wireAny_known h1, wireAny_known h2⟩, ih h3⟩

theorem wireText_known {m : GMap String Any} {l : List WVal} (h : wireText m = some l) : ∀ p ∈ m, ∀ t, p.2 ≠ .other t := by
  induction m generalizing l with
  | nil => simp
  | cons p m ih =>
    obtain ⟨k, v⟩ := p
    simp only [wireText, Option.bind_eq_some_iff, Option.map_eq_some_iff] at h
    obtain ⟨_, h2, _, h3, _⟩ := h
    simp only [List.forall_mem_cons]
    exact ⟨wireAny_known h2, ih h3⟩

theorem wireElems_known {es : List Elem} {l : List WVal} (h : wireElems es = some l) : ∀ e ∈ es, ∃ a, e = .map a ∧ ∀ kvs, a = some kvs → ∀ p ∈ kvs, (∀ t, p.1 ≠ .other t) ∧ ∀ t, p.2 ≠ .other t := by
  induction es generalizing l with
  | nil => simp
  | cons e es ih =>
    simp only [wireElems, Option.bind_eq_some_iff, Option.map_eq_some_iff] at h
    obtain ⟨_, h1, _, h2, _⟩ := h
    simp only [List.forall_mem_cons]
    refine ⟨?_, ih h2⟩
    cases e with
    | other t => simp [wireElem] at h1
    | map a =>
      refine ⟨a, rfl, ?_⟩
      rintro kvs rfl
      simp only [wireElem, Option.map_eq_some_iff] at h1
      obtain ⟨_, h1, _⟩ := h1
      exact wireAttrs_known h1

/-- **C118 (what cannot be sent).** A message with a value somewhere in it that AMQP has no form for is refused whole: it is not sent with the value left out or in place of another. -/
theorem C118_refused {m : Msg} {bs : List UInt8} (h : marshalMsg m = some bs) :
    (∀ p ∈ m.appProps, ∀ t, p.2 ≠ .other t) ∧ (∀ t, m.value ≠ .other t) ∧
    ∀ es, m.value = .list es → ∀ e ∈ es, ∃ a, e = .map a ∧ ∀ kvs, a = some kvs → ∀ p ∈ kvs, (∀ t, p.1 ≠ .other t) ∧ ∀ t, p.2 ≠ .other t := by
  simp only [marshalMsg, Option.bind_eq_some_iff] at h
  obtain ⟨app, h1, h2⟩ := h
  refine ⟨wireText_known h1, ?_, ?_⟩
  · intro t ht
    simp [ht] at h2
  · intro es he
    simp only [he, Option.map_eq_some_iff] at h2
    obtain ⟨_, h2, _⟩ := h2
    exact wireElems_known h2

/-- Instance: a value of another type in the second record. -/
example : marshalMsg { value := .list [.map (some [(.u32 30, .str "a")]), .map (some [(.u32 30, .other "bool")])] } = none := rfl

/-- **C118 (map keys, whole body).** The same holds if the map is the body itself and not an element of a list. -/
theorem C118_bad_body {k : WVal} (hk : (∃ b, k = .bin b) ∨ (∃ l, k = .list l) ∨ (∃ l, k = .map l) ∨ k = .null) {l : List WVal} (hl : HasKey k l) {fields : List WVal} {bs : List UInt8}
    (hb : SectionsEnc [(0x73, .list fields), (0x77, .map l)] bs) : unmarshal bs = none := by
  have hk' : k.isKey = false := by rcases hk with ⟨_, rfl⟩ | ⟨_, rfl⟩ | ⟨_, rfl⟩ | rfl <;> rfl
  obtain ⟨pre, v, post, rfl⟩ := hl
  rw [unmarshal_enc hb]
  cases hp : propsOf fields with
  | none => simp [applySections, readSection, hp]
  | some p => simp [applySections, readSection, hp, WVal.toValue, fillAny_key hk']

/-- Instance: the hypotheses of `C118_bad_key` and `C118_bad_body` hold of the map `{30: "a", null: "b"}`. -/
example : HasKey .null [.uint 30, .str "a", .null, .str "b"] ∧
    (∃ bs, SectionsEnc [(0x73, .list [.null, .null, .null, .str "RECORD"]), (0x77, .list [.map [.uint 30, .str "a", .null, .str "b"]])] bs) ∧
    ∃ bs, SectionsEnc [(0x73, .list [.null, .null, .null, .str "RECORD"]), (0x77, .map [.uint 30, .str "a", .null, .str "b"])] bs := by
  have h1 := writeSection_enc (code := 0x73) (v := .list [.null, .null, .null, .str "RECORD"]) (by simp [Paired, PairedAll]) (by decide +kernel)
  have h2 := writeSection_enc (code := 0x77) (v := .list [.map [.uint 30, .str "a", .null, .str "b"]]) (by simp [Paired, PairedAll]) (by decide +kernel)
  have h3 := writeSection_enc (code := 0x77) (v := .map [.uint 30, .str "a", .null, .str "b"]) (by simp [Paired, PairedAll]) (by decide +kernel)
  exact ⟨⟨[(.uint 30, .str "a")], .str "b", [], rfl⟩, ⟨_, h1.append h2⟩, _, h1.append h3⟩

/-- A nil map in place of an empty one, anywhere in the list. -/
theorem wireElems_nil (pre post : List Elem) : wireElems (pre ++ .map none :: post) = wireElems (pre ++ .map (some []) :: post) := by
  induction pre with
  | nil => rfl
  | cons e pre ih => simp only [List.cons_append, wireElems, ih]

/-- **C118 (nil maps).** An element that is a nil map is sent, octet by octet, as an empty map: whoever receives it cannot tell them apart, and it is no reason to refuse the message. -/
theorem C118_nil_map (p : Option MsgProps) (app : GMap String Any) (pre post : List Elem) :
    marshalMsg { props := p, appProps := app, value := .list (pre ++ .map none :: post) } =
      marshalMsg { props := p, appProps := app, value := .list (pre ++ .map (some []) :: post) } := by
  simp only [marshalMsg, wireElems_nil]

/-- Instance: both are sent. -/
example : ∃ bs, marshalMsg { value := .list [.map (some [(.u32 30, .str "a")]), .map none] } = some bs := ⟨_, rfl⟩

end Verif.Props
