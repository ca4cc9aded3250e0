import Verif.Model.Messages
import Verif.Props.Encoding

/-!
# Properties C09–C12: protocol messages
-/
namespace Verif.Props
open Verif Verif.Model Verif.Spec Verif.Proofs

/-! ## C09 -/

/-- **C09 (beacon).** -/
theorem C09_beacon_roundtrip (reg : Registry) (m : Beacon) :
    ∃ m', decodeMsg reg (some m.encode) = .ok (.beacon m') ∧ m'.version = m.version ∧ m'.sourceType = m.sourceType ∧
      m'.address = m.address ∧ m'.direct = m.direct ∧ m'.identity = m.identity ∧
      m'.hdr = { to := "mc/sfe.all", subject := "BEACON", replyTo := "" } := by
  exact ⟨_, rfl, rfl, rfl, rfl, rfl, rfl, rfl⟩

/-- **C09 (heartbeat).** -/
theorem C09_heartbeat_roundtrip (reg : Registry) (m : Heartbeat) :
    ∃ m', decodeMsg reg (some m.encode) = .ok (.heartbeat m') ∧ m'.version = m.version ∧ m'.now = m.now ∧
      m'.identity = m.identity ∧ m'.hdr = { to := "mc/sfe." ++ m.identity, subject := "HEARTBEAT", replyTo := "" } := by
  exact ⟨_, rfl, rfl, rfl, rfl, rfl⟩

/-- **C09 (flush).** -/
theorem C09_flush_roundtrip (reg : Registry) (m : Flush) :
    ∃ m', decodeMsg reg (some m.encode) = .ok (.flush m') ∧ m'.hdr = { to := m.hdr.to, subject := "FLUSH", replyTo := m.hdr.replyTo } := by
  exact ⟨_, rfl, rfl⟩

/-- Instance: no hypotheses beyond a message; the beacon of a router. -/
example : (⟨{}, 1, "ROUTER", "mc/sfe.r1", "sfe.r1", "r1"⟩ : Beacon).encode.appProps.get? "address" = some (.str "mc/sfe.r1") := rfl

/-! ## C10 -/

/-- The relation between a record sent and the record received: same built-in type, canonical field values. -/
def SameRecord (reg : Registry) (sent received : GoRec GoTime) : Prop :=
  ∃ (r : RecVal GoTime) (decls : List FieldDecl) (code : UInt32) (m' : Mem GoTime),
    (sent = .value r ∨ sent = .pointer r) ∧ Registered reg r.tname decls code ∧
    received = .pointer ⟨r.tname, m'⟩ ∧ CanonStruct vanEnv timeRT decls r.mem m'

/-- A well-formed `vanflow.Record` interface value: a built-in record kind, struct or non-nil pointer, fields typed. -/
def GoodRecord (reg : Registry) (g : GoRec GoTime) : Prop :=
  ∃ (r : RecVal GoTime) (decls : List FieldDecl) (code : UInt32),
    (g = .value r ∨ g = .pointer r) ∧ r.tname ∈ recordKinds ∧ Registered reg r.tname decls code ∧ HasStructTy decls r.mem

/-- No built-in type uses attribute code 0. -/
theorem vanRegistry_noZero {n : String} {d : List FieldDecl} {c : UInt32} (h : Registered vanRegistry n d c) : NoCodeZero d := by
  obtain ⟨e, h1, _, h3, _, rfl, _⟩ := Registered.good vanRegistry_reach h
  apply h3.noCodeZero
  have key : ∀ kv ∈ vanRegistry.encodings, ∀ f ∈ kv.2.fields, f.codepoint ≠ 0 := by decide
  exact key (n, e) (GMap.mem_of_get? h1)

/-- One record through Encode and Decode with the built-in registry. -/
theorem record_roundtrip {g : GoRec GoTime} (hg : GoodRecord vanRegistry g) {attrs : Attrs}
    (h : encode vanEnv vanRegistry g = .ok attrs) :
    ∃ g', decode vanEnv vanRegistry (some attrs) = .ok g' ∧ SameRecord vanRegistry g g' ∧ isRecord g' = true := by
  obtain ⟨r, decls, code, hgr, hk, hreg, hty⟩ := hg
  have he : encode vanEnv vanRegistry (.value r) = .ok attrs := by rcases hgr with rfl | rfl <;> exact h
  obtain ⟨m', h1, h2⟩ := C01_roundtrip vanEnv_lawful vanRegistry_reach hreg (vanRegistry_noZero hreg) hty he
  exact ⟨_, h1, ⟨r, decls, code, m', hgr, hreg, rfl, h2⟩, by simpa [isRecord] using hk⟩

/-- Pointwise relation of two lists: same length, i-th to i-th. -/
def Pointwise {α β : Type} (R : α → β → Prop) : List α → List β → Prop
  | [], [] => True
  | a :: as, b :: bs => R a b ∧ Pointwise R as bs
  | _, _ => False

theorem Pointwise.length {α β : Type} {R : α → β → Prop} : ∀ {as : List α} {bs : List β}, Pointwise R as bs → as.length = bs.length
  | [], [], _ => rfl
  | _ :: _, _ :: _, h => by simp [Pointwise.length h.2]

theorem Pointwise.get {α β : Type} {R : α → β → Prop} : ∀ {as : List α} {bs : List β}, Pointwise R as bs →
    ∀ (i : Nat) a b, as[i]? = some a → bs[i]? = some b → R a b
  | [], [], _, i, a, b, h, _ => by simp at h
  | _ :: _, _ :: _, h, 0, a, b, h1, h2 => by simp at h1 h2; subst h1; subst h2; exact h.1
  | _ :: _, _ :: _, h, i + 1, a, b, h1, h2 => Pointwise.get h.2 i a b (by simpa using h1) (by simpa using h2)

theorem elems_roundtrip {gs : List (GoRec GoTime)} (hg : ∀ g ∈ gs, GoodRecord vanRegistry g) {es : List Elem}
    (h : encodeRecords vanRegistry gs = .ok es) :
    ∃ gs', decodeElems vanRegistry es = .ok gs' ∧ Pointwise (SameRecord vanRegistry) gs gs' := by
  induction gs generalizing es with
  | nil => simp [encodeRecords] at h; subst h; exact ⟨[], rfl, trivial⟩
  | cons g gs ih =>
    simp only [encodeRecords] at h
    rw [Res.bind_eq_ok] at h
    obtain ⟨a, ha, h⟩ := h
    rw [map_eq_ok] at h
    obtain ⟨es', he, rfl⟩ := h
    obtain ⟨g', h1, h2, h3⟩ := record_roundtrip (hg g List.mem_cons_self) ha
    obtain ⟨gs', h4, h5⟩ := ih (fun x hx => hg x (List.mem_cons_of_mem _ hx)) he
    exact ⟨g' :: gs', by simp [decodeElems, h1, h3, h4], h2, h5⟩

/-- **C10.** A record message that encodes is decoded to a record message with the same To, subject RECORD and the same number of
records, the i-th equal to the i-th sent up to canonical form. -/
theorem C10_record_roundtrip {m : RecordMsg} (hg : ∀ g ∈ m.records, GoodRecord vanRegistry g) {msg : Msg}
    (h : m.encode vanRegistry = .ok msg) :
    ∃ m', decodeMsg vanRegistry (some msg) = .ok (.record m') ∧ m'.hdr.to = m.hdr.to ∧ m'.hdr.subject = "RECORD" ∧
      m'.records.length = m.records.length ∧
      ∀ (i : Nat) g g', m.records[i]? = some g → m'.records[i]? = some g' → SameRecord vanRegistry g g' := by
  unfold RecordMsg.encode at h
  rw [map_eq_ok] at h
  obtain ⟨es, hes, rfl⟩ := h
  obtain ⟨gs', h1, h2⟩ := elems_roundtrip hg hes
  refine ⟨{ hdr := { to := m.hdr.to, subject := "RECORD" }, records := gs' }, ?_, rfl, rfl, h2.length.symm, h2.get⟩
  simp [decodeMsg, decodeRecord, decodeRecords, h1, derefOr]

/-- Non-vacuity of C10: a message with two records, one of them given as a pointer. -/
example : ∃ msg, (RecordMsg.encode vanRegistry
      { hdr := { to := "mc/sfe.h1" }, records := [.value ⟨"HostRecord", exHostMem⟩, .pointer ⟨"HostRecord", exHostMem⟩] }) = .ok msg ∧
    ∀ g ∈ [GoRec.value ⟨"HostRecord", exHostMem⟩, .pointer ⟨"HostRecord", exHostMem⟩], GoodRecord vanRegistry g := by
  refine ⟨{ props := some { to := some "mc/sfe.h1", subject := some "RECORD" },
            value := .list [.map (some exHostAttrs), .map (some exHostAttrs)] }, ?_, ?_⟩
  · have h1 : encode vanEnv vanRegistry (.pointer ⟨"HostRecord", exHostMem⟩) = .ok exHostAttrs := exHost_encodes
    simp [RecordMsg.encode, encodeRecords, exHost_encodes, h1]
  · intro g hg
    refine ⟨⟨"HostRecord", exHostMem⟩, hostDecls, 13, ?_, by decide, hostRegistered, exHost_typed⟩
    simpa using hg

/-! ## C11 -/

/-- **C11 (rejections).** nil message, nil properties, missing subject and unknown subject give an error. -/
theorem C11_rejects (reg : Registry) (msg : Option Msg)
    (h : ∀ m p s, msg = some m → m.props = some p → p.subject = some s → s ∉ ["BEACON", "HEARTBEAT", "FLUSH", "RECORD"]) :
    ∃ e, decodeMsg reg msg = .err e := by
  cases msg with
  | none => exact ⟨_, rfl⟩
  | some m =>
    cases hp : m.props with
    | none => exact ⟨_, by simp only [decodeMsg, hp]; rfl⟩
    | some p =>
      cases hs : p.subject with
      | none => exact ⟨_, by simp only [decodeMsg, hp, hs]; rfl⟩
      | some s =>
        have := h m p s rfl hp hs
        simp only [List.mem_cons, List.not_mem_nil, or_false, not_or] at this
        exact ⟨"cannot decode message with subject", by simp [decodeMsg, hp, hs, this]⟩

/-- The kind of a decoded message. -/
def Decoded.subjectOf : Decoded → String
  | .beacon _ => "BEACON"
  | .heartbeat _ => "HEARTBEAT"
  | .flush _ => "FLUSH"
  | .record _ => "RECORD"

/-- **C11 (kind).** A decoded message has the kind named by the subject, and carries that subject. -/
theorem C11_kind_by_subject (reg : Registry) {m : Msg} {d : Decoded} (h : decodeMsg reg (some m) = .ok d) :
    ∃ p, m.props = some p ∧ p.subject = some (Decoded.subjectOf d) := by
  cases hp : m.props with
  | none => simp [decodeMsg, hp] at h
  | some p =>
    cases hs : p.subject with
    | none => simp [decodeMsg, hp, hs] at h
    | some s =>
      refine ⟨p, rfl, ?_⟩
      simp only [decodeMsg, hp, hs] at h
      split at h
      · rw [map_eq_ok] at h; obtain ⟨x, _, rfl⟩ := h; simp_all [Decoded.subjectOf]
      · split at h
        · rw [map_eq_ok] at h; obtain ⟨x, _, rfl⟩ := h; simp_all [Decoded.subjectOf]
        · split at h
          · rw [map_eq_ok] at h; obtain ⟨x, _, rfl⟩ := h; simp_all [Decoded.subjectOf]
          · split at h
            · rw [map_eq_ok] at h; obtain ⟨x, _, rfl⟩ := h; simp_all [Decoded.subjectOf]
            · simp at h

/-- The string stored under a key, or "" when it is missing or not a string. -/
def stringOrEmpty (v : Option Any) : String := match v with | some (.str s) => s | _ => ""
/-- The uint32 stored under a key, or 0. -/
def u32OrZero (v : Option Any) : UInt32 := match v with | some (.u32 s) => s | _ => 0
/-- The uint64 stored under a key, or 0. -/
def u64OrZero (v : Option Any) : UInt64 := match v with | some (.u64 s) => s | _ => 0

/-- **C11 (totality).** Beacons, heartbeats and flushes always decode; missing or wrongly typed properties read as empty. -/
theorem C11_beacon_total (reg : Registry) (m : Msg) (p : MsgProps) (hp : m.props = some p) (hs : p.subject = some "BEACON") :
    decodeMsg reg (some m) = .ok (.beacon
      { hdr := { to := p.to.getD "", subject := "BEACON", replyTo := p.replyTo.getD "" }
        version := u32OrZero (m.appProps.get? "v"), sourceType := stringOrEmpty (m.appProps.get? "sourceType")
        address := stringOrEmpty (m.appProps.get? "address"), direct := stringOrEmpty (m.appProps.get? "direct")
        identity := stringOrEmpty (m.appProps.get? "id") }) := by
  simp only [decodeMsg, hp, hs, if_true, decodeBeacon, Res.map_ok]
  rfl

theorem C11_heartbeat_total (reg : Registry) (m : Msg) (p : MsgProps) (hp : m.props = some p)
    (hs : p.subject = some "HEARTBEAT") :
    decodeMsg reg (some m) = .ok (.heartbeat
      { hdr := { to := p.to.getD "", subject := "HEARTBEAT", replyTo := "" }
        version := u32OrZero (m.appProps.get? "v"), now := u64OrZero (m.appProps.get? "now")
        identity := stringOrEmpty (m.appProps.get? "id") }) := by
  have h1 : ("HEARTBEAT" = "BEACON") = False := by simp
  simp only [decodeMsg, hp, hs, h1, if_true, if_false, decodeHeartbeat, Res.map_ok]
  rfl

theorem C11_flush_total (reg : Registry) (m : Msg) (p : MsgProps) (hp : m.props = some p) (hs : p.subject = some "FLUSH") :
    decodeMsg reg (some m) = .ok (.flush
      { hdr := { to := p.to.getD "", subject := "FLUSH", replyTo := p.replyTo.getD "" } }) := by
  have h1 : ("FLUSH" = "BEACON") = False := by simp
  have h2 : ("FLUSH" = "HEARTBEAT") = False := by simp
  simp only [decodeMsg, hp, hs, h1, h2, if_true, if_false, decodeFlush, Res.map_ok]
  rfl

/-- Non-vacuity of C11: a beacon with a wrongly typed version and no source type. -/
example (reg : Registry) : ∃ b, decodeMsg reg (some
      { props := some { subject := some "BEACON" }, appProps := [("v", .str "1"), ("id", .str "x")] }) = .ok (.beacon b) ∧ b.version = 0 ∧ b.identity = "x" ∧ b.sourceType = "" :=
  ⟨_, C11_beacon_total reg _ _ rfl rfl, rfl, rfl, rfl⟩

/-! ## C12 -/

/-- Two record maps: a host and an image (a registered built-in type that is not a `vanflow.Record`). -/
def mixedMsg : Msg :=
  { props := some { to := some "mc/sfe.h1", subject := some "RECORD" }
    value := .list [.map (some exHostAttrs), .map (some [(.u32 0, .u32 8), (.u32 1, .str "img")])] }

/-- C12 is false: the image record costs the host record, although both are well-formed registered records. -/
theorem C12_counterexample :
    (decodeMsg vanRegistry (some mixedMsg)).isErr = true ∧ (decode vanEnv vanRegistry (some exHostAttrs)).isOk = true ∧
      (decode vanEnv vanRegistry (some [(.u32 0, .u32 8), (.u32 1, .str "img")])).isOk = true := by
  refine ⟨by decide, by decide, by decide⟩

/-- An element of the body that yields a record. -/
def Delivers (reg : Registry) (e : Elem) (r : GoRec GoTime) : Prop :=
  ∃ m, e = .map m ∧ decode vanEnv reg m = .ok r ∧ isRecord r = true

theorem decodeElems_ok_iff (reg : Registry) (es : List Elem) (rs : List (GoRec GoTime)) :
    decodeElems reg es = .ok rs ↔ Pointwise (Delivers reg) es rs := by
  induction es generalizing rs with
  | nil => cases rs <;> simp [decodeElems, Pointwise]
  | cons e es ih =>
    cases e with
    | other t =>
      simp only [decodeElems]
      cases rs with
      | nil => simp [Pointwise]
      | cons r rs =>
        constructor
        · intro h; simp at h
        · rintro ⟨⟨m, h, _⟩, _⟩; simp at h
    | map m =>
      simp only [decodeElems]
      rw [Res.bind_eq_ok]
      constructor
      · rintro ⟨r, h1, h2⟩
        split at h2
        · rename_i hr
          rw [map_eq_ok] at h2
          obtain ⟨rs', h3, rfl⟩ := h2
          exact ⟨⟨m, rfl, h1, hr⟩, (ih rs').1 h3⟩
        · simp at h2
      · intro h
        cases rs with
        | nil => simp [Pointwise] at h
        | cons r rs =>
          obtain ⟨⟨m', hm, h1, h2⟩, h3⟩ := h
          injection hm with hm; subst hm
          exact ⟨r, h1, by simp [h2, (ih rs).2 h3]⟩

/-- **C12 (partial).** What holds instead: a RECORD message is decoded all-or-nothing. It is delivered iff *every* element yields a
record, and then with all of them in order. Missing for the full statement: delivery of the good ones among bad ones. -/
theorem C12_all_or_nothing_partial (reg : Registry) {m : Msg} {p : MsgProps} (hp : m.props = some p)
    (hs : p.subject = some "RECORD") {es : List Elem} (hv : m.value = .list es) (rs : List (GoRec GoTime)) :
    (∃ rm, decodeMsg reg (some m) = .ok (.record rm) ∧ rm.records = rs) ↔ Pointwise (Delivers reg) es rs := by
  have h1 : ("RECORD" = "BEACON") = False := by simp
  have h2 : ("RECORD" = "HEARTBEAT") = False := by simp
  have h3 : ("RECORD" = "FLUSH") = False := by simp
  simp only [decodeMsg, hp, hs, h1, h2, h3, if_true, if_false, decodeRecord, decodeRecords, hv]
  rw [← decodeElems_ok_iff]
  constructor
  · rintro ⟨rm, h, hrm⟩
    rw [map_eq_ok] at h
    obtain ⟨a, h, he⟩ := h
    rw [map_eq_ok] at h
    obtain ⟨b, h, rfl⟩ := h
    injection he with he
    rw [h, ← hrm, ← he]
  · intro h
    exact ⟨_, by rw [h]; rfl, rfl⟩

/-- In particular one bad element anywhere rejects the whole message. -/
theorem C12_one_bad_rejects (reg : Registry) {m : Msg} {p : MsgProps} (hp : m.props = some p) (hs : p.subject = some "RECORD")
    {es : List Elem} (hv : m.value = .list es) {e : Elem} (he : e ∈ es) (hbad : ∀ r, ¬ Delivers reg e r) (d : Decoded) :
    decodeMsg reg (some m) ≠ .ok d := by
  intro h
  have hk : ∃ rm, d = .record rm := by
    obtain ⟨p', hp', hs'⟩ := C11_kind_by_subject reg h
    rw [hp] at hp'; injection hp' with hp'; subst hp'
    rw [hs] at hs'; injection hs' with hs'
    cases d <;> simp [Decoded.subjectOf] at hs' ⊢
  obtain ⟨rm, rfl⟩ := hk
  have hpw := (C12_all_or_nothing_partial reg hp hs hv rm.records).1 ⟨rm, h, rfl⟩
  obtain ⟨i, hi⟩ := List.mem_iff_getElem?.1 he
  have hlen := hpw.length
  have hlt : i < es.length := (List.getElem?_eq_some_iff.1 hi).1
  obtain ⟨r, hr⟩ : ∃ r, rm.records[i]? = some r := ⟨_, List.getElem?_eq_getElem (by omega)⟩
  exact hbad r (hpw.get i e r hi hr)

def twoHostMsg : Msg :=
  { props := some { subject := some "RECORD" }
    value := .list [.map (some exHostAttrs), .map (some exHostAttrs)] }

/-- Non-vacuity of the partial result: both elements of this body deliver. -/
example : ∃ rm, decodeMsg vanRegistry (some twoHostMsg) = .ok (.record rm) ∧ rm.records.length = 2 := by
  obtain ⟨g', h1, _, h3⟩ := record_roundtrip (g := .value ⟨"HostRecord", exHostMem⟩)
    ⟨⟨"HostRecord", exHostMem⟩, hostDecls, 13, Or.inl rfl, by decide, hostRegistered, exHost_typed⟩ exHost_encodes
  obtain ⟨rm, h, he⟩ := (C12_all_or_nothing_partial vanRegistry (m := twoHostMsg) rfl rfl rfl [g', g']).2
    ⟨⟨_, rfl, h1, h3⟩, ⟨_, rfl, h1, h3⟩, trivial⟩
  exact ⟨rm, h, by simp [he]⟩

end Verif.Props
