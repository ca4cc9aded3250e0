import Verif.Proofs.Accumulate
import Verif.Props.Store

/-!
# Store properties C21 – C25: Accumulate and events
-/
namespace Verif.Props
open Verif Verif.Model Verif.Spec Verif.Proofs

variable {R : Type} [Inhabited R]

/-! ## C21 -/

/-- The most recent value given for attribute `k`, over attribute sets in order of arrival; `init` if none gave one. -/
def lastSet (init : Option Any) (encs : List Attrs) (k : Any) : Option Any :=
  encs.foldl (fun acc a => match a.get? k with | some v => some v | none => acc) init

/-- Accumulate calls: source, record and time of each. -/
def accs (calls : List (SourceRef × GoRec GoTime × GoTime)) : List (Op (GoRec GoTime)) :=
  calls.map fun p => .accumulate p.1 p.2.1 p.2.2

/-- A good record of kind `tm` with identity `id`. -/
def OfKind (id : String) (tm : TypeMeta) (r : GoRec GoTime) : Prop :=
  GoodRecord vanRegistry r ∧ vanIdentity r = .ok id ∧ vanTypeMeta r = .ok tm

theorem accumulate_run {id : String} {tm : TypeMeta} : ∀ (calls : List (SourceRef × GoRec GoTime × GoTime)) (encs : List Attrs)
    (c : Cache (GoRec GoTime)) (o : Entry (GoRec GoTime)) (a0 : Attrs), c.keyFunc = (fun e => vanOps.identity e.record) →
    view c id = some o → OfKind id tm o.record → vanOps.encode o.record = .ok a0 →
    (∀ p ∈ calls, OfKind id tm p.2.1) → calls.map (fun p => vanOps.encode p.2.1) = encs.map .ok →
    ∃ e a, view (c.run vanOps (accs calls)).1 id = some e ∧ (∀ k, k ≠ id → view (c.run vanOps (accs calls)).1 k = view c k) ∧
      e.md.source = o.md.source ∧ e.md.annotations = o.md.annotations ∧ e.typeMeta = o.typeMeta ∧ OfKind id tm e.record ∧
      vanOps.encode e.record = .ok a ∧ ∀ k, a.get? k = lastSet (a0.get? k) encs k
  | [], encs, c, o, a0, _, hv, ho, ha, _, he => by
    simp at he; subst he
    exact ⟨o, a0, hv, fun _ _ => rfl, rfl, rfl, rfl, ho, ha, fun k => rfl⟩
  | (s, r, t) :: calls, encs, c, o, a0, hkf, hv, ho, ha, hall, he => by
    cases encs with
    | nil => simp at he
    | cons b encs =>
      simp only [List.map_cons, List.cons.injEq] at he
      obtain ⟨hb, he⟩ := he
      have hr := hall (s, r, t) (by simp)
      have hk : c.keyFunc (Entry.ofRecord r) = .ok id := by rw [hkf]; exact hr.2.1
      have hstep := accumulate_eq vanOps c s r t hk
      have hkf' := (step_keyFunc vanOps_lawful c (.accumulate s r t)).1
      have hrun : (c.run vanOps (accs ((s, r, t) :: calls))).1
          = ((c.step vanOps (.accumulate s r t)).1.run vanOps (accs calls)).1 := rfl
      rw [hrun]
      rw [hv] at hstep
      rcases recordPatch_merge (s := s) (now := t) hr.1 ho.1 ha hb with ⟨h1, h2⟩ | ⟨_, y, c', h1, h2, h3, h4, h5, h6, h7⟩
      · rw [h1] at hstep
        simp only at hstep
        obtain ⟨e, a, g1, g2, g3, g4, g5, g6, g7, g8⟩ := accumulate_run calls encs c o a0 hkf hv ho ha
          (fun p hp => hall p (by simp [hp])) he
        rw [hstep]
        refine ⟨e, a, g1, g2, g3, g4, g5, g6, g7, fun k => ?_⟩
        rw [g8 k]
        simp only [lastSet, List.foldl_cons]
        congr 1
        cases hbk : b.get? k with
        | none => rfl
        | some v => exact h2 (k, v) (GMap.mem_of_get? hbk)
      · rw [h1] at hstep
        simp only at hstep
        have hv' : view (c.step vanOps (.accumulate s r t)).1 = (Effect.put id
            { o with md := { o.md with updatedAt := t }, record := y }).apply (view c) := by
          rw [hstep]; exact view_put c id _
        obtain ⟨e, a, g1, g2, g3, g4, g5, g6, g7, g8⟩ := accumulate_run calls encs (c.step vanOps (.accumulate s r t)).1
          { o with md := { o.md with updatedAt := t }, record := y } c' (by rw [hkf', hkf]) (by rw [hv']; simp [Effect.apply])
          ⟨h2, by rw [h3]; exact hr.2.1, by rw [h4]; exact hr.2.2⟩ h5
          (fun p hp => hall p (by simp [hp])) he
        refine ⟨e, a, g1, ?_, g3, g4, g5, g6, g7, fun k => ?_⟩
        · intro k hk
          rw [g2 k hk, hv']
          simp [Effect.apply, hk]
        · rw [g8 k]
          simp only [lastSet, List.foldl_cons]
          congr 1
          rw [h7 (by rw [ho.2.2, hr.2.2]) k]
          cases b.get? k <;> rfl

/-- C21: with the default key function, whatever happened before, once a key is absent: a sequence of Accumulate calls with
encodable records of one kind and identity leaves an entry whose attributes are, code by code, the most recent value given (none if
never given); Source, annotations and TypeMeta are those of the first call; other keys are untouched. -/
theorem C21_last_writer_wins {cfg : CacheConfig (GoRec GoTime)} (hkey : cfg.key = none) (hc : GoodConfig cfg)
    (h : List (Op (GoRec GoTime))) {id : String} {tm : TypeMeta} (hn : content vanOps cfg h id = none)
    (s : SourceRef) (r : GoRec GoTime) (t : GoTime) (rest : List (SourceRef × GoRec GoTime × GoTime)) (encs : List Attrs)
    (hall : ∀ p ∈ (s, r, t) :: rest, OfKind id tm p.2.1)
    (henc : ((s, r, t) :: rest).map (fun p => vanOps.encode p.2.1) = encs.map .ok) :
    ∃ e a, content vanOps cfg (h ++ accs ((s, r, t) :: rest)) id = some e ∧
      vanOps.encode e.record = .ok a ∧ (∀ k, a.get? k = lastSet none encs k) ∧
      e.md.source = s ∧ e.md.annotations = [] ∧ e.typeMeta = tm ∧
      ∀ k, k ≠ id → content vanOps cfg (h ++ accs ((s, r, t) :: rest)) k = content vanOps cfg h k := by
  cases encs with
  | nil => simp at henc
  | cons b encs =>
    simp only [List.map_cons, List.cons.injEq] at henc
    obtain ⟨hb, henc⟩ := henc
    have hr := hall (s, r, t) (by simp)
    have hkf : (after vanOps cfg h).keyFunc = (fun e => vanOps.identity e.record) := by
      rw [after_keyFunc vanOps_lawful cfg hc]; simp [keyOf, hkey]
    rw [content_eq vanOps_lawful] at hn
    have hstep := accumulate_eq vanOps (after vanOps cfg h) s r t (k := id) (by rw [hkf]; exact hr.2.1)
    rw [hn] at hstep
    simp only [recordPatch, show vanOps.typeMeta r = .ok tm from hr.2.2] at hstep
    have hrun : after vanOps cfg (h ++ accs ((s, r, t) :: rest)) =
        (((after vanOps cfg h).step vanOps (.accumulate s r t)).1.run vanOps (accs rest)).1 := by
      unfold after
      rw [(run_append vanOps h _ _).1]; rfl
    have hv' : view ((after vanOps cfg h).step vanOps (.accumulate s r t)).1 = (Effect.put id
        ({ record := r, md := { source := s, updatedAt := t, annotations := [] }, typeMeta := tm } : Entry (GoRec GoTime))).apply
          (view (after vanOps cfg h)) := by
      rw [hstep]; exact view_put _ id _
    obtain ⟨e, a, g1, g2, g3, g4, g5, g6, g7, g8⟩ := accumulate_run rest encs ((after vanOps cfg h).step vanOps (.accumulate s r t)).1
      _ b (by rw [(step_keyFunc vanOps_lawful _ _).1, hkf]) (by rw [hv']; simp [Effect.apply]; rfl) hr hb
      (fun p hp => hall p (by simp [hp])) henc
    rw [content_eq vanOps_lawful, content_eq vanOps_lawful, hrun]
    refine ⟨e, a, g1, g7, ?_, g3, g4, g5, ?_⟩
    · intro k
      rw [g8 k]
      simp only [lastSet, List.foldl_cons]
      cases b.get? k <;> rfl
    · intro k hk
      rw [g2 k hk, hv']
      simp [Effect.apply, hk]

theorem hostRec_good (id name : String) : GoodRecord vanRegistry (hostRec id name) :=
  ⟨_, hostDecls, 13, Or.inr rfl, show "HostRecord" ∈ recordKinds by decide, hostRegistered, by
    intro p ty hl
    rcases leaf_host hl with ⟨rfl, rfl⟩ | ⟨rfl, rfl⟩ | ⟨rfl, rfl⟩ | ⟨rfl, rfl⟩ | ⟨rfl, rfl⟩ <;> simp [HasTy, tTime, tStr]⟩

/-- Instance: two versions of a host record, the second one with another name. -/
example : (∀ p ∈ [(SourceRef.mk "a" "b" "c", hostRec "h1" "x", t0), (SourceRef.mk "a" "b" "d", hostRec "h1" "y", t1)],
      OfKind "h1" ⟨"flow/v1", "HostRecord"⟩ p.2.1) ∧
    [vanOps.encode (hostRec "h1" "x"), vanOps.encode (hostRec "h1" "y")] =
      [[(.u32 1, .str "h1"), (.u32 30, .str "x"), (.u32 0, .u32 13)], [(.u32 1, .str "h1"), (.u32 30, .str "y"), (.u32 0, .u32 13)]].map .ok ∧
    lastSet none [[(.u32 1, .str "h1"), (.u32 30, .str "x"), (.u32 0, .u32 13)],
      [(.u32 1, .str "h1"), (.u32 30, .str "y"), (.u32 0, .u32 13)]] (.u32 30) = some (.str "y") := by
  refine ⟨?_, ?_, by decide⟩
  · intro p hp
    simp only [List.mem_cons, List.not_mem_nil, or_false] at hp
    rcases hp with rfl | rfl <;> exact ⟨hostRec_good _ _, rfl, rfl⟩
  · have h1 : vanOps.encode (hostRec "h1" "x") = .ok [(.u32 1, .str "h1"), (.u32 30, .str "x"), (.u32 0, .u32 13)] := by decide +kernel
    have h2 : vanOps.encode (hostRec "h1" "y") = .ok [(.u32 1, .str "h1"), (.u32 30, .str "y"), (.u32 0, .u32 13)] := by decide +kernel
    rw [h1, h2]; rfl

/-- C21: an attribute present in the stored record stays present under further records of the kind. -/
theorem C21_never_unset (encs : List Attrs) (k : Any) (v : Any) (more : List Attrs) (h : lastSet none encs k = some v) :
    ∃ w, lastSet none (encs ++ more) k = some w := by
  have key : ∀ (more : List Attrs) (v : Any), ∃ w, lastSet (some v) more k = some w := by
    intro more
    induction more with
    | nil => intro v; exact ⟨v, rfl⟩
    | cons a more ih =>
      intro v
      simp only [lastSet, List.foldl_cons]
      cases a.get? k with
      | none => exact ih v
      | some w => exact ih w
  have : lastSet none (encs ++ more) k = lastSet (lastSet none encs k) more k := by simp [lastSet, List.foldl_append]
  rw [this, h]
  exact key more v

/-! ## C22 -/

/-- C22: a record that sets nothing new leaves the whole store (content, versions, indexes) as it is, and fires no event. -/
theorem C22_nothing_new {ops : RecOps R} (hl : LawfulOps ops) {cfg : CacheConfig R} (hc : GoodConfig cfg) (h : List (Op R))
    (s : SourceRef) (r : R) (now : GoTime) {k : String} (hk : keyOf ops cfg (Entry.ofRecord r) = .ok k)
    {o : Entry R} (ho : content ops cfg h k = some o) {a b : Attrs} (ha : ops.encode o.record = .ok a) (hb : ops.encode r = .ok b)
    (hsub : ∀ n v, b.get? n = some v → a.get? n = some v) :
    (after ops cfg h).step ops (.accumulate s r now) = (after ops cfg h, { res := .ok (), events := [] }) := by
  rw [content_eq hl] at ho
  have := accumulate_eq ops (after ops cfg h) s r now (k := k) (by rw [after_keyFunc hl cfg hc]; exact hk)
  rw [ho, recordPatch_noChange_iff hl ha hb fun p hp => hsub p.1 p.2 (GMap.get?_of_mem (hl.encode_wf r b hb) hp)] at this
  exact this

omit [Inhabited R] in
/-- A panic of the encoder is not caught, neither for the record that is kept nor for the one that comes. -/
theorem C22_uncaught (ops : RecOps R) (s : SourceRef) (r : R) (now : GoTime) (o : Entry R) :
    ((ops.encode o.record).isPanic = true → ∃ m, recordPatch ops s r now (some o) = .panic m) ∧
    ((ops.encode o.record).isOk = true → (ops.encode r).isPanic = true → ∃ m, recordPatch ops s r now (some o) = .panic m) := by
  constructor
  · intro h
    cases ho : ops.encode o.record <;> simp_all [recordPatch]
  · intro h h'
    cases ho : ops.encode o.record <;> cases hr : ops.encode r <;> simp_all [recordPatch, Res.isOk]

/-- A record that cannot be encoded: its start time is before the epoch. -/
def badHost : GoRec GoTime := .pointer ⟨"HostRecord", fun p =>
  match p with
  | [0, 0] => .str "h1"
  | [0, 1] => .ptr (.custom ⟨-5, 0⟩)
  | _ => .nilp⟩

def exSrc : SourceRef := ⟨"sources/v1", "ROUTER", "r1"⟩

/-- C22 is false for records that cannot be encoded: the first Accumulate stores the record, the same call again fails, and fires OnAdd
with the zero entry. -/
theorem C22_counterexample :
    ((after vanOps exCfg []).step vanOps (.accumulate exSrc badHost t0)).2.res = .ok () ∧
    ((after vanOps exCfg [.accumulate exSrc badHost t0]).step vanOps (.accumulate exSrc badHost t0)).2.res.isErr ∧
    ((after vanOps exCfg [.accumulate exSrc badHost t0]).step vanOps (.accumulate exSrc badHost t0)).2.events = [.add default] := by
  exact ⟨rfl, rfl, rfl⟩

/-- C22 for encodable records: when a store of built-in records (any history) accepts a record, accumulating the record again changes nothing and
fires nothing.  Missing for C22: records that cannot be encoded (false, `C22_counterexample`). -/
theorem C22_twice_partial {cfg : CacheConfig (GoRec GoTime)} (hkey : cfg.key = none) (hc : GoodConfig cfg)
    (h : List (Op (GoRec GoTime))) (hh : ∀ op ∈ h, Op.All (GoodRecord vanRegistry) op) (s s' : SourceRef) (r : GoRec GoTime)
    (hr : GoodRecord vanRegistry r) (t t' : GoTime) {b : Attrs} (hb : vanOps.encode r = .ok b)
    (hok : ((after vanOps cfg h).step vanOps (.accumulate s r t)).2.res = .ok ()) :
    (after vanOps cfg (h ++ [.accumulate s r t])).step vanOps (.accumulate s' r t') =
      (after vanOps cfg (h ++ [.accumulate s r t]), { res := .ok (), events := [] }) := by
  have hkf : keyOf vanOps cfg = (fun e => vanOps.identity e.record) := by simp [keyOf, hkey]
  obtain ⟨id, hid⟩ := GoodRecord.identity hr
  have hk : keyOf vanOps cfg (Entry.ofRecord r) = .ok id := by rw [hkf]; exact hid
  have hinv := content_keyInv vanOps_lawful (cfg := cfg) (Good := GoodRecord vanRegistry) (by rw [hkf]; exact van_coherent) h hh
  have hsub0 : ∀ n v, b.get? n = some v → b.get? n = some v := fun _ _ h => h
  have hstep := accumulate_eq vanOps (after vanOps cfg h) s r t (k := id) (by rw [after_keyFunc vanOps_lawful cfg hc]; exact hk)
  have hcon := content_append (ops := vanOps) cfg h (.accumulate s r t)
  rw [hok] at hcon
  simp only [effect, hk] at hcon
  -- the entry after the first call
  have hentry : ∃ o a, content vanOps cfg (h ++ [.accumulate s r t]) id = some o ∧ vanOps.encode o.record = .ok a ∧
      ∀ n v, b.get? n = some v → a.get? n = some v := by
    rw [← content_eq vanOps_lawful] at hstep
    cases hold : content vanOps cfg h id with
    | none =>
      rw [hold] at hcon hstep
      obtain ⟨tm, htm⟩ := GoodRecord.typeMeta hr
      simp only [accumulated, show vanOps.typeMeta r = .ok tm from htm] at hcon
      rw [hcon]
      exact ⟨_, b, by simp [Effect.apply]; rfl, hb, hsub0⟩
    | some o =>
      have hgo := (hinv id o hold).2
      rw [hold] at hstep hcon
      cases hea : vanOps.encode o.record with
      | err m =>
        simp only [recordPatch, hea] at hstep
        rw [hstep] at hok; simp at hok
      | panic m => exact absurd hea (GoodRecord.encode_not_panic hgo m)
      | ok a =>
        rcases recordPatch_merge (s := s) (now := t) hr hgo hea hb with ⟨_, h2⟩ | ⟨h0, y, c, h1, _, _, _, h5, h6, _⟩
        · rw [accumulated_noChange hea hb h2] at hcon
          rw [hcon]
          exact ⟨o, a, hold, hea, fun n v hv => h2 (n, v) (GMap.mem_of_get? hv)⟩
        · have := recordPatch_ok vanOps_lawful h1
          rw [this] at hcon
          rw [hcon]
          exact ⟨_, c, by simp [Effect.apply]; rfl, h5, h6⟩
  obtain ⟨o, a, g1, g2, g3⟩ := hentry
  exact C22_nothing_new vanOps_lawful hc _ s' r t' hk g1 g2 hb g3

example : GoodRecord vanRegistry (hostRec "h1" "x") ∧ (vanOps.encode (hostRec "h1" "x")).isOk ∧
    ((after vanOps exCfg []).step vanOps (.accumulate exSrc (hostRec "h1" "x") t0)).2.res = .ok () :=
  ⟨hostRec_good _ _, by decide +kernel, rfl⟩

/-! ## C23 -/

/-- C23 is false: an Accumulate that fails because a record cannot be encoded fires OnAdd with the zero entry. -/
theorem C23_counterexample :
    ∃ h : List (Op (GoRec GoTime)),
      ((after vanOps exCfg h).step vanOps (.accumulate exSrc badHost t0)).2.res.isErr ∧
      ((after vanOps exCfg h).step vanOps (.accumulate exSrc badHost t0)).2.events = [.add default] :=
  ⟨[.accumulate exSrc badHost t0], rfl, rfl⟩

/-- The handler that the event is for is set. -/
def IsSet (hs : Handlers) : Event R → Prop
  | .add _ => hs.onAdd = true
  | .change _ _ => hs.onChange = true
  | .delete _ => hs.onDelete = true

/-- C23: only handlers that are set are called, whatever the call. -/
theorem C23_only_set {ops : RecOps R} (hl : LawfulOps ops) {cfg : CacheConfig R} (hc : GoodConfig cfg) (h : List (Op R)) (op : Op R) {ev : Event R}
    (he : ev ∈ ((after ops cfg h).step ops op).2.events) : IsSet cfg.handlers ev := by
  have hh := after_handlers hl cfg hc h
  generalize after ops cfg h = c at he hh
  have hd : ∀ d : Delta (Entry R), ev ∈ deltaEvents c.handlers d → IsSet cfg.handlers ev := by
    intro d hd
    unfold deltaEvents at hd
    rw [hh] at hd
    split at hd <;> split at hd <;> simp at hd <;> subst hd <;> assumption
  have hf : ∀ {α : Type} (f : Res α), ev ∉ (Out.fail (R := R) (β := Unit) f).events := fun f => by simp [Out.fail]
  cases op <;> simp only [Cache.step, Cache.add, Cache.update, Cache.delete, Cache.accumulate, Cache.replace] at he
  case add =>
    (repeat' split at he) <;> first | exact absurd he (hf _) | (simp at he; done) | skip
    simp at he; subst he; rw [← hh]; assumption
  case update => (repeat' split at he) <;> first | exact absurd he (hf _) | (simp at he; done) | exact hd _ he
  case delete =>
    (repeat' split at he) <;> first | exact absurd he (hf _) | (simp at he; done) | skip
    simp at he; subst he; rw [← hh]; assumption
  case accumulate => (repeat' split at he) <;> first | exact absurd he (hf _) | (simp at he; done) | exact hd _ he | exact hd { prev := none, next := default } he
  case replace => (repeat' split at he) <;> first | exact absurd he (hf _) | (simp at he; done)
  all_goals simp at he

/-- A configuration that says nothing sets no handlers: its stores never call one. -/
theorem C23_no_handlers {ops : RecOps R} (hl : LawfulOps ops) (hc : GoodConfig ({} : CacheConfig R)) (h : List (Op R)) (op : Op R) :
    ((after ops {} h).step ops op).2.events = [] := by
  cases hev : ((after ops {} h).step ops op).2.events with
  | nil => rfl
  | cons ev t =>
    have := C23_only_set hl hc h op (ev := ev) (by rw [hev]; simp)
    cases ev <;> simp [IsSet] at this

/-- The events the documentation promises for an Accumulate that took the entry at its key from `old` to `new` (`none`: left as it was). -/
def promised (hs : Handlers) (old new : Option (Entry R)) : List (Event R) :=
  match old, new with
  | none, some e => if hs.onAdd then [.add e] else []
  | some o, some e => if hs.onChange then [.change o e] else []
  | _, none => []

/-- C23 for calls that succeed: exactly the promised event, with the entry that was stored before and the one stored now.  An
Accumulate that panics fires nothing.  Missing for C23: an Accumulate that returns an error should fire nothing (false,
`C23_counterexample`). -/
theorem C23_events_partial {ops : RecOps R} (hl : LawfulOps ops) {cfg : CacheConfig R} (hc : GoodConfig cfg) (h : List (Op R))
    (s : SourceRef) (r : R) (now : GoTime) {k : String} (hk : keyOf ops cfg (Entry.ofRecord r) = .ok k) :
    let o := (after ops cfg h).step ops (.accumulate s r now)
    let new := accumulated ops (content ops cfg h k) s r now
    (o.2.res = .ok () → o.2.events = promised cfg.handlers (content ops cfg h k) new ∧
      content ops cfg (h ++ [.accumulate s r now]) k = (match new with
        | some e => some e
        | none => content ops cfg h k)) ∧
    (o.2.res.isPanic → o.2.events = []) := by
  intro o new
  have hstep := accumulate_eq ops (after ops cfg h) s r now (k := k) (by rw [after_keyFunc hl cfg hc]; exact hk)
  have hh := after_handlers hl cfg hc h
  rw [← content_eq hl] at hstep
  have hcon := content_append (ops := ops) cfg h (.accumulate s r now)
  show (((after ops cfg h).step ops (.accumulate s r now)).2.res = .ok () → _) ∧ _
  cases hp : recordPatch ops s r now (content ops cfg h k) with
  | noChange =>
    rw [hp] at hstep; simp only at hstep
    obtain ⟨o', a, b, ho, ha, hb, hall⟩ := recordPatch_noChange hl hp
    have hnew : new = none := by show accumulated ops _ s r now = none; rw [ho]; exact accumulated_noChange ha hb hall
    refine ⟨fun hok => ⟨?_, ?_⟩, by rw [show o = _ from hstep]; simp⟩
    · rw [show o = _ from hstep, hnew, ho]; simp [promised]
    · rw [hnew, hcon, hok]
      simp only [effect, hk]
      rw [show accumulated ops (content ops cfg h k) s r now = none from hnew]; rfl
  | err e => rw [hp] at hstep; simp only at hstep; rw [show o = _ from hstep]; rw [hstep]; simp
  | panic e => rw [hp] at hstep; simp only at hstep; rw [show o = _ from hstep]; rw [hstep]; simp
  | ok e =>
    rw [hp] at hstep; simp only at hstep
    have hnew : new = some e := recordPatch_ok hl hp
    refine ⟨fun hok => ⟨?_, ?_⟩, by rw [show o = _ from hstep]; simp⟩
    · rw [show o = _ from hstep, hnew]
      simp only [hh, deltaEvents, promised]
      cases content ops cfg h k <;> rfl
    · rw [hnew, hcon, hok]
      simp only [effect, hk]
      rw [show accumulated ops (content ops cfg h k) s r now = some e from hnew]
      simp [Effect.apply]

/-- Instance: a created entry and a changed one. -/
example : ((after vanOps exCfg []).step vanOps (.accumulate exSrc (hostRec "h1" "x") t0)).2.res = .ok () ∧
    ((after vanOps exCfg [.accumulate exSrc (hostRec "h1" "x") t0]).step vanOps (.accumulate exSrc (hostRec "h1" "y") t1)).2.res = .ok () ∧
    ((after vanOps exCfg [.accumulate exSrc (hostRec "h1" "x") t0]).step vanOps (.accumulate exSrc (hostRec "h1" "y") t1)).2.events.length = 1 :=
  by decide +kernel

/-! ## C24 -/

/-- C24 is false: a failed Accumulate puts an OnAdd with the zero entry in the log, which no mirror can follow (its key function panics). -/
theorem C24_counterexample :
    ∃ h : List (Op (GoRec GoTime)), (∀ op ∈ h, ∃ s r t, op = .accumulate s r t) ∧
      ¬ ∃ m, MirrorAll (keyOf vanOps exCfg) (fun _ => none) (eventsOf (historyOf vanOps exCfg h)) m := by
  refine ⟨[.accumulate exSrc badHost t0, .accumulate exSrc badHost t0], ?_, ?_⟩
  · intro op hop
    simp only [List.mem_cons, List.not_mem_nil, or_false, or_self] at hop
    exact ⟨_, _, _, hop⟩
  · rintro ⟨m, hm⟩
    have hev : eventsOf (historyOf vanOps exCfg [.accumulate exSrc badHost t0, .accumulate exSrc badHost t0]) =
      [.add { md := { source := exSrc, updatedAt := t0, annotations := [] }, typeMeta := ⟨"flow/v1", "HostRecord"⟩, record := badHost },
       .add default] := rfl
    rw [hev] at hm
    cases hm with
    | cons _ h2 =>
      cases h2 with
      | cons h3 _ =>
        cases h3 with
        | add h4 _ =>
          have : keyOf vanOps exCfg (default : Entry (GoRec GoTime)) = .panic "nil pointer dereference" := rfl
          rw [this] at h4
          simp at h4

omit [Inhabited R] in
theorem _root_.Verif.Spec.MirrorAll.append {kf : KeyFunc R} {m m' m'' : AMap R} {l l' : List (Event R)} (h1 : MirrorAll kf m l m')
    (h2 : MirrorAll kf m' l' m'') : MirrorAll kf m (l ++ l') m'' := by
  induction h1 with
  | nil => exact h2
  | cons h _ ih => exact .cons h (ih h2)

/-- A call that is not a Replace, and not an Accumulate ending with an error. -/
def Logged : Op R × Out R Unit → Prop
  | (.replace _, _) => False
  | (.accumulate _ _ _, o) => o.res.isErr = false
  | _ => True

theorem mirror_step {ops : RecOps R} (hl : LawfulOps ops) {Good : R → Prop} (c : Cache R)
    (hall : c.handlers = ⟨true, true, true⟩) (hcoh : CoherentKey ops c.keyFunc Good) (hm : KeyInv Good c.keyFunc (view c))
    (op : Op R) (hop : Op.All Good op) (hlog : Logged (op, (c.step ops op).2)) (hi : SIMInv c.storage) :
    MirrorAll c.keyFunc (view c) (c.step ops op).2.events (view (c.step ops op).1) := by
  have hview := step_view hl c op
  have hm' := effect_keyInv hcoh hm op hop (c.step ops op).2.res
  rw [← hview] at hm'
  have one : ∀ (e : Entry R) (k : String) (ev : Event R), view (c.step ops op).1 = (Effect.put k e).apply (view c) →
      (ev = .add e ∧ view c k = none ∨ ∃ p, ev = .change p e ∧ view c k = some p) →
      MirrorAll c.keyFunc (view c) [ev] (view (c.step ops op).1) := by
    intro e k ev hv hev
    have hke : c.keyFunc e = .ok k := (hm' k e (by rw [hv]; simp [Effect.apply])).1
    rw [hv]
    rcases hev with ⟨rfl, hn⟩ | ⟨p, rfl, hp⟩
    · exact .cons (.add hke hn) .nil
    · exact .cons (.change hke hp) .nil
  have delta : ∀ (e : Entry R) (k : String), view (c.step ops op).1 = (Effect.put k e).apply (view c) →
      MirrorAll c.keyFunc (view c) (deltaEvents c.handlers { prev := view c k, next := e }) (view (c.step ops op).1) := by
    intro e k hv
    unfold deltaEvents
    cases hp : view c k with
    | none => simp only [hall, if_true]; exact one e k _ hv (Or.inl ⟨rfl, hp⟩)
    | some p => simp only [hall, if_true]; exact one e k _ hv (Or.inr ⟨p, rfl, hp⟩)
  cases op with
  | add e now =>
    cases hk : c.keyFunc e with
    | ok k =>
      cases hf : firstFail (c.storage.versionOf k) [whenNotExists] with
      | some m => simp only [Cache.step, Cache.add, hk, SIM.update, hf]; exact .nil
      | none =>
        have h1 : c.step ops (.add e now) = ({ c with storage := (c.storage.put k (e.stamp now)).1 },
            { res := .ok (), events := [.add (e.stamp now)] }) := by
          simp [Cache.step, Cache.add, hk, SIM.update, hf, hall, put_delta]
        have hn : view c k = none := by
          rw [view_none, ← SIM.versionOf_eq_zero hi]
          simp only [firstFail, whenNotExists] at hf
          by_cases hz : c.storage.versionOf k = 0
          · exact hz
          · simp [hz] at hf
        have hev : (c.step ops (.add e now)).2.events = [.add (e.stamp now)] := by rw [h1]
        rw [hev]
        exact one (e.stamp now) k _ (by rw [h1]; exact view_put c k _) (Or.inl ⟨rfl, hn⟩)
    | err m => simp only [Cache.step, Cache.add, hk, Out.fail]; exact .nil
    | panic m => simp only [Cache.step, Cache.add, hk, Out.fail]; exact .nil
  | update e im now =>
    cases hk : c.keyFunc e with
    | ok k =>
      cases hc : getConditional im with
      | err m => simp only [Cache.step, Cache.update, hk, hc, Out.fail]; exact .nil
      | panic m => simp only [Cache.step, Cache.update, hk, hc, Out.fail]; exact .nil
      | ok conds =>
        cases hf : firstFail (c.storage.versionOf k) conds with
        | some m => simp only [Cache.step, Cache.update, hk, hc, SIM.update, hf]; exact .nil
        | none =>
          have h1 : c.step ops (.update e im now) = ({ c with storage := (c.storage.put k (e.stamp now)).1 },
              { res := .ok (), events := deltaEvents c.handlers { prev := view c k, next := e.stamp now } }) := by
            simp [Cache.step, Cache.update, hk, hc, SIM.update, hf, put_delta, view]
          have hev : (c.step ops (.update e im now)).2.events = deltaEvents c.handlers { prev := view c k, next := e.stamp now } := by
            rw [h1]
          rw [hev]
          exact delta _ k (by rw [h1]; exact view_put c k _)
    | err m => simp only [Cache.step, Cache.update, hk, Out.fail]; exact .nil
    | panic m => simp only [Cache.step, Cache.update, hk, Out.fail]; exact .nil
  | delete e =>
    cases hk : c.keyFunc e with
    | ok k =>
      have hres : (c.step ops (.delete e)).2.res = .ok () := by
        simp only [Cache.step, Cache.delete, hk]; split <;> rfl
      have hv : view (c.step ops (.delete e)).1 = (Effect.remove k).apply (view c) := by
        rw [hview, hres]; simp only [effect, hk]
      have hsnd := delete_snd (m := c.storage) k
      cases hd : c.storage.items.get? k with
      | none =>
        have hev : (c.step ops (.delete e)).2.events = [] := by
          simp only [Cache.step, Cache.delete, hk]
          split <;> rename_i hx <;> rw [hx] at hsnd <;> simp [hd] at hsnd ⊢
        have : view (c.step ops (.delete e)).1 = view c := by
          rw [hv]; funext k'
          simp only [Effect.apply]
          split
          · rename_i hk'; subst hk'; exact (view_none.2 hd).symm
          · rfl
        rw [hev, this]; exact .nil
      | some d =>
        have hev : (c.step ops (.delete e)).2.events = [.delete d.resource] := by
          simp only [Cache.step, Cache.delete, hk]
          split <;> rename_i hx <;> rw [hx] at hsnd <;> simp [hd] at hsnd ⊢
          subst hsnd; simp [hall]
        have hvk : view c k = some d.resource := view_some.2 ⟨d.version, hd⟩
        rw [hev, hv]
        exact .cons (.delete (hm k _ hvk).1 hvk) .nil
    | err m => simp only [Cache.step, Cache.delete, hk, Out.fail]; exact .nil
    | panic m => simp only [Cache.step, Cache.delete, hk, Out.fail]; exact .nil
  | replace es => exact hlog.elim
  | accumulate s r now =>
    cases hk : c.keyFunc (Entry.ofRecord r) with
    | ok k =>
      have hstep := accumulate_eq ops c s r now hk
      cases hp : recordPatch ops s r now (view c k) with
      | noChange => rw [hp] at hstep; simp only at hstep; rw [hstep]; exact .nil
      | panic m => rw [hp] at hstep; simp only at hstep; rw [hstep]; exact .nil
      | err m =>
        rw [hp] at hstep; simp only at hstep
        simp only [Logged] at hlog
        rw [hstep] at hlog; simp at hlog
      | ok e =>
        rw [hp] at hstep; simp only at hstep
        have hev : (c.step ops (.accumulate s r now)).2.events = deltaEvents c.handlers { prev := view c k, next := e } := by rw [hstep]
        rw [hev]
        exact delta e k (by rw [hstep]; exact view_put c k _)
    | err m => simp only [Cache.step, Cache.accumulate, hk, Out.fail]; exact .nil
    | panic m => simp only [Cache.step, Cache.accumulate, hk, Out.fail]; exact .nil
  | get e => exact .nil
  | list sel n => exact .nil
  | index i e sel n => exact .nil
  | indexValues i => exact .nil

theorem mirror_run {ops : RecOps R} (hl : LawfulOps ops) {Good : R → Prop} : ∀ (h : List (Op R)) (c : Cache R),
    c.handlers = ⟨true, true, true⟩ → CoherentKey ops c.keyFunc Good → KeyInv Good c.keyFunc (view c) → SIMInv c.storage →
    (∀ op ∈ h, Op.All Good op) → (∀ p ∈ (c.run ops h).2, Logged p) →
    MirrorAll c.keyFunc (view c) (eventsOf (c.run ops h).2) (view (c.run ops h).1)
  | [], _, _, _, _, _, _, _ => .nil
  | op :: h, c, hall, hcoh, hm, hi, hops, hlog => by
    have hk := step_keyFunc hl c op
    have h1 := mirror_step hl c hall hcoh hm op (hops op (by simp)) (hlog _ (by simp [Cache.run])) hi
    have h2 := mirror_run hl h (c.step ops op).1 (by rw [hk.2.1]; exact hall) (by rw [hk.1]; exact hcoh)
      (by rw [hk.1, step_view hl]; exact effect_keyInv hcoh hm op (hops op (by simp)) _) (step_inv hl hi op)
      (fun o ho => hops o (by simp [ho])) (fun p hp => hlog p (by simp [Cache.run, hp]))
    rw [hk.1] at h2
    have : eventsOf (c.run ops (op :: h)).2 = (c.step ops op).2.events ++ eventsOf ((c.step ops op).1.run ops h).2 := by
      simp [eventsOf, Cache.run]
    rw [this]
    exact h1.append h2

/-- C24 for histories without Replace in which no Accumulate returned an error, with all three handlers set and a key function that does
not depend on what changes in a stored entry: a consumer that mirrors the events (checking every add, change and delete against what it
has) ends with exactly the store content.  Missing for C24: histories with a failing Accumulate (false, `C24_counterexample`). -/
theorem C24_change_log_partial {ops : RecOps R} (hl : LawfulOps ops) {cfg : CacheConfig R} (hc : GoodConfig cfg)
    (hall : cfg.handlers = ⟨true, true, true⟩) {Good : R → Prop} (hcoh : CoherentKey ops (keyOf ops cfg) Good) (h : List (Op R))
    (hops : ∀ op ∈ h, Op.All Good op) (hlog : ∀ p ∈ historyOf ops cfg h, Logged p) :
    MirrorAll (keyOf ops cfg) (fun _ => none) (eventsOf (historyOf ops cfg h)) (content ops cfg h) := by
  have := mirror_run hl (Good := Good) h (newCache ops cfg) hall (by rw [new_keyFunc]; exact hcoh)
    (by intro k e he; simp [view, newCache, SIM.new] at he) (new_inv ops cfg hc) hops hlog
  rw [content_eq hl]
  rw [new_keyFunc] at this
  exact this

/-- Instance: the default key function with built-in records, and a history with every kind of call. -/
example : CoherentKey vanOps (keyOf vanOps exCfg) (GoodRecord vanRegistry) ∧
    (∀ p ∈ historyOf vanOps exCfg [.accumulate exSrc (hostRec "h1" "x") t0, .add (hostEntry "h2" "a" "r1") t0,
      .update (hostEntry "h1" "b" "r1") none t1, .delete (hostEntry "h2" "" "")], Logged p) := by
  refine ⟨van_coherent, ?_⟩
  intro p hp
  simp only [historyOf, Cache.run, List.mem_cons, List.not_mem_nil, or_false] at hp
  rcases hp with rfl | rfl | rfl | rfl
  · rfl
  · trivial
  · trivial
  · trivial

/-! ## C25 -/

/-- C25: with the default key function, no history of calls with built-in record kinds — encodable or not, kinds sharing an identity or not —
makes Accumulate panic. -/
theorem C25_accumulate_no_panic {cfg : CacheConfig (GoRec GoTime)} (hkey : cfg.key = none) (hc : GoodConfig cfg)
    (h : List (Op (GoRec GoTime))) (hh : ∀ op ∈ h, Op.All (GoodRecord vanRegistry) op) (s : SourceRef) (r : GoRec GoTime)
    (hr : GoodRecord vanRegistry r) (now : GoTime) :
    ((after vanOps cfg h).step vanOps (.accumulate s r now)).2.res.isPanic = false := by
  have hkf : keyOf vanOps cfg = (fun e => vanOps.identity e.record) := by simp [keyOf, hkey]
  obtain ⟨id, hid⟩ := GoodRecord.identity hr
  have hinv := content_keyInv vanOps_lawful (cfg := cfg) (Good := GoodRecord vanRegistry) (by rw [hkf]; exact van_coherent) h hh
  rw [accumulate_eq vanOps (after vanOps cfg h) s r now (k := id) (by rw [after_keyFunc vanOps_lawful cfg hc, hkf]; exact hid)]
  rw [← content_eq vanOps_lawful]
  cases hp : recordPatch vanOps s r now (content vanOps cfg h id) with
  | noChange => rfl
  | err m => rfl
  | ok e => rfl
  | panic m => exact absurd hp (recordPatch_good hr (fun o ho => (hinv id o ho).2) m)

/-- A process and a host with the same identity. -/
def procRec (id image : String) : GoRec GoTime := .pointer ⟨"ProcessRecord", fun p =>
  match p with
  | [0, 0] => .str id
  | [4] => .ptr (.str image)
  | _ => .nilp⟩

/-- C25: what such a merge does.  The entry keeps the TypeMeta of the first kind while its record is of the second, and attributes that the
second kind does not have are gone. -/
theorem C25_kinds_merge :
    ∃ e m', content vanOps exCfg [.accumulate exSrc (procRec "x" "nginx") t0, .accumulate exSrc (hostRec "x" "n") t1] "x" = some e ∧
      e.typeMeta = ⟨"flow/v1", "ProcessRecord"⟩ ∧ e.record = .pointer ⟨"HostRecord", m'⟩ ∧
      vanOps.encode e.record = .ok [(.u32 1, .str "x"), (.u32 30, .str "n"), (.u32 0, .u32 13)] := by
  refine ⟨_, _, rfl, rfl, rfl, ?_⟩
  decide +kernel

end Verif.Props
