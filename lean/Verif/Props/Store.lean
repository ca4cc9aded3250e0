import Verif.Proofs.Merge

/-!
# Store properties C13 – C20

`ops` are arbitrary lawful record operations, `cfg` an arbitrary configuration (key function, indexers, handlers), `h` an arbitrary
sequential history of calls from the empty store.
-/
namespace Verif.Props
open Verif Verif.Model Verif.Spec Verif.Proofs

variable {R : Type} [Inhabited R]

/-! ## Example data: a store of vanflow records with default configuration and all handlers set -/

def exCfg : CacheConfig (GoRec GoTime) := { handlers := ⟨true, true, true⟩ }

theorem exCfg_good : GoodConfig exCfg := by intro ixr h; simp [exCfg] at h

/-- A host record with identity `id` and name `name`. -/
def hostRec (id name : String) : GoRec GoTime := .pointer ⟨"HostRecord", fun p =>
  match p with
  | [0, 0] => .str id
  | [2] => .ptr (.str name)
  | _ => .nilp⟩

def hostEntry (id name src : String) : Entry (GoRec GoTime) :=
  { md := { source := ⟨"sources/v1", "ROUTER", src⟩, updatedAt := GoTime.zero, annotations := [] }
    typeMeta := ⟨"flow/v1", "HostRecord"⟩
    record := hostRec id name }

def t0 : GoTime := ⟨100, 0⟩
def t1 : GoTime := ⟨101, 0⟩

/-! ## C13 -/

/-- C13: after any history, `Get` finds an entry exactly when the last effective write of its key was not a removal, and returns the
entry that write stored. -/
theorem C13_get_latest_write {ops : RecOps R} (hl : LawfulOps ops) {cfg : CacheConfig R} (hc : GoodConfig cfg)
    (h : List (Op R)) (e : Entry R) {k : String} (hk : keyOf ops cfg e = .ok k) :
    ∃ s, (after ops cfg h).get e = .ok s ∧ (s.found = true ↔ content ops cfg h k ≠ none) ∧
      ∀ x, content ops cfg h k = some x → s.entry = x := by
  rw [content_eq hl]
  unfold Cache.get
  rw [after_keyFunc hl cfg hc, hk]
  simp only [Res.bind, SIM.get, view]
  cases hg : (after ops cfg h).storage.items.get? k with
  | none => exact ⟨_, rfl, by simp, by simp⟩
  | some cc => exact ⟨_, rfl, by simp, by simp⟩

/-- C13: a call whose key function fails or panics ends like the key function, without touching the store. -/
theorem C13_bad_key {ops : RecOps R} (hl : LawfulOps ops) {cfg : CacheConfig R} (hc : GoodConfig cfg) (h : List (Op R))
    (e : Entry R) (hk : ∀ k, keyOf ops cfg e ≠ .ok k) (now : GoTime) (m : Option String) :
    (after ops cfg h).get e = (keyOf ops cfg e).bind (fun _ => .err "") ∧
    ∀ op ∈ [Op.add e now, .update e m now, .delete e],
      ((after ops cfg h).step ops op).1 = after ops cfg h ∧ ((after ops cfg h).step ops op).2.events = [] ∧
      ¬ ((after ops cfg h).step ops op).2.res.isOk := by
  have hkf := after_keyFunc hl cfg hc h
  rw [← hkf] at hk ⊢
  refine ⟨?_, ?_⟩
  · unfold Cache.get
    cases hx : (after ops cfg h).keyFunc e with
    | ok k => exact absurd hx (hk k)
    | err => rfl
    | panic => rfl
  · intro op hop
    simp only [List.mem_cons, List.not_mem_nil, or_false] at hop
    cases hx : (after ops cfg h).keyFunc e with
    | ok k => exact absurd hx (hk k)
    | err => rcases hop with rfl | rfl | rfl <;> simp [Cache.step, Cache.add, Cache.update, Cache.delete, hx, Out.fail, Res.isOk]
    | panic => rcases hop with rfl | rfl | rfl <;> simp [Cache.step, Cache.add, Cache.update, Cache.delete, hx, Out.fail, Res.isOk]

/-- C13: `Get`, `List`, `Index` and `IndexValues` never change the store and fire no event. -/
theorem C13_reads_pure (ops : RecOps R) (c : Cache R) (op : Op R)
    (hop : match op with
      | .get _ | .list _ _ | .index _ _ _ _ | .indexValues _ => True
      | _ => False) :
    (c.step ops op).1 = c ∧ (c.step ops op).2.events = [] := by
  cases op <;> simp at hop <;> exact ⟨rfl, rfl⟩

/-- C13: an `Update` without If-Match always succeeds (for a good key), and afterwards the key holds the given entry with the
given time; other keys keep their entries. -/
theorem C13_update_stores {ops : RecOps R} (hl : LawfulOps ops) {cfg : CacheConfig R} (hc : GoodConfig cfg) (h : List (Op R))
    (e : Entry R) (now : GoTime) {k : String} (hk : keyOf ops cfg e = .ok k) :
    ((after ops cfg h).step ops (.update e none now)).2.res = .ok () ∧
    content ops cfg (h ++ [.update e none now]) = fun k' =>
      if k' = k then some { e with md := { e.md with updatedAt := now } } else content ops cfg h k' := by
  have hkf := after_keyFunc hl cfg hc h
  have hres : ((after ops cfg h).step ops (.update e none now)).2.res = .ok () := by
    simp [Cache.step, Cache.update, hkf, hk, getConditional, SIM.update, firstFail]
  refine ⟨hres, ?_⟩
  have h1 : content ops cfg (h ++ [.update e none now])
      = (effect ops (keyOf ops cfg) (content ops cfg h) (.update e none now) (.ok ())).apply (content ops cfg h) := by
    simp only [content, historyOf, replay, (run_append ops h [.update e none now] _).2, List.foldl_append, Cache.run, List.foldl_cons,
      List.foldl_nil]
    rw [← hres]; rfl
  rw [h1]
  simp only [effect, hk]
  rfl

example : content vanOps exCfg [.add (hostEntry "h1" "a" "r1") t0, .update (hostEntry "h1" "b" "r1") none t1,
      .delete (hostEntry "h2" "" "")] "h1"
    = some { hostEntry "h1" "b" "r1" with md := { (hostEntry "h1" "b" "r1").md with updatedAt := t1 } } := rfl

example : ∃ s, (after vanOps exCfg [.add (hostEntry "h1" "a" "r1") t0, .delete (hostEntry "h1" "" "")]).get (hostEntry "h1" "" "") =
    .ok s ∧ s.found = false := ⟨_, rfl, rfl⟩

/-! ## C14 -/

/-- C14: `Add` succeeds iff the key is absent; then the entry is stored with the given time and OnAdd fires once with it (if set). -/
theorem C14_add_creates {ops : RecOps R} (hl : LawfulOps ops) {cfg : CacheConfig R} (hc : GoodConfig cfg) (h : List (Op R))
    (e : Entry R) (now : GoTime) {k : String} (hk : keyOf ops cfg e = .ok k) (hn : content ops cfg h k = none) :
    ((after ops cfg h).step ops (.add e now)).2.res = .ok () ∧
    ((after ops cfg h).step ops (.add e now)).2.events =
      (if cfg.handlers.onAdd then [.add { e with md := { e.md with updatedAt := now } }] else []) ∧
    content ops cfg (h ++ [.add e now]) = fun k' =>
      if k' = k then some { e with md := { e.md with updatedAt := now } } else content ops cfg h k' := by
  have hkf := after_keyFunc hl cfg hc h
  have hh := after_handlers hl cfg hc h
  have hv : (after ops cfg h).storage.items.get? k = none := by
    rw [content_eq hl] at hn; exact view_none.1 hn
  have hver : (after ops cfg h).storage.versionOf k = 0 := by simp [SIM.versionOf, hv]
  have hres : ((after ops cfg h).step ops (.add e now)).2.res = .ok () := by
    simp [Cache.step, Cache.add, hkf, hk, SIM.update, firstFail, whenNotExists, hver]
  refine ⟨hres, ?_, ?_⟩
  · simp [Cache.step, Cache.add, hkf, hk, SIM.update, firstFail, whenNotExists, hver, hh, put_delta, Entry.stamp]
  · have h1 : content ops cfg (h ++ [.add e now])
        = (effect ops (keyOf ops cfg) (content ops cfg h) (.add e now) (.ok ())).apply (content ops cfg h) := by
      simp only [content, historyOf, replay, (run_append ops h [.add e now] _).2, List.foldl_append, Cache.run, List.foldl_cons,
        List.foldl_nil]
      rw [← hres]; rfl
    rw [h1]
    simp only [effect, hk]
    rfl

/-- C14: `Add` of a key that is present returns an error, changes nothing and fires nothing. -/
theorem C14_add_never_overwrites {ops : RecOps R} (hl : LawfulOps ops) {cfg : CacheConfig R} (hc : GoodConfig cfg) (h : List (Op R))
    (e : Entry R) (now : GoTime) {k : String} (hk : keyOf ops cfg e = .ok k) (hn : content ops cfg h k ≠ none) :
    ((after ops cfg h).step ops (.add e now)).1 = after ops cfg h ∧
    ((after ops cfg h).step ops (.add e now)).2.res.isErr ∧ ((after ops cfg h).step ops (.add e now)).2.events = [] := by
  have hkf := after_keyFunc hl cfg hc h
  have hv : (after ops cfg h).storage.versionOf k ≠ 0 := by
    rw [Ne, SIM.versionOf_eq_zero (after_inv hl cfg hc h)]
    intro hv; apply hn; rw [content_eq hl]; exact view_none.2 hv
  rw [← hkf] at hk
  simp [Cache.step, Cache.add, hk, SIM.update, firstFail, whenNotExists, hv, Res.isErr]

example : content vanOps exCfg [.delete (hostEntry "h1" "" "")] "h1" = none ∧
    content vanOps exCfg [.add (hostEntry "h1" "a" "r1") t0] "h1" ≠ none ∧
    keyOf vanOps exCfg (hostEntry "h1" "x" "y") = .ok "h1" := ⟨rfl, fun h => Option.some_ne_none _ h, rfl⟩

/-! ## C15 -/

/-- C15 is false of the code: an entry that was deleted and created again has version 1 again, so the ETag from before the
deletion still matches and the `Update` overwrites the new entry. -/
theorem C15_counterexample :
    ∃ (t : String) (h : List (Op (GoRec GoTime))),
      ((after vanOps exCfg [.add (hostEntry "h1" "a" "r1") t0]).get (hostEntry "h1" "" "")).map Single.etag = .ok t ∧
      h = [.delete (hostEntry "h1" "" ""), .add (hostEntry "h1" "b" "r2") t1] ∧
      ((after vanOps exCfg (.add (hostEntry "h1" "a" "r1") t0 :: h)).step vanOps (.update (hostEntry "h1" "c" "r3") (some t) t1)).2.res
        = .ok () := by
  refine ⟨_, _, rfl, rfl, ?_⟩
  decide +kernel

theorem content_append {ops : RecOps R} (cfg : CacheConfig R) (h : List (Op R)) (op : Op R) :
    content ops cfg (h ++ [op]) =
      (effect ops (keyOf ops cfg) (content ops cfg h) op ((after ops cfg h).step ops op).2.res).apply (content ops cfg h) := by
  simp only [content, historyOf, replay, (run_append ops h [op] _).2, List.foldl_append, Cache.run, List.foldl_cons, List.foldl_nil]
  rfl

/-- What `Update` with an If-Match that was handed out as version `v` does. -/
theorem update_ifMatch {c : Cache R} {e : Entry R} {k : String} (hk : c.keyFunc e = .ok k) {t : String} {v u : Int}
    (ht : decodeETag t = .ok ⟨v, u⟩) (ops : RecOps R) (now : GoTime) :
    ((c.step ops (.update e (some t) now)).2.res = .ok () ↔ c.storage.versionOf k = v) ∧
    ((c.step ops (.update e (some t) now)).2.res ≠ .ok () →
      (c.step ops (.update e (some t) now)).1 = c ∧ (c.step ops (.update e (some t) now)).2.res.isErr ∧
      (c.step ops (.update e (some t) now)).2.events = []) := by
  by_cases hv : c.storage.versionOf k = v
  · simp [Cache.step, Cache.update, hk, getConditional, ht, Res.map, SIM.update, firstFail, whenVersionMatches, hv]
  · simp [Cache.step, Cache.update, hk, getConditional, ht, Res.map, SIM.update, firstFail, whenVersionMatches, hv, Res.isErr]

/-- C15, with what the code does guarantee: `t` is the ETag from a `Get` that found the key after history `h1`; then `h2` runs; then
an `Update` of that key with If-Match `t`.
* If no call in `h2` removed the key, the `Update` succeeds exactly when no call in `h2` wrote the key.
* If the key is absent at the end, the `Update` fails.
* A failing `Update` returns an error, changes nothing and fires nothing.

Missing for C15: the key was removed and created again in `h2` (false, `C15_counterexample`).  Versions are 64 bit, hence the bound. -/
theorem C15_stale_etag_partial {ops : RecOps R} (hl : LawfulOps ops) {cfg : CacheConfig R} (hc : GoodConfig cfg)
    (h1 h2 : List (Op R)) (e e' : Entry R) {k : String} (hk : keyOf ops cfg e = .ok k) (hk' : keyOf ops cfg e' = .ok k)
    {s : Single R} (hs : (after ops cfg h1).get e = .ok s) (hf : s.found = true) (hlen : (h1 ++ h2).length < 2 ^ 63) (now : GoTime) :
    let c := after ops cfg (h1 ++ h2)
    let o := c.step ops (.update e' (some s.etag) now)
    (NeverRemoved ops (keyOf ops cfg) k (content ops cfg h1) ((after ops cfg h1).run ops h2).2 →
      (o.2.res = .ok () ↔ NeverWritten ops (keyOf ops cfg) k (content ops cfg h1) ((after ops cfg h1).run ops h2).2)) ∧
    (content ops cfg (h1 ++ h2) k = none → o.2.res ≠ .ok ()) ∧
    (o.2.res ≠ .ok () → o.1 = c ∧ o.2.res.isErr ∧ o.2.events = []) := by
  intro c o
  have hi1 := after_inv hl cfg hc h1
  have hkf1 := after_keyFunc hl cfg hc h1
  have hkf := after_keyFunc hl cfg hc (h1 ++ h2)
  have hrun : c = ((after ops cfg h1).run ops h2).1 := (run_append ops h1 h2 _).1
  unfold Cache.get at hs
  rw [hkf1, hk] at hs
  simp only [Res.bind, SIM.get] at hs
  cases hg : (after ops cfg h1).storage.items.get? k with
  | none => rw [hg] at hs; injection hs with hs; subst hs; simp at hf
  | some cc =>
    rw [hg] at hs; injection hs with hs
    have hver : (after ops cfg h1).storage.versionOf k = cc.version := by simp [SIM.versionOf, hg]
    have hpos := hi1.pos k cc hg
    have hle := run_version_le hl k h1 (newCache ops cfg) (new_inv ops cfg hc)
    have h0 : (newCache ops cfg).storage.versionOf k = 0 := rfl
    rw [h0] at hle
    have hle' : cc.version ≤ (h1.length : Int) := by rw [← hver]; simpa [after] using hle
    have hlen' : (h1.length : Int) < 2 ^ 63 := by
      rw [List.length_append] at hlen; omega
    have ht : decodeETag s.etag = .ok ⟨cc.version, Int.bmod cc.resource.md.updatedAt.sec (2 ^ 64)⟩ := by
      rw [← hs]; simp only [getETag]
      rw [decodeETag_encode, bmod_of_range (n := 63)] <;> omega
    obtain ⟨u1, u2⟩ := update_ifMatch (c := c) (e := e') (k := k) (by rw [hkf]; exact hk') ht ops now
    refine ⟨?_, ?_, u2⟩
    · intro hnr
      rw [content_eq hl, ← hkf1] at hnr ⊢
      obtain ⟨_, m2⟩ := run_version_mono hl k h2 (after ops cfg h1) hnr
      rw [u1, ← m2, hrun, hver]
    · intro hnone hok
      rw [content_eq hl] at hnone
      have := (SIM.versionOf_eq_zero (after_inv hl cfg hc (h1 ++ h2)) k).2 (view_none.1 hnone)
      have h5 := u1.1 hok
      rw [show c.storage.versionOf k = 0 from this] at h5
      omega

/-- C15: an If-Match that is not a token is refused: the empty string (which `Get` returns for an absent key), or any other text that
does not decode. -/
theorem C15_malformed_etag {ops : RecOps R} (c : Cache R) (e : Entry R) {k : String} (hk : c.keyFunc e = .ok k) (t : String)
    (now : GoTime) (ht : ∀ v, decodeETag t ≠ .ok v) :
    (c.step ops (.update e (some t) now)).1 = c ∧ (c.step ops (.update e (some t) now)).2.res ≠ .ok () ∧
      (c.step ops (.update e (some t) now)).2.events = [] := by
  cases hx : decodeETag t with
  | ok v => exact absurd hx (ht v)
  | err => simp [Cache.step, Cache.update, hk, getConditional, hx, Res.map, Out.fail]
  | panic => simp [Cache.step, Cache.update, hk, getConditional, hx, Res.map, Out.fail]

example : (decodeETag "").isErr ∧ (decodeETag "not a token").isErr := by decide +kernel

/-- Hypotheses of `C15_stale_etag_partial`, both ways: untouched key, and rewritten key. -/
example : (∃ s, (after vanOps exCfg [.add (hostEntry "h1" "a" "r1") t0]).get (hostEntry "h1" "" "") = .ok s ∧ s.found = true) ∧
    NeverRemoved vanOps (keyOf vanOps exCfg) "h1" (content vanOps exCfg [.add (hostEntry "h1" "a" "r1") t0])
      ((after vanOps exCfg [.add (hostEntry "h1" "a" "r1") t0]).run vanOps
        [.add (hostEntry "h2" "x" "r1") t0, .delete (hostEntry "h2" "" ""), .update (hostEntry "h1" "b" "r1") none t1]).2 ∧
    ¬ NeverWritten vanOps (keyOf vanOps exCfg) "h1" (content vanOps exCfg [.add (hostEntry "h1" "a" "r1") t0])
      ((after vanOps exCfg [.add (hostEntry "h1" "a" "r1") t0]).run vanOps
        [.add (hostEntry "h2" "x" "r1") t0, .delete (hostEntry "h2" "" ""), .update (hostEntry "h1" "b" "r1") none t1]).2 := by
  refine ⟨⟨_, rfl, rfl⟩, ⟨id, fun h => absurd h (show ("h1" : String) ≠ "h2" by decide), id, trivial⟩, ?_⟩
  intro h
  exact h.2.2.1 (show ("h1" : String) = "h1" from rfl)

/-! ## C16 -/

/-- C16: decoding an ETag gives back version and time, for every 64-bit version and timestamp. -/
theorem C16_etag_roundtrip (v u : Int) (hv : -2 ^ 63 ≤ v ∧ v < 2 ^ 63) (hu : -2 ^ 63 ≤ u ∧ u < 2 ^ 63) :
    decodeETag (encodeETag v u) = .ok { version := v, updatedAt := u } := by
  rw [decodeETag_encode, bmod_of_range (n := 63), bmod_of_range (n := 63)] <;> omega

/-- C16: decoding a continue token gives back the offset, for every offset below 2^31 (whatever the time in it). -/
theorem C16_continue_roundtrip (nonce o : Int) (ho : 0 ≤ o ∧ o < 2 ^ 31) : decodeContinue (encodeContinue nonce o) = .ok o := by
  rw [decodeContinue_encode, bmod_of_range (n := 31)] <;> omega

/-- C16: different ETags (as version and time) have different texts. -/
theorem C16_etag_injective {v u v' u' : Int} (hv : -2 ^ 63 ≤ v ∧ v < 2 ^ 63) (hu : -2 ^ 63 ≤ u ∧ u < 2 ^ 63)
    (hv' : -2 ^ 63 ≤ v' ∧ v' < 2 ^ 63) (hu' : -2 ^ 63 ≤ u' ∧ u' < 2 ^ 63) (h : encodeETag v u = encodeETag v' u') :
    v = v' ∧ u = u' := by
  have h1 := C16_etag_roundtrip v u hv hu
  rw [h, C16_etag_roundtrip v' u' hv' hu'] at h1
  simp only [Res.ok.injEq, ETagToken.mk.injEq] at h1
  exact ⟨h1.1.symm, h1.2.symm⟩

/-- A digit of the standard base64 alphabet. -/
def Base64Digit (c : Char) : Prop :=
  ('A' ≤ c ∧ c ≤ 'Z') ∨ ('a' ≤ c ∧ c ≤ 'z') ∨ ('0' ≤ c ∧ c ≤ '9') ∨ c = '+' ∨ c = '/'

theorem b64Val_digit {c : Char} (h : (b64Val c).isSome) : Base64Digit c := by
  have le : ∀ {a b : Char}, a.toNat ≤ b.toNat → a ≤ b := fun h => h
  have eq : ∀ {a b : Char}, a.toNat = b.toNat → a = b := fun {a b} h => Char.toNat_inj.1 h
  unfold b64Val at h
  simp only at h
  unfold Base64Digit
  split at h
  · exact Or.inl ⟨le (by simpa using (by assumption : _ ∧ _).1), le (by simpa using (by assumption : _ ∧ _).2)⟩
  split at h
  · exact Or.inr (Or.inl ⟨le (by simpa using (by assumption : 97 ≤ _ ∧ _).1), le (by simpa using (by assumption : 97 ≤ _ ∧ _).2)⟩)
  split at h
  · exact Or.inr (Or.inr (Or.inl ⟨le (by simpa using (by assumption : 48 ≤ _ ∧ _).1), le (by simpa using (by assumption : 48 ≤ _ ∧ _).2)⟩))
  split at h
  · exact Or.inr (Or.inr (Or.inr (Or.inl (eq (by assumption)))))
  split at h
  · exact Or.inr (Or.inr (Or.inr (Or.inr (eq (by assumption)))))
  · simp at h

/-- C16: malformed tokens are refused with an error.  Accepted text (line breaks aside) has a length divisible by four, consists of base64
digits and padding, and has enough digits for all the bytes (22 for an ETag, 16 for a continue token); nothing panics. -/
theorem C16_malformed_refused (t : String) :
    let u := t.toList.filter fun c => c ≠ '\r' ∧ c ≠ '\n'
    let WellFormed := fun n : Nat =>
      u.length % 4 = 0 ∧ (∀ c ∈ u, Base64Digit c ∨ c = '=') ∧ n ≤ (u.filter fun c => c ≠ '=').length
    ((∃ v, decodeETag t = .ok v ∧ WellFormed 22) ∨ (decodeETag t).isErr) ∧
    ((∃ v, decodeContinue t = .ok v ∧ WellFormed 16) ∨ (decodeContinue t).isErr) := by
  intro u WellFormed
  have key : ∀ bs, b64Decode t.toList = some bs → ∀ n m, m ≤ bs.length → 3 * (n - 1) < 4 * m → WellFormed n := by
    intro bs hb n m hm hn
    obtain ⟨h1, h2, h3, _⟩ := b64Quanta_some _ _ hb
    refine ⟨h1, fun c hc => (h2 c hc).imp_left b64Val_digit, ?_⟩
    show n ≤ _
    have : 4 * bs.length ≤ 3 * (u.filter fun c => c ≠ '=').length := h3
    omega
  unfold decodeETag decodeContinue
  cases hb : b64Decode t.toList with
  | none => simp [Res.isErr]
  | some bs =>
    refine ⟨?_, ?_⟩
    · by_cases h : bs.length < 16
      · right; simp [h, Res.isErr]
      · left; simp only [h, if_false]; exact ⟨_, rfl, key bs hb 22 16 (by omega) (by omega)⟩
    · by_cases h : bs.length < 12
      · right; simp [h, Res.isErr]
      · left; simp only [h, if_false]; exact ⟨_, rfl, key bs hb 16 12 (by omega) (by omega)⟩

example : encodeETag 3 1700000000 = "AwAAAAAAAAAA8VNlAAAAAA==" ∧ decodeETag "AwAAAAAAAAAA8VNlAAAAAA==" = .ok ⟨3, 1700000000⟩ ∧
    decodeContinue (encodeContinue 1700000000 7) = .ok 7 ∧ (decodeETag "AwAAAAAAAAAA8VNlAAAA").isErr ∧
    (decodeContinue "****").isErr := by decide +kernel

/-! ## C17, C18 -/

/-- C17: after any history, `Index` returns each stored entry sharing an index value with the argument exactly once, and nothing else. -/
theorem C17_index_exact {ops : RecOps R} (hl : LawfulOps ops) {cfg : CacheConfig R} (hc : GoodConfig cfg) (h : List (Op R))
    {name : String} {f : Indexer (Entry R)} (hf : indexerOf cfg name = some f) (e : Entry R) (nonce : Int) :
    ∃ l, (after ops cfg h).index name e none nonce = .ok { entries := l, cont := "" } ∧
      ListsExactly (content ops cfg h) (fun x => ∃ v, v ∈ f e ∧ v ∈ f x) l := by
  rw [content_eq hl]
  rw [← indexers_get, ← after_indexers hl cfg hc h] at hf
  obtain ⟨l, h1, h2⟩ := index_exact (after_inv hl cfg hc h) hf e
  exact ⟨_, by simp [Cache.index, h1, Res.bind], h2⟩

/-- C17, C18: an unknown index name is an error. -/
theorem C17_unknown_index {ops : RecOps R} (hl : LawfulOps ops) {cfg : CacheConfig R} (hc : GoodConfig cfg) (h : List (Op R))
    {name : String} (hf : indexerOf cfg name = none) (e : Entry R) (sel : Option Selector) (nonce : Int) :
    ((after ops cfg h).index name e sel nonce).isErr ∧ ((after ops cfg h).indexValues name).isErr := by
  rw [← indexers_get, ← after_indexers hl cfg hc h] at hf
  simp [Cache.index, Cache.indexValues, SIM.index, SIM.indexValues, hf, Res.bind, Res.isErr]

/-- C18: after any history, `IndexValues` lists a value iff some stored entry has it, without repetition. -/
theorem C18_index_values {ops : RecOps R} (hl : LawfulOps ops) {cfg : CacheConfig R} (hc : GoodConfig cfg) (h : List (Op R))
    {name : String} {f : Indexer (Entry R)} (hf : indexerOf cfg name = some f) :
    ∃ vs, (after ops cfg h).indexValues name = .ok vs ∧ vs.Nodup ∧
      ∀ v, v ∈ vs ↔ ∃ k x, content ops cfg h k = some x ∧ v ∈ f x := by
  rw [content_eq hl]
  rw [← indexers_get, ← after_indexers hl cfg hc h] at hf
  obtain ⟨vs, h1, h2, h3⟩ := indexValues_spec (after_inv hl cfg hc h) hf
  refine ⟨vs, h1, h2, fun v => (h3 v).trans ⟨?_, ?_⟩⟩
  · rintro ⟨k, c, hk, hv⟩
    exact ⟨k, c.resource, view_some.2 ⟨c.version, hk⟩, hv⟩
  · rintro ⟨k, x, hk, hv⟩
    obtain ⟨n, hn⟩ := view_some.1 hk
    exact ⟨k, _, hn, hv⟩

/-- C13, C17, C18: in a history the reading calls end as the methods say, leave the store as it is and fire no events. -/
theorem C17_reading_calls {ops : RecOps R} (c : Cache R) :
    (∀ op, (∃ e, op = .get e) ∨ (∃ sel n, op = .list sel n) ∨ (∃ i e sel n, op = .index i e sel n) ∨ (∃ i, op = .indexValues i) → (c.step ops op).1 = c ∧ (c.step ops op).2.events = []) ∧
    (∀ e, (∀ x, c.get e = .ok x → (c.step ops (.get e)).2.res = .ok ()) ∧ (∀ m, c.get e = .err m → (c.step ops (.get e)).2.res = .err m) ∧
      (∀ m, c.get e = .panic m → (c.step ops (.get e)).2.res = .panic m)) ∧
    (∀ sel n, (∀ x, c.list sel n = .ok x → (c.step ops (.list sel n)).2.res = .ok ()) ∧ (∀ m, c.list sel n = .err m → (c.step ops (.list sel n)).2.res = .err m) ∧
      (∀ m, c.list sel n = .panic m → (c.step ops (.list sel n)).2.res = .panic m)) ∧
    (∀ i e sel n, (∀ x, c.index i e sel n = .ok x → (c.step ops (.index i e sel n)).2.res = .ok ()) ∧ (∀ m, c.index i e sel n = .err m → (c.step ops (.index i e sel n)).2.res = .err m) ∧
      (∀ m, c.index i e sel n = .panic m → (c.step ops (.index i e sel n)).2.res = .panic m)) ∧
    ∀ i, (∀ x, c.indexValues i = .ok x → (c.step ops (.indexValues i)).2.res = .ok ()) ∧ (∀ m, c.indexValues i = .err m → (c.step ops (.indexValues i)).2.res = .err m) ∧
      ∀ m, c.indexValues i = .panic m → (c.step ops (.indexValues i)).2.res = .panic m := by
  refine ⟨?_, fun e => ?_, fun sel n => ?_, fun i e sel n => ?_, fun i => ?_⟩
  · rintro op (⟨e, rfl⟩ | ⟨sel, n, rfl⟩ | ⟨i, e, sel, n, rfl⟩ | ⟨i, rfl⟩) <;> exact ⟨rfl, rfl⟩
  all_goals exact ⟨fun x h => by simp [Cache.step, h, Res.map], fun m h => by simp [Cache.step, h, Res.map], fun m h => by simp [Cache.step, h, Res.map]⟩

/-- The default indexes exist; an entry moves between buckets when its source changes. -/
example : indexerOf exCfg "source" ≠ none ∧ indexerOf exCfg "site" ≠ none ∧ indexerOf exCfg "nope" = none ∧
    (after vanOps exCfg [.add (hostEntry "h1" "a" "r1") t0, .add (hostEntry "h2" "a" "r1") t0,
      .update (hostEntry "h1" "a" "r2") none t1]).indexValues "source" = .ok ["sources/v1.ROUTER.r1", "sources/v1.ROUTER.r2"] := by
  refine ⟨Option.some_ne_none _, Option.some_ne_none _, rfl, ?_⟩
  decide +kernel

/-! ## C19 -/

/-- C19: `Delete` with a good key never fails; afterwards the key is not found, the other keys and their ETags are as before, no listing
or index contains the key's entry, and OnDelete fires exactly once with the removed entry iff there was one. -/
theorem C19_delete_removes {ops : RecOps R} (hl : LawfulOps ops) {cfg : CacheConfig R} (hc : GoodConfig cfg) (h : List (Op R))
    (e : Entry R) {k : String} (hk : keyOf ops cfg e = .ok k) :
    let c := after ops cfg h
    let o := c.step ops (.delete e)
    let rest : AMap R := fun k' => if k' = k then none else content ops cfg h k'
    o.2.res = .ok () ∧
    o.2.events = (match content ops cfg h k with
      | some x => if cfg.handlers.onDelete then [.delete x] else []
      | none => []) ∧
    (∃ s, o.1.get e = .ok s ∧ s.found = false) ∧
    (∀ e' k', keyOf ops cfg e' = .ok k' → k' ≠ k → o.1.get e' = c.get e') ∧
    (∃ l, o.1.list none 0 = .ok { entries := l, cont := "" } ∧ ListsExactly rest (fun _ => True) l) ∧
    (∀ name f x, indexerOf cfg name = some f →
      ∃ l, o.1.index name x none 0 = .ok { entries := l, cont := "" } ∧ ListsExactly rest (fun y => ∃ v, v ∈ f x ∧ v ∈ f y) l) ∧
    content ops cfg (h ++ [.delete e]) = rest := by
  intro c o rest
  have hkf := after_keyFunc hl cfg hc h
  have hh := after_handlers hl cfg hc h
  have hres : o.2.res = .ok () := by
    show ((after ops cfg h).step ops (.delete e)).2.res = .ok ()
    simp only [Cache.step, Cache.delete, hkf, hk]
    split <;> rfl
  have hcon : content ops cfg (h ++ [.delete e]) = rest := by
    rw [content_append]
    rw [show ((after ops cfg h).step ops (.delete e)).2.res = .ok () from hres]
    simp only [effect, hk]; rfl
  have hstate : o.1 = after ops cfg (h ++ [.delete e]) := by
    show _ = ((newCache ops cfg).run ops (h ++ [.delete e])).1
    rw [(run_append ops h [.delete e] _).1]; rfl
  have hst : o.1.storage = (c.storage.delete k).1 := by
    show ((after ops cfg h).step ops (.delete e)).1.storage = _
    simp only [Cache.step, Cache.delete, hkf, hk]
    split <;> rename_i hd <;> rw [show c.storage.delete k = _ from hd]
  refine ⟨hres, ?_, ?_, ?_, ?_, ?_, hcon⟩
  · show ((after ops cfg h).step ops (.delete e)).2.events = _
    rw [content_eq hl]
    simp only [Cache.step, Cache.delete, hkf, hk, view]
    have := delete_snd (m := (after ops cfg h).storage) k
    split <;> rename_i hd <;> rw [hd] at this <;> simp only at this <;> rw [← this] <;> simp [hh]
  · obtain ⟨s, h1, h2, _⟩ := C13_get_latest_write hl hc (h ++ [.delete e]) e hk
    refine ⟨s, by rw [hstate]; exact h1, ?_⟩
    rw [hcon] at h2
    simpa [rest] using h2
  · intro e' k' hk' hne
    unfold Cache.get
    rw [show o.1.keyFunc = keyOf ops cfg by rw [hstate]; exact after_keyFunc hl cfg hc _, show c.keyFunc = keyOf ops cfg from hkf, hk', hst]
    simp only [Res.bind, SIM.get, delete_get, if_neg (Ne.symm hne)]
  · refine ⟨_, rfl, ?_⟩
    rw [← hcon, hstate, content_eq hl]
    exact list_exact (after_inv hl cfg hc _)
  · intro name f x hf
    rw [← hcon, hstate]
    exact C17_index_exact hl hc (h ++ [.delete e]) hf x 0

example : ((after vanOps exCfg [.add (hostEntry "h1" "a" "r1") t0]).step vanOps (.delete (hostEntry "h1" "" ""))).2.events =
    [.delete ((hostEntry "h1" "a" "r1").stamp t0)] := rfl

/-! ## C20 -/

/-- C20: `Replace` succeeds iff every entry has a key; then the store holds, for each key, the last entry given for it, and nothing else,
and listing and indexes match.  If some entry has no key nothing changes. -/
theorem C20_replace_exact {ops : RecOps R} (hl : LawfulOps ops) {cfg : CacheConfig R} (hc : GoodConfig cfg) (h : List (Op R))
    (es : List (Entry R)) :
    let c := after ops cfg h
    let o := c.step ops (.replace es)
    let now : AMap R := lastWithKey (keyOf ops cfg) es
    o.2.events = [] ∧
    ((∀ e ∈ es, ∃ k, keyOf ops cfg e = .ok k) →
      o.2.res = .ok () ∧ content ops cfg (h ++ [.replace es]) = now ∧
      (∃ l, o.1.list none 0 = .ok { entries := l, cont := "" } ∧ ListsExactly now (fun _ => True) l) ∧
      (∀ name f x, indexerOf cfg name = some f →
        ∃ l, o.1.index name x none 0 = .ok { entries := l, cont := "" } ∧ ListsExactly now (fun y => ∃ v, v ∈ f x ∧ v ∈ f y) l)) ∧
    ((∃ e ∈ es, ∀ k, keyOf ops cfg e ≠ .ok k) → o.2.res ≠ .ok () ∧ o.1 = c) := by
  intro c o now
  have hkf : c.keyFunc = keyOf ops cfg := after_keyFunc hl cfg hc h
  have hstate : o.1 = after ops cfg (h ++ [.replace es]) := by
    show _ = ((newCache ops cfg).run ops (h ++ [.replace es])).1
    rw [(run_append ops h [.replace es] _).1]; rfl
  refine ⟨?_, ?_, ?_⟩
  · show (c.replace es).2.events = []
    unfold Cache.replace
    cases collectItems c.keyFunc es [] <;> rfl
  · intro hall
    have hres : o.2.res = .ok () := by
      show (c.replace es).2.res = .ok ()
      obtain ⟨items, hi⟩ := collectItems_isOk (kf := c.keyFunc) es [] (by rw [hkf]; exact hall)
      simp [Cache.replace, hi]
    have hcon : content ops cfg (h ++ [.replace es]) = now := by
      rw [content_append, show ((after ops cfg h).step ops (.replace es)).2.res = .ok () from hres]
      rfl
    refine ⟨hres, hcon, ⟨_, rfl, ?_⟩, ?_⟩
    · rw [← hcon, hstate, content_eq hl]
      exact list_exact (after_inv hl cfg hc _)
    · intro name f x hf
      rw [← hcon, hstate]
      exact C17_index_exact hl hc (h ++ [.replace es]) hf x 0
  · rintro ⟨e, he, hbad⟩
    cases hi : collectItems c.keyFunc es [] with
    | ok items =>
      obtain ⟨_, h2, _⟩ := collectItems_ok es [] items GMap.WF_nil hi
      obtain ⟨k, hk⟩ := h2 e he
      rw [hkf] at hk
      exact absurd hk (hbad k)
    | err m =>
      have : c.replace es = (c, Out.fail (.err m : Res (GMap String (Entry R)))) := by simp [Cache.replace, hi]
      exact ⟨by show (c.replace es).2.res ≠ _; rw [this]; simp [Out.fail], by show (c.replace es).1 = _; rw [this]⟩
    | panic m =>
      have : c.replace es = (c, Out.fail (.panic m : Res (GMap String (Entry R)))) := by simp [Cache.replace, hi]
      exact ⟨by show (c.replace es).2.res ≠ _; rw [this]; simp [Out.fail], by show (c.replace es).1 = _; rw [this]⟩

example : content vanOps exCfg [.add (hostEntry "h0" "a" "r1") t0,
      .replace [hostEntry "h1" "a" "r1", hostEntry "h2" "b" "r1", hostEntry "h1" "c" "r2"]] "h1" = some (hostEntry "h1" "c" "r2") ∧
    content vanOps exCfg [.add (hostEntry "h0" "a" "r1") t0, .replace [hostEntry "h1" "a" "r1"]] "h0" = none ∧
    (∃ e : Entry (GoRec GoTime), ∀ k, keyOf vanOps exCfg e ≠ .ok k) :=
  ⟨rfl, rfl, { hostEntry "" "" "" with record := .nil }, fun k h => by simp [keyOf, exCfg, vanOps, vanIdentity] at h⟩

end Verif.Props
