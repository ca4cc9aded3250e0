import Verif.Spec.ConnectText
import Verif.Props.JsonText
import Verif.Props.ToolMain

/-!
# C116: what a connect.json says, and what the tool makes of it
-/
namespace Verif.Props
open Verif Verif.Model Verif.Spec

variable {fold : String → String}

theorem jsonField_folded {σ : Type} : ∀ {fs : JFields σ} {k : String}, (fs.map fun f => fold f.1).Nodup → jsonField fold fs k = (fs.find? fun f => fold f.1 = fold k).map Prod.snd := by
  intro fs k hn
  unfold jsonField
  cases h : fs.find? (fun f => f.1 = k) with
  | none => rfl
  | some f =>
    have hk : f.1 = k := by simpa using List.find?_some h
    have hm := List.mem_of_find?_eq_some h
    suffices fs.find? (fun f => fold f.1 = fold k) = some f by rw [this]; rfl
    clear h
    induction fs with
    | nil => cases hm
    | cons g gs ih =>
      rw [List.map_cons, List.nodup_cons] at hn
      rcases List.mem_cons.1 hm with rfl | hm
      · rw [List.find?_cons_of_pos (by simp [hk])]
      · rw [List.find?_cons_of_neg, ih hn.2 hm]
        simp only [decide_eq_true_eq]
        intro e
        exact hn.1 (List.mem_map.2 ⟨f, hm, by rw [hk, e]⟩)

theorem valuesOf_hit {n k : String} {j : Json} {ms : List (String × Json)} (h : fold k = fold n) : valuesOf fold n ((k, j) :: ms) = j :: valuesOf fold n ms := by
  simp [valuesOf, h]

theorem valuesOf_miss {n k : String} {j : Json} {ms : List (String × Json)} (h : fold k ≠ fold n) : valuesOf fold n ((k, j) :: ms) = valuesOf fold n ms := by
  simp [valuesOf, h]

theorem valuesOf_append (n : String) (a b : List (String × Json)) : valuesOf fold n (a ++ b) = valuesOf fold n a ++ valuesOf fold n b := by
  simp [valuesOf]

/-- The member goes to the field of its name, and to no other. -/
theorem field_cases {σ : Type} {fs : JFields σ} (hn : (fs.map fun f => fold f.1).Nodup) (k : String) :
    (jsonField fold fs k = none ∧ ∀ f ∈ fs, fold k ≠ fold f.1) ∨ ∃ f ∈ fs, jsonField fold fs k = some f.2 ∧ fold k = fold f.1 ∧ ∀ g ∈ fs, g ≠ f → fold k ≠ fold g.1 := by
  rw [jsonField_folded hn]
  cases h : fs.find? (fun f => fold f.1 = fold k) with
  | none =>
    refine .inl ⟨rfl, fun f hf e => ?_⟩
    have := List.find?_eq_none.1 h f hf
    simp [e] at this
  | some f =>
    have hk : fold f.1 = fold k := by simpa using List.find?_some h
    have hm := List.mem_of_find?_eq_some h
    refine .inr ⟨f, hm, rfl, hk.symm, fun g hg hne e => hne ?_⟩
    clear h
    induction fs with
    | nil => cases hm
    | cons x xs ih =>
      rw [List.map_cons, List.nodup_cons] at hn
      rcases List.mem_cons.1 hm with rfl | hm'
      · rcases List.mem_cons.1 hg with rfl | hg
        · rfl
        · exact absurd (List.mem_map.2 ⟨g, hg, by rw [← e, hk]⟩) hn.1
      · rcases List.mem_cons.1 hg with rfl | hg
        · exact absurd (List.mem_map.2 ⟨f, hm', hk.trans e⟩) hn.1
        · exact ih hn.2 hm' hg

/-- Reading an object succeeds when every member has a value its field takes. -/
theorem members_isSome {σ : Type} {fs : JFields σ} (hn : (fs.map fun f => fold f.1).Nodup) {T : String → Json → Prop} (hT : ∀ f ∈ fs, ∀ s j, (f.2 s j).isSome = true ↔ T f.1 j) :
    ∀ (ms : List (String × Json)) (s : σ), (jsonMembers fold fs ms s).isSome = true ↔ ∀ f ∈ fs, ∀ j ∈ valuesOf fold f.1 ms, T f.1 j
  | [], s => by simp [jsonMembers, valuesOf]
  | (k, j) :: ms, s => by
    rw [jsonMembers]
    rcases field_cases hn k with ⟨h1, h2⟩ | ⟨f, hf, h1, h2, h3⟩
    · rw [h1]
      refine (members_isSome hn hT ms s).trans ⟨fun h f hf => ?_, fun h f hf => ?_⟩
      · rw [valuesOf_miss (h2 f hf)]; exact h f hf
      · rw [← valuesOf_miss (j := j) (h2 f hf)]; exact h f hf
    · rw [h1]
      constructor
      · intro h g hg
        cases hs : f.2 s j with
        | none => simp [hs] at h
        | some s' =>
          simp only [hs, Option.bind_some] at h
          have ih := (members_isSome hn hT ms s').1 h g hg
          by_cases e : fold k = fold g.1
          · rw [valuesOf_hit e]
            intro x hx
            rcases List.mem_cons.1 hx with rfl | hx
            · have : g.1 = f.1 := by
                by_cases e' : g = f
                · rw [e']
                · exact absurd e (h3 g hg e')
              rw [this]
              exact (hT f hf s x).1 (by rw [hs]; rfl)
            · exact ih x hx
          · rw [valuesOf_miss e]; exact ih
      · intro h
        have := h f hf
        rw [valuesOf_hit h2] at this
        obtain ⟨s', hs⟩ := Option.isSome_iff_exists.1 ((hT f hf s j).2 (this j (List.mem_cons_self ..)))
        simp only [hs, Option.bind_some]
        refine (members_isSome hn hT ms s').2 fun g hg x hx => h g hg x ?_
        by_cases e : fold k = fold g.1
        · rw [valuesOf_hit e]; exact List.mem_cons_of_mem _ hx
        · rw [valuesOf_miss e]; exact hx

/-- What a setting is after an object was read: what its members made of it, one after the other. -/
theorem members_value {σ α : Type} {fs : JFields σ} (hn : (fs.map fun f => fold f.1).Nodup) {n : String} {g : σ → α} {upd : α → Json → α}
    (hown : ∀ f ∈ fs, f.1 = n → ∀ s j s', f.2 s j = some s' → g s' = upd (g s) j) (hmem : n ∈ fs.map Prod.fst)
    (hother : ∀ f ∈ fs, f.1 ≠ n → ∀ s j s', f.2 s j = some s' → g s' = g s) :
    ∀ (ms : List (String × Json)) (s s' : σ), jsonMembers fold fs ms s = some s' → g s' = (valuesOf fold n ms).foldl upd (g s)
  | [], s, s', h => by cases h; rfl
  | (k, j) :: ms, s, s', h => by
    rw [jsonMembers] at h
    obtain ⟨f0, hf0, rfl⟩ := List.mem_map.1 hmem
    rcases field_cases hn k with ⟨h1, h2⟩ | ⟨f, hf, h1, h2, h3⟩
    · rw [h1] at h
      rw [valuesOf_miss (h2 f0 hf0)]
      exact members_value hn hown hmem hother ms s s' h
    · rw [h1] at h
      cases hs : f.2 s j with
      | none => simp [hs] at h
      | some s1 =>
        simp only [hs, Option.bind_some] at h
        have ih := members_value hn hown hmem hother ms s1 s' h
        by_cases e : f.1 = f0.1
        · rw [valuesOf_hit (by rw [h2, e])]
          rw [ih, hown f hf e s j s1 hs]; rfl
        · rw [valuesOf_miss (h3 f0 hf0 (fun x => e (by rw [x])))]
          rw [ih, hother f hf e s j s1 hs]

def updStr (old : String) : Json → String
  | .str s => s
  | _ => old

def updBool (old : Bool) : Json → Bool
  | .bool s => s
  | _ => old

theorem getLast_cons_getD {α : Type} (a old : α) (l : List α) : ((a :: l).getLast?).getD old = (l.getLast?).getD a := by
  cases l with
  | nil => rfl
  | cons b l => simp [List.getLast?_cons]

theorem updStr_all : ∀ (js : List Json) (old : String), js.foldl updStr old = ((js.filterMap fun | .str s => some s | _ => none).getLast?).getD old
  | [], _ => rfl
  | j :: js, old => by
    rw [List.foldl_cons, updStr_all js]
    cases j <;> simp [updStr, getLast_cons_getD]

theorem updBool_all : ∀ (js : List Json) (old : Bool), js.foldl updBool old = ((js.filterMap fun | .bool s => some s | _ => none).getLast?).getD old
  | [], _ => rfl
  | j :: js, old => by
    rw [List.foldl_cons, updBool_all js]
    cases j <;> simp [updBool, getLast_cons_getD]

theorem jsonString_some {old s : String} {j : Json} (h : jsonString old j = some s) : s = updStr old j := by
  cases j <;> first | cases h; rfl | cases h

theorem jsonBool_some {old s : Bool} {j : Json} (h : jsonBool old j = some s) : s = updBool old j := by
  cases j <;> first | cases h; rfl | cases h

theorem jsonString_isSome {old : String} {j : Json} : (jsonString old j).isSome = true ↔ Stringy j := by
  cases j <;> simp [jsonString, Stringy]

theorem jsonBool_isSome {old : Bool} {j : Json} : (jsonBool old j).isSome = true ↔ Booly j := by
  cases j <;> simp [jsonBool, Booly]

/-- What the TLS settings are after more members were read. -/
def tlsAfter (fold : String → String) (t : ToolTls) (ts : List (String × Json)) : ToolTls :=
  { ca := (valuesOf fold "ca" ts).foldl updStr t.ca, cert := (valuesOf fold "cert" ts).foldl updStr t.cert, key := (valuesOf fold "key" ts).foldl updStr t.key,
    verify := (valuesOf fold "verify" ts).foldl updBool t.verify }

theorem tlsAfter_append (t : ToolTls) (a b : List (String × Json)) : tlsAfter fold t (a ++ b) = tlsAfter fold (tlsAfter fold t a) b := by
  simp [tlsAfter, valuesOf_append, List.foldl_append]

def TlsTyped (fold : String → String) (ts : List (String × Json)) : Prop :=
  (∀ n ∈ ["ca", "cert", "key"], ∀ j ∈ valuesOf fold n ts, Stringy j) ∧ ∀ j ∈ valuesOf fold "verify" ts, Booly j

theorem tls_isSome (hf : TellsApart fold) (ts : List (String × Json)) (t : ToolTls) : (jsonMembers fold tlsFields ts t).isSome = true ↔ TlsTyped fold ts := by
  refine (members_isSome (fs := tlsFields) (T := fun n j => if n = "verify" then Booly j else Stringy j) hf.2 ?_ ts t).trans ?_
  · intro f hfm s j
    simp only [tlsFields, List.mem_cons, List.not_mem_nil, or_false] at hfm
    rcases hfm with rfl | rfl | rfl | rfl <;> simp [Option.isSome_map, jsonString_isSome, jsonBool_isSome]
  · simp [tlsFields, TlsTyped, and_assoc]

theorem tls_value (hf : TellsApart fold) {ts : List (String × Json)} {t t' : ToolTls} (h : jsonMembers fold tlsFields ts t = some t') : t' = tlsAfter fold t ts := by
  have hn : (tlsFields.map fun f => fold f.1).Nodup := hf.2
  have h1 : t'.ca = _ := members_value (n := "ca") (g := ToolTls.ca) (upd := updStr) hn ?_ (by simp [tlsFields]) ?_ ts t t' h
  have h2 : t'.cert = _ := members_value (n := "cert") (g := ToolTls.cert) (upd := updStr) hn ?_ (by simp [tlsFields]) ?_ ts t t' h
  have h3 : t'.key = _ := members_value (n := "key") (g := ToolTls.key) (upd := updStr) hn ?_ (by simp [tlsFields]) ?_ ts t t' h
  have h4 : t'.verify = _ := members_value (n := "verify") (g := ToolTls.verify) (upd := updBool) hn ?_ (by simp [tlsFields]) ?_ ts t t' h
  · cases t'; simp only at h1 h2 h3 h4; rw [h1, h2, h3, h4]; rfl
  all_goals
    intro f hfm hne s j s' hs
    simp only [tlsFields, List.mem_cons, List.not_mem_nil, or_false] at hfm
    rcases hfm with rfl | rfl | rfl | rfl
    all_goals first
      | (exfalso; revert hne; simp; done)
      | (exfalso; exact hne rfl)
      | (simp only [Option.map_eq_some_iff] at hs; obtain ⟨a, ha, rfl⟩ := hs
         first | exact jsonString_some ha | exact jsonBool_some ha | rfl)

/-- The settings after more members were read. -/
theorem connect_isSome (hf : TellsApart fold) (ms : List (String × Json)) (c : ConnectJSON) : (jsonMembers fold (connectFields fold) ms c).isSome = true ↔
    (∀ n ∈ ["scheme", "host", "port"], ∀ j ∈ valuesOf fold n ms, Stringy j) ∧ ∀ j ∈ valuesOf fold "tls" ms, j = .null ∨ ∃ ts, j = .obj ts ∧ TlsTyped fold ts := by
  refine (members_isSome (fs := connectFields fold) (T := fun n j => if n = "tls" then j = .null ∨ ∃ ts, j = .obj ts ∧ TlsTyped fold ts else Stringy j) hf.1 ?_ ms c).trans ?_
  · intro f hfm s j
    simp only [connectFields, List.mem_cons, List.not_mem_nil, or_false] at hfm
    rcases hfm with rfl | rfl | rfl | rfl
    · simp [Option.isSome_map, jsonString_isSome]
    · simp [Option.isSome_map, jsonString_isSome]
    · simp [Option.isSome_map, jsonString_isSome]
    · simp only [Option.isSome_map, if_true]
      cases j <;> simp [jsonStruct, tls_isSome hf]
  · simp [connectFields, and_assoc]

def updTls (fold : String → String) (t : ToolTls) : Json → ToolTls
  | .obj ts => tlsAfter fold t ts
  | _ => t

theorem updTls_all : ∀ (js : List Json) (t : ToolTls), js.foldl (updTls fold) t = tlsAfter fold t (allMembers js)
  | [], t => rfl
  | j :: js, t => by
    rw [List.foldl_cons, updTls_all js]
    cases j <;> simp [updTls, allMembers, tlsAfter_append]

theorem connect_value (hf : TellsApart fold) {ms : List (String × Json)} {c c' : ConnectJSON} (h : jsonMembers fold (connectFields fold) ms c = some c') :
    c' = { scheme := (valuesOf fold "scheme" ms).foldl updStr c.scheme, host := (valuesOf fold "host" ms).foldl updStr c.host, port := (valuesOf fold "port" ms).foldl updStr c.port,
           tls := tlsAfter fold c.tls (allMembers (valuesOf fold "tls" ms)) } := by
  have hn : ((connectFields fold).map fun f => fold f.1).Nodup := hf.1
  have h1 : c'.scheme = _ := members_value (n := "scheme") (g := ConnectJSON.scheme) (upd := updStr) hn ?_ (by simp [connectFields]) ?_ ms c c' h
  have h2 : c'.host = _ := members_value (n := "host") (g := ConnectJSON.host) (upd := updStr) hn ?_ (by simp [connectFields]) ?_ ms c c' h
  have h3 : c'.port = _ := members_value (n := "port") (g := ConnectJSON.port) (upd := updStr) hn ?_ (by simp [connectFields]) ?_ ms c c' h
  have h4 : c'.tls = _ := members_value (n := "tls") (g := ConnectJSON.tls) (upd := updTls fold) hn ?_ (by simp [connectFields]) ?_ ms c c' h
  · rw [updTls_all] at h4
    cases c'; simp only at h1 h2 h3 h4; rw [h1, h2, h3, h4]
  all_goals
    intro f hfm hne s j s' hs
    simp only [connectFields, List.mem_cons, List.not_mem_nil, or_false] at hfm
    rcases hfm with rfl | rfl | rfl | rfl
    all_goals first
      | (exfalso; revert hne; simp; done)
      | (exfalso; exact hne rfl)
      | (simp only [Option.map_eq_some_iff] at hs; obtain ⟨a, ha, rfl⟩ := hs
         first
         | exact jsonString_some ha
         | rfl
         | (cases j <;> simp only [jsonStruct, Option.some.injEq, reduceCtorEq] at ha
            · exact ha.symm
            · exact tls_value hf ha))

/-- **C116.** The tool reads a connect.json exactly as JSON and its settings say: the text is one JSON value, null or an object; every setting has a value of its kind or null; of several values of a
setting, whatever the case of its name, the last counts, and several `tls` objects are read as one; everything else is ignored.  Any other text ends the tool. -/
theorem C116_reads (hf : TellsApart fold) (text : String) (c : ConnectJSON) : connectText fold text = some c ↔ ConnectDoc fold text c := by
  have obj : ∀ (ms : List (String × Json)) (c : ConnectJSON), jsonMembers fold (connectFields fold) ms {} = some c ↔ WellTyped fold ms ∧ c = settingsOf fold ms := by
    intro ms c
    have hvals : ∀ {js : List Json} {n : String} {P : Json → Prop}, (∀ j ∈ valuesOf fold n (allMembers js), P j) ↔ ∀ j ∈ js, ∀ ts, j = .obj ts → ∀ x ∈ valuesOf fold n ts, P x := by
      intro js n P
      induction js with
      | nil => simp [allMembers, valuesOf]
      | cons j js ih =>
        have : allMembers (j :: js) = (match j with | .obj ms => ms | _ => []) ++ allMembers js := rfl
        rw [this, valuesOf_append]
        constructor
        · intro h x hx ts e y hy
          rcases List.mem_cons.1 hx with rfl | hx
          · subst e; exact h y (List.mem_append_left _ hy)
          · exact ih.1 (fun y hy => h y (List.mem_append_right _ hy)) x hx ts e y hy
        · intro h y hy
          rcases List.mem_append.1 hy with hy | hy
          · cases j with
            | obj ts => exact h _ (List.mem_cons_self ..) ts rfl y hy
            | _ => simp [valuesOf] at hy
          · exact ih.2 (fun x hx => h x (List.mem_cons_of_mem _ hx)) y hy
    have htyped : WellTyped fold ms ↔ (jsonMembers fold (connectFields fold) ms {}).isSome = true := by
      rw [connect_isSome hf]
      constructor
      · intro h
        refine ⟨h.strings, fun j hj => ?_⟩
        rcases h.tls j hj with rfl | ⟨ts, rfl⟩
        · exact .inl rfl
        · exact .inr ⟨ts, rfl, fun n hn => hvals.1 (h.tlsStrings n hn) _ hj ts rfl, hvals.1 h.verify _ hj ts rfl⟩
      · rintro ⟨h1, h2⟩
        have both : ∀ j ∈ valuesOf fold "tls" ms, ∀ ts, j = .obj ts → TlsTyped fold ts := by
          intro j hj ts e
          rcases h2 j hj with rfl | ⟨ts', rfl, h⟩
          · cases e
          · cases e; exact h
        refine ⟨h1, fun j hj => ?_, fun n hn => hvals.2 fun j hj ts e => (both j hj ts e).1 n hn, hvals.2 fun j hj ts e => (both j hj ts e).2⟩
        rcases h2 j hj with h | ⟨ts, h, _⟩
        · exact .inl h
        · exact .inr ⟨ts, h⟩
    have hset : ∀ {c : ConnectJSON}, jsonMembers fold (connectFields fold) ms {} = some c → c = settingsOf fold ms := by
      intro c h
      rw [connect_value hf h]
      simp only [settingsOf, tlsAfter, updStr_all, updBool_all, lastString, lastBool]
      rfl
    constructor
    · intro h
      exact ⟨htyped.2 (by rw [h]; rfl), hset h⟩
    · rintro ⟨h, rfl⟩
      obtain ⟨c, hc⟩ := Option.isSome_iff_exists.1 (htyped.1 h)
      rw [hc, hset hc]
  unfold connectText ConnectDoc
  constructor
  · intro h
    cases hj : unmarshalText text.toList with
    | none => simp [hj] at h
    | some j =>
      rw [hj, Option.bind_some] at h
      have hd := (C112_reads _ _).1 hj
      cases j with
      | null => cases h; exact .inl ⟨hd, rfl⟩
      | obj ms => exact .inr ⟨ms, hd, (obj ms c).1 h⟩
      | _ => cases h
  · rintro (⟨hd, rfl⟩ | ⟨ms, hd, h⟩)
    · rw [(C112_reads _ _).2 hd]; rfl
    · rw [(C112_reads _ _).2 hd]; exact (obj ms c).2 h

/-- **C116.** With `-messaging-config` and a file that can be read, the tool goes on only if the text is a connect.json. -/
theorem C116_refused (hf : TellsApart fold) {fs : ToolFiles} (hfs : fs.connect = connectText fold) {fl : ToolFlags} (hm : fl.messagingConfig ≠ "") {text : String}
    (hr : fs.read fl.messagingConfig = some text) (hn : ∀ c, ¬ ConnectDoc fold text c) : toolConn fs fl = none := by
  have : fs.connect text = none := by
    cases h : fs.connect text with
    | none => rfl
    | some c => rw [hfs] at h; exact absurd ((C116_reads hf text c).1 h) (hn c)
  simp [toolConn, toolMessaging, hm, hr, this]

/-- **C116, the part that holds.** The tool connects to the scheme, host and port of the file.  If the file names a CA, and the flags no certificate, there is a TLS configuration; the server is checked
exactly when the file says so, then against that CA.  Missing: that what the file says of TLS counts without a CA (false, `C116_counterexample`). -/
theorem C116_settings_partial (hf : TellsApart fold) {fs : ToolFiles} (hfs : fs.connect = connectText fold) {fl : ToolFlags} (hm : fl.messagingConfig ≠ "") {text : String}
    (hr : fs.read fl.messagingConfig = some text) {ms : List (String × Json)} (hd : JsonDoc text.toList (.obj ms)) {r : ToolConn} (h : toolConn fs fl = some r) :
    r.url = lastString (valuesOf fold "scheme" ms) ++ "://" ++ lastString (valuesOf fold "host" ms) ++ ":" ++ lastString (valuesOf fold "port" ms) ∧
    (fl.cert = "" →
      let ts := allMembers (valuesOf fold "tls" ms)
      (lastString (valuesOf fold "ca" ts) = "" → r.tls = none) ∧
      (lastString (valuesOf fold "ca" ts) ≠ "" → ∃ c, r.tls = some c ∧ (c.insecureSkipVerify = true ↔ lastBool (valuesOf fold "verify" ts) = false) ∧
        (lastBool (valuesOf fold "verify" ts) = true → ∃ ca, fs.read (lastString (valuesOf fold "ca" ts)) = some ca ∧ c.rootCAs = some ca) ∧
        ∀ x ∈ c.certificates, fs.keyPair (lastString (valuesOf fold "cert" ts)) (lastString (valuesOf fold "key" ts)) = some x)) := by
  obtain ⟨cfg, hc⟩ : ∃ cfg, fs.connect text = some cfg := by
    cases hc : fs.connect text with
    | none => simp [toolConn, toolMessaging, hm, hr, hc] at h
    | some cfg => exact ⟨cfg, rfl⟩
  have hcfg : cfg = settingsOf fold ms := by
    rw [hfs] at hc
    rcases (C116_reads hf text cfg).1 hc with ⟨h1, _⟩ | ⟨ms', h1, _, h3⟩
    · cases C112_unique hd h1
    · cases C112_unique hd h1; exact h3
  have hurl : r.url = cfg.scheme ++ "://" ++ cfg.host ++ ":" ++ cfg.port := by
    simp only [toolConn, toolMessaging, hm, hr, hc, ne_eq, not_false_eq_true, if_true, Option.bind_some] at h
    rw [Option.bind_eq_some_iff] at h
    obtain ⟨x, h1, h2⟩ := h
    rw [Option.map_eq_some_iff] at h2
    obtain ⟨t, _, rfl⟩ := h2
    show x.1 = _
    split at h1
    · rw [Option.map_eq_some_iff] at h1
      obtain ⟨t, _, rfl⟩ := h1
      rfl
    · cases h1; rfl
  refine ⟨by rw [hurl, hcfg]; rfl, fun hcert => ?_⟩
  have hin : settingsInForce fs fl = if cfg.tls.ca = "" then none else some cfg.tls := by
    simp [settingsInForce, hcert, hm, hr, hc]
  have hv := toolConn_settings h
  have hca : cfg.tls.ca = lastString (valuesOf fold "ca" (allMembers (valuesOf fold "tls" ms))) := by rw [hcfg]; rfl
  have hve : cfg.tls.verify = lastBool (valuesOf fold "verify" (allMembers (valuesOf fold "tls" ms))) := by rw [hcfg]; rfl
  refine ⟨fun h0 => ?_, fun h0 => ?_⟩
  · rw [hin, hca, if_pos h0] at hv; exact hv
  · have hin' : settingsInForce fs fl = some cfg.tls := by rw [hin, hca, if_neg h0]
    rw [hin'] at hv
    obtain ⟨c, h2, h1⟩ := hv
    obtain ⟨p1, p2, -, p4⟩ := parse_verify h2
    refine ⟨c, h1, ⟨fun hx => ?_, fun hx => p2 (hve.trans hx)⟩, fun hx => ?_, fun x hx => ?_⟩
    · rw [← hve]
      cases hv : cfg.tls.verify with
      | false => rfl
      | true => rw [(p1 hv).1] at hx; cases hx
    · obtain ⟨_, ca, q1, q2⟩ := p1 (hve.trans hx)
      exact ⟨ca, by rw [← hca]; exact q1, q2⟩
    · have := p4 x hx
      rw [hcfg] at this; exact this

/-- Lower case, as far as the names of the settings go. -/
def asciiFold (s : String) : String := String.ofList (s.toList.map Char.toLower)

theorem asciiFold_tells : TellsApart asciiFold := by unfold TellsApart; decide +kernel

def exConnect : String := "{\"scheme\": \"amqps\", \"host\": \"router\", \"port\": \"5671\",\n \"tls\": {\"CA\": \"ca.crt\", \"cert\": \"tls.crt\", \"key\": \"tls.key\", \"verify\": true}, \"v\": [1, 2.5]}"

/-- Instance of `C116_reads`. -/
theorem C116_example : connectText asciiFold exConnect =
    some { scheme := "amqps", host := "router", port := "5671", tls := { ca := "ca.crt", cert := "tls.crt", key := "tls.key", verify := true } } := by
  decide +kernel

/-- Of two values the last counts, null does not, and two `tls` objects are one. -/
theorem C116_example_twice : connectText asciiFold "{\"tls\":{\"ca\":\"a\",\"verify\":true},\"tls\":{\"ca\":\"b\",\"verify\":null}}" = some { tls := { ca := "b", verify := true } } := by
  decide +kernel

/-- Texts the tool refuses: a wrong kind of value, a missing brace, something after the value. -/
theorem C116_example_refused : connectText asciiFold "{\"port\":5671}" = none ∧ connectText asciiFold "{\"tls\":{\"verify\":\"true\"}}" = none ∧ connectText asciiFold "{\"host\":\"h\"" = none ∧
    connectText asciiFold "{} {}" = none := by
  decide +kernel

/-- C116 is false: a file that names a certificate, a key and asks for the check, but no CA, gives no TLS configuration at all: the certificate is not used. -/
theorem C116_counterexample : ∃ (fs : ToolFiles) (text : String), fs.connect = connectText asciiFold ∧ fs.read "connect.json" = some text ∧ fs.keyPair "tls.crt" "tls.key" = some 1 ∧
    ConnectDoc asciiFold text { scheme := "amqps", host := "router", port := "5671", tls := { cert := "tls.crt", key := "tls.key", verify := true } } ∧
    toolConn fs { messagingConfig := "connect.json" } = some { url := "amqps://router:5671", tls := none, external := false } := by
  let text := "{\"scheme\":\"amqps\",\"host\":\"router\",\"port\":\"5671\",\"tls\":{\"cert\":\"tls.crt\",\"key\":\"tls.key\",\"verify\":true}}"
  refine ⟨{ read := fun n => if n = "connect.json" then some text else none, stat := fun n => n = "tls.crt" ∨ n = "tls.key",
            keyPair := fun c k => if c = "tls.crt" ∧ k = "tls.key" then some 1 else none, connect := connectText asciiFold }, text, rfl, by decide, by decide, ?_, by decide +kernel⟩
  exact (C116_reads asciiFold_tells _ _).1 (by decide +kernel)

/-- And a file without any settings is not refused: the tool goes on with the URL "://:". -/
theorem C116_empty (fs : ToolFiles) (hfs : fs.connect = connectText fold) (hr : fs.read "connect.json" = some "{}") :
    toolConn fs { messagingConfig := "connect.json" } = some { url := "://:", tls := none, external := false } := by
  have h : fs.connect "{}" = some {} := by
    rw [hfs]
    unfold connectText
    have : unmarshalText "{}".toList = some (.obj []) := by rw [C112_reads]; exact ⟨[], _, [], by simp [Spaces], .obj0 (a := []) (by simp [Spaces]), by simp [Spaces], rfl⟩
    rw [this]; rfl
  simp [toolConn, toolMessaging, hr, h]

end Verif.Props
