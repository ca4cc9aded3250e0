import Verif.Proofs.JsonText
import Verif.Spec.JsonText
import Verif.Props.Capture

/-!
# C112: the text of requests and answers
-/
namespace Verif.Props
open Verif Verif.Model Verif.Spec Verif.Proofs

/-! ## Reading -/

theorem decodeFirst_text {a t r : List Char} {j : Json} (ha : Spaces a) (h : ValText t j) (hr : IsNumber j → NumEnd r) : decodeFirst (a ++ (t ++ r)) = some (j, r) := by
  have hs : skipSpace (a ++ (t ++ r)) = t ++ r := by
    obtain ⟨c, t', rfl, h1, _⟩ := valText_first h
    exact skipSpace_append ha (noSpace_cons h1)
  rw [decodeFirst, hs]
  exact (read_complete _).1 t r j h (by simp; omega) hr

/-- C112: `json.Unmarshal` accepts a text if and only if it is a JSON text (RFC 8259), and gives the value the text stands for. -/
theorem C112_reads (cs : List Char) (j : Json) : unmarshalText cs = some j ↔ JsonDoc cs j := by
  constructor
  · intro h
    unfold unmarshalText at h
    split at h
    · rename_i j' r hd
      split at h
      · rename_i hr
        injection h with h
        subst h
        unfold decodeFirst at hd
        obtain ⟨a, ha, hcs, _⟩ := skipSpace_sound cs
        obtain ⟨t, h1, h2⟩ := (read_sound _).1 _ _ _ hd
        exact ⟨a, t, r, ha, h1, skipSpace_nil.1 hr, by rw [← h2]; exact hcs⟩
      · cases h
    · cases h
  · rintro ⟨a, t, b, ha, h, hb, rfl⟩
    rw [unmarshalText, decodeFirst_text ha h fun _ => numEnd_only_spaces hb]
    simp [skipSpace_nil.2 hb]

/-- C112: a text stands for one value at most. -/
theorem C112_unique {cs : List Char} {j j' : Json} (h : JsonDoc cs j) (h' : JsonDoc cs j') : j = j' := by
  have h1 := (C112_reads cs j).2 h
  have h2 := (C112_reads cs j').2 h'
  rw [h1] at h2
  injection h2

/-- C112: `Decoder.Decode` takes one value from the front and leaves the rest; a number must not go on after its end. -/
theorem C112_first {a t r : List Char} {j : Json} (ha : Spaces a) (h : ValText t j) (hr : ∀ c s, r = c :: s → GoesOn c → (∀ n, j ≠ .num n) ∧ j ≠ .other) :
    decodeFirst (a ++ (t ++ r)) = some (j, r) := by
  refine decodeFirst_text ha h fun hn c s e => ?_
  have hg : ¬ GoesOn c := by
    intro hg
    obtain ⟨h1, h2⟩ := hr c s e hg
    cases j with
    | num n => exact h1 n rfl
    | other => exact h2 rfl
    | _ => exact hn
  unfold GoesOn at hg
  simp only [not_or] at hg
  refine ⟨?_, hg.2⟩
  rw [Bool.eq_false_iff]
  intro hd
  exact hg.1 (isDigit_iff.1 hd)

/-- C112: what `Decoder.Decode` takes is a value at the front of the text. -/
theorem C112_first_sound {cs r : List Char} {j : Json} (h : decodeFirst cs = some (j, r)) : ∃ a t, Spaces a ∧ ValText t j ∧ cs = a ++ (t ++ r) := by
  obtain ⟨a, ha, hcs, _⟩ := skipSpace_sound cs
  obtain ⟨t, h1, h2⟩ := (read_sound _).1 _ _ _ h
  exact ⟨a, t, ha, h1, by rw [← h2]; exact hcs⟩

/-! ## Writing -/

theorem writeJson_doc {j : Json} (h : IntegersOnly j) : JsonDoc (writeJson j) j := ⟨[], _, [], spaces_nil, write_val j h, spaces_nil, by simp⟩

/-- C112: what is written is a JSON text and stands for the value written. -/
theorem C112_written {j : Json} (h : IntegersOnly j) : JsonDoc (encodeText j) j ∧ unmarshalText (encodeText j) = some j := by
  have : JsonDoc (encodeText j) j := ⟨[], _, ['\n'], spaces_nil, write_val j h, by intro c hc; simp at hc; simp [hc], by simp [encodeText]⟩
  exact ⟨this, (C112_reads _ _).2 this⟩

/-- C112: two values with one text are one. -/
theorem C112_injective {j j' : Json} (h : IntegersOnly j) (h' : IntegersOnly j') (he : encodeText j = encodeText j') : j = j' :=
  C112_unique (C112_written h).1 (by rw [he]; exact (C112_written h').1)

/-- C112: no control characters are written, and no characters that mean something in HTML. -/
theorem C112_safe (j : Json) : ∀ c ∈ writeJson j, SafeChar c := write_big j

theorem escape_length (c : Char) : 1 ≤ (escapeChar c).length := by
  unfold escapeChar escapeUnit
  repeat' split
  all_goals simp

theorem escape_plain {c : Char} : escapeChar c = [c] ↔ SafeChar c ∧ c ≠ '"' ∧ c ≠ '\\' := by
  have hn : ∀ d : Char, d.toNat < 32 → SafeChar c → c ≠ d := fun d hd h e => by have := h.1; subst e; omega
  constructor
  · intro h
    unfold escapeChar escapeUnit at h
    (repeat' split at h) <;> simp at h
    rename_i h1 h2 h3 h4 h5 h6
    simp only [not_or, Nat.not_lt] at h6
    exact ⟨h6, h1, h2⟩
  · intro ⟨h, h1, h2⟩
    have h3 := hn '\n' (by decide) h
    have h4 := hn '\r' (by decide) h
    have h5 := hn '\t' (by decide) h
    obtain ⟨h6, h7⟩ := h
    unfold escapeChar
    rw [if_neg h1, if_neg h2, if_neg h3, if_neg h4, if_neg h5, if_neg (by simp only [not_or, Nat.not_lt]; exact ⟨h6, h7⟩)]

/-- C112: exactly the strings without such characters, quotes and backslashes are written as they are. -/
theorem C112_plain (s : String) : writeJson (.str s) = '"' :: (s.toList ++ ['"']) ↔ ∀ c ∈ s.toList, SafeChar c ∧ c ≠ '"' ∧ c ≠ '\\' := by
  simp only [writeJson, writeString, List.cons.injEq, true_and, List.append_cancel_right_eq]
  have len : ∀ l : List Char, l.length ≤ (l.flatMap escapeChar).length := by
    intro l
    induction l with
    | nil => simp
    | cons c l ih => have := escape_length c; simp only [List.flatMap_cons, List.length_append, List.length_cons]; omega
  induction s.toList with
  | nil => simp
  | cons c l ih =>
    simp only [List.flatMap_cons, List.forall_mem_cons]
    refine Iff.trans ?_ (and_congr escape_plain ih)
    constructor
    · intro h
      have h1 := congrArg List.length h
      have h2 := escape_length c
      have h3 := len l
      simp only [List.length_append, List.length_cons] at h1
      have h4 : (escapeChar c).length = 1 := by omega
      obtain ⟨d, hd⟩ := List.length_eq_one_iff.1 h4
      rw [hd] at h ⊢
      simp at h
      exact ⟨by rw [h.1], h.2⟩
    · intro ⟨h1, h2⟩
      rw [h1, h2]
      rfl

/-- C112: values written one after another are the lines of the text, each a JSON text of its value. -/
theorem C112_lines : ∀ (js : List Json), (∀ j ∈ js, IntegersOnly j) → IsLines (js.flatMap encodeText) (js.map writeJson) ∧ Pointwise JsonDoc (js.map writeJson) js
  | [], _ => ⟨rfl, trivial⟩
  | j :: js, h => by
    obtain ⟨h1, h2⟩ := C112_lines js fun x hx => h x (List.mem_cons_of_mem _ hx)
    refine ⟨⟨?_, js.flatMap encodeText, by simp [encodeText], h1⟩, writeJson_doc (h j (List.mem_cons_self ..)), h2⟩
    intro hn
    have := (C112_safe j _ hn).1
    revert this
    decide

/-- C112: and a decoder takes them one after the other. -/
theorem C112_stream {j : Json} (h : IntegersOnly j) {a : List Char} (ha : Spaces a) (r : List Char) : decodeFirst (a ++ (encodeText j ++ r)) = some (j, '\n' :: r) := by
  rw [show encodeText j ++ r = writeJson j ++ '\n' :: r by simp [encodeText]]
  exact decodeFirst_text ha (write_val j h) fun _ => numEnd_cons (by decide)

/-! ## Answers uploaded as requests -/

theorem integers_val : ∀ {v : FVal GoTime} {j : Json}, jsonOfVal v = some j → IntegersOnly j
  | .str _, _, h => by simp only [jsonOfVal, Option.some.injEq] at h; subst h; exact .str _
  | .u32 _, _, h => by simp only [jsonOfVal, Option.some.injEq] at h; subst h; exact .num _
  | .u64 _, _, h => by simp only [jsonOfVal, Option.some.injEq] at h; subst h; exact .num _
  | .i32 _, _, h => by simp only [jsonOfVal, Option.some.injEq] at h; subst h; exact .num _
  | .i64 _, _, h => by simp only [jsonOfVal, Option.some.injEq] at h; subst h; exact .num _
  | .custom t, _, h => by
    simp only [jsonOfVal, Option.map_eq_some_iff] at h
    obtain ⟨s, _, rfl⟩ := h
    exact .str _
  | .nilp, _, h => by simp only [jsonOfVal, Option.some.injEq] at h; subst h; exact .null
  | .ptr v, _, h => integers_val (v := v) h
  | .opaque, _, h => by simp [jsonOfVal] at h

theorem integers_members : ∀ {l : List (String × Option Json)} {ms : List (String × Json)}, jsonMembersOf l = some ms → (∀ m ∈ l, ∀ j, m.2 = some j → IntegersOnly j) → ∀ m ∈ ms, IntegersOnly m.2
  | [], _, h, _ => by simp only [jsonMembersOf, Option.some.injEq] at h; subst h; intro m hm; cases hm
  | (k, v) :: l, _, h, hl => by
    cases v with
    | none => simp [jsonMembersOf] at h
    | some j =>
      simp only [jsonMembersOf, Option.bind_some, Option.map_eq_some_iff] at h
      obtain ⟨ms', h1, rfl⟩ := h
      intro m hm
      rcases List.mem_cons.1 hm with rfl | hm
      · exact hl (k, some j) (List.mem_cons_self ..) j rfl
      · exact integers_members h1 (fun m hm => hl m (List.mem_cons_of_mem _ hm)) m hm

theorem integers_record {r : GoRec GoTime} {j : Json} (h : jsonOfRecord r = some j) : IntegersOnly j := by
  have key : ∀ rv : RecVal GoTime, ((declsOf rv.tname).bind fun ds => jsonOfStruct ds rv.mem) = some j → IntegersOnly j := by
    intro rv h
    rw [Option.bind_eq_some_iff] at h
    obtain ⟨ds, _, h⟩ := h
    rw [jsonOfStruct, Option.map_eq_some_iff] at h
    obtain ⟨ms, h1, rfl⟩ := h
    refine .obj (integers_members h1 ?_)
    intro m hm j' hj
    rw [List.mem_map] at hm
    obtain ⟨f, _, rfl⟩ := hm
    exact integers_val hj
  cases r with
  | value rv => exact key rv h
  | pointer rv => exact key rv h
  | nil => simp only [jsonOfRecord, Option.some.injEq] at h; subst h; exact .null
  | nilPointer => simp only [jsonOfRecord, Option.some.injEq] at h; subst h; exact .null

theorem integers_strs {l : List (String × Json)} (h : ∀ m ∈ l, ∃ s, m.2 = .str s) : IntegersOnly (.obj l) :=
  .obj fun m hm => by obtain ⟨s, hs⟩ := h m hm; rw [hs]; exact .str s

theorem integers_entry {e : Entry (GoRec GoTime)} {j : Json} (h : jsonOfEntry e = some j) : IntegersOnly j := by
  rw [jsonOfEntry, Option.map_eq_some_iff] at h
  obtain ⟨ms, h1, rfl⟩ := h
  refine .obj (integers_members h1 ?_)
  intro m hm j' hj
  simp only [List.mem_cons, List.not_mem_nil, or_false] at hm
  rcases hm with rfl | rfl | rfl
  · simp only [jsonOfMetadata, Option.map_eq_some_iff] at hj
    obtain ⟨ms', h2, rfl⟩ := hj
    refine .obj (integers_members h2 ?_)
    intro m hm j'' hj
    simp only [List.mem_cons, List.not_mem_nil, or_false] at hm
    rcases hm with rfl | rfl | rfl
    · injection hj with hj
      subst hj
      refine integers_strs ?_
      intro m hm
      simp only [List.mem_cons, List.not_mem_nil, or_false] at hm
      rcases hm with rfl | rfl | rfl <;> exact ⟨_, rfl⟩
    · simp only [Option.map_eq_some_iff] at hj
      obtain ⟨s, _, rfl⟩ := hj
      exact .str _
    · injection hj with hj
      subst hj
      unfold jsonOfMap
      split
      · exact .null
      · refine integers_strs ?_
        intro m hm
        rw [List.mem_map] at hm
        obtain ⟨p, _, rfl⟩ := hm
        exact ⟨_, rfl⟩
  · injection hj with hj
    subst hj
    refine integers_strs ?_
    intro m hm
    simp only [List.mem_cons, List.not_mem_nil, or_false] at hm
    rcases hm with rfl | rfl <;> exact ⟨_, rfl⟩
  · exact integers_record hj

theorem jsonAll_mem {A B : Type} {f : A → Option B} : ∀ {l : List A} {bs : List B}, jsonAll f l = some bs → ∀ b ∈ bs, ∃ a ∈ l, f a = some b
  | [], _, h, b, hb => by simp only [jsonAll, Option.some.injEq] at h; subst h; cases hb
  | a :: l, _, h, b, hb => by
    simp only [jsonAll, Option.bind_eq_some_iff, Option.map_eq_some_iff] at h
    obtain ⟨b', h1, bs', h2, rfl⟩ := h
    rcases List.mem_cons.1 hb with rfl | hb
    · exact ⟨a, List.mem_cons_self .., h1⟩
    · obtain ⟨a', ha, h3⟩ := jsonAll_mem h2 b hb
      exact ⟨a', List.mem_cons_of_mem _ ha, h3⟩

theorem integers_answer {es : List (Entry (GoRec GoTime))} {refs : List String} {j : Json} (h : jsonOfAnswer es refs = some j) : IntegersOnly j := by
  rw [jsonOfAnswer, Option.map_eq_some_iff] at h
  obtain ⟨l, h1, rfl⟩ := h
  refine .obj fun m hm => ?_
  rcases List.mem_cons.1 hm with rfl | hm
  · refine .arr fun x hx => ?_
    obtain ⟨e, _, he⟩ := jsonAll_mem h1 x hx
    exact integers_entry he
  · split at hm
    · cases hm
    · rw [List.mem_singleton] at hm
      subst hm
      refine .arr fun x hx => ?_
      rw [List.mem_map] at hx
      obtain ⟨s, _, rfl⟩ := hx
      exact .str s

/-- The references do not matter to the upload. -/
theorem upload_answer {fold : String → String} (hf : fold "refs" ≠ fold "data") {es : List (Entry (GoRec GoTime))} {j : Json} (h : jsonOfResponse es = some j) (refs : List String) :
    ∃ j', jsonOfAnswer es refs = some j' ∧ ∀ flows logs, uploadJson fold flows logs j' = uploadJson fold flows logs j := by
  rw [jsonOfResponse, Option.map_eq_some_iff] at h
  obtain ⟨l, h1, rfl⟩ := h
  refine ⟨_, by rw [jsonOfAnswer, h1]; rfl, fun flows logs => ?_⟩
  have hn : jsonField fold (requestFields fold) "refs" = none := by
    have : ¬ fold "data" = fold "refs" := fun e => hf e.symm
    simp [jsonField, requestFields, this]
  have hj : ∀ rest : List (String × Json), (∀ m ∈ rest, m.1 = "refs") → ∀ s, jsonMembers fold (requestFields fold) rest s = some s := by
    intro rest
    induction rest with
    | nil => intro _ s; rfl
    | cons m rest ih =>
      intro hm s
      obtain ⟨k, v⟩ := m
      have : k = "refs" := hm _ (List.mem_cons_self ..)
      subst this
      rw [jsonMembers, hn]
      exact ih (fun m hm' => hm m (List.mem_cons_of_mem _ hm')) s
  have : jsonToRequest fold (.obj (("data", .arr l) :: if refs = [] then [] else [("refs", .arr (refs.map .str))])) = jsonToRequest fold (.obj [("data", .arr l)]) := by
    simp only [jsonToRequest, jsonStruct, jsonMembers]
    have hd : ∃ set, jsonField fold (requestFields fold) "data" = some set := ⟨_, by simp [jsonField, requestFields]; rfl⟩
    obtain ⟨set, hset⟩ := hd
    rw [hset]
    simp only []
    congr 1
    funext s
    rw [hj _ (by intro m hm; split at hm; · cases hm
                 · rw [List.mem_singleton] at hm; rw [hm]) s]
  simp only [uploadJson, this]

/-- **C112.** The text of an answer of the record server, with whatever references, uploaded to the fixture server: every source gets the entries the answer had for it, with all their fields
(as far as the fixture takes records of their type).  Conditions on the entries as in `C82_list`; names of members differ when their letters do. -/
theorem C112_upload {l : List (Entry (GoRec GoTime))} (h : ∀ e ∈ l, Captured e) (hd : DistinctRecords l) {fold : String → String} (hf : fold "refs" ≠ fold "data") (refs : List String)
    (flows logs : Bool) :
    ∃ j cfg, jsonOfAnswer l refs = some j ∧ JsonDoc (encodeText j) j ∧ uploadText fold flows logs (encodeText j) = some (.ok cfg) ∧ cfg.WF ∧ ∀ src,
      ((l.filter fun e => e.md.source = src ∧ configured flows logs e.typeMeta) = [] → cfg.get? src = none) ∧
      ((l.filter fun e => e.md.source = src ∧ configured flows logs e.typeMeta) ≠ [] → ∃ c es es', cfg.get? src = some c ∧ c.list none 0 = .ok { entries := es, cont := "" } ∧
        es.Perm es' ∧ Pointwise SameEntry (l.filter fun e => e.md.source = src ∧ configured flows logs e.typeMeta) es') := by
  obtain ⟨j, cfg, h1, h2, h3⟩ := C82_list h hd fold flows logs
  obtain ⟨j', g1, g2⟩ := upload_answer hf h1 refs
  have hi := integers_answer g1
  refine ⟨j', cfg, g1, (C112_written hi).1, ?_, h3⟩
  have := C112_stream hi spaces_nil []
  simp only [List.nil_append, List.append_nil] at this
  rw [uploadText, this]
  simp only [Option.bind_some]
  rw [g2, h2]

/-- **C112.** The same for what the record server answers after any events, from the text of the answer to the stores of the fixture server; conditions as in `C82_capture_partial`. -/
theorem C112_capture_partial {types : List String} {evs : List ServeEv} (hr : ∀ p ∈ receivedRecords evs, Received p.1 ∧ p.2.nsec < 1000000000) (hk : OneKindPerID evs) {a : HttpAnswer}
    (ha : serveRoot (Serve.run types evs).store "/" = .ok a) {l : List (Entry (GoRec GoTime))} (hl : a.body = some l) {fold : String → String} (hf : fold "refs" ≠ fold "data")
    (refs : List String) (flows logs : Bool) :
    ∃ j cfg, jsonOfAnswer l refs = some j ∧ JsonDoc (encodeText j) j ∧ uploadText fold flows logs (encodeText j) = some (.ok cfg) ∧ cfg.WF ∧ ∀ src,
      ((l.filter fun e => e.md.source = src ∧ configured flows logs e.typeMeta) = [] → cfg.get? src = none) ∧
      ((l.filter fun e => e.md.source = src ∧ configured flows logs e.typeMeta) ≠ [] → ∃ c es es', cfg.get? src = some c ∧ c.list none 0 = .ok { entries := es, cont := "" } ∧
        es.Perm es' ∧ Pointwise SameEntry (l.filter fun e => e.md.source = src ∧ configured flows logs e.typeMeta) es') := by
  obtain ⟨h1, h2⟩ := served_entries hr hk ha hl
  exact C112_upload h1 h2 hf refs flows logs

/-- **C112.** A body that does not start with a JSON value is refused, and nothing else is done. -/
theorem C112_refused {fold : String → String} {flows logs : Bool} {body : List Char} (h : ∀ a t r j, Spaces a → ValText t j → body ≠ a ++ (t ++ r)) : uploadText fold flows logs body = none := by
  unfold uploadText
  cases hd : decodeFirst body with
  | none => rfl
  | some x =>
    obtain ⟨a, t, h1, h2, h3⟩ := C112_first_sound (r := x.2) (j := x.1) (by rw [hd])
    exact absurd h3 (h a t x.2 x.1 h1 h2)

/-- **C112 (counterexample).** `Decode` takes the first value only: a body in which something else follows the value is not refused, whatever follows. -/
theorem C112_counterexample (fold : String → String) (flows logs : Bool) {t : List Char} {ms : List (String × Json)} (h : ValText t (.obj ms)) (r : List Char) :
    uploadText fold flows logs (t ++ r) = uploadText fold flows logs t := by
  have h1 := C112_first spaces_nil h (r := r) (fun c s _ _ => ⟨by intro n; simp, by simp⟩)
  have h2 := C112_first spaces_nil h (r := []) (fun c s e _ => by cases e)
  simp only [List.nil_append, List.append_nil] at h1 h2
  rw [uploadText, uploadText, h1, h2]
  rfl

/-! ## Examples -/

/-- A text with every kind of escape, white space, a pair and a half of a pair. -/
example : (unmarshalText " { \"a\\u00e9\\ud83d\\ude00\\n\\/\" : [ 1 , -20,true , null ], \"b\":\"\\ud800x\" }\n".toList).map writeJson =
    some (writeJson (.obj [("aé😀\n/", .arr [.num 1, .num (-20), .bool true, .null]), ("b", .str "�x")])) := by decide +kernel

/-- Not JSON: a zero in front, a number without digits, a comma too many, a string with a control character, an unknown escape, something behind. -/
example : (["01", "-", "1.", "1e", "[1,]", "{\"a\":1,}", "\"\n\"", "\"\\x\"", "{} {}", "", "nul", "[1 2]"].map fun s => (unmarshalText s.toList).isNone) = List.replicate 12 true := by decide +kernel

/-- Numbers that are not integers. -/
example : (["-0", "1.5", "1e3", "-2.50E-07"].map fun s => (unmarshalText s.toList).map writeJson) = List.replicate 4 (some []) := by decide +kernel

/-- Writing. -/
example : encodeText (.obj [("a<b", .arr [.num (-120), .str "x\"\\\n\x01é"]), ("c", .obj []), ("d", .arr [])]) = "{\"a\\u003cb\":[-120,\"x\\\"\\\\\\n\\u0001é\"],\"c\":{},\"d\":[]}\n".toList := by
  decide +kernel

example : IntegersOnly (.obj [("a<b", .arr [.num (-120), .str "x"])]) :=
  .obj (by intro m hm; simp at hm; subst hm; exact .arr (by intro j hj; simp at hj; rcases hj with rfl | rfl; exact .num _; exact .str _))

/-- The hypothesis on the names holds for upper case. -/
example : String.toUpper "refs" ≠ String.toUpper "data" := by decide +kernel

end Verif.Props
