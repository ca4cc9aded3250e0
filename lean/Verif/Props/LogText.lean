import Verif.Props.JsonText
import Verif.Props.LogOnly
import Verif.Spec.LogText

/-!
# C113: what the log mode prints
-/
namespace Verif.Props
open Verif Verif.Model Verif.Spec Verif.Proofs

/-- A record out of a message, with times that can be written. -/
theorem received_written {r : GoRec GoTime} (h : Received r) (hy : jsonRecordOk r = true) :
    ∃ j, jsonOfRecord r = some j ∧ ∃ (rv : RecVal GoTime) (ds : List FieldDecl), (r = .value rv ∨ r = .pointer rv) ∧ Declares rv.tname ds ∧
      ∀ fold, ∃ m', jsonUnmarshal fold rv.tname (some j) = some m' ∧ SameFields ds rv.mem m' := by
  obtain ⟨⟨rv, ds, c, h1, _, h2, h3⟩, hn⟩ := received_good h
  have hd := registered_declares h2
  have hyr := (lineRecordOk_iff r).1 hy
  have hw : ∀ t ∈ ([rv.mem [0, 1], rv.mem [0, 2]]).filterMap timeIn, ExactTime t := by
    intro t ht
    rw [List.mem_filterMap] at ht
    obtain ⟨v, hv, hvt⟩ := ht
    have hnv : NsecOK v := by
      have hall : ∀ p, NsecOK (rv.mem p) := by rcases h1 with h1 | h1 <;> rw [h1] at hn <;> exact hn
      simp only [List.mem_cons, List.not_mem_nil, or_false] at hv
      rcases hv with rfl | rfl <;> exact hall _
    have hvt' : v = .ptr (.custom t) := by
      unfold timeIn at hvt
      split at hvt
      · simpa using hvt
      · cases hvt
    refine ⟨?_, by subst hvt'; exact hnv⟩
    simp only [List.mem_cons, List.not_mem_nil, or_false] at hv
    exact hyr rv h1 t (by rcases hv with hv | hv <;> rw [← hv] <;> simp [hvt'])
  obtain ⟨j, g1, g2⟩ := C82_record hd h3 hw
  exact ⟨j, by rcases h1 with h1 | h1 <;> rw [h1] <;> exact g1, rv, ds, h1, hd, g2⟩

/-- A record out of a message, with a time that cannot be written. -/
theorem received_unwritten {r : GoRec GoTime} (h : Received r) (hy : jsonRecordOk r = false) : jsonOfRecord r = none := by
  obtain ⟨⟨rv, ds, c, h1, _, h2, h3⟩, hn⟩ := received_good h
  have hd := registered_declares h2
  have hyr : ¬ YearsOk r := fun hy' => by rw [(lineRecordOk_iff r).2 hy'] at hy; cases hy
  have : ∃ t ∈ ([rv.mem [0, 1], rv.mem [0, 2]]).filterMap timeIn, ¬ Writable t := by
    apply Classical.byContradiction
    intro hne
    apply hyr
    intro rv' hrv' t ht
    have e : rv' = rv := by
      rcases h1 with h1 | h1 <;> rw [h1] at hrv' <;> rcases hrv' with e | e <;> cases e <;> rfl
    subst e
    apply Classical.byContradiction
    intro hnt
    refine hne ⟨t, ?_, hnt⟩
    rw [List.mem_filterMap]
    rcases ht with ht | ht
    · exact ⟨_, List.mem_cons_self .., by rw [ht]; rfl⟩
    · exact ⟨_, List.mem_cons_of_mem _ (List.mem_cons_self ..), by rw [ht]; rfl⟩
  have := C82_record_unwritable hd this
  rcases h1 with h1 | h1 <;> rw [h1] <;> exact this

theorem recordData_written {x : String × GoRec GoTime} (h : Received x.2) (hy : jsonRecordOk x.2 = true) : ∃ j, jsonOfRecordData x = some j ∧ RecordShown x j := by
  obtain ⟨j, h1, rv, ds, h2, h3, h4⟩ := received_written h hy
  refine ⟨_, by simp only [jsonOfRecordData, h1, jsonMembersOf, Option.bind_some, Option.map_some]; rfl, _, j, rfl, rfl, rfl, rv, ds, h2, h3, h4⟩

theorem recordsData_written : ∀ {rs : List (String × GoRec GoTime)}, (∀ x ∈ rs, Received x.2 ∧ jsonRecordOk x.2 = true) →
    ∃ js, jsonAll jsonOfRecordData rs = some js ∧ js.length = rs.length ∧ ∀ (i : Nat) x y, rs[i]? = some x → js[i]? = some y → RecordShown x y
  | [], _ => ⟨[], rfl, rfl, by intro i x y h; simp at h⟩
  | r :: rs, h => by
    obtain ⟨j, h1, h2⟩ := recordData_written (h r (List.mem_cons_self ..)).1 (h r (List.mem_cons_self ..)).2
    obtain ⟨js, h3, h4, h5⟩ := recordsData_written fun x hx => h x (List.mem_cons_of_mem _ hx)
    refine ⟨j :: js, by simp [jsonAll, h1, h3], by simp [h4], ?_⟩
    intro i x y hx hy
    cases i with
    | zero => simp at hx hy; subst hx; subst hy; exact h2
    | succ i => exact h5 i x y (by simpa using hx) (by simpa using hy)

theorem recordsData_unwritten : ∀ {rs : List (String × GoRec GoTime)}, (∃ x ∈ rs, Received x.2 ∧ jsonRecordOk x.2 = false) → jsonAll jsonOfRecordData rs = none
  | [], ⟨x, hx, _⟩ => by cases hx
  | r :: rs, ⟨x, hx, h1, h2⟩ => by
    rcases List.mem_cons.1 hx with rfl | hx
    · simp [jsonAll, jsonOfRecordData, jsonMembersOf, received_unwritten h1 h2]
    · simp [jsonAll, recordsData_unwritten ⟨x, hx, h1, h2⟩]

/-- The records of a line are out of messages. -/
def LineReceived (l : Line) : Prop := ∀ rs, l.data = some rs → ∀ x ∈ rs, Received x.2

/-- What a line becomes, given the last member. -/
theorem line_members (l : Line) (d : List (String × Json)) (hd : d = [] ∨ ∃ x, d = [("data", x)]) :
    let ms := [("to", Json.str l.to), ("subject", .str l.subject)] ++ jsonOmitEmpty "v" l.v ++ jsonOmitEmpty "now" l.now ++ jsonOmitEmpty "id" l.id ++ d
    (ms.map Prod.fst).Nodup ∧ ms.lookup "to" = some (.str l.to) ∧ ms.lookup "subject" = some (.str l.subject) ∧ ShownUnlessEmpty ms "v" l.v ∧ ShownUnlessEmpty ms "now" l.now ∧
      ShownUnlessEmpty ms "id" l.id ∧ ms.lookup "data" = d.lookup "data" := by
  unfold ShownUnlessEmpty jsonOmitEmpty
  rcases hd with rfl | ⟨x, rfl⟩ <;>
  by_cases h1 : l.v = "" <;> by_cases h2 : l.now = "" <;> by_cases h3 : l.id = "" <;>
  simp [h1, h2, h3, List.lookup]

/-- C113: a line whose times can be written shows everything in it; one with a time that cannot be written has no text. -/
theorem C113_line {l : Line} (hr : LineReceived l) :
    (LineYearsOk l → ∃ j, jsonOfLine l = some j ∧ LineShown l j) ∧ (¬ LineYearsOk l → jsonOfLine l = none) := by
  constructor
  · intro hy
    have hok := (jsonLineOk_iff l).2 hy
    unfold jsonLineOk at hok
    unfold jsonOfLine
    cases hd : l.data with
    | none =>
      obtain ⟨h1, h2, h3, h4, h5, h6, h7⟩ := line_members l [] (.inl rfl)
      refine ⟨_, rfl, _, rfl, h1, h2, h3, h4, h5, h6, fun _ => h7, fun rs h => ?_⟩
      rw [hd] at h; cases h
    | some rs =>
      rw [hd] at hok
      simp only [List.all_eq_true] at hok
      obtain ⟨js, g1, g2, g3⟩ := recordsData_written fun x hx => ⟨hr rs hd x hx, hok x hx⟩
      obtain ⟨h1, h2, h3, h4, h5, h6, h7⟩ := line_members l [("data", .arr js)] (.inr ⟨_, rfl⟩)
      refine ⟨_, by simp only [g1, Option.map_some], _, rfl, h1, h2, h3, h4, h5, h6, fun h => ?_, fun rs' h => ?_⟩
      · rw [hd] at h; cases h
      · rw [hd] at h
        injection h with h
        subst h
        exact ⟨js, h7, g2, g3⟩
  · intro hy
    have hok : ¬ jsonLineOk l = true := fun h => hy ((jsonLineOk_iff l).1 h)
    unfold jsonLineOk at hok
    unfold jsonOfLine
    cases hd : l.data with
    | none => rw [hd] at hok; simp at hok
    | some rs =>
      rw [hd] at hok
      have : ∃ x ∈ rs, Received x.2 ∧ jsonRecordOk x.2 = false := by
        apply Classical.byContradiction
        intro hne
        apply hok
        rw [List.all_eq_true]
        intro x hx
        cases hb : jsonRecordOk x.2 with
        | true => rfl
        | false => exact absurd ⟨x, hx, hr rs hd x hx, hb⟩ hne
      simp [recordsData_unwritten this]

theorem integers_line {l : Line} {j : Json} (h : jsonOfLine l = some j) : IntegersOnly j := by
  unfold jsonOfLine at h
  rw [Option.map_eq_some_iff] at h
  obtain ⟨d, h1, rfl⟩ := h
  refine .obj fun m hm => ?_
  have hom : ∀ n s, m ∈ jsonOmitEmpty n s → IntegersOnly m.2 := by
    intro n s hm
    unfold jsonOmitEmpty at hm
    split at hm
    · cases hm
    · rw [List.mem_singleton] at hm; subst hm; exact .str _
  simp only [List.mem_append, List.mem_cons, List.not_mem_nil, or_false] at hm
  rcases hm with ((((rfl | rfl) | hm) | hm) | hm) | hm
  · exact .str _
  · exact .str _
  · exact hom _ _ hm
  · exact hom _ _ hm
  · exact hom _ _ hm
  · split at h1
    · injection h1 with h1; subst h1; cases hm
    · rw [Option.map_eq_some_iff] at h1
      obtain ⟨js, h2, rfl⟩ := h1
      rw [List.mem_singleton] at hm
      subst hm
      refine .arr fun x hx => ?_
      obtain ⟨y, _, hy⟩ := jsonAll_mem h2 x hx
      rw [jsonOfRecordData, Option.map_eq_some_iff] at hy
      obtain ⟨ms, h3, rfl⟩ := hy
      refine .obj (integers_members h3 ?_)
      intro m hm j' hj
      simp only [List.mem_cons, List.not_mem_nil, or_false] at hm
      rcases hm with rfl | rfl
      · injection hj with hj; subst hj; exact .str _
      · exact integers_record hj

theorem pointwise_right {α β : Type} {R : α → β → Prop} : ∀ {as : List α} {bs : List β}, Pointwise R as bs → ∀ b ∈ bs, ∃ a ∈ as, R a b
  | [], [], _, b, hb => by cases hb
  | a :: as, b' :: bs, h, b, hb => by
    rcases List.mem_cons.1 hb with rfl | hb
    · exact ⟨a, List.mem_cons_self .., h.1⟩
    · obtain ⟨a', h1, h2⟩ := pointwise_right h.2 b hb
      exact ⟨a', List.mem_cons_of_mem _ h1, h2⟩

/-- What is put into the channel comes from a message handed to a handler. -/
theorem put_received {evs : List LgEv} {s : Lg} (h : Lg.Run {} evs s) (hr : ReceivedOnly evs) : ∀ l ∈ allPut evs, LineReceived l := by
  intro l hl
  unfold allPut at hl
  rw [List.mem_filterMap] at hl
  obtain ⟨ev, hev, he⟩ := hl
  cases ev with
  | put t l' =>
    simp only [Option.some.injEq] at he
    subst he
    have hp : l' ∈ putBy t evs := by
      unfold putBy
      rw [List.mem_filterMap]
      exact ⟨_, hev, by simp⟩
    obtain ⟨d, hd, hdesc⟩ := pointwise_right ((lg_run h).given t) l' (List.mem_append_left _ hp)
    unfold givenBy at hd
    rw [List.mem_filterMap] at hd
    obtain ⟨ev', hev', he'⟩ := hd
    cases ev' with
    | handled u d' =>
      simp only at he'
      split at he'
      · injection he' with he'
        subst he'
        intro rs hrs x hx
        cases d' with
        | record m =>
          obtain ⟨_, _, rs', h1, h2, _⟩ := hdesc
          rw [hrs] at h1
          injection h1 with h1
          subst h1
          exact hr u _ hev' x.2 (by simp only [recordsOf]; rw [← h2]; exact List.mem_map_of_mem hx)
        | heartbeat m =>
          obtain ⟨_, _, _, _, _, h1⟩ := hdesc
          rw [hrs] at h1; cases h1
        | beacon m => exact absurd hdesc (by simp [Describes])
        | flush m => exact absurd hdesc (by simp [Describes])
      · cases he'
    | _ => simp at he'
  | _ => simp at he

theorem written_put {evs : List LgEv} {s : Lg} (h : Lg.Run {} evs s) : ∀ x ∈ outcomes evs, x.1 ∈ allPut evs := by
  intro x hx
  rw [← (lg_run h).fifo]
  exact List.mem_append_left _ (List.mem_append_left _ (List.mem_map_of_mem hx))

theorem output_lines : ∀ {evs : List LgEv}, (∀ x ∈ outcomes evs, LineReceived x.1 ∧ (x.2 = true ↔ LineYearsOk x.1)) →
    ∃ js, outputText evs = js.flatMap encodeText ∧ (∀ j ∈ js, IntegersOnly j) ∧ Pointwise LineShown (writtenLines evs) js
  | [], _ => ⟨[], rfl, (by intro j hj; cases hj), trivial⟩
  | ev :: evs, h => by
    obtain ⟨js, h1, h2, h3⟩ := output_lines (evs := evs) (fun x hx => h x (by
      unfold outcomes at hx ⊢
      rw [List.filterMap_cons]
      split
      · exact hx
      · exact List.mem_cons_of_mem _ hx))
    cases ev with
    | wrote l =>
      obtain ⟨hr, hy⟩ := h (l, true) (by simp [outcomes])
      obtain ⟨j, g1, g2⟩ := (C113_line hr).1 (hy.1 rfl)
      refine ⟨j :: js, ?_, ?_, ⟨g2, h3⟩⟩
      · simp only [outputText, List.flatMap_cons] at h1 ⊢
        rw [h1]
        simp [lineText, g1]
      · intro x hx
        rcases List.mem_cons.1 hx with rfl | hx
        · exact integers_line g1
        · exact h2 x hx
    | dropped l =>
      obtain ⟨hr, hy⟩ := h (l, false) (by simp [outcomes])
      have g1 := (C113_line hr).2 (fun h' => by simp at hy; exact hy h')
      refine ⟨js, ?_, h2, h3⟩
      simp only [outputText, List.flatMap_cons] at h1 ⊢
      rw [h1]
      simp [lineText, g1]
    | handled t d => exact ⟨js, by simpa [outputText] using h1, h2, h3⟩
    | put t l => exact ⟨js, by simpa [outputText] using h1, h2, h3⟩
    | tau => exact ⟨js, by simpa [outputText] using h1, h2, h3⟩
    | returned => exact ⟨js, by simpa [outputText] using h1, h2, h3⟩

/-- **C113.** In every run of the log mode the text on standard output consists of lines, one for each value written and in that order; every line is a JSON text of one object, which shows
everything in the value: the addresses, the version, time and identity of a heartbeat, the type names of the records and every field of theirs.  Nothing is printed for values that are dropped. -/
theorem C113_output {evs : List LgEv} {s : Lg} (h : Lg.Run {} evs s) (hr : ReceivedOnly evs) :
    ∃ (lines : List (List Char)) (js : List Json), IsLines (outputText evs) lines ∧ Pointwise JsonDoc lines js ∧ Pointwise LineShown (writtenLines evs) js := by
  obtain ⟨js, h1, h2, h3⟩ := output_lines (evs := evs) fun x hx => ⟨put_received h hr _ (written_put h x hx), (lg_run h).kind x hx⟩
  obtain ⟨g1, g2⟩ := C112_lines js h2
  exact ⟨_, js, by rw [h1]; exact g1, g2, h3⟩

/-- **C113.** There is a text exactly for the lines the encoder is said to accept (`jsonLineOk`, on which C84 stands). -/
theorem C113_encodable {l : Line} (hr : LineReceived l) : (jsonOfLine l).isSome = jsonLineOk l := by
  cases hb : jsonLineOk l with
  | true =>
    obtain ⟨j, h, _⟩ := (C113_line hr).1 ((jsonLineOk_iff l).1 hb)
    rw [h]; rfl
  | false => rw [(C113_line hr).2 (fun h => by rw [(jsonLineOk_iff l).2 h] at hb; cases hb)]; rfl

/-- Instance: the line of a heartbeat. -/
example : (lineOf (.heartbeat { hdr := { to := "mc/sfe.x", subject := "HEARTBEAT" }, identity := "x", version := 1, now := 20 })).map lineText =
    some "{\"to\":\"mc/sfe.x\",\"subject\":\"HEARTBEAT\",\"v\":\"1\",\"now\":\"20\",\"id\":\"x\"}\n".toList := by decide +kernel

/-- Instance: the line of a message with one record, a site. -/
example : (lineOf (.record { hdr := { to := "mc/sfe.x", subject := "RECORD" }, records := [recordOf twinSite] })).map (fun l => (lineText l).take 82) =
    some "{\"to\":\"mc/sfe.x\",\"subject\":\"RECORD\",\"data\":[{\"type\":\"*vanflow.SiteRecord\",\"data\":{".toList := by decide +kernel

/-- Instance: the hypothesis of `C113_output` holds of a run with that message. -/
example : ReceivedOnly [.handled 0 (.record { records := [recordOf twinSite] })] := by
  intro t d h r hr
  simp only [List.mem_singleton, LgEv.handled.injEq] at h
  obtain ⟨_, rfl⟩ := h
  simp only [recordsOf, List.mem_singleton] at hr
  subst hr
  exact twins_received.2

end Verif.Props
