import Verif.Spec.LogOnly
import Verif.Props.Messages

/-!
# C84: the log mode
-/
namespace Verif.Props
open Verif Verif.Model Verif.Spec

theorem recordData_snd : ∀ rs, (recordData rs).map Prod.snd = rs
  | [] => rfl
  | r :: rs => by simp [recordData, recordData_snd rs]

theorem recordData_name : ∀ rs n r, (n, GoRec.pointer r) ∈ recordData rs → n = "*vanflow." ++ r.tname
  | [], _, _, h => by simp [recordData] at h
  | x :: rs, n, r, h => by
    rcases List.mem_cons.1 h with h | h
    · injection h with h1 h2
      subst h2
      exact h1
    · exact recordData_name rs n r h

theorem lineOf_describes {d : Decoded} {l : Line} (h : lineOf d = some l) : Describes d l := by
  cases d with
  | beacon m => simp [lineOf] at h
  | flush m => simp [lineOf] at h
  | heartbeat m => simp only [lineOf] at h; injection h with h; subst h; exact ⟨rfl, rfl, rfl, rfl, rfl, rfl⟩
  | record m =>
    simp only [lineOf] at h; injection h with h; subst h
    exact ⟨rfl, rfl, _, rfl, recordData_snd _, recordData_name _⟩

theorem lineFieldOk_iff (v : FVal GoTime) : jsonFieldOk v = true ↔ ∀ t, v = .ptr (.custom t) → -62167219200 ≤ t.sec ∧ t.sec < 253402300800 := by
  cases v with
  | ptr w => cases w <;> simp [jsonFieldOk, jsonTimeOk]
  | _ => simp [jsonFieldOk]

theorem lineRecordOk_iff (r : GoRec GoTime) : jsonRecordOk r = true ↔ YearsOk r := by
  have key : ∀ rv : RecVal GoTime, (jsonFieldOk (rv.mem [0, 1]) && jsonFieldOk (rv.mem [0, 2])) = true ↔
      ∀ t, rv.mem [0, 1] = .ptr (.custom t) ∨ rv.mem [0, 2] = .ptr (.custom t) → -62167219200 ≤ t.sec ∧ t.sec < 253402300800 := by
    intro rv
    rw [Bool.and_eq_true, lineFieldOk_iff, lineFieldOk_iff]
    constructor
    · rintro ⟨h1, h2⟩ t (h | h)
      · exact h1 t h
      · exact h2 t h
    · intro h
      exact ⟨fun t ht => h t (.inl ht), fun t ht => h t (.inr ht)⟩
  cases r with
  | nil => simp [jsonRecordOk, YearsOk]
  | nilPointer n => simp [jsonRecordOk, YearsOk]
  | value rv =>
    simp only [jsonRecordOk]; rw [key]
    constructor
    · rintro h rv' (h' | h')
      · injection h' with h'; subst h'; exact h
      · cases h'
    · intro h; exact h rv (.inl rfl)
  | pointer rv =>
    simp only [jsonRecordOk]; rw [key]
    constructor
    · rintro h rv' (h' | h')
      · cases h'
      · injection h' with h'; subst h'; exact h
    · intro h; exact h rv (.inr rfl)

theorem jsonLineOk_iff (l : Line) : jsonLineOk l = true ↔ LineYearsOk l := by
  unfold jsonLineOk LineYearsOk
  cases l.data with
  | none => simp
  | some rs =>
    simp only [List.all_eq_true, lineRecordOk_iff]
    constructor
    · intro h rs' hrs x hx; injection hrs with hrs; subst hrs; exact h x hx
    · intro h x hx; exact h rs rfl x hx

/-- The state against the history. -/
structure LgOK (evs : List LgEv) (s : Lg) : Prop where
  given : ∀ t, Pointwise Describes (givenBy t evs) (putBy t evs ++ (s.pending t).toList)
  fifo : (outcomes evs).map Prod.fst ++ s.writing.toList ++ s.buf = allPut evs
  kind : ∀ x ∈ outcomes evs, x.2 = true ↔ LineYearsOk x.1
  room : s.buf.length ≤ 64

theorem Pointwise.append {α β : Type} {R : α → β → Prop} : ∀ {as as' : List α} {bs bs' : List β}, Pointwise R as bs → Pointwise R as' bs' →
    Pointwise R (as ++ as') (bs ++ bs')
  | [], _, [], _, _, h => h
  | _ :: _, _, _ :: _, _, ⟨h1, h2⟩, h => ⟨h1, Pointwise.append h2 h⟩

theorem lg_run {evs : List LgEv} {s : Lg} (h : Lg.Run {} evs s) : LgOK evs s := by
  generalize hs0 : ({} : Lg) = s0 at h
  induction h with
  | nil => subst hs0; exact ⟨fun t => trivial, rfl, by simp [outcomes], by simp⟩
  | @snoc s s' evs ev _ hs ih =>
    obtain ⟨i1, i2, i3, i4⟩ := ih
    cases hs with
    | @handle t d l hp hl =>
      refine ⟨fun u => ?_, ?_, ?_, i4⟩
      · have hi := i1 u
        simp only [givenBy, putBy, List.filterMap_append, Lg.with] at hi ⊢
        by_cases hu : u = t
        · subst hu
          rw [hp] at hi
          simp only [Option.toList_none, List.append_nil] at hi
          simpa using Pointwise.append hi (show Pointwise Describes [d] [l] from ⟨lineOf_describes hl, trivial⟩)
        · have hu' : ¬ t = u := fun h => hu h.symm
          simpa [hu, hu'] using hi
      · simpa [outcomes, allPut, Lg.with] using i2
      · simpa [outcomes] using i3
    | @put t l hp hlen =>
      refine ⟨fun u => ?_, ?_, ?_, ?_⟩
      · have hi := i1 u
        simp only [givenBy, putBy, List.filterMap_append, Lg.with] at hi ⊢
        by_cases hu : u = t
        · subst hu
          rw [hp] at hi
          simpa using hi
        · have hu' : ¬ t = u := fun h => hu h.symm
          simpa [hu, hu'] using hi
      · have : allPut (evs ++ [LgEv.put t l]) = allPut evs ++ [l] := by simp [allPut]
        rw [this, ← i2]
        simp [outcomes, Lg.with]
      · simpa [outcomes] using i3
      · simp [Lg.with]; omega
    | @take l ls he hw hb =>
      refine ⟨fun u => ?_, ?_, ?_, ?_⟩
      · simpa [givenBy, putBy] using i1 u
      · rw [hw, hb] at i2
        simpa [outcomes, allPut] using i2
      · simpa [outcomes] using i3
      · rw [hb] at i4; simp at i4 ⊢; omega
    | @write l hw hok =>
      refine ⟨fun u => ?_, ?_, ?_, i4⟩
      · simpa [givenBy, putBy] using i1 u
      · rw [hw] at i2
        simpa [outcomes, allPut] using i2
      · have : outcomes (evs ++ [LgEv.wrote l]) = outcomes evs ++ [(l, true)] := by simp [outcomes]
        rw [this]
        intro x hx
        rcases List.mem_append.1 hx with hx | hx
        · exact i3 x hx
        · rw [List.mem_singleton] at hx; subst hx
          simp [(jsonLineOk_iff l).1 hok]
    | @drop l hw hok =>
      refine ⟨fun u => ?_, ?_, ?_, i4⟩
      · simpa [givenBy, putBy] using i1 u
      · rw [hw] at i2
        simpa [outcomes, allPut] using i2
      · have : outcomes (evs ++ [LgEv.dropped l]) = outcomes evs ++ [(l, false)] := by simp [outcomes]
        rw [this]
        intro x hx
        rcases List.mem_append.1 hx with hx | hx
        · exact i3 x hx
        · rw [List.mem_singleton] at hx; subst hx
          have : ¬ LineYearsOk l := by rw [← jsonLineOk_iff, hok]; simp
          simp [this]
    | stop =>
      exact ⟨fun u => by simpa [givenBy, putBy] using i1 u, by simpa [outcomes, allPut] using i2, by simpa [outcomes] using i3, i4⟩
    | finish =>
      exact ⟨fun u => by simpa [givenBy, putBy] using i1 u, by simpa [outcomes, allPut] using i2, by simpa [outcomes] using i3, i4⟩

theorem written_eq (evs : List LgEv) : writtenLines evs = ((outcomes evs).filter Prod.snd).map Prod.fst := by
  induction evs with
  | nil => rfl
  | cons ev evs ih =>
    cases ev <;> simp_all [writtenLines, outcomes]

theorem filter_outcomes : ∀ (os : List (Line × Bool)), (∀ x ∈ os, x.2 = true ↔ LineYearsOk x.1) →
    (os.filter Prod.snd).map Prod.fst = (os.map Prod.fst).filter jsonLineOk
  | [], _ => rfl
  | (l, b) :: os, h => by
    have ih := filter_outcomes os fun x hx => h x (List.mem_cons_of_mem _ hx)
    have h0 := h (l, b) List.mem_cons_self
    simp only at h0
    rw [← jsonLineOk_iff] at h0
    have hb : jsonLineOk l = b := by cases b <;> cases hj : jsonLineOk l <;> simp_all
    cases b <;> simp [hb, ih]

/-- **C84 (partial).** What each client hands to the handlers is put into the channel in the order in which it was handed over, one value per message and none left out
(except the one the handler is about to put), and that value describes the message. -/
theorem C84_handed_partial {evs : List LgEv} {s : Lg} (h : Lg.Run {} evs s) (t : Nat) :
    ∃ rest : List Line, rest.length ≤ 1 ∧ Pointwise Describes (givenBy t evs) (putBy t evs ++ rest) :=
  ⟨(s.pending t).toList, by cases s.pending t <;> simp, (lg_run h).given t⟩

/-- **C84 (partial).** The lines written are the values put into the channel, in order and each once, without those that hold a time outside the years 0 to 9999,
and without at most 65 not yet dealt with.  Missing for the full statement: the lines with such a time, and those in the channel when the tool ends. -/
theorem C84_written_partial {evs : List LgEv} {s : Lg} (h : Lg.Run {} evs s) :
    ∃ done rest : List Line, allPut evs = done ++ rest ∧ rest.length ≤ 65 ∧ (writtenLines evs).Sublist done ∧
      (∀ l ∈ done, LineYearsOk l → l ∈ writtenLines evs) ∧ (∀ l ∈ writtenLines evs, LineYearsOk l) ∧
      ((∀ l ∈ done, LineYearsOk l) → writtenLines evs = done) := by
  have hok := lg_run h
  have hw : writtenLines evs = ((outcomes evs).map Prod.fst).filter jsonLineOk := by rw [written_eq, filter_outcomes _ hok.kind]
  refine ⟨(outcomes evs).map Prod.fst, s.writing.toList ++ s.buf, by rw [← hok.fifo, List.append_assoc], ?_, ?_, ?_, ?_, ?_⟩
  · have := hok.room
    cases s.writing <;> simp <;> omega
  · rw [hw]; exact List.filter_sublist
  · intro l hl hy
    rw [hw, List.mem_filter]
    exact ⟨hl, (jsonLineOk_iff l).2 hy⟩
  · intro l hl
    rw [hw, List.mem_filter] at hl
    exact (jsonLineOk_iff l).1 hl.2
  · intro hall
    rw [hw, List.filter_eq_self]
    intro l hl
    exact (jsonLineOk_iff l).2 (hall l hl)

/-- **C84 (progress).** As long as the tool has not ended, a blocked handler does not stay blocked for want of the writer: while it waits and cannot proceed the
writer can. -/
theorem C84_progress {evs : List LgEv} {s : Lg} (_ : Lg.Run {} evs s) (hn : s.ended = false) {t : Nat} {l : Line} (hp : s.pending t = some l) :
    (∃ s', Lg.Step s (.put t l) s') ∨ (∃ l', s.writing = some l' ∧ ∃ ev s', Lg.Step s ev s' ∧ (ev = .wrote l' ∨ ev = .dropped l') ) ∨
      (∃ s' l', Lg.Step s .tau s' ∧ s'.writing = some l' ∧ s'.buf.length < 64) := by
  by_cases hlen : s.buf.length < 64
  · exact .inl ⟨_, .put hp hlen⟩
  · right
    cases hw : s.writing with
    | some l' =>
      left
      cases hj : jsonLineOk l' with
      | true => exact ⟨l', rfl, _, _, .write hw hj, .inl rfl⟩
      | false => exact ⟨l', rfl, _, _, .drop hw hj, .inr rfl⟩
    | none =>
      right
      cases hb : s.buf with
      | nil => simp [hb] at hlen
      | cons l' ls =>
        refine ⟨_, l', .take hn hw hb, rfl, ?_⟩
        have h64 := (lg_run ‹_›).room
        rw [hb] at h64
        simp at h64 ⊢; omega

/-- The goroutine does not return before its context has ended, which it has not at the start; from then on it returns once no line is being written. -/
theorem C84_returns : ({} : Lg).stopped = false ∧ (∀ evs s, Lg.Run {} evs s → s.stopped = false → LgEv.returned ∉ evs) ∧
    ∀ s : Lg, (∃ s', Lg.Step s .returned s') ↔ s.stopped = true ∧ s.writing = none ∧ s.ended = false := by
  refine ⟨rfl, ?_, ?_⟩
  · intro evs s h
    generalize hs0 : ({} : Lg) = s0 at h
    induction h with
    | nil => simp
    | @snoc s1 s2 evs ev _ hs ih =>
      intro hst
      cases hs with
      | stop => cases hst
      | finish h1 =>
        have h2 : s1.stopped = false := hst
        rw [h1] at h2; cases h2
      | _ => simpa using ih hst
  · intro s
    constructor
    · rintro ⟨s', hs⟩
      cases hs with
      | finish h1 h2 h3 => exact ⟨h1, h2, h3⟩
    · rintro ⟨h1, h2, h3⟩
      exact ⟨_, .finish h1 h2 h3⟩

/-- A host that ends in the year 10000. -/
def farHost : GoRec GoTime := .pointer ⟨"HostRecord", fun p => if p = [0, 2] then .ptr (.custom ⟨253402300800, 0⟩) else exHostMem p⟩

/-- C84 is false: this message has a good record and one that ends in the year 10000 (a time the wire format can carry); neither is written. -/
theorem C84_counterexample : ∃ evs s, Lg.Run {} evs s ∧
    givenBy 0 evs = [.record { records := [.pointer ⟨"HostRecord", exHostMem⟩, farHost] }] ∧ s.pending 0 = none ∧ s.writing = none ∧ s.buf = [] ∧
    s.ended = false ∧ writtenLines evs = [] := by
  have r1 := (Lg.Run.nil (s := {})).snoc (.handle (t := 0) (d := .record { records := [.pointer ⟨"HostRecord", exHostMem⟩, farHost] }) rfl rfl)
  have r2 := r1.snoc (.put (t := 0) rfl (by decide))
  have r3 := r2.snoc (.take rfl rfl rfl)
  have r4 := r3.snoc (.drop rfl (by decide))
  exact ⟨_, _, r4, rfl, rfl, rfl, rfl, rfl, rfl⟩

/-- And what is in the channel when the tool ends is lost. -/
theorem C84_lost_at_end : ∃ evs s, Lg.Run {} evs s ∧ givenBy 0 evs = [.heartbeat {}] ∧ s.pending 0 = none ∧ s.ended = true ∧ writtenLines evs = [] ∧
    ∀ evs' s', Lg.Run s evs' s' → writtenLines evs' = [] := by
  have r1 := (Lg.Run.nil (s := {})).snoc (.handle (t := 0) (d := .heartbeat {}) rfl rfl)
  have r2 := r1.snoc (.put (t := 0) rfl (by decide))
  have r3 := r2.snoc .stop
  have r4 := r3.snoc (.finish rfl rfl rfl)
  refine ⟨_, _, r4, rfl, rfl, rfl, rfl, ?_⟩
  intro evs' s' h
  have key : ∀ {s : Lg} {evs : List LgEv} {s' : Lg}, Lg.Run s evs s' → s.ended = true → s.writing = none →
      writtenLines evs = [] ∧ s'.ended = true ∧ s'.writing = none := by
    intro s evs s' h
    induction h with
    | nil => intro h1 h2; exact ⟨rfl, h1, h2⟩
    | snoc _ hs ih =>
      intro h1 h2
      obtain ⟨i1, i2, i3⟩ := ih h1 h2
      cases hs with
      | handle => exact ⟨by simpa [writtenLines] using i1, i2, i3⟩
      | put => exact ⟨by simpa [writtenLines] using i1, i2, i3⟩
      | take he => rw [i2] at he; cases he
      | write hw => rw [i3] at hw; cases hw
      | drop hw => rw [i3] at hw; cases hw
      | stop => exact ⟨by simpa [writtenLines] using i1, i2, i3⟩
      | finish _ _ he => rw [i2] at he; cases he
  exact (key h rfl rfl).1

/-- Instance of the partial results: two clients, a heartbeat and a record message, both written. -/
example : ∃ evs s, Lg.Run {} evs s ∧ givenBy 0 evs = [.heartbeat { identity := "r1", now := 5 }] ∧
    givenBy 1 evs = [.record { records := [.pointer ⟨"HostRecord", exHostMem⟩] }] ∧
    (writtenLines evs).map (·.id) = ["", "r1"] ∧ s.buf = [] ∧ s.writing = none := by
  have r1 := (Lg.Run.nil (s := {})).snoc (.handle (t := 0) (d := .heartbeat { identity := "r1", now := 5 }) rfl rfl)
  have r2 := r1.snoc (.handle (t := 1) (d := .record { records := [.pointer ⟨"HostRecord", exHostMem⟩] }) rfl rfl)
  have r3 := r2.snoc (.put (t := 1) rfl (by decide))
  have r4 := r3.snoc (.put (t := 0) rfl (by decide))
  have r5 := r4.snoc (.take rfl rfl rfl)
  have r6 := r5.snoc (.write rfl (by decide))
  have r7 := r6.snoc (.take rfl rfl rfl)
  have r8 := r7.snoc (.write rfl (by decide))
  exact ⟨_, _, r8, rfl, rfl, rfl, rfl, rfl⟩

end Verif.Props
