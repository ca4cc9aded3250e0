import Verif.Spec.Discovery

/-!
# C46-C51: discovery
-/
namespace Verif.Props
open Verif Verif.Model Verif.Spec

/-! ## What the methods do to the map -/

/-- The map holds every source under its own id. -/
def OwnIds (m : GMap String Info) : Prop := ∀ k i, m.get? k = some i → i.id = k

theorem effect_ownIds {m : GMap String Info} (h : OwnIds m) (op : DiscOp) : OwnIds (op.effect m).1 := by
  intro k i
  cases op with
  | observe b now =>
    simp only [DiscOp.effect]
    split
    · rename_i st hst
      rw [GMap.get?_set]
      split
      · rename_i hk; subst hk; intro he; cases he; exact (h _ st hst :)
      · exact h k i
    · rw [GMap.get?_set]
      split
      · rename_i hk; subst hk; intro he; cases he; rfl
      · exact h k i
  | add info =>
    simp only [DiscOp.effect]
    split
    · exact h k i
    · rw [GMap.get?_set]
      split
      · rename_i hk; subst hk; intro he; cases he; rfl
      · exact h k i
  | forget id =>
    simp only [DiscOp.effect]
    split <;>
    · simp only [GMap.get?_del]
      split
      · simp
      · exact h k i
  | lastSeen id t =>
    simp only [DiscOp.effect]
    split
    · exact h k i
    · rename_i st hst
      split
      · rw [GMap.get?_set]
        split
        · rename_i hk; subst hk; intro he; cases he; exact (h _ st hst :)
        · exact h k i
      · exact h k i
  | get _ => exact h k i
  | list => exact h k i

/-- What a method's note says about the sources known before and after. -/
theorem effect_known {m : GMap String Info} (h : OwnIds m) (op : DiscOp) (id : String) :
    match (op.effect m).2 with
    | none => ((op.effect m).1.get? id).isSome = (m.get? id).isSome
    | some n => if n.info.id = id then (m.get? id).isSome = !isDiscovered n ∧ ((op.effect m).1.get? id).isSome = isDiscovered n
        else ((op.effect m).1.get? id).isSome = (m.get? id).isSome := by
  cases op with
  | observe b now =>
    simp only [DiscOp.effect]
    cases hg : m.get? b.identity with
    | some st =>
      simp only [GMap.get?_set]
      split <;> simp_all
    | none =>
      simp only [GMap.get?_set, DiscNote.info, Beacon.toInfo, isDiscovered]
      split <;> simp_all
  | add info =>
    simp only [DiscOp.effect]
    cases hg : m.get? info.id with
    | some st => simp
    | none =>
      simp only [GMap.get?_set, DiscNote.info, isDiscovered]
      split <;> simp_all
  | forget fid =>
    simp only [DiscOp.effect]
    cases hg : m.get? fid with
    | some st =>
      have hi := h _ _ hg
      simp only [GMap.get?_del, DiscNote.info, isDiscovered, hi]
      split <;> simp_all
    | none =>
      simp only [GMap.get?_del]
      split <;> simp_all
  | lastSeen lid t =>
    simp only [DiscOp.effect]
    cases hg : m.get? lid with
    | none => simp
    | some st =>
      by_cases ht : t > st.lastSeen
      · simp only [ht, if_true, GMap.get?_set]
        split <;> simp_all
      · simp [ht]
  | get _ => simp [DiscOp.effect]
  | list => simp [DiscOp.effect]

/-! ## Invariants of runs -/

@[simp] theorem at_pcs (s : Disc) (t : Nat) (pc : DiscPC) (u : Nat) : (s.at t pc).pcs u = if u = t then pc else s.pcs u := rfl
@[simp] theorem at_state (s : Disc) (t : Nat) (pc : DiscPC) : (s.at t pc).state = s.state := rfl
@[simp] theorem at_lock (s : Disc) (t : Nat) (pc : DiscPC) : (s.at t pc).lock = s.lock := rfl
@[simp] theorem at_discovered (s : Disc) (t : Nat) (pc : DiscPC) : (s.at t pc).discovered = s.discovered := rfl
@[simp] theorem at_forgotten (s : Disc) (t : Nat) (pc : DiscPC) : (s.at t pc).forgotten = s.forgotten := rfl
@[simp] theorem at_handler (s : Disc) (t : Nat) (pc : DiscPC) : (s.at t pc).handler = s.handler := rfl
@[simp] theorem push_pcs (s : Disc) (n : DiscNote) : (s.push n).pcs = s.pcs := by cases n <;> rfl
@[simp] theorem push_state (s : Disc) (n : DiscNote) : (s.push n).state = s.state := by cases n <;> rfl
@[simp] theorem push_handler (s : Disc) (n : DiscNote) : (s.push n).handler = s.handler := by cases n <;> rfl

/-- The lock is held exactly by the goroutine that is sending; handleDiscovery's goroutine is in a method only inside a handler. -/
structure DiscInv (s : Disc) : Prop where
  sending : ∀ t n, s.pcs t = .sending n → s.lock = some t
  held : ∀ t, s.lock = some t → ∃ n, s.pcs t = .sending n
  inHandler : s.pcs 0 ≠ .out → ∃ n, s.handler = .running n

theorem discInv_step {s s' : Disc} {ev : DiscEv} (h : DiscInv s) (hs : Disc.Step s ev s') : DiscInv s' := by
  obtain ⟨h1, h2, h3⟩ := h
  cases hs with
  | call t op hp hh =>
    refine ⟨fun u n => ?_, fun u hu => ?_, fun h0 => ?_⟩
    · simp only [at_pcs, at_lock]; split
      · simp
      · exact h1 u n
    · obtain ⟨n, hn⟩ := h2 u hu
      refine ⟨n, ?_⟩
      simp only [at_pcs]
      rw [if_neg (by rintro rfl; rw [hp] at hn; cases hn)]; exact hn
    · simp only [at_pcs] at h0
      by_cases ht : (0 : Nat) = t
      · exact hh ht.symm
      · rw [if_neg ht] at h0; exact h3 h0
  | @effect t op hp hl he =>
    refine ⟨fun u n => ?_, fun u hu => ?_, fun h0 => ?_⟩
    · simp only [at_pcs, at_lock]; split
      · simp
      · exact h1 u n
    · simp only [at_lock] at hu; rw [hl] at hu; cases hu
    · simp only [at_pcs] at h0
      by_cases ht : (0 : Nat) = t
      · simp [ht] at h0
      · rw [if_neg ht] at h0; exact h3 h0
  | @effectSend t op n hp hl he =>
    refine ⟨fun u m => ?_, fun u hu => ?_, fun h0 => ?_⟩
    · simp only [at_pcs]; split
      · rename_i hut; intro _; rw [hut]
      · intro hm; have := h1 u m hm; rw [hl] at this; cases this
    · simp only [Option.some.injEq] at hu; subst hu; exact ⟨n, by simp⟩
    · simp only [at_pcs] at h0
      by_cases ht : (0 : Nat) = t
      · subst ht; exact h3 (by rw [hp]; simp)
      · rw [if_neg ht] at h0; exact h3 h0
  | @send t n hp hr =>
    have hl := h1 t n hp
    refine ⟨fun u m => ?_, fun u hu => by simp at hu, fun h0 => ?_⟩
    · simp only [at_pcs, push_pcs]; split
      · simp
      · rename_i hut; intro hm; have := h1 u m hm; rw [hl] at this; cases this; exact absurd rfl hut
    · simp only [at_pcs, push_pcs] at h0
      by_cases ht : (0 : Nat) = t
      · simp [ht] at h0
      · rw [if_neg ht] at h0; simpa using h3 h0
  | takeDiscovered hh _ => exact ⟨h1, h2, fun _ => ⟨_, rfl⟩⟩
  | takeForgotten hh _ => exact ⟨h1, h2, fun _ => ⟨_, rfl⟩⟩
  | handlerDone hh ho => exact ⟨h1, h2, fun h0 => absurd ho h0⟩
  | handlerStop hh => exact ⟨h1, h2, fun h0 => by obtain ⟨n, hn⟩ := h3 h0; rw [hh] at hn; cases hn⟩

theorem discInv_run {s s' : Disc} {evs : List DiscEv} (h : Disc.Run s evs s') (hi : DiscInv s) : DiscInv s' := by
  induction h with
  | nil => exact hi
  | snoc _ hs ih => exact discInv_step ih hs

theorem discInv_init : DiscInv {} := ⟨fun _ _ h => by simp at h, fun _ h => by simp at h, fun h => by simp at h⟩

/-- Flags that say true, false, true, … -/
def Alternating (l : List Bool) : Prop := ∀ (k : Nat) (b : Bool), l[k]? = some b → b = decide (k % 2 = 0)

theorem alternating_snoc {l : List Bool} {b : Bool} (h : Alternating l) (hb : b = decide (l.length % 2 = 0)) : Alternating (l ++ [b]) := by
  intro k c hk
  rw [List.getElem?_append] at hk
  split at hk
  · exact h k c hk
  · rename_i hlt
    have : k = l.length := by
      have := (List.getElem?_eq_some_iff.1 hk).1
      simp at this; omega
    subst this
    simp at hk; rw [← hk, hb]

theorem noteFlags_append (id : String) (a b : List DiscNote) : noteFlags id (a ++ b) = noteFlags id a ++ noteFlags id b := by
  simp [noteFlags]

theorem noteFlags_single (id : String) (n : DiscNote) : noteFlags id [n] = if n.info.id = id then [isDiscovered n] else [] := by
  simp only [noteFlags, List.filterMap_cons, List.filterMap_nil]
  split <;> simp_all

/-- One step: the notes sent or about to be sent grow by the note of the effect. -/
theorem notes_step {s s' : Disc} {ev : DiscEv} (hi : DiscInv s) (hs : Disc.Step s ev s') (before : List DiscEv) :
    (∃ t op, ev = .effect t op ∧ s'.state = (op.effect s.state).1 ∧
        notesSent (before ++ [ev]) ++ noteInFlight s' = notesSent before ++ noteInFlight s ++ (op.effect s.state).2.toList) ∨
      (s'.state = s.state ∧ (∀ t op, ev ≠ .effect t op) ∧
        notesSent (before ++ [ev]) ++ noteInFlight s' = notesSent before ++ noteInFlight s) := by
  cases hs with
  | call t op hp hh =>
    refine .inr ⟨rfl, by simp, ?_⟩
    have : noteInFlight (s.at t (.wanting op)) = noteInFlight s := by
      unfold noteInFlight
      simp only [at_lock, at_pcs]
      cases hl : s.lock with
      | none => rfl
      | some u =>
        obtain ⟨n, hn⟩ := hi.held u hl
        simp only
        rw [if_neg (by rintro rfl; rw [hp] at hn; cases hn)]
    simp [notesSent, this]
  | @effect t op hp hl he =>
    refine .inl ⟨t, op, rfl, rfl, ?_⟩
    simp [notesSent, noteInFlight, hl, he]
  | @effectSend t op n hp hl he =>
    refine .inl ⟨t, op, rfl, rfl, ?_⟩
    simp [notesSent, noteInFlight, hl, he]
  | @send t n hp hr =>
    refine .inr ⟨by simp, by simp, ?_⟩
    simp [notesSent, noteInFlight, hi.sending t n hp, hp]
  | takeDiscovered | takeForgotten | handlerDone | handlerStop =>
    exact .inr ⟨rfl, by simp, by simp [notesSent, noteInFlight]⟩

theorem effects_append (a b : List DiscEv) : effects (a ++ b) = effects a ++ effects b := by simp [effects]

theorem notes_run {s : Disc} {evs : List DiscEv} (h : Disc.Run {} evs s) :
    DiscInv s ∧ OwnIds s.state ∧ ∀ id, Alternating (noteFlags id (notesSent evs ++ noteInFlight s)) ∧
      (s.state.get? id).isSome = decide ((noteFlags id (notesSent evs ++ noteInFlight s)).length % 2 = 1) := by
  generalize hs0 : ({} : Disc) = s0 at h
  induction h with
  | nil =>
    subst hs0
    exact ⟨discInv_init, fun k i h => by simp at h, fun id => ⟨fun k b hk => by simp [notesSent, noteInFlight, noteFlags] at hk,
      by simp [notesSent, noteInFlight, noteFlags]⟩⟩
  | @snoc s s' evs ev hr hs ih =>
    obtain ⟨hi, ho, hn⟩ := ih
    refine ⟨discInv_step hi hs, ?_, fun id => ?_⟩
    · rcases notes_step hi hs evs with ⟨t, op, -, hst, -⟩ | ⟨hst, -, -⟩
      · rw [hst]; exact effect_ownIds ho op
      · rw [hst]; exact ho
    · obtain ⟨ha, hk⟩ := hn id
      rcases notes_step hi hs evs with ⟨t, op, -, hst, hns⟩ | ⟨hst, -, hns⟩
      · rw [hns, hst]
        have hek := effect_known ho op id
        cases hnote : (op.effect s.state).2 with
        | none =>
          rw [hnote] at hek
          simp only [Option.toList_none, List.append_nil] at hek ⊢
          exact ⟨ha, by rw [hek]; exact hk⟩
        | some n =>
          rw [hnote] at hek
          have hfl : noteFlags id (notesSent evs ++ noteInFlight s ++ (some n).toList) =
              noteFlags id (notesSent evs ++ noteInFlight s) ++ (if n.info.id = id then [isDiscovered n] else []) := by
            rw [Option.toList_some, noteFlags_append, noteFlags_single]
          rw [hfl]
          simp only at hek
          split at hek
          · rename_i hid
            rw [if_pos hid]
            obtain ⟨hb, haf⟩ := hek
            rw [hk] at hb
            refine ⟨alternating_snoc ha ?_, ?_⟩
            · cases hd : isDiscovered n <;> rw [hd] at hb <;> simp at hb ⊢ <;> omega
            · rw [haf]
              simp only [List.length_append, List.length_cons, List.length_nil]
              cases hd : isDiscovered n <;> rw [hd] at hb <;> simp at hb ⊢ <;> omega
          · rename_i hid
            rw [if_neg hid, List.append_nil]
            exact ⟨ha, by rw [hek]; exact hk⟩
      · rw [hns, hst]; exact ⟨ha, hk⟩

/-! ## C46 -/

theorem alternating_count {l : List Bool} (h : Alternating l) : l.count true = l.count false + l.length % 2 := by
  generalize hn : l.length = n
  induction n generalizing l with
  | zero => rw [List.length_eq_zero_iff] at hn; subst hn; rfl
  | succ n ih =>
    obtain ⟨l', b, rfl⟩ : ∃ l' b, l = l' ++ [b] := by
      rcases List.eq_nil_or_concat l with rfl | ⟨l', b, rfl⟩
      · simp at hn
      · exact ⟨l', b, by simp⟩
    have hl : l'.length = n := by simpa using hn
    have h' : Alternating l' := fun k c hk => h k c (by
      rw [List.getElem?_append_left (List.getElem?_eq_some_iff.1 hk).1]; exact hk)
    have hb := h l'.length b (by simp)
    have := ih h' hl
    rw [List.count_append, List.count_append, this, hb, hl]
    by_cases he : n % 2 = 0
    · simp [he]; omega
    · simp [he]; omega

/-- C46: the notes about a source alternate, beginning with a discovery; a source is known exactly when the discoveries are one more
than the forgettings, for the notes sent together with the one the holder of the lock is about to send. -/
theorem C46_alternate {evs : List DiscEv} {s : Disc} (h : Disc.Run {} evs s) (id : String) :
    let flags := noteFlags id (notesSent evs ++ noteInFlight s)
    (∀ (k : Nat) (b : Bool), flags[k]? = some b → b = decide (k % 2 = 0)) ∧
      flags.count true = flags.count false + (if (discGet s.state id).isSome then 1 else 0) := by
  obtain ⟨-, -, hn⟩ := notes_run h
  obtain ⟨ha, hk⟩ := hn id
  refine ⟨ha, ?_⟩
  simp only [discGet]
  rw [alternating_count ha]
  by_cases he : (noteFlags id (notesSent evs ++ noteInFlight s)).length % 2 = 1
  · simp [hk, he]
  · simp [hk, he]; omega

/-- C46: when nobody is inside a method's critical section, the notes sent are all there is. -/
theorem C46_quiet {evs : List DiscEv} {s : Disc} (h : Disc.Run {} evs s) (hl : s.lock = none) (id : String) :
    (noteFlags id (notesSent evs)).count true =
      (noteFlags id (notesSent evs)).count false + (if (discGet s.state id).isSome then 1 else 0) := by
  have := (C46_alternate h id).2
  simpa [noteInFlight, hl] using this

/-- C46: List and Get agree: List has exactly one entry for every known source, and it is the one Get returns. -/
theorem C46_list {evs : List DiscEv} {s : Disc} (h : Disc.Run {} evs s) :
    (∀ i : Info, i ∈ discList s.state ↔ discGet s.state i.id = some i) ∧ ((discList s.state).map (·.id)).Nodup := by
  have hwf : s.state.WF := by
    generalize hs0 : ({} : Disc) = s0 at h
    induction h with
    | nil => subst hs0; exact GMap.WF_nil
    | @snoc s s' evs ev hr hs ih =>
      have hi := discInv_run hr (hs0 ▸ discInv_init)
      rcases notes_step hi hs evs with ⟨t, op, -, hst, -⟩ | ⟨hst, -, -⟩
      · rw [hst]
        cases op <;> simp only [DiscOp.effect] <;> (try split) <;> (try split) <;>
          first | exact ih | exact GMap.WF.set ih _ _ | exact GMap.WF.del ih _
      · rw [hst]; exact ih
  obtain ⟨-, ho, -⟩ := notes_run h
  have hmem : ∀ k i, (k, i) ∈ s.state ↔ s.state.get? k = some i := fun k i => GMap.mem_iff_get? hwf
  refine ⟨fun i => ?_, ?_⟩
  · simp only [discList, discGet, List.mem_map]
    constructor
    · rintro ⟨⟨k, j⟩, hm, rfl⟩
      have := (hmem k j).1 hm
      rw [ho k j this]; exact this
    · intro hg
      exact ⟨(i.id, i), (hmem _ _).2 hg, rfl⟩
  · have : (discList s.state).map (·.id) = s.state.keys := by
      simp only [discList, GMap.keys, List.map_map]
      apply List.map_congr_left
      rintro ⟨k, j⟩ hm
      exact ho k j ((hmem k j).1 hm)
    rw [this]; exact hwf

theorem disc_trans {s s' s'' : Disc} {evs evs' : List DiscEv} (h : Disc.Run s evs s') (h' : Disc.Run s' evs' s'') :
    Disc.Run s (evs ++ evs') s'' := by
  induction h' with
  | nil => simpa using h
  | snoc _ hs ih => rw [← List.append_assoc]; exact ih.snoc hs

/-! ## C47 -/

/-- A method leaves a source alone, or writes its own time. -/
theorem effect_time {m : GMap String Info} (op : DiscOp) {k : String} {i : Info} (h : (op.effect m).1.get? k = some i) :
    m.get? k = some i ∨ DiscOp.time op = some i.lastSeen := by
  cases op with
  | observe b now =>
    simp only [DiscOp.effect] at h
    split at h <;>
    · simp only [GMap.get?_set] at h
      split at h
      · cases h; exact .inr rfl
      · exact .inl h
  | add info =>
    simp only [DiscOp.effect] at h
    split at h
    · exact .inl h
    · simp only [GMap.get?_set] at h
      split at h
      · cases h; exact .inr rfl
      · exact .inl h
  | forget id =>
    simp only [DiscOp.effect] at h
    split at h <;>
    · simp only [GMap.get?_del] at h
      split at h
      · cases h
      · exact .inl h
  | lastSeen id t =>
    simp only [DiscOp.effect] at h
    split at h
    · exact .inl h
    · split at h
      · simp only [GMap.get?_set] at h
        split at h
        · cases h; exact .inr rfl
        · exact .inl h
      · exact .inl h
  | get _ => exact .inl h
  | list => exact .inl h

/-- A method other than `Forget` keeps a known source and everything but its time, and a time only goes back to the clock reading of a beacon. -/
theorem effect_keeps {m : GMap String Info} (op : DiscOp) {id : String} {i : Info} (h : m.get? id = some i) (hf : op ≠ .forget id) :
    ∃ t, (op.effect m).1.get? id = some { i with lastSeen := t } ∧
      (i.lastSeen ≤ t ∨ ∃ b now, op = .observe b now ∧ t = now) := by
  cases op with
  | observe b now =>
    simp only [DiscOp.effect]
    by_cases hb : b.identity = id
    · subst hb
      simp only [h, GMap.get?_set, if_true]
      exact ⟨now, rfl, .inr ⟨b, now, rfl, rfl⟩⟩
    · split <;> simp only [GMap.get?_set, if_neg hb] <;> exact ⟨i.lastSeen, h, .inl (Int.le_refl _)⟩
  | add info =>
    simp only [DiscOp.effect]
    split
    · exact ⟨i.lastSeen, h, .inl (Int.le_refl _)⟩
    · rename_i hn
      have hne : info.id ≠ id := by rintro rfl; rw [h] at hn; cases hn
      simp only [GMap.get?_set, if_neg hne]
      exact ⟨i.lastSeen, h, .inl (Int.le_refl _)⟩
  | forget fid =>
    have hne : fid ≠ id := by rintro rfl; exact hf rfl
    simp only [DiscOp.effect]
    split <;> simp only [GMap.get?_del, if_neg hne] <;> exact ⟨i.lastSeen, h, .inl (Int.le_refl _)⟩
  | lastSeen lid t =>
    simp only [DiscOp.effect]
    by_cases hb : lid = id
    · subst hb
      simp only [h]
      split
      · rename_i hlt
        simp only [GMap.get?_set, if_true]
        exact ⟨t, rfl, .inl (Int.le_of_lt hlt)⟩
      · exact ⟨i.lastSeen, h, .inl (Int.le_refl _)⟩
    · split
      · exact ⟨i.lastSeen, h, .inl (Int.le_refl _)⟩
      · split
        · simp only [GMap.get?_set, if_neg hb]; exact ⟨i.lastSeen, h, .inl (Int.le_refl _)⟩
        · exact ⟨i.lastSeen, h, .inl (Int.le_refl _)⟩
  | get _ => exact ⟨i.lastSeen, h, .inl (Int.le_refl _)⟩
  | list => exact ⟨i.lastSeen, h, .inl (Int.le_refl _)⟩

theorem state_step {s s' : Disc} {ev : DiscEv} (hs : Disc.Step s ev s') :
    (∃ t op, ev = .effect t op ∧ s'.state = (op.effect s.state).1) ∨ (s'.state = s.state ∧ effects [ev] = []) := by
  cases hs with
  | @effect t op | @effectSend t op => exact .inl ⟨t, op, rfl, rfl⟩
  | send => exact .inr ⟨by simp, rfl⟩
  | _ => exact .inr ⟨rfl, rfl⟩

/-- The time of a known source was written by a method that took effect. -/
theorem time_written {s : Disc} {evs : List DiscEv} (h : Disc.Run {} evs s) {k : String} {i : Info} (hk : s.state.get? k = some i) :
    ∃ op ∈ effects evs, DiscOp.time op = some i.lastSeen := by
  generalize hs0 : ({} : Disc) = s0 at h
  induction h with
  | nil => subst hs0; simp at hk
  | snoc _ hs ih =>
    rw [effects_append]
    rcases state_step hs with ⟨t, op, rfl, hst⟩ | ⟨hst, -⟩
    · rw [hst] at hk
      rcases effect_time op hk with hk | hk
      · obtain ⟨o, ho, ht⟩ := ih hk
        exact ⟨o, List.mem_append_left _ ho, ht⟩
      · exact ⟨op, List.mem_append_right _ (by simp [effects]), hk⟩
    · rw [hst] at hk
      obtain ⟨o, ho, ht⟩ := ih hk
      exact ⟨o, List.mem_append_left _ ho, ht⟩

/-- C47, for callers that do not write times ahead of the clock: while a source is not forgotten it stays known and its LastSeen does not decrease.
Missing: `Add` and `lastSeen` accept a time in the future, see `C47_counterexample`. -/
theorem C47_monotone_partial {s s' : Disc} {evs evs' : List DiscEv} (h : Disc.Run {} evs s) (h' : Disc.Run s evs' s')
    (ht : Timely (effects (evs ++ evs'))) {id : String} (hno : .forget id ∉ effects evs') {i : Info}
    (hi : discGet s.state id = some i) :
    ∃ i', discGet s'.state id = some i' ∧ i.lastSeen ≤ i'.lastSeen := by
  induction h' with
  | nil => exact ⟨i, hi, Int.le_refl _⟩
  | @snoc s1 s2 evs' ev hr hs ih =>
    rw [effects_append] at hno
    rw [← List.append_assoc, effects_append] at ht
    have ht' := List.pairwise_append.1 ht
    obtain ⟨j, hj, hle⟩ := ih ht'.1 (fun hm => hno (List.mem_append_left _ hm))
    rcases state_step hs with ⟨t, op, rfl, hst⟩ | ⟨hst, -⟩
    · have hne : op ≠ .forget id := by rintro rfl; exact hno (List.mem_append_right _ (by simp [effects]))
      obtain ⟨τ, hτ, hc⟩ := effect_keeps op hj hne
      refine ⟨_, by unfold discGet; rw [hst]; exact hτ, ?_⟩
      rcases hc with hc | ⟨b, now, rfl, rfl⟩
      · exact Int.le_trans hle hc
      · obtain ⟨o, ho, hot⟩ := time_written (disc_trans h hr) hj
        have := ht'.2.2 o ho (.observe b τ) (by simp [effects]) b τ j.lastSeen rfl hot
        exact Int.le_trans hle this
    · exact ⟨j, by unfold discGet; rw [hst]; exact hj, hle⟩

/-! ## C48 -/

/-- C48, the time: after a beacon its source is known, with the time of the beacon. -/
theorem C48_seen_partial {s s' : Disc} {t : Nat} {b : Beacon} {now : Int} (hs : Disc.Step s (.effect t (.observe b now)) s') :
    ∃ i, discGet s'.state b.identity = some i ∧ i.lastSeen = now := by
  rcases state_step hs with ⟨t, op, he, hst⟩ | ⟨-, he⟩
  · cases he
    unfold discGet
    rw [hst]
    simp only [DiscOp.effect]
    split <;> simp [Beacon.toInfo]
  · simp [effects] at he

/-- C48, for the first beacon of a source: the source has the beacon's data as long as it is not forgotten.
Missing: the data of later beacons is ignored, see `C48_counterexample`. -/
theorem C48_first_partial {s s1 s2 : Disc} {t : Nat} {b : Beacon} {now : Int} {evs : List DiscEv}
    (hn : discGet s.state b.identity = none) (hs : Disc.Step s (.effect t (.observe b now)) s1) (h : Disc.Run s1 evs s2)
    (hno : .forget b.identity ∉ effects evs) :
    ∃ i, discGet s2.state b.identity = some i ∧ i.id = b.identity ∧ i.address = b.address ∧ i.direct = b.direct ∧
      i.type = b.sourceType ∧ i.version = b.version.toNat := by
  have h1 : ∃ τ, discGet s1.state b.identity = some { b.toInfo now with lastSeen := τ } := by
    rcases state_step hs with ⟨t, op, he, hst⟩ | ⟨-, he⟩
    · cases he
      unfold discGet at hn ⊢
      rw [hst]
      simp only [DiscOp.effect, hn, GMap.get?_set_self]
      exact ⟨now, rfl⟩
    · simp [effects] at he
  suffices hτ : ∃ τ, discGet s2.state b.identity = some { b.toInfo now with lastSeen := τ } by
    obtain ⟨τ, hτ⟩ := hτ
    exact ⟨_, hτ, rfl, rfl, rfl, rfl, rfl⟩
  clear hn hs
  induction h with
  | nil => exact h1
  | snoc _ hs ih =>
    rw [effects_append] at hno
    obtain ⟨τ, hτ⟩ := ih (fun hm => hno (List.mem_append_left _ hm))
    rcases state_step hs with ⟨t, op, rfl, hst⟩ | ⟨hst, -⟩
    · have hne : op ≠ .forget b.identity := by rintro rfl; exact hno (List.mem_append_right _ (by simp [effects]))
      obtain ⟨τ', hτ', -⟩ := effect_keeps op hτ hne
      exact ⟨τ', by unfold discGet; rw [hst]; exact hτ'⟩
    · exact ⟨τ, by unfold discGet; rw [hst]; exact hτ⟩

/-! ## Runs of single calls -/

/-- A call that sends nothing. -/
theorem run_quiet {s : Disc} {t : Nat} (op : DiscOp) (ht : t ≠ 0) (hp : s.pcs t = .out) (hl : s.lock = none) (he : (op.effect s.state).2 = none) :
    Disc.Run s [.call t op, .effect t op] { s with state := (op.effect s.state).1 } := by
  have r1 := (Disc.Run.nil (s := s)).snoc (.call t op hp (fun h => absurd h ht))
  have r2 := r1.snoc (.effect (t := t) (op := op) (by simp) (by simpa using hl) (by simpa using he))
  have : ({ (s.at t (.wanting op)).at t .out with state := (op.effect (s.at t (.wanting op)).state).1 } : Disc) =
      { s with state := (op.effect s.state).1 } := by
    simp only [Disc.at]
    congr 1
    funext u
    by_cases hu : u = t
    · subst hu; simp [hp]
    · simp [hu]
  rw [this] at r2
  exact r2

/-- A call that sends a note for which there is room. -/
theorem run_note {s : Disc} {t : Nat} (op : DiscOp) {n : DiscNote} (ht : t ≠ 0) (hp : s.pcs t = .out) (hl : s.lock = none)
    (he : (op.effect s.state).2 = some n) (hr : s.room n) :
    Disc.Run s [.call t op, .effect t op, .sent n] { s.push n with state := (op.effect s.state).1 } := by
  have r1 := (Disc.Run.nil (s := s)).snoc (.call t op hp (fun h => absurd h ht))
  have r2 := r1.snoc (.effectSend (t := t) (op := op) (n := n) (by simp) (by simpa using hl) (by simpa using he))
  have r3 := r2.snoc (.send (t := t) (n := n) (by simp) (by cases n <;> exact hr))
  have : ∀ m : GMap String Info, ({ (({ (s.at t (.wanting op)).at t (.sending n) with
        state := m, lock := some t } : Disc).push n).at t .out with lock := none } : Disc) =
      { s.push n with state := m } := by
    intro m
    cases n <;>
    · simp only [Disc.at, Disc.push, hl]
      congr 1
      funext u
      by_cases hu : u = t
      · subst hu; simp [hp]
      · simp [hu]
  rw [this] at r3
  exact r3

/-! ## C47, C48: the counterexamples -/

/-- C47 fails for an `Add` of a source with a time in the future, though the clock only goes forward: the next beacon sets the time back. -/
theorem C47_counterexample :
    ∃ evs s evs' s' i i', Disc.Run {} evs s ∧ Disc.Run s evs' s' ∧ .forget "x" ∉ effects evs' ∧
      (effects (evs ++ evs')).Pairwise (fun a b => ∀ bc bc' now now', a = .observe bc now → b = .observe bc' now' → now ≤ now') ∧
      discGet s.state "x" = some i ∧ discGet s'.state "x" = some i' ∧ i'.lastSeen < i.lastSeen := by
  have r1 := run_note (s := {}) (t := 2) (.add { id := "x", lastSeen := 10 }) (n := .discovered { id := "x", lastSeen := 10 })
    (by decide) rfl rfl (by decide) (by decide)
  exact ⟨_, _, _, _, { id := "x", lastSeen := 10 }, { id := "x", lastSeen := 5 }, r1,
    run_quiet (t := 1) (.observe { identity := "x" } 5) (by decide) (by rfl) (by rfl) (by decide), by decide, by simp [effects], by decide, by decide, by decide⟩

/-- C48 fails: a source that moved to another address is still known under its first one. -/
theorem C48_counterexample :
    ∃ (evs : List DiscEv) (s : Disc) (b : Beacon) (now : Int) (i : Info), Disc.Run {} (evs ++ [.effect 1 (.observe b now)]) s ∧
      discGet s.state b.identity = some i ∧ i.address ≠ b.address ∧ i.direct ≠ b.direct ∧ i.type ≠ b.sourceType ∧
        i.version ≠ b.version.toNat := by
  have r1 := run_note (s := {}) (t := 1) (.observe { identity := "x", address := "mc/1", direct := "sfe.1", sourceType := "CONTROLLER", version := 1 } 5)
    (n := .discovered { id := "x", address := "mc/1", direct := "sfe.1", type := "CONTROLLER", version := 1, lastSeen := 5 })
    (by decide) rfl rfl (by decide) (by decide)
  have r2 := disc_trans r1 <| run_quiet (t := 1)
    (.observe { identity := "x", address := "mc/2", direct := "sfe.2", sourceType := "ROUTER", version := 2 } 6) (by decide) (by rfl) (by rfl) (by decide)
  exact ⟨[_, _, _, _], _, _, 6, { id := "x", address := "mc/1", direct := "sfe.1", type := "CONTROLLER", version := 1, lastSeen := 6 },
    r2, by decide, by decide, by decide, by decide, by decide⟩

/-! ## C49 -/

theorem deadlock_step {s s' : Disc} {ev : DiscEv} (hi : DiscInv s) (hd : Deadlocked s) (hs : Disc.Step s ev s') :
    Deadlocked s' ∧ ∃ t op, ev = .call t op := by
  obtain ⟨u, n, hl, hp, hr, hh⟩ := hd
  cases hs with
  | call t op ht h0 =>
    have hne : u ≠ t := by rintro rfl; rw [hp] at ht; cases ht
    refine ⟨⟨u, n, hl, by simp [hne, hp], by cases n <;> exact hr, hh.imp id fun h0' => ?_⟩, t, op, rfl⟩
    by_cases h : (0 : Nat) = t
    · subst h; exact absurd ht h0'
    · simpa [h] using h0'
  | effect _ hn => rw [hl] at hn; cases hn
  | effectSend _ hn => rw [hl] at hn; cases hn
  | send hp' hr' =>
    have := hi.sending _ _ hp'
    rw [hl] at this; cases this
    rw [hp] at hp'; cases hp'
    exact absurd hr' hr
  | takeDiscovered hidle | takeForgotten hidle | handlerStop hidle =>
    rcases hh with hh | hh
    · rw [hidle] at hh; cases hh
    · obtain ⟨m, hm⟩ := hi.inHandler hh; rw [hidle] at hm; cases hm
  | handlerDone hrun hout =>
    rcases hh with hh | hh
    · rw [hrun] at hh; cases hh
    · exact absurd hout hh

/-- C49: a deadlock is for ever: methods can still be called, but none takes effect and no handler is called or returns. -/
theorem C49_deadlock_forever {s s' : Disc} {evs evs' : List DiscEv} (h : Disc.Run {} evs s) (hd : Deadlocked s)
    (h' : Disc.Run s evs' s') : OnlyCalls evs' ∧ Deadlocked s' := by
  have hi := discInv_run h discInv_init
  induction h' with
  | nil => exact ⟨fun ev h => by simp at h, hd⟩
  | snoc hr hs ih =>
    obtain ⟨h1, h2⟩ := ih
    obtain ⟨h3, h4⟩ := deadlock_step (discInv_run hr hi) h2 hs
    refine ⟨fun ev hev => ?_, h3⟩
    rcases List.mem_append.1 hev with hev | hev
    · exact h1 ev hev
    · simp only [List.mem_singleton] at hev; subst hev; exact h4

/-- New sources announced while nobody takes notes fill the channel. -/
theorem run_fill (ids : List String) : ∀ {s : Disc}, s.lock = none → s.pcs 1 = .out → ids.Nodup → (∀ id ∈ ids, s.state.get? id = none) →
    s.discovered.length + ids.length ≤ discCap →
    ∃ evs s', Disc.Run s evs s' ∧ s'.lock = none ∧ s'.pcs = s.pcs ∧ s'.handler = s.handler ∧
      s'.discovered.length = s.discovered.length + ids.length ∧ s'.forgotten = s.forgotten ∧
      ∀ id, id ∉ ids → s'.state.get? id = s.state.get? id := by
  induction ids with
  | nil => intro s hl _ _ _ _; exact ⟨[], s, .nil, hl, rfl, rfl, rfl, rfl, fun _ _ => rfl⟩
  | cons id ids ih =>
    intro s hl hp hnd hun hlen
    have he : (DiscOp.effect s.state (.observe { identity := id } 0)) =
        (s.state.set id (Beacon.toInfo { identity := id } 0), some (.discovered (Beacon.toInfo { identity := id } 0))) := by
      simp only [DiscOp.effect, hun id (by simp)]
    have r := run_note (s := s) (t := 1) (.observe { identity := id } 0) (n := .discovered (Beacon.toInfo { identity := id } 0)) (by decide)
      hp hl (by rw [he]) (by simp only [Disc.room]; simp only [List.length_cons] at hlen; omega)
    rw [he] at r
    rw [List.nodup_cons] at hnd
    obtain ⟨evs, s', r', h1, h2, h3, h4, h5, h6⟩ := ih (s := { s.push (.discovered (Beacon.toInfo { identity := id } 0)) with
      state := s.state.set id (Beacon.toInfo { identity := id } 0) }) hl hp hnd.2
      (fun j hj => by
        simp only
        rw [GMap.get?_set_ne _ _ (by rintro rfl; exact hnd.1 hj)]
        exact hun j (by simp [hj]))
      (by simp only [Disc.push, List.length_append, List.length_cons, List.length_nil] at hlen ⊢; omega)
    refine ⟨_, s', disc_trans r r', h1, h2, h3, ?_, h5, fun j hj => ?_⟩
    · rw [h4]; simp only [Disc.push, List.length_append, List.length_cons, List.length_nil]; omega
    · simp only [List.mem_cons, not_or] at hj
      rw [h6 j hj.2]
      exact GMap.get?_set_ne _ _ (Ne.symm hj.1)

/-- Thirty-two sources. -/
def manyIds : List String := (List.range 32).map fun k => toString k

/-- C49 fails when a Discovered handler calls back into Discovery, as vanflow-tool's does (`NewWatchClient` calls `Get`): while the handler runs, 33 more
sources are announced; the last beacon waits for room in the channel holding the lock, and the handler waits for the lock.
From then on nothing can happen but further goroutines getting stuck. -/
theorem C49_counterexample_handler :
    ∃ evs s i n, Disc.Run {} evs s ∧ s.handler = .running (.discovered i) ∧ s.pcs 0 = .wanting (.get i.id) ∧ s.pcs 1 = .sending n ∧
      ∀ evs' s', Disc.Run s evs' s' → OnlyCalls evs' := by
  have h0 : ∃ evs s1, Disc.Run {} evs s1 ∧ s1.lock = none ∧ s1.pcs = (fun _ => .out) ∧
      s1.handler = .running (.discovered (Beacon.toInfo { identity := "a" } 0)) ∧ s1.discovered = [] ∧
      ∀ id, id ≠ "a" → s1.state.get? id = none := by
    have r1 := run_note (s := {}) (t := 1) (.observe { identity := "a" } 0) (n := .discovered (Beacon.toInfo { identity := "a" } 0)) (by decide) rfl rfl
      (by decide) (by decide)
    have r2 := r1.snoc (.takeDiscovered (i := Beacon.toInfo { identity := "a" } 0) (rest := []) rfl rfl)
    refine ⟨_, _, r2, rfl, rfl, rfl, rfl, fun id hid => ?_⟩
    simp [DiscOp.effect, GMap.set, GMap.get?, Ne.symm hid]
  have hnd : manyIds.Nodup := by decide +kernel
  have hb : "b" ∉ manyIds := by decide +kernel
  have hall : ∀ id ∈ manyIds, id ≠ "a" := by decide +kernel
  obtain ⟨evs1, s1, r2, hl, hpc, hrun, hdis, hst⟩ := h0
  obtain ⟨evs, s2, r3, h1, h2, h3, h4, h5, h6⟩ := run_fill manyIds (s := s1) hl (by rw [hpc]) hnd
    (fun id hid => hst id (hall id hid)) (by rw [hdis]; decide)
  have he : DiscOp.effect s2.state (.observe { identity := "b" } 0) =
      (s2.state.set "b" (Beacon.toInfo { identity := "b" } 0), some (.discovered (Beacon.toInfo { identity := "b" } 0))) := by
    simp only [DiscOp.effect, h6 "b" hb, hst "b" (by decide)]
  have r4 := (disc_trans r2 r3).snoc (.call 1 (.observe { identity := "b" } 0) (by rw [h2, hpc]) (fun h => by simp at h))
  have r5 := r4.snoc (.effectSend (t := 1) (op := .observe { identity := "b" } 0) (n := .discovered (Beacon.toInfo { identity := "b" } 0))
    (by simp) (by simpa using h1) (by simp [he]))
  have r6 := r5.snoc (.call 0 (.get "a") (by simp [h2, hpc]) (fun _ => ⟨.discovered (Beacon.toInfo { identity := "a" } 0), by
    show s2.handler = _; rw [h3, hrun]⟩))
  refine ⟨_, _, Beacon.toInfo { identity := "a" } 0, .discovered (Beacon.toInfo { identity := "b" } 0), r6, ?_, ?_, ?_, fun evs' s' h' => ?_⟩
  · show s2.handler = _; rw [h3, hrun]
  · simp [Beacon.toInfo]
  · simp
  · refine (C49_deadlock_forever r6 ⟨1, .discovered (Beacon.toInfo { identity := "b" } 0), rfl, by simp, ?_, .inr (by simp)⟩ h').1
    show ¬ s2.discovered.length < discCap
    rw [h4, hdis]; decide

/-- C49 fails after Run has returned (its context ended, or receiving a beacon failed): the 33rd `Add` keeps the lock for ever, and so `Get`, `List`,
`Forget` and every watch block. -/
theorem C49_counterexample_stopped :
    ∃ evs s op n, Disc.Run {} evs s ∧ s.handler = .stopped ∧ .call 2 op ∈ evs ∧ s.pcs 2 = .sending n ∧
      ∀ evs' s', Disc.Run s evs' s' → OnlyCalls evs' := by
  have h0 : ∃ evs s1, Disc.Run {} evs s1 ∧ s1.lock = none ∧ s1.pcs = (fun _ => .out) ∧
      s1.handler = .stopped ∧ s1.discovered = [] ∧ ∀ id, s1.state.get? id = none :=
    ⟨_, _, (Disc.Run.nil (s := {})).snoc (.handlerStop rfl), rfl, rfl, rfl, rfl, fun _ => rfl⟩
  have hnd : manyIds.Nodup := by decide +kernel
  have hb : "b" ∉ manyIds := by decide +kernel
  obtain ⟨evs1, s1, r2, hl, hpc, hrun, hdis, hst⟩ := h0
  obtain ⟨evs, s2, r3, h1, h2, h3, h4, h5, h6⟩ := run_fill manyIds (s := s1) hl (by rw [hpc]) hnd
    (fun id hid => hst id) (by rw [hdis]; decide)
  have he : DiscOp.effect s2.state (.add { id := "b" }) = (s2.state.set "b" { id := "b" }, some (.discovered { id := "b" })) := by
    simp only [DiscOp.effect, h6 "b" hb, hst "b"]
  have r4 := (disc_trans r2 r3).snoc (.call 2 (.add { id := "b" }) (by rw [h2, hpc]) (fun h => by simp at h))
  have r5 := r4.snoc (.effectSend (t := 2) (op := .add { id := "b" }) (n := .discovered { id := "b" })
    (by simp) (by simpa using h1) (by simp [he]))
  have hstop : s2.handler = .stopped := by rw [h3, hrun]
  refine ⟨_, _, .add { id := "b" }, .discovered { id := "b" }, r5, hstop, by simp, by simp, fun evs' s' h' => ?_⟩
  refine (C49_deadlock_forever r5 ⟨2, .discovered { id := "b" }, rfl, by simp, ?_, .inl hstop⟩ h').1
  show ¬ s2.discovered.length < discCap
  rw [h4, hdis]; decide

/-- No goroutine starts a call. -/
def NoCalls (evs : List DiscEv) : Prop := ∀ t op, .call t op ∉ evs

theorem NoCalls.append {a b : List DiscEv} (ha : NoCalls a) (hb : NoCalls b) : NoCalls (a ++ b) := fun t op h =>
  (List.mem_append.1 h).elim (ha t op) (hb t op)

/-- The channels never hold more than their capacity. -/
theorem cap_run {s : Disc} {evs : List DiscEv} (h : Disc.Run {} evs s) : s.discovered.length ≤ discCap ∧ s.forgotten.length ≤ discCap := by
  generalize hs0 : ({} : Disc) = s0 at h
  induction h with
  | nil => subst hs0; decide
  | snoc _ hs ih =>
    cases hs with
    | @send t n hp hr =>
      cases n <;> simp only [Disc.push, Disc.at, Disc.room, List.length_append, List.length_cons, List.length_nil] at hr ⊢ <;> omega
    | takeDiscovered _ hq => rw [hq] at ih; simp only [List.length_cons] at ih ⊢; omega
    | takeForgotten _ hq => rw [hq] at ih; simp only [List.length_cons] at ih ⊢; omega
    | _ => exact ih

/-- The handler goroutine, when it is alive and not inside a method, makes room. -/
theorem make_room {s : Disc} (n : DiscNote) (hh : s.handler ≠ .stopped) (hp : s.pcs 0 = .out)
    (hc : s.discovered.length ≤ discCap ∧ s.forgotten.length ≤ discCap) :
    ∃ evs s', Disc.Run s evs s' ∧ NoCalls evs ∧ s'.lock = s.lock ∧ s'.pcs = s.pcs ∧ s'.handler ≠ .stopped ∧ s'.room n := by
  have idle : ∃ evs s', Disc.Run s evs s' ∧ NoCalls evs ∧ s'.lock = s.lock ∧ s'.pcs = s.pcs ∧ s'.handler = .idle ∧
      s'.discovered = s.discovered ∧ s'.forgotten = s.forgotten := by
    cases hc : s.handler with
    | idle => exact ⟨[], s, .nil, fun t op h => by simp at h, rfl, rfl, hc, rfl, rfl⟩
    | running m => exact ⟨_, _, Disc.Run.nil.snoc (.handlerDone hc hp), fun t op h => by simp at h, rfl, rfl, rfl, rfl, rfl⟩
    | stopped => exact absurd hc hh
  obtain ⟨evs, s1, r1, hn, hl, hpc, hid, hd, hf⟩ := idle
  by_cases hr : s1.room n
  · exact ⟨evs, s1, r1, hn, hl, hpc, by rw [hid]; simp, hr⟩
  · cases n with
    | discovered i =>
      simp only [Disc.room, hd, discCap] at hr hc
      obtain ⟨x, xs, hx⟩ : ∃ x xs, s1.discovered = x :: xs := by
        cases hq : s1.discovered with
        | nil => rw [hd] at hq; simp [hq] at hr
        | cons x xs => exact ⟨x, xs, rfl⟩
      refine ⟨_, _, r1.snoc (.takeDiscovered hid hx), hn.append (fun t op h => by simp at h), hl, hpc, by simp, ?_⟩
      simp only [Disc.room, discCap]
      have := congrArg List.length hx; rw [hd] at this; simp at this; omega
    | forgotten i =>
      simp only [Disc.room, hf, discCap] at hr hc
      obtain ⟨x, xs, hx⟩ : ∃ x xs, s1.forgotten = x :: xs := by
        cases hq : s1.forgotten with
        | nil => rw [hf] at hq; simp [hq] at hr
        | cons x xs => exact ⟨x, xs, rfl⟩
      refine ⟨_, _, r1.snoc (.takeForgotten hid hx), hn.append (fun t op h => by simp at h), hl, hpc, by simp, ?_⟩
      simp only [Disc.room, discCap]
      have := congrArg List.length hx; rw [hf] at this; simp at this; omega

/-- The goroutine that sends can finish. -/
theorem finish_send {s : Disc} {evs0 : List DiscEv} (h0 : Disc.Run {} evs0 s) {t : Nat} {n : DiscNote} (ht : s.pcs t = .sending n)
    (hh : s.handler ≠ .stopped) (hp : s.pcs 0 = .out) :
    ∃ evs s', Disc.Run s evs s' ∧ NoCalls evs ∧ s'.lock = none ∧ (∀ u, s'.pcs u = if u = t then .out else s.pcs u) ∧ s'.handler ≠ .stopped := by
  obtain ⟨evs, s1, r1, hn, hl, hpc, hst, hr⟩ := make_room n hh hp (cap_run h0)
  refine ⟨_, _, r1.snoc (.send (t := t) (n := n) (by rw [hpc]; exact ht) hr), hn.append (fun t op h => by simp at h), rfl, fun u => ?_, ?_⟩
  · simp [hpc]
  · simpa using hst

/-- The lock can be released. -/
theorem free_lock {s : Disc} {evs0 : List DiscEv} (h0 : Disc.Run {} evs0 s) (hh : s.handler ≠ .stopped) (hp : s.pcs 0 = .out) :
    ∃ evs s', Disc.Run s evs s' ∧ NoCalls evs ∧ s'.lock = none ∧ (∀ u, s'.pcs u = s.pcs u ∨ (s'.pcs u = .out ∧ ∃ n, s.pcs u = .sending n)) ∧
      s'.handler ≠ .stopped := by
  cases hl : s.lock with
  | none => exact ⟨[], s, .nil, fun t op h => by simp at h, hl, fun _ => .inl rfl, hh⟩
  | some t =>
    obtain ⟨n, hn⟩ := (discInv_run h0 discInv_init).held t hl
    obtain ⟨evs, s', r, h1, h2, h3, h4⟩ := finish_send h0 hn hh hp
    refine ⟨evs, s', r, h1, h2, fun u => ?_, h4⟩
    by_cases hu : u = t
    · subst hu; exact .inr ⟨by simp [h3], n, hn⟩
    · exact .inl (by simp [h3, hu])

theorem finish_any {s : Disc} {evs0 : List DiscEv} (h0 : Disc.Run {} evs0 s) (hh : s.handler ≠ .stopped) (hp : s.pcs 0 = .out) (t : Nat) :
    ∃ evs s', Disc.Run s evs s' ∧ NoCalls evs ∧ s'.pcs t = .out := by
  obtain ⟨evs1, s1, r1, hn1, hl1, hpc1, hst1⟩ := free_lock h0 hh hp
  have h01 := disc_trans h0 r1
  have hp1 : s1.pcs 0 = .out := by rcases hpc1 0 with h | ⟨h, -⟩; exact h.trans hp; exact h
  cases hw : s1.pcs t with
  | out => exact ⟨evs1, s1, r1, hn1, hw⟩
  | sending n =>
    have := (discInv_run h01 discInv_init).sending t n hw
    rw [hl1] at this; cases this
  | wanting op =>
    cases he : (op.effect s1.state).2 with
    | none => exact ⟨_, _, r1.snoc (.effect hw hl1 he), hn1.append (fun t op h => by simp at h), by simp⟩
    | some n =>
      have r2 := r1.snoc (.effectSend hw hl1 he)
      have ht0 : (0 : Nat) ≠ t := by rintro rfl; rw [hp1] at hw; cases hw
      obtain ⟨evs3, s3, r3, hn3, -, h3, -⟩ := finish_send (t := t) (n := n) (disc_trans h0 r2) (by simp) (by simpa using hst1) (by simp [ht0, hp1])
      exact ⟨_, s3, disc_trans r2 r3, (hn1.append (fun t op h => by simp at h)).append hn3, by simp [h3]⟩

/-- C49, for handlers that do not call back into Discovery, while Run runs: in every reachable state every goroutine inside a method can finish it, without
another call being needed.
Missing: handlers that call back, see `C49_counterexample_handler`; the time after Run has returned, see `C49_counterexample_stopped`. -/
theorem C49_progress_partial {s : Disc} {evs : List DiscEv} (h : Disc.Run {} evs s) (hno : ∀ op, .call 0 op ∉ evs) (hrun : .handlerStopped ∉ evs) (t : Nat) :
    ∃ evs' s', Disc.Run s evs' s' ∧ (∀ u op, .call u op ∉ evs') ∧ s'.pcs t = .out := by
  have hinv : s.pcs 0 = .out ∧ s.handler ≠ .stopped := by
    clear t
    generalize hs0 : ({} : Disc) = s0 at h
    induction h with
    | nil => subst hs0; exact ⟨rfl, by simp⟩
    | snoc hr hs ih =>
      obtain ⟨h1, h2⟩ := ih (fun op hm => hno op (List.mem_append_left _ hm)) (fun hm => hrun (List.mem_append_left _ hm))
      cases hs with
      | call t op =>
        refine ⟨?_, h2⟩
        have : (0 : Nat) ≠ t := by rintro rfl; exact hno op (by simp)
        simpa [this] using h1
      | @effect t op hp =>
        refine ⟨?_, h2⟩
        simp [h1]
      | @effectSend t op n hp =>
        refine ⟨?_, h2⟩
        have : (0 : Nat) ≠ t := by rintro rfl; rw [h1] at hp; cases hp
        simpa [this] using h1
      | send => exact ⟨by simp [h1], by simpa using h2⟩
      | takeDiscovered | takeForgotten | handlerDone => exact ⟨h1, by simp⟩
      | handlerStop => exact absurd (by simp) hrun
  exact finish_any h hinv.2 hinv.1 t

/-- C49, for handlers that call back into Discovery: as long as each channel has room for two more notes, every goroutine inside a method can finish it. -/
theorem C49_room_partial {s : Disc} {evs : List DiscEv} (h : Disc.Run {} evs s) (hh : s.handler ≠ .stopped)
    (hd : s.discovered.length + 2 ≤ discCap) (hf : s.forgotten.length + 2 ≤ discCap) (t : Nat) :
    ∃ evs' s', Disc.Run s evs' s' ∧ (∀ u op, .call u op ∉ evs') ∧ s'.pcs t = .out := by
  have hi := discInv_run h discInv_init
  -- whoever holds the lock sends its note
  have h1 : ∃ evs1 s1, Disc.Run s evs1 s1 ∧ NoCalls evs1 ∧ s1.lock = none ∧ s1.handler ≠ .stopped ∧
      s1.discovered.length < discCap ∧ s1.forgotten.length < discCap := by
    cases hl : s.lock with
    | none => exact ⟨[], s, .nil, fun t op h => by simp at h, hl, hh, by omega, by omega⟩
    | some u =>
      obtain ⟨n, hn⟩ := hi.held u hl
      refine ⟨_, _, Disc.Run.nil.snoc (.send hn (by cases n <;> simp only [Disc.room] <;> omega)), fun t op h => by simp at h, rfl, by simpa using hh, ?_, ?_⟩ <;>
        cases n <;> simp only [Disc.push, Disc.at, List.length_append, List.length_cons, List.length_nil] <;> omega
  obtain ⟨evs1, s1, r1, hn1, hl1, hst1, hd1, hf1⟩ := h1
  have h01 := disc_trans h r1
  -- then the handler's goroutine finishes its method
  have h2 : ∃ evs2 s2, Disc.Run s1 evs2 s2 ∧ NoCalls evs2 ∧ s2.pcs 0 = .out ∧ s2.handler ≠ .stopped := by
    cases hw : s1.pcs 0 with
    | out => exact ⟨[], s1, .nil, fun t op h => by simp at h, hw, hst1⟩
    | sending n =>
      have := (discInv_run h01 discInv_init).sending 0 n hw
      rw [hl1] at this; cases this
    | wanting op =>
      cases he : (op.effect s1.state).2 with
      | none => exact ⟨_, _, Disc.Run.nil.snoc (.effect hw hl1 he), fun t op h => by simp at h, by simp, hst1⟩
      | some n =>
        have r2 := Disc.Run.nil.snoc (.effectSend hw hl1 he)
        exact ⟨_, _, r2.snoc (.send (t := 0) (n := n) (by simp) (by cases n <;> simp only [Disc.room, Disc.at] <;> assumption)), fun t op h => by simp at h,
          by simp, by simpa using hst1⟩
  obtain ⟨evs2, s2, r2, hn2, hp2, hst2⟩ := h2
  obtain ⟨evs3, s3, r3, hn3, h3⟩ := finish_any (disc_trans h01 r2) hst2 hp2 t
  exact ⟨_, s3, disc_trans (disc_trans r1 r2) r3, (hn1.append hn2).append hn3, h3⟩

/-! ## C50 -/

theorem notesSent_append (a b : List DiscEv) : notesSent (a ++ b) = notesSent a ++ notesSent b := by simp [notesSent]
theorem notesHandled_append (a b : List DiscEv) : notesHandled (a ++ b) = notesHandled a ++ notesHandled b := by simp [notesHandled]
theorem discoveredOf_append (a b : List DiscNote) : discoveredOf (a ++ b) = discoveredOf a ++ discoveredOf b := by simp [discoveredOf]
theorem forgottenOf_append (a b : List DiscNote) : forgottenOf (a ++ b) = forgottenOf a ++ forgottenOf b := by simp [forgottenOf]

/-- C50 fails: a source is added and forgotten while the handler goroutine is busy; it then takes the forgetting first, and a consumer ends up with a source
that is not known. -/
theorem C50_counterexample :
    ∃ evs s, Disc.Run {} evs s ∧ s.lock = none ∧ s.handler = .idle ∧ s.discovered = [] ∧ s.forgotten = [] ∧
      notesHandled evs ≠ notesSent evs ∧ discGet s.state "x" = none ∧ "x" ∈ consumerSet (notesHandled evs) := by
  have r1 := run_note (s := {}) (t := 2) (.add { id := "x" }) (n := .discovered { id := "x" }) (by decide) rfl rfl (by decide) (by decide)
  have r2 := disc_trans r1 <| run_note (t := 2) (.forget "x") (n := .forgotten { id := "x" }) (by decide) (by rfl) (by rfl) (by decide) (by decide)
  have r3 := r2.snoc (.takeForgotten (i := { id := "x" }) (rest := []) rfl rfl)
  have r4 := r3.snoc (.handlerDone (n := .forgotten { id := "x" }) rfl rfl)
  have r5 := r4.snoc (.takeDiscovered (i := { id := "x" }) (rest := []) rfl rfl)
  have r6 := r5.snoc (.handlerDone (n := .discovered { id := "x" }) rfl rfl)
  exact ⟨_, _, r6, rfl, rfl, rfl, rfl, by decide, by decide, by decide⟩

/-- C50, within a kind: the discoveries are handled in the order they were sent, none lost or repeated, and so are the forgettings.
Missing: the order between the two kinds, see `C50_counterexample`. -/
theorem C50_fifo_partial {evs : List DiscEv} {s : Disc} (h : Disc.Run {} evs s) :
    discoveredOf (notesHandled evs) ++ s.discovered = discoveredOf (notesSent evs) ∧
      forgottenOf (notesHandled evs) ++ s.forgotten = forgottenOf (notesSent evs) := by
  generalize hs0 : ({} : Disc) = s0 at h
  induction h with
  | nil => subst hs0; exact ⟨rfl, rfl⟩
  | snoc _ hs ih =>
    rw [notesSent_append, notesHandled_append, discoveredOf_append, forgottenOf_append, discoveredOf_append, forgottenOf_append]
    obtain ⟨h1, h2⟩ := ih
    rw [← h1, ← h2]
    cases hs with
    | @send t n hp hr => cases n <;> simp [notesSent, notesHandled, discoveredOf, forgottenOf, Disc.push, Disc.at]
    | takeDiscovered _ hq => simp [notesSent, notesHandled, discoveredOf, forgottenOf, hq]
    | takeForgotten _ hq => simp [notesSent, notesHandled, discoveredOf, forgottenOf, hq]
    | _ => simp [notesSent, notesHandled, discoveredOf, forgottenOf, Disc.at]

theorem noteFlags_count_true (id : String) (ns : List DiscNote) :
    (noteFlags id ns).count true = (discoveredOf ns).countP (fun i => decide (i.id = id)) := by
  induction ns with
  | nil => rfl
  | cons n ns ih =>
    rw [show n :: ns = [n] ++ ns from rfl, noteFlags_append, noteFlags_single, discoveredOf_append, List.count_append, List.countP_append, ih]
    congr 1
    cases n with
    | discovered i => by_cases h : i.id = id <;> simp [DiscNote.info, isDiscovered, discoveredOf, h]
    | forgotten i => by_cases h : i.id = id <;> simp [DiscNote.info, isDiscovered, discoveredOf, h]

theorem noteFlags_count_false (id : String) (ns : List DiscNote) :
    (noteFlags id ns).count false = (forgottenOf ns).countP (fun i => decide (i.id = id)) := by
  induction ns with
  | nil => rfl
  | cons n ns ih =>
    rw [show n :: ns = [n] ++ ns from rfl, noteFlags_append, noteFlags_single, forgottenOf_append, List.count_append, List.countP_append, ih]
    congr 1
    cases n with
    | discovered i => by_cases h : i.id = id <;> simp [DiscNote.info, isDiscovered, forgottenOf, h]
    | forgotten i => by_cases h : i.id = id <;> simp [DiscNote.info, isDiscovered, forgottenOf, h]

/-- C50, for a consumer that counts: when all notes have been handled, the sources handled as discovered once more than as forgotten are the known ones. -/
theorem C50_count_partial {evs : List DiscEv} {s : Disc} (h : Disc.Run {} evs s) (hl : s.lock = none) (hd : s.discovered = []) (hf : s.forgotten = [])
    (id : String) :
    (noteFlags id (notesHandled evs)).count true =
      (noteFlags id (notesHandled evs)).count false + (if (discGet s.state id).isSome then 1 else 0) := by
  have h1 := C46_quiet h hl id
  obtain ⟨h2, h3⟩ := C50_fifo_partial h
  rw [hd, List.append_nil] at h2
  rw [hf, List.append_nil] at h3
  rw [noteFlags_count_true, noteFlags_count_false, h2, h3, ← noteFlags_count_true, ← noteFlags_count_false]
  exact h1

/-- C50, when the channels never hold both kinds: the notes are handled in the order they were sent. -/
theorem C50_order_partial {evs : List DiscEv} {s : Disc} (h : Disc.Run {} evs s)
    (hone : ∀ pre s1, pre <+: evs → Disc.Run {} pre s1 → s1.discovered = [] ∨ s1.forgotten = []) :
    notesHandled evs ++ (s.discovered.map .discovered ++ s.forgotten.map .forgotten) = notesSent evs := by
  generalize hs0 : ({} : Disc) = s0 at h hone
  induction h with
  | nil => subst hs0; rfl
  | @snoc s s' evs ev hr hs ih =>
    have h1 := ih (fun pre s1 hp => hone pre s1 (hp.trans (List.prefix_append _ _)))
    have h2 := hone (evs ++ [ev]) s' List.prefix_rfl (hr.snoc hs)
    rw [notesSent_append, notesHandled_append, ← h1]
    cases hs with
    | @send t n hp hr =>
      cases n with
      | discovered i =>
        simp only [Disc.push, Disc.at, List.append_eq_nil_iff, List.cons_ne_nil, and_false, false_or] at h2
        simp [notesSent, notesHandled, Disc.push, Disc.at, h2]
      | forgotten i =>
        simp [notesSent, notesHandled, Disc.push, Disc.at]
    | takeDiscovered _ hq => simp [notesSent, notesHandled, hq]
    | takeForgotten _ hq =>
      have h3 := hone evs s (List.prefix_append _ _) hr
      rw [hq] at h3
      simp only [List.cons_ne_nil, or_false] at h3
      simp [notesSent, notesHandled, hq, h3]
    | _ => simp [notesSent, notesHandled, Disc.at]

/-! ## C51 -/

/-- C51 fails: a message without properties, or without a subject, panics, and takes the process with it. -/
theorem C51_counterexample :
    (discReceive {}).isPanic = true ∧ (discReceive { props := some {} }).isPanic = true := by decide

/-- C51, for messages with a subject: a message that is not a beacon is skipped, and a beacon is decoded, whatever its application properties hold.
Missing: messages without properties or subject, see `C51_counterexample`. -/
theorem C51_subject_partial (msg : Msg) {p : MsgProps} {subj : String} (hp : msg.props = some p) (hs : p.subject = some subj) :
    (subj ≠ "BEACON" → discReceive msg = .ok none) ∧
      (subj = "BEACON" → ∃ b, discReceive msg = .ok (some b) ∧ decodeBeacon msg = .ok b) := by
  constructor
  · intro hb; simp [discReceive, hp, hs, hb]
  · intro hb; simp [discReceive, hp, hs, hb, decodeBeacon]

/-- C51: exactly the messages without properties or without a subject panic. -/
theorem C51_panics_partial (msg : Msg) :
    (discReceive msg).isPanic = true ↔ msg.props = none ∨ ∃ p, msg.props = some p ∧ p.subject = none := by
  unfold discReceive
  cases hp : msg.props with
  | none => simp
  | some p =>
    cases hs : p.subject with
    | none => simp [hs]
    | some subj =>
      by_cases hb : subj = "BEACON" <;> simp [hs, hb, decodeBeacon, hp]

/-! ## Instances -/

/-- A source is announced, handled, seen again, forgotten and announced again, and its forgetting is handled; another one is added. -/
theorem exDisc : ∃ evs s, Disc.Run {} evs s ∧ s.lock = none ∧ s.handler = .idle ∧ .handlerStopped ∉ evs ∧ (∀ op, .call 0 op ∉ evs) ∧
    noteFlags "x" (notesSent evs) = [true, false, true] ∧ Timely (effects evs) ∧ (discList s.state).length = 2 ∧
    s.discovered.length = 2 ∧ s.forgotten = [] ∧ (effects evs).length = 5 := by
  have r1 := run_note (s := {}) (t := 1) (.observe { identity := "x" } 5) (n := .discovered { id := "x", lastSeen := 5 })
    (by decide) rfl rfl (by decide) (by decide)
  have r2 := r1.snoc (.takeDiscovered (i := { id := "x", lastSeen := 5 }) (rest := []) rfl rfl)
  have r3 := r2.snoc (.handlerDone (n := .discovered { id := "x", lastSeen := 5 }) rfl rfl)
  have r4 := disc_trans r3 <| run_quiet (t := 1) (.observe { identity := "x" } 6) (by decide) (by rfl) (by rfl) (by decide)
  have r5 := disc_trans r4 <| run_note (t := 2) (.forget "x") (n := .forgotten { id := "x", lastSeen := 6 })
    (by decide) (by rfl) (by rfl) (by decide) (by decide)
  have r6 := disc_trans r5 <| run_note (t := 1) (.observe { identity := "x" } 7) (n := .discovered { id := "x", lastSeen := 7 })
    (by decide) (by rfl) (by rfl) (by decide) (by decide)
  have r7 := r6.snoc (.takeForgotten (i := { id := "x", lastSeen := 6 }) (rest := []) rfl rfl)
  have r8 := r7.snoc (.handlerDone (n := .forgotten { id := "x", lastSeen := 6 }) rfl rfl)
  have r9 := disc_trans r8 <| run_note (t := 3) (.add { id := "y", lastSeen := 7 }) (n := .discovered { id := "y", lastSeen := 7 })
    (by decide) (by rfl) (by rfl) (by decide) (by decide)
  refine ⟨_, _, r9, rfl, rfl, by simp, by simp, by decide, ?_, by decide, by decide, by decide, by decide⟩
  simp [Timely, effects, DiscOp.time]

/-- The state of `exDisc` meets the hypotheses of the theorems about progress and counts. -/
example : ∃ evs s, Disc.Run {} evs s ∧ (∃ evs' s', Disc.Run s evs' s' ∧ (∀ u op, .call u op ∉ evs') ∧ s'.pcs 1 = .out) ∧
    (noteFlags "x" (notesSent evs)).count true = (noteFlags "x" (notesSent evs)).count false + (if (discGet s.state "x").isSome then 1 else 0) := by
  obtain ⟨evs, s, h, hl, -, hs, hc, -⟩ := exDisc
  exact ⟨evs, s, h, C49_progress_partial h hc hs 1, C46_quiet h hl "x"⟩

example : ∃ evs s, Disc.Run {} evs s ∧ ∃ evs' s', Disc.Run s evs' s' ∧ (∀ u op, .call u op ∉ evs') ∧ s'.pcs 1 = .out := by
  obtain ⟨evs, s, h, -, hi, -, -, -, -, -, hd, hf, -⟩ := exDisc
  exact ⟨evs, s, h, C49_room_partial h (by rw [hi]; simp) (by rw [hd]; decide) (by rw [hf]; decide) 1⟩

/-- A source announced for the first time, then a second beacon: the hypotheses of `C48_first_partial`. -/
example : ∃ (b : Beacon) (s s1 s2 : Disc) (evs : List DiscEv), discGet s.state b.identity = none ∧ Disc.Step s (.effect 1 (.observe b 5)) s1 ∧
    Disc.Run s1 evs s2 ∧ .forget b.identity ∉ effects evs ∧ (effects evs).length = 1 := by
  have r1 := (Disc.Run.nil (s := {})).snoc (.call 1 (.observe { identity := "x", address := "mc/1" } 5) rfl (fun h => by simp at h))
  have h2 := Disc.Step.effectSend (s := Disc.at {} 1 (.wanting (.observe { identity := "x", address := "mc/1" } 5))) (t := 1)
    (op := .observe { identity := "x", address := "mc/1" } 5) (n := .discovered { id := "x", address := "mc/1", lastSeen := 5 }) rfl rfl (by decide)
  have r3 := Disc.Run.nil.snoc (Disc.Step.send (s := { (Disc.at {} 1 (.wanting (.observe { identity := "x", address := "mc/1" } 5))).at 1
    (.sending (.discovered { id := "x", address := "mc/1", lastSeen := 5 })) with
      state := (DiscOp.effect [] (.observe { identity := "x", address := "mc/1" } 5)).1, lock := some 1 }) (t := 1)
    (n := .discovered { id := "x", address := "mc/1", lastSeen := 5 }) rfl (by decide))
  have r4 := disc_trans r3 <| run_quiet (t := 1) (.observe { identity := "x", address := "mc/2" } 6) (by decide) (by rfl) (by rfl) (by decide)
  exact ⟨_, _, _, _, _, by decide, h2, r4, by decide, by decide⟩

end Verif.Props
