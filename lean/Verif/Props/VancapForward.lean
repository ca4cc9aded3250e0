import Verif.Spec.VancapForward
import Verif.Spec.Vancap

/-!
# C91: the capture reports what happened to it
-/
namespace Verif.Props
open Verif Verif.Model Verif.Spec

/-- The port forward goroutine has put nil into `err`. -/
def nilled (b : List VfEv) : Prop := .forwardReturns none ∈ b

/-- The port forward goroutine has put an error into `err`. -/
def erred (b : List VfEv) : Prop := ∃ m, .forwardReturns (some m) ∈ b

/-- What is known at each place after the forwarder was ready; `b` is what has happened since. -/
def VfAt (b : List VfEv) (pc : VfPC) (err : Option String) (effs : List VancapEff) : Prop :=
  match pc with
  | .selecting => False
  | .creating => effs = []
  | .created f => .create f ∈ b ∧ effs = (if f then [.truncated] else []) ∧ (err = none → f = true ∨ nilled b) ∧ (err ≠ none → f = false ∨ erred b)
  | .requesting f => .create f ∈ b ∧ effs = (if f then [.truncated] else []) ∧ (f = false → nilled b)
  | .requested f resp => .create f ∈ b ∧ effs = (if f then [.truncated] else []) ∧ (f = false → nilled b) ∧
      (∃ answer, .request answer ∈ b ∧ resp = answer.map (·.2)) ∧ (err = none → resp ≠ none ∨ nilled b) ∧ (err ≠ none → resp = none ∨ erred b)
  | .copying f body => .create f ∈ b ∧ effs = (if f then [.truncated] else []) ∧ (f = false → nilled b) ∧ ∃ st, .request (some (st, body)) ∈ b
  | .copied => ∃ f st body, .create f ∈ b ∧ (f = false → nilled b) ∧ .request (some (st, body)) ∈ b ∧
      ((.copy none ∈ b ∧ f = true ∧ effs = [.truncated, .wrote body] ∧ (err ≠ none → erred b)) ∨
       (∃ n, .copy (some n) ∈ b ∧ (err = none → f = true ∧ nilled b)))
  | .over (.ok _) => .create true ∈ b ∧ ∃ st body, .request (some (st, body)) ∈ b ∧
      ((.copy none ∈ b ∧ effs = [.truncated, .wrote body]) ∨ (∃ n, .copy (some n) ∈ b ∧ nilled b))
  | .over (.err _) => (∃ ev ∈ b, VfEv.failure ev = true) ∨ erred b
  | .over (.panic _) => .request none ∈ b ∧ nilled b

def VfInv (b : List VfEv) (s : Vf) : Prop := VfAt b s.pc s.err s.effs

/-- The goroutine assigns `err` once. -/
def VfOnce (s : Vf) (b : List VfEv) : Prop := s.fw = .forwarding → ∀ r, .forwardReturns r ∉ b

theorem nilled_mono {b : List VfEv} (ev : VfEv) (h : nilled b) : nilled (b ++ [ev]) := List.mem_append_left _ h

theorem erred_mono {b : List VfEv} (ev : VfEv) (h : erred b) : erred (b ++ [ev]) := h.imp fun _ h => List.mem_append_left _ h

theorem vfOnce_step {b : List VfEv} {s s' : Vf} {ev : VfEv} (h : VfOnce s b) (hs : Vf.Step s ev s') : VfOnce s' (b ++ [ev]) := by
  intro hf r hm
  rcases List.mem_append.1 hm with hm' | hm'
  · clear hm
    cases hs with
    | forwardTest h1 =>
      revert hf
      show (if s.err.isSome = true then FwPC.sending else FwPC.ended) = _ → _
      split <;> intro hf <;> cases hf
    | forwardReturns => cases hf
    | forwardSend => cases hf
    | _ => exact h hf r hm'
  · simp at hm'
    subst hm'
    cases hs
    cases hf

/-- A step that leaves the place, `err` and the file alone. -/
theorem vfAt_mono {b : List VfEv} {pc : VfPC} {err : Option String} {effs : List VancapEff} (ev : VfEv) (h : VfAt b pc err effs) : VfAt (b ++ [ev]) pc err effs := by
  have mem : ∀ {e : VfEv}, e ∈ b → e ∈ b ++ [ev] := List.mem_append_left _
  have mn := nilled_mono (b := b) ev
  have me := erred_mono (b := b) ev
  match pc, h with
  | .creating, h => exact h
  | .created f, h => exact ⟨mem h.1, h.2.1, fun he => (h.2.2.1 he).imp id mn, fun he => (h.2.2.2 he).imp id me⟩
  | .requesting f, h => exact ⟨mem h.1, h.2.1, fun he => mn (h.2.2 he)⟩
  | .requested f resp, h =>
    obtain ⟨a1, a2, a3, ⟨x, a4, a5⟩, a6, a7⟩ := h
    exact ⟨mem a1, a2, fun he => mn (a3 he), ⟨x, mem a4, a5⟩, fun he => (a6 he).imp id mn, fun he => (a7 he).imp id me⟩
  | .copying f body, h =>
    obtain ⟨a1, a2, a3, x, a4⟩ := h
    exact ⟨mem a1, a2, fun he => mn (a3 he), x, mem a4⟩
  | .copied, h =>
    obtain ⟨f, st, body, a1, a2, a3, a4⟩ := h
    refine ⟨f, st, body, mem a1, fun he => mn (a2 he), mem a3, a4.imp ?_ ?_⟩
    · rintro ⟨b1, b2, b3, b4⟩
      exact ⟨mem b1, b2, b3, fun he => me (b4 he)⟩
    · rintro ⟨n, b1, b2⟩
      exact ⟨n, mem b1, fun he => ⟨(b2 he).1, mn (b2 he).2⟩⟩
  | .over (.ok u), h =>
    obtain ⟨a1, st, body, a2, a3⟩ := h
    exact ⟨mem a1, st, body, mem a2, a3.imp (fun x => ⟨mem x.1, x.2⟩) (fun ⟨n, x⟩ => ⟨n, mem x.1, mn x.2⟩)⟩
  | .over (.err m), h =>
    rcases h with ⟨e, h, h'⟩ | h
    · exact Or.inl ⟨e, mem h, h'⟩
    · exact Or.inr (me h)
  | .over (.panic m), h => exact ⟨mem h.1, mn h.2⟩

theorem vfInv_step {b : List VfEv} {s s' : Vf} {ev : VfEv} (h : VfInv b s) (ho : VfOnce s b) (hs : Vf.Step s ev s') : VfInv (b ++ [ev]) s' := by
  have last : ∀ {e : VfEv}, e ∈ b ++ [e] := by simp
  have mem : ∀ {e : VfEv}, e ∈ b → e ∈ b ++ [ev] := List.mem_append_left _
  have mn := nilled_mono (b := b) ev
  have me := erred_mono (b := b) ev
  cases hs with
  | ready h1 h2 => exact vfAt_mono _ h
  | interrupt h1 => exact vfAt_mono _ h
  | forwardTest h1 => exact vfAt_mono _ h
  | forwardSend h1 => exact vfAt_mono _ h
  | forwardReturns r h1 =>
    have hn : r = none → nilled (b ++ [.forwardReturns r]) := fun hr => by subst hr; exact last
    have he : r ≠ none → erred (b ++ [.forwardReturns r]) := by
      intro hr
      cases r with
      | none => exact absurd rfl hr
      | some m => exact ⟨m, last⟩
    have h0 : VfAt (b ++ [.forwardReturns r]) s.pc s.err s.effs := vfAt_mono _ h
    show VfAt (b ++ [.forwardReturns r]) s.pc r s.effs
    unfold VfInv at h
    generalize s.pc = pc at h h0
    match pc, h, h0 with
    | .creating, h, h0 => exact h0
    | .created f, h, h0 => exact ⟨h0.1, h0.2.1, fun x => Or.inr (hn x), fun x => Or.inr (he x)⟩
    | .requesting f, h, h0 => exact h0
    | .requested f resp, h, h0 => exact ⟨h0.1, h0.2.1, h0.2.2.1, h0.2.2.2.1, fun x => Or.inr (hn x), fun x => Or.inr (he x)⟩
    | .copying f body, h, h0 => exact h0
    | .copied, h, h0 =>
      obtain ⟨f, st, body, a1, a2, a3, a4⟩ := h
      refine ⟨f, st, body, mem a1, fun x => mn (a2 x), mem a3, a4.imp ?_ ?_⟩
      · rintro ⟨b1, b2, b3, b4⟩
        exact ⟨mem b1, b2, b3, fun x => he x⟩
      · rintro ⟨n, b1, b2⟩
        refine ⟨n, mem b1, fun x => ⟨?_, hn x⟩⟩
        cases f with
        | true => rfl
        | false => exact absurd (a2 rfl) (ho h1 _)
    | .over (.ok u), h, h0 => exact h0
    | .over (.err m), h, h0 => exact h0
    | .over (.panic m), h, h0 => exact h0
  | chooseReady h1 h2 => simp only [VfInv, VfAt, h1] at h
  | chooseCancelled h1 h2 => simp only [VfInv, VfAt, h1] at h
  | chooseFailed h1 h2 => simp only [VfInv, VfAt, h1] at h
  | create ok m h1 =>
    simp only [VfInv, VfAt, h1] at h
    refine ⟨last, ?_, ?_, ?_⟩
    · show (if ok then s.effs ++ _ else s.effs) = _
      rw [h]; rfl
    · intro x; cases ok <;> simp at x ⊢
    · intro x; cases ok <;> simp at x ⊢
  | createdErr h1 h2 =>
    simp only [VfInv, VfAt, h1] at h
    rcases h.2.2.2 (by intro hn; rw [hn] at h2; cases h2) with h3 | h3
    · subst h3; exact Or.inl ⟨_, mem h.1, rfl⟩
    · exact Or.inr (me h3)
  | @createdOk f h1 h2 =>
    simp only [VfInv, VfAt, h1] at h
    refine ⟨mem h.1, h.2.1, fun hf => ?_⟩
    rcases h.2.2.1 h2 with h3 | h3
    · rw [hf] at h3; cases h3
    · exact mn h3
  | @request f resp m h1 =>
    simp only [VfInv, VfAt, h1] at h
    refine ⟨mem h.1, h.2.1, fun x => mn (h.2.2 x), ⟨resp, last, rfl⟩, ?_, ?_⟩
    · intro x; cases resp <;> simp at x ⊢
    · intro x; cases resp <;> simp at x ⊢
  | @requestedErr f resp h1 h2 =>
    simp only [VfInv, VfAt, h1] at h
    obtain ⟨a1, a2, a3, ⟨x, a4, a5⟩, a6, a7⟩ := h
    rcases a7 (by intro hn; rw [hn] at h2; cases h2) with h3 | h3
    · refine Or.inl ⟨_, mem a4, ?_⟩
      cases x with
      | none => rfl
      | some x => rw [h3] at a5; cases a5
    · exact Or.inr (me h3)
  | @requestedNil f h1 h2 =>
    simp only [VfInv, VfAt, h1] at h
    obtain ⟨a1, a2, a3, ⟨x, a4, a5⟩, a6, a7⟩ := h
    refine ⟨?_, ?_⟩
    · cases x with
      | none => exact mem a4
      | some x => cases a5
    · exact (a6 h2).elim (fun x => absurd rfl x) mn
  | @requestedOk f body h1 h2 =>
    simp only [VfInv, VfAt, h1] at h
    obtain ⟨a1, a2, a3, ⟨x, a4, a5⟩, a6, a7⟩ := h
    refine ⟨mem a1, a2, fun x => mn (a3 x), ?_⟩
    cases x with
    | none => cases a5
    | some x => cases a5; exact ⟨x.1, mem a4⟩
  | @copyOk body h1 =>
    simp only [VfInv, VfAt, h1] at h
    obtain ⟨a1, a2, a3, st, a4⟩ := h
    refine ⟨true, st, body, mem a1, (by simp), mem a4, Or.inl ⟨last, rfl, ?_, fun x => absurd rfl x⟩⟩
    show s.effs ++ _ = _
    rw [a2]; rfl
  | @copyFails body n m h1 =>
    simp only [VfInv, VfAt, h1] at h
    obtain ⟨a1, a2, a3, st, a4⟩ := h
    exact ⟨true, st, body, mem a1, (by simp), mem a4, Or.inr ⟨n, last, fun x => by cases x⟩⟩
  | @copyInvalid body h1 =>
    simp only [VfInv, VfAt, h1] at h
    obtain ⟨a1, a2, a3, st, a4⟩ := h
    exact ⟨false, st, body, mem a1, fun x => mn (a3 trivial), mem a4, Or.inr ⟨0, last, fun x => by cases x⟩⟩
  | copiedErr h1 h2 =>
    simp only [VfInv, VfAt, h1] at h
    obtain ⟨f, st, body, a1, a2, a3, a4⟩ := h
    have hn : s.err ≠ none := by intro hn; rw [hn] at h2; cases h2
    rcases a4 with ⟨b1, b2, b3, b4⟩ | ⟨n, b1, b2⟩
    · exact Or.inr (me (b4 hn))
    · exact Or.inl ⟨_, mem b1, rfl⟩
  | copiedOk h1 h2 =>
    simp only [VfInv, VfAt, h1] at h
    obtain ⟨f, st, body, a1, a2, a3, a4⟩ := h
    rcases a4 with ⟨b1, b2, b3, b4⟩ | ⟨n, b1, b2⟩
    · subst b2; exact ⟨mem a1, st, body, mem a3, Or.inl ⟨mem b1, b3⟩⟩
    · obtain ⟨c1, c2⟩ := b2 h2
      subst c1; exact ⟨mem a1, st, body, mem a3, Or.inr ⟨n, mem b1, mn c2⟩⟩

theorem vf_split : ∀ {b : List VfEv} {a : List VfEv} {ev : VfEv} {s s' : Vf}, Vf.Run s (a ++ ev :: b) s' →
    ∃ s1 s2, Vf.Run s a s1 ∧ Vf.Step s1 ev s2 ∧ Vf.Run s2 b s' := by
  intro b a ev s s' h
  generalize he : a ++ ev :: b = evs at h
  induction h generalizing b with
  | nil => simp at he
  | @snoc s1 s2 evs ev' hr hs ih =>
    rcases List.eq_nil_or_concat b with rfl | ⟨b', x, rfl⟩
    · have : a ++ [ev] = evs ++ [ev'] := he
      obtain ⟨rfl, h2⟩ := List.append_inj' this rfl
      cases h2
      exact ⟨_, _, hr, hs, .nil⟩
    · have : (a ++ ev :: b') ++ [x] = evs ++ [ev'] := by simpa using he
      obtain ⟨h1, h2⟩ := List.append_inj' this rfl
      cases h2
      obtain ⟨t1, t2, q1, q2, q3⟩ := ih h1
      exact ⟨t1, t2, q1, q2, by rw [List.concat_eq_append]; exact .snoc q3 hs⟩

/-- Nothing happens to the file before the forwarder is ready. -/
theorem vf_selecting {evs : List VfEv} {s : Vf} (h : Vf.Run {} evs s) : s.pc = .selecting → s.effs = [] := by
  induction h with
  | nil => exact fun _ => rfl
  | snoc hr hs ih =>
    cases hs <;> first | exact ih | exact fun h => by cases h

theorem vf_inv {a b : List VfEv} {s : Vf} (h : Vf.Run {} (a ++ .chosen .ready :: b) s) : VfInv b s ∧ VfOnce s b := by
  obtain ⟨s1, s2, h1, h2, h3⟩ := vf_split h
  have h0 : VfInv [] s2 ∧ VfOnce s2 [] := by
    refine ⟨?_, fun _ r hm => by cases hm⟩
    have := vf_selecting h1
    cases h2 with
    | chooseReady p1 p2 => exact this p1
  clear h h1 h2
  induction h3 with
  | nil => exact h0
  | snoc hr hs ih => exact ⟨vfInv_step ih.1 ih.2 hs, vfOnce_step ih.2 hs⟩

/-- Without the forwarder being ready there is no success, and the file is not touched. -/
theorem vf_notReady {evs : List VfEv} {s : Vf} (h : Vf.Run {} evs s) (hn : .chosen .ready ∉ evs) :
    s.effs = [] ∧ (s.pc = .selecting ∨ (s.pc = .over (.err "vancap interrupted") ∧ .chosen .cancelled ∈ evs) ∨
      (s.pc = .over (.err "vancap port forward error") ∧ .chosen .failed ∈ evs)) := by
  induction h with
  | nil => exact ⟨rfl, Or.inl rfl⟩
  | @snoc s1 s2 evs ev hr hs ih =>
    obtain ⟨i1, i2⟩ := ih (fun hm => hn (List.mem_append_left _ hm))
    have keep : s1.pc = .selecting ∨ (s1.pc = .over (.err "vancap interrupted") ∧ .chosen .cancelled ∈ evs ++ [ev]) ∨
      (s1.pc = .over (.err "vancap port forward error") ∧ .chosen .failed ∈ evs ++ [ev]) := by
      rcases i2 with h | h | h
      · exact Or.inl h
      · exact Or.inr (Or.inl ⟨h.1, List.mem_append_left _ h.2⟩)
      · exact Or.inr (Or.inr ⟨h.1, List.mem_append_left _ h.2⟩)
    have nope : ∀ {pc : VfPC}, s1.pc = pc → pc ≠ .selecting → (∀ r, pc ≠ .over r) → False := by
      intro pc h1 h2 h3
      rcases i2 with h | h | h
      · exact h2 (h1 ▸ h)
      · exact h3 _ (h1 ▸ h.1)
      · exact h3 _ (h1 ▸ h.1)
    cases hs with
    | ready => exact ⟨i1, keep⟩
    | interrupt => exact ⟨i1, keep⟩
    | forwardReturns => exact ⟨i1, keep⟩
    | forwardTest => exact ⟨i1, keep⟩
    | forwardSend => exact ⟨i1, keep⟩
    | chooseReady => exact absurd (by simp) hn
    | chooseCancelled => exact ⟨i1, Or.inr (Or.inl ⟨rfl, by simp⟩)⟩
    | chooseFailed => exact ⟨i1, Or.inr (Or.inr ⟨rfl, by simp⟩)⟩
    | create _ _ h1 => exact (nope h1 (by simp) (by simp)).elim
    | createdErr h1 => exact (nope h1 (by simp) (by simp)).elim
    | createdOk h1 => exact (nope h1 (by simp) (by simp)).elim
    | request _ _ h1 => exact (nope h1 (by simp) (by simp)).elim
    | requestedErr h1 => exact (nope h1 (by simp) (by simp)).elim
    | requestedNil h1 => exact (nope h1 (by simp) (by simp)).elim
    | requestedOk h1 => exact (nope h1 (by simp) (by simp)).elim
    | copyOk h1 => exact (nope h1 (by simp) (by simp)).elim
    | copyFails _ _ h1 => exact (nope h1 (by simp) (by simp)).elim
    | copyInvalid h1 => exact (nope h1 (by simp) (by simp)).elim
    | copiedErr h1 => exact (nope h1 (by simp) (by simp)).elim
    | copiedOk h1 => exact (nope h1 (by simp) (by simp)).elim

/-- **C91**, what holds of every success: the file was created and the request answered; and the file holds the whole body of the answer, unless copying failed and
the port forward ended without an error.  Missing for C91: that last case (false, `C91_false_success`). -/
theorem C91_success_partial {evs : List VfEv} {s : Vf} (h : Vf.Run {} evs s) (hr : s.pc = .over (.ok ())) :
    .create true ∈ evs ∧ ∃ st body, .request (some (st, body)) ∈ evs ∧
      ((.copy none ∈ evs ∧ ∀ old, fileAfter old s.effs = body) ∨ (.forwardReturns none ∈ evs ∧ ∃ n, .copy (some n) ∈ evs)) := by
  by_cases hc : .chosen .ready ∈ evs
  · obtain ⟨a, b, rfl⟩ := List.append_of_mem hc
    have mem : ∀ {e : VfEv}, e ∈ b → e ∈ a ++ .chosen .ready :: b := fun he => by simp [he]
    have hi := (vf_inv h).1
    simp only [VfInv, VfAt, hr] at hi
    obtain ⟨a1, st, body, a2, a3⟩ := hi
    refine ⟨mem a1, st, body, mem a2, a3.imp ?_ ?_⟩
    · rintro ⟨b1, b2⟩
      exact ⟨mem b1, fun old => by rw [b2]; simp [fileAfter]⟩
    · rintro ⟨n, b1, b2⟩
      exact ⟨mem b2, n, mem b1⟩
  · obtain ⟨_, h1 | h1 | h1⟩ := vf_notReady h hc
    · rw [hr] at h1; cases h1
    · rw [hr] at h1; cases h1.1
    · rw [hr] at h1; cases h1.1

theorem vf_waits {evs : List VfEv} {s : Vf} (h : Vf.Run {} evs s) : (s.ctxDone = true ↔ .interrupt ∈ evs) ∧ (s.ready = true ↔ .ready ∈ evs) ∧
    (s.pc = .selecting → (s.forwardErr.isSome = true ↔ .forwardSend ∈ evs)) := by
  generalize hi : ({} : Vf) = s0 at h
  induction h with
  | nil => subst hi; simp
  | snoc hr hs ih =>
    obtain ⟨a, b, c⟩ := ih
    cases hs with
    | chooseFailed => exact ⟨by simpa using a, by simpa using b, fun h => by cases h⟩
    | forwardSend => exact ⟨by simpa using a, by simpa using b, fun _ => by simp⟩
    | interrupt => exact ⟨by simp, by simpa using b, fun h => by simpa using c h⟩
    | ready => exact ⟨by simpa using a, by simp, fun h => by simpa using c h⟩
    | forwardReturns | forwardTest => exact ⟨by simpa using a, by simpa using b, fun h => by simpa using c h⟩
    | _ => exact ⟨by simpa using a, by simpa using b, fun h => by cases h⟩

/-- **C91**: what the wait of main.go:236-242 can end with: the end of the context, the port forward being ready, or its error, whenever that has come. -/
theorem C91_waits {evs : List VfEv} {s : Vf} (h : Vf.Run {} evs s) (hp : s.pc = .selecting) :
    ((∃ s', Vf.Step s (.chosen .cancelled) s') ↔ .interrupt ∈ evs) ∧ ((∃ s', Vf.Step s (.chosen .ready) s') ↔ .ready ∈ evs) ∧
    ((∃ s', Vf.Step s (.chosen .failed) s') ↔ .forwardSend ∈ evs) := by
  obtain ⟨a, b, c⟩ := vf_waits h
  rw [← a, ← b, ← c hp]
  refine ⟨⟨?_, fun h => ⟨_, .chooseCancelled hp h⟩⟩, ⟨?_, fun h => ⟨_, .chooseReady hp h⟩⟩, ⟨?_, fun h => ?_⟩⟩
  · rintro ⟨s', hs⟩
    cases hs; assumption
  · rintro ⟨s', hs⟩
    cases hs; assumption
  · rintro ⟨s', hs⟩
    cases hs with | chooseFailed _ h => simp [h]
  · obtain ⟨e, he⟩ := Option.isSome_iff_exists.1 h
    exact ⟨_, .chooseFailed hp he⟩

/-- **C91**, what holds of every failure: the run was interrupted or the port forward failed before it was ready, or a step of the capture failed, or the port forward
ended with an error after it was ready.  Missing for C91: that last case (false, `C91_false_failure`). -/
theorem C91_failure_partial {evs : List VfEv} {s : Vf} {m : String} (h : Vf.Run {} evs s) (hr : s.pc = .over (.err m)) :
    .chosen .cancelled ∈ evs ∨ .chosen .failed ∈ evs ∨ (∃ ev ∈ evs, VfEv.failure ev = true) ∨
      (∃ a b m, evs = a ++ .chosen .ready :: b ∧ .forwardReturns (some m) ∈ b) := by
  by_cases hc : .chosen .ready ∈ evs
  · obtain ⟨a, b, rfl⟩ := List.append_of_mem hc
    have hi := (vf_inv h).1
    simp only [VfInv, VfAt, hr] at hi
    rcases hi with ⟨ev, h1, h2⟩ | ⟨m, h1⟩
    · exact Or.inr (Or.inr (Or.inl ⟨ev, by simp [h1], h2⟩))
    · exact Or.inr (Or.inr (Or.inr ⟨a, b, m, rfl, h1⟩))
  · obtain ⟨_, h1 | h1 | h1⟩ := vf_notReady h hc
    · rw [hr] at h1; cases h1
    · exact Or.inl h1.2
    · exact Or.inr (Or.inl h1.2)

/-- **C91**, what holds of every panic: the request was not answered, and the port forward ended without an error after it was ready.  Missing for C91: that there is none (false,
`C91_panic`). -/
theorem C91_panic_partial {evs : List VfEv} {s : Vf} {m : String} (h : Vf.Run {} evs s) (hr : s.pc = .over (.panic m)) :
    .request none ∈ evs ∧ ∃ a b, evs = a ++ .chosen .ready :: b ∧ .forwardReturns none ∈ b := by
  by_cases hc : .chosen .ready ∈ evs
  · obtain ⟨a, b, rfl⟩ := List.append_of_mem hc
    have hi := (vf_inv h).1
    simp only [VfInv, VfAt, hr] at hi
    exact ⟨by simp [hi.1], a, b, rfl, hi.2⟩
  · obtain ⟨_, h1 | h1 | h1⟩ := vf_notReady h hc
    · rw [hr] at h1; cases h1
    · rw [hr] at h1; cases h1.1
    · rw [hr] at h1; cases h1.1

/-- Where a run is that nothing disturbs, in terms of what it has met. -/
def VfQuiet (b : List VfEv) (s : Vf) : Prop :=
  match s.pc with
  | .selecting => False
  | .creating => s.effs = [] ∧ surroundings b = allWell
  | .created f => s.effs = (if f then [.truncated] else []) ∧ surroundings b = { allWell with fileOk := f } ∧ s.err.isSome = !f
  | .requesting f => s.effs = [.truncated] ∧ surroundings b = allWell ∧ f = true
  | .requested f resp => s.effs = [.truncated] ∧ (∃ r, surroundings b = { allWell with response := r } ∧ resp = r.map (·.2)) ∧ f = true ∧ s.err.isSome = resp.isNone
  | .copying f body => s.effs = [.truncated] ∧ (∃ st, surroundings b = { allWell with response := some (st, body) }) ∧ f = true
  | .copied => ∃ st body fails, surroundings b = { allWell with response := some (st, body), copyFails := fails } ∧ s.err.isSome = fails.isSome ∧
      s.effs = [.truncated, .wrote (match fails with | none => body | some n => String.ofList (body.toList.take n))]
  | .over r => (r, s.effs) = vancapCapture (surroundings b)

theorem surroundings_snoc (b : List VfEv) (ev : VfEv) : surroundings (b ++ [ev]) = VfEv.learn (surroundings b) ev := by
  simp [surroundings, List.foldl_append]

theorem vfQuiet_step {b : List VfEv} {s s' : Vf} {ev : VfEv} (h : VfQuiet b s) (hs : Vf.Step s ev s') (hq : ∀ r, ev ≠ .forwardReturns r) : VfQuiet (b ++ [ev]) s' := by
  cases hs with
  | ready h1 h2 => simpa only [VfQuiet, surroundings_snoc, VfEv.learn] using h
  | interrupt h1 => simpa only [VfQuiet, surroundings_snoc, VfEv.learn] using h
  | forwardTest h1 => simpa only [VfQuiet, surroundings_snoc, VfEv.learn] using h
  | forwardSend h1 => simpa only [VfQuiet, surroundings_snoc, VfEv.learn] using h
  | forwardReturns r h1 => exact absurd rfl (hq r)
  | chooseReady h1 h2 => simp only [VfQuiet, h1] at h
  | chooseCancelled h1 h2 => simp only [VfQuiet, h1] at h
  | chooseFailed h1 h2 => simp only [VfQuiet, h1] at h
  | create ok m h1 =>
    simp only [VfQuiet, h1] at h
    simp only [VfQuiet, surroundings_snoc, h.2, VfEv.learn, h.1]
    cases ok <;> simp
  | @createdErr f h1 h2 =>
    simp only [VfQuiet, h1] at h
    obtain ⟨a1, a2, a3⟩ := h
    rw [h2] at a3
    cases f with
    | true => cases a3
    | false => simp only [VfQuiet, surroundings_snoc, a2, VfEv.learn, a1]; rfl
  | @createdOk f h1 h2 =>
    simp only [VfQuiet, h1] at h
    obtain ⟨a1, a2, a3⟩ := h
    rw [h2] at a3
    cases f with
    | false => cases a3
    | true => simp only [VfQuiet, surroundings_snoc, a2, VfEv.learn, a1]; exact ⟨rfl, rfl, trivial⟩
  | @request f resp m h1 =>
    simp only [VfQuiet, h1] at h
    obtain ⟨a1, a2, a3⟩ := h
    simp only [VfQuiet, surroundings_snoc, a2, VfEv.learn, a1, a3]
    refine ⟨trivial, ⟨resp, rfl, rfl⟩, trivial, ?_⟩
    cases resp <;> rfl
  | @requestedErr f resp h1 h2 =>
    simp only [VfQuiet, h1] at h
    obtain ⟨a1, ⟨r, a2, a3⟩, a4, a5⟩ := h
    rw [h2] at a5
    cases r with
    | some x => subst a3; cases a5
    | none => simp only [VfQuiet, surroundings_snoc, a2, VfEv.learn, a1]; rfl
  | @requestedNil f h1 h2 =>
    simp only [VfQuiet, h1] at h
    obtain ⟨a1, ⟨r, a2, a3⟩, a4, a5⟩ := h
    rw [h2] at a5
    cases a5
  | @requestedOk f body h1 h2 =>
    simp only [VfQuiet, h1] at h
    obtain ⟨a1, ⟨r, a2, a3⟩, a4, a5⟩ := h
    cases r with
    | none => cases a3
    | some x =>
      cases a3
      simp only [VfQuiet, surroundings_snoc, a2, VfEv.learn, a1]
      exact ⟨trivial, ⟨x.1, rfl⟩, a4⟩
  | @copyOk body h1 =>
    simp only [VfQuiet, h1] at h
    obtain ⟨a1, ⟨st, a2⟩, a4⟩ := h
    simp only [VfQuiet, surroundings_snoc, a2, VfEv.learn, a1]
    exact ⟨st, body, none, rfl, rfl, rfl⟩
  | @copyFails body n m h1 =>
    simp only [VfQuiet, h1] at h
    obtain ⟨a1, ⟨st, a2⟩, a4⟩ := h
    simp only [VfQuiet, surroundings_snoc, a2, VfEv.learn, a1]
    exact ⟨st, body, some n, rfl, rfl, rfl⟩
  | @copyInvalid body h1 =>
    simp only [VfQuiet, h1] at h
    exact absurd h.2.2 (by simp)
  | copiedErr h1 h2 =>
    simp only [VfQuiet, h1] at h
    obtain ⟨st, body, fails, a1, a2, a3⟩ := h
    rw [h2] at a2
    cases fails with
    | none => cases a2
    | some n => simp only [VfQuiet, surroundings_snoc, a1, VfEv.learn, a3]; rfl
  | copiedOk h1 h2 =>
    simp only [VfQuiet, h1] at h
    obtain ⟨st, body, fails, a1, a2, a3⟩ := h
    rw [h2] at a2
    cases fails with
    | some n => cases a2
    | none => simp only [VfQuiet, surroundings_snoc, a1, VfEv.learn, a3]; rfl

/-- A failed step is noticed. -/
def VfNoticed (b : List VfEv) (s : Vf) : Prop :=
  (∀ ev ∈ b, VfEv.failure ev = false) ∨ s.pc = .created false ∨ (∃ f, s.pc = .requested f none) ∨ (s.pc = .copied ∧ s.err.isSome = true) ∨ ∃ m, s.pc = .over (.err m)

theorem vfNoticed_step {b : List VfEv} {s s' : Vf} {ev : VfEv} (h : VfQuiet b s) (hf : VfNoticed b s) (hs : Vf.Step s ev s') (hq : ∀ r, ev ≠ .forwardReturns r) :
    VfNoticed (b ++ [ev]) s' := by
  have all : VfEv.failure ev = false → (∀ e ∈ b, VfEv.failure e = false) → ∀ e ∈ b ++ [ev], VfEv.failure e = false := by
    intro h1 h2 e he
    rcases List.mem_append.1 he with he | he
    · exact h2 e he
    · simp at he; rw [he]; exact h1
  have keep : VfEv.failure ev = false → s'.pc = s.pc → s'.err = s.err → VfNoticed (b ++ [ev]) s' := by
    intro h1 h2 h3
    unfold VfNoticed at hf ⊢
    rw [h2, h3]
    exact hf.imp (all h1) id
  cases hs with
  | ready h1 h2 => exact keep rfl rfl rfl
  | interrupt h1 => exact keep rfl rfl rfl
  | forwardTest h1 => exact keep rfl rfl rfl
  | forwardSend h1 => exact keep rfl rfl rfl
  | forwardReturns r h1 => exact absurd rfl (hq r)
  | chooseReady h1 h2 => simp only [VfQuiet, h1] at h
  | chooseCancelled h1 h2 => simp only [VfQuiet, h1] at h
  | chooseFailed h1 h2 => simp only [VfQuiet, h1] at h
  | create ok m h1 =>
    simp only [VfNoticed, h1, reduceCtorEq, false_and, exists_false, or_false] at hf
    cases ok with
    | false => exact Or.inr (Or.inl rfl)
    | true => exact Or.inl (all rfl hf)
  | createdErr h1 h2 => exact Or.inr (Or.inr (Or.inr (Or.inr ⟨_, rfl⟩)))
  | @createdOk f h1 h2 =>
    simp only [VfQuiet, h1, h2] at h
    have : f = true := by cases f <;> simp at h ⊢
    subst this
    simp only [VfNoticed, h1, reduceCtorEq, false_and, exists_false, or_false, VfPC.created.injEq, Bool.true_eq_false] at hf
    exact Or.inl (all rfl hf)
  | @request f resp m h1 =>
    simp only [VfNoticed, h1, reduceCtorEq, false_and, exists_false, or_false] at hf
    cases resp with
    | none => exact Or.inr (Or.inr (Or.inl ⟨f, rfl⟩))
    | some x => exact Or.inl (all rfl hf)
  | requestedErr h1 h2 => exact Or.inr (Or.inr (Or.inr (Or.inr ⟨_, rfl⟩)))
  | @requestedNil f h1 h2 =>
    simp only [VfQuiet, h1, h2] at h
    simp at h
  | @requestedOk f body h1 h2 =>
    simp only [VfNoticed, h1, reduceCtorEq, false_and, exists_false, or_false, VfPC.requested.injEq, and_false] at hf
    exact Or.inl (all rfl hf)
  | @copyOk body h1 =>
    simp only [VfNoticed, h1, reduceCtorEq, false_and, exists_false, or_false] at hf
    exact Or.inl (all rfl hf)
  | copyFails n m h1 => exact Or.inr (Or.inr (Or.inr (Or.inl ⟨rfl, rfl⟩)))
  | copyInvalid h1 => exact Or.inr (Or.inr (Or.inr (Or.inl ⟨rfl, rfl⟩)))
  | copiedErr h1 h2 => exact Or.inr (Or.inr (Or.inr (Or.inr ⟨_, rfl⟩)))
  | copiedOk h1 h2 =>
    simp only [VfNoticed, h1, h2, reduceCtorEq, and_false, exists_false, or_false, Option.isSome_none, Bool.false_eq_true] at hf
    exact Or.inl (all rfl hf)

/-- **C91**, the part that holds: if the port forward does not end between being ready and the end of the run, the run ends as the function of C74 and C75 says
for what it met: with success exactly if every step succeeded, and without a panic.  (So those theorems speak about such runs.)  Missing for C91: the port forward may end. -/
theorem C91_quiet_partial {a b : List VfEv} {s : Vf} {r : Res Unit} (h : Vf.Run {} (a ++ .chosen .ready :: b) s) (hq : ∀ x, .forwardReturns x ∉ b) (hr : s.pc = .over r) :
    (r, s.effs) = vancapCapture (surroundings b) ∧ (r = .ok () ↔ ∀ ev ∈ b, VfEv.failure ev = false) ∧ ∀ m, r ≠ .panic m := by
  have hi := (vf_inv h).1
  have hn : ¬ nilled b := hq none
  have he : ¬ erred b := fun ⟨m, hm⟩ => hq _ hm
  have hnp : ∀ m, r ≠ .panic m := by
    intro m hm
    subst hm
    simp only [VfInv, VfAt, hr] at hi
    exact hn hi.2
  obtain ⟨s1, s2, h1, h2, h3⟩ := vf_split h
  have h0 : VfQuiet [] s2 := by
    have := vf_selecting h1
    cases h2 with
    | chooseReady p1 p2 => exact ⟨this p1, rfl⟩
  have key : VfQuiet b s ∧ VfNoticed b s := by
    clear h h1 h2 hi hn he hr hnp
    induction h3 with
    | nil => exact ⟨h0, Or.inl (fun _ h => by cases h)⟩
    | @snoc _ _ _ ev _ hs ih =>
      have ih := ih (fun x hm => hq x (List.mem_append_left _ hm))
      have hne : ∀ r, ev ≠ .forwardReturns r := fun r hr => hq r (by simp [hr])
      exact ⟨vfQuiet_step ih.1 hs hne, vfNoticed_step ih.1 ih.2 hs hne⟩
  refine ⟨?_, ⟨?_, ?_⟩, hnp⟩
  · have := key.1
    simp only [VfQuiet, hr] at this
    exact this
  · intro hok
    subst hok
    rcases key.2 with h | h | ⟨_, h⟩ | ⟨h, _⟩ | ⟨_, h⟩
    · exact h
    all_goals (rw [hr] at h; cases h)
  · intro hall
    cases r with
    | ok u => rfl
    | panic m => exact absurd rfl (hnp m)
    | err m =>
      simp only [VfInv, VfAt, hr] at hi
      rcases hi with ⟨ev, h1, h2⟩ | hi
      · rw [hall ev h1] at h2; cases h2
      · exact absurd hi he

/-! ## Examples and counterexamples -/

/-- A run given by its steps. -/
theorem vf_cons {s s' s'' : Vf} {ev : VfEv} {evs : List VfEv} (h : Vf.Step s ev s') (hr : Vf.Run s' evs s'') : Vf.Run s (ev :: evs) s'' := by
  induction hr with
  | nil => exact Vf.Run.snoc (evs := []) .nil h
  | snoc _ hs ih => exact Vf.Run.snoc (evs := _ :: _) ih hs

/-- A run that nothing disturbs. -/
example : ∃ s, Vf.Run {} ([.ready] ++ .chosen .ready :: [.create true, .test, .request (some (200, "[]")), .test, .copy none, .test]) s ∧ s.pc = .over (.ok ()) ∧
    s.effs = [.truncated, .wrote "[]"] :=
  ⟨_, vf_cons (.ready rfl rfl) <| vf_cons (.chooseReady rfl rfl) <| vf_cons (.create true "" rfl) <| vf_cons (.createdOk rfl rfl) <|
    vf_cons (.request (some (200, "[]")) "" rfl) <| vf_cons (.requestedOk rfl rfl) <| vf_cons (.copyOk rfl) <| vf_cons (.copiedOk rfl rfl) .nil, rfl, rfl⟩

/-- C91 is false: the whole capture is written, the port forward is lost before `err` is looked at, and the run reports a failure. -/
theorem C91_false_failure : ∃ evs s m, Vf.Run {} evs s ∧ (∀ ev ∈ evs, VfEv.failure ev = false) ∧ .chosen .ready ∈ evs ∧ s.effs = [.truncated, .wrote "[]"] ∧
    s.pc = .over (.err m) :=
  ⟨[.ready, .chosen .ready, .create true, .test, .request (some (200, "[]")), .test, .copy none, .forwardReturns (some "lost connection to pod"), .test], _, _,
    vf_cons (.ready rfl rfl) <| vf_cons (.chooseReady rfl rfl) <| vf_cons (.create true "" rfl) <| vf_cons (.createdOk rfl rfl) <|
    vf_cons (.request (some (200, "[]")) "" rfl) <| vf_cons (.requestedOk rfl rfl) <| vf_cons (.copyOk rfl) <|
    vf_cons (.forwardReturns (some "lost connection to pod") rfl) <| vf_cons (.copiedErr rfl rfl) .nil, by decide, by decide, rfl, rfl⟩

/-- C91 is false: the copy breaks off, the port forward ends without an error before `err` is looked at, and the run reports success. -/
theorem C91_false_success : ∃ evs s, Vf.Run {} evs s ∧ .copy (some 1) ∈ evs ∧ s.effs = [.truncated, .wrote "["] ∧ s.pc = .over (.ok ()) :=
  ⟨[.ready, .chosen .ready, .create true, .test, .request (some (200, "[]")), .test, .copy (some 1), .forwardReturns none, .test], _,
    vf_cons (.ready rfl rfl) <| vf_cons (.chooseReady rfl rfl) <| vf_cons (.create true "" rfl) <| vf_cons (.createdOk rfl rfl) <|
    vf_cons (.request (some (200, "[]")) "" rfl) <| vf_cons (.requestedOk rfl rfl) <| vf_cons (.copyFails 1 "unexpected EOF" rfl) <|
    vf_cons (.forwardReturns none rfl) <| vf_cons (.copiedOk rfl rfl) .nil, by decide, by decide +kernel, rfl⟩

/-- C91 is false: the request fails, the port forward ends without an error before `err` is looked at, and the run panics. -/
theorem C91_panic : ∃ evs s m, Vf.Run {} evs s ∧ s.pc = .over (.panic m) :=
  ⟨[.ready, .chosen .ready, .create true, .test, .request none, .forwardReturns none, .test], _, _,
    vf_cons (.ready rfl rfl) <| vf_cons (.chooseReady rfl rfl) <| vf_cons (.create true "" rfl) <| vf_cons (.createdOk rfl rfl) <|
    vf_cons (.request none "EOF" rfl) <| vf_cons (.forwardReturns none rfl) <| vf_cons (.requestedNil rfl rfl) .nil, rfl⟩

/-- A success with a file that was not created does not exist, but a run with one goes on to request the capture (a step of the proof of `C91_success_partial`). -/
example : ∃ evs s, Vf.Run {} evs s ∧ .create false ∈ evs ∧ s.pc = .requesting false :=
  ⟨[.ready, .chosen .ready, .create false, .forwardReturns none, .test], _,
    vf_cons (.ready rfl rfl) <| vf_cons (.chooseReady rfl rfl) <| vf_cons (.create false "denied" rfl) <| vf_cons (.forwardReturns none rfl) <|
    vf_cons (.createdOk rfl rfl) .nil, by decide, rfl⟩

end Verif.Props
