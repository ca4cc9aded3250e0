import Verif.Spec.Discovered
import Verif.Props.Client

/-!
# C83: the flush for a discovered source
-/
namespace Verif.Props
open Verif Verif.Model Verif.Spec

variable {src : Info} {snd : Callee}

structure FlOK (evs : List FlEv) (s : Fl) : Prop where
  once : s.ff.crashed = false ∧ s.ff.once = s.ff.doneClosed
  before : s.ff.pc = .registering ∨ s.ff.pc = .waiting → s.pc = .first ∧ evs.countP isFlSend = 0
  sending : s.ff.pc = .sending → s.pc = .first ∧ evs.countP isFlSend = 1
  first : s.pc = .first → ∀ r, s.ff.pc = .returned r →
    (evs.countP isFlSend = 1 ∧ FlEv.inner (.return_ r) ∈ evs) ∨ (evs.countP isFlSend = 0 ∧ r.isSome = true ∧ s.ff.ctx = r)
  retrying : s.pc = .retrying → 1 ≤ evs.countP isFlSend ∧ evs.countP isFlSend ≤ 2
  over : ∀ r, s.pc = .over r → 1 ≤ evs.countP isFlSend ∧ evs.countP isFlSend ≤ 2 ∧ (FlEv.inner (.return_ r) ∈ evs ∨ FlEv.sent r ∈ evs)

theorem GoErr.is_refl (e : GoErr) : e.is e = true := by cases e <;> simp [GoErr.is]

theorem fl_run {evs : List FlEv} {s : Fl} (h : Fl.Run src snd {} evs s) : FlOK evs s := by
  generalize hs0 : ({} : Fl) = s0 at h
  induction h with
  | nil => subst hs0; exact ⟨⟨rfl, rfl⟩, fun _ => ⟨rfl, rfl⟩, by simp, by simp, by simp, by simp⟩
  | @snoc s s' evs ev _ hs ih =>
    obtain ⟨⟨i0, i1⟩, i2, i3, i4, i5, i6⟩ := ih
    cases hs with
    | inner _ hne hff =>
      cases hff with
      | register hp =>
        obtain ⟨h1, h2⟩ := i2 (.inl hp)
        refine ⟨⟨i0, i1⟩, fun _ => ⟨h1, ?_⟩, by simp, by simp, fun h => ?_, fun r h => ?_⟩
        · rw [List.countP_append, h2]; rfl
        · simp [h1] at h
        · simp [h1] at h
      | handle =>
        have hc : List.countP isFlSend (evs ++ [FlEv.inner .handled]) = evs.countP isFlSend := by rw [List.countP_append]; rfl
        have key : ∀ ff' : Ff, ff'.crashed = false → ff'.once = ff'.doneClosed → ff'.pc = s.ff.pc → ff'.ctx = s.ff.ctx →
            FlOK (evs ++ [FlEv.inner .handled]) { s with ff := ff' } := by
          intro ff' h0 h1 h2 h3
          refine ⟨⟨h0, h1⟩, ?_, ?_, ?_, ?_, ?_⟩
          · simp only [h2, hc]; exact i2
          · simp only [h2, hc]; exact i3
          · simp only [h2, h3, hc]; intro hp r hr
            rcases i4 hp r hr with ⟨h, h'⟩ | h
            · exact .inl ⟨h, List.mem_append_left _ h'⟩
            · exact .inr h
          · simp only [hc]; exact i5
          · simp only [hc]; intro r hr
            obtain ⟨a, b, c⟩ := i6 r hr
            exact ⟨a, b, c.imp (List.mem_append_left _) (List.mem_append_left _)⟩
        cases ho : s.ff.once with
        | true => rw [if_pos rfl]; exact key _ i0 i1 rfl rfl
        | false =>
          have hd : s.ff.doneClosed = false := by rw [← i1, ho]
          rw [hd]
          exact key _ i0 rfl rfl rfl
      | cancel => exact absurd rfl hne
      | flush hp hd =>
        obtain ⟨h1, h2⟩ := i2 (.inr hp)
        refine ⟨⟨i0, i1⟩, by simp, fun _ => ⟨h1, ?_⟩, by simp, fun h => ?_, fun r h => ?_⟩
        · rw [List.countP_append, h2]; rfl
        · simp [h1] at h
        · simp [h1] at h
      | flushed hp _ =>
        obtain ⟨h1, h2⟩ := i3 hp
        refine ⟨⟨i0, i1⟩, by simp, by simp, fun _ r hr => .inl ⟨?_, ?_⟩, fun h => ?_, fun r h => ?_⟩
        · rw [List.countP_append, h2]; rfl
        · cases hr; simp
        · simp [h1] at h
        · simp [h1] at h
      | ended hp hctx =>
        obtain ⟨h1, h2⟩ := i2 (.inr hp)
        refine ⟨⟨i0, i1⟩, by simp, by simp, fun _ r hr => .inr ⟨?_, ?_⟩, fun h => ?_, fun r h => ?_⟩
        · rw [List.countP_append, h2]; rfl
        · cases hr; exact ⟨rfl, hctx⟩
        · simp [h1] at h
        · simp [h1] at h
    | timeout hctx =>
      have hc : List.countP isFlSend (evs ++ [FlEv.timeout]) = evs.countP isFlSend := by rw [List.countP_append]; rfl
      refine ⟨⟨i0, i1⟩, by simpa only [hc] using i2, by simpa only [hc] using i3, ?_, by simpa only [hc] using i5, ?_⟩
      · simp only [hc]; intro hp r hr
        rcases i4 hp r hr with ⟨h, h'⟩ | ⟨_, h, h'⟩
        · exact .inl ⟨h, List.mem_append_left _ h'⟩
        · rw [hctx] at h'; subst h'; cases h
      · simp only [hc]; intro r hr
        obtain ⟨a, b, c⟩ := i6 r hr
        exact ⟨a, b, c.imp (List.mem_append_left _) (List.mem_append_left _)⟩
    | shutdown e he hpar =>
      have hc : List.countP isFlSend (evs ++ [FlEv.shutdown]) = evs.countP isFlSend := by rw [List.countP_append]; rfl
      refine ⟨⟨i0, i1⟩, by simpa only [hc] using i2, by simpa only [hc] using i3, ?_, by simpa only [hc] using i5, ?_⟩
      · simp only [hc]; intro hp r hr
        rcases i4 hp r hr with ⟨h, h'⟩ | ⟨h0, h, h'⟩
        · exact .inl ⟨h, List.mem_append_left _ h'⟩
        · refine .inr ⟨h0, h, ?_⟩
          rw [h']
          cases r with
          | none => cases h
          | some x => rfl
      · simp only [hc]; intro r hr
        obtain ⟨a, b, c⟩ := i6 r hr
        exact ⟨a, b, c.imp (List.mem_append_left _) (List.mem_append_left _)⟩
    | @retry e hp hret _ =>
      refine ⟨⟨i0, i1⟩, ?_, ?_, by simp, fun _ => ?_, by simp⟩
      · simp [hret]
      · simp [hret]
      · rw [List.countP_append]
        have : List.countP isFlSend [FlEv.send src.direct (Flush.encode { hdr := ⟨src.direct, "", ""⟩ })] = 1 := rfl
        rw [this]
        rcases i4 hp _ hret with ⟨h, _⟩ | ⟨h, _⟩ <;> omega
    | @retried r hp _ =>
      obtain ⟨h1, h2⟩ := i5 hp
      have hff : ¬ (s.ff.pc = .registering ∨ s.ff.pc = .waiting) := fun h => by have := (i2 h).1; rw [hp] at this; cases this
      have hfs : ¬ s.ff.pc = .sending := fun h => by have := (i3 h).1; rw [hp] at this; cases this
      refine ⟨⟨i0, i1⟩, fun h => absurd h hff, fun h => absurd h hfs, by simp, by simp, fun r' hr => ?_⟩
      rw [List.countP_append]
      cases hr
      exact ⟨Nat.le_add_right_of_le h1, by simpa [isFlSend] using h2, .inr (by simp)⟩
    | @noRetry r hp hret hno =>
      refine ⟨⟨i0, i1⟩, ?_, ?_, by simp, by simp, fun r' hr => ?_⟩
      · simp [hret]
      · simp [hret]
      · cases hr
        rw [List.countP_append]
        have h0 : List.countP isFlSend [FlEv.over r] = 0 := rfl
        rw [h0]
        rcases i4 hp r hret with ⟨h, h'⟩ | ⟨_, h, h'⟩
        · exact ⟨by omega, by omega, .inl (List.mem_append_left _ h')⟩
        · cases r with
          | none => cases h
          | some x =>
            rw [h'] at hno
            simp [errorsIs, GoErr.is_refl] at hno

/-- **C83 (partial).** The goroutine does not end without having handed a flush request to a sender, and hands over at most two; if it ends without error,
one was accepted; if it ends with an error, that is what the last sender reported.  Missing for the full statement: another attempt after such an error. -/
theorem C83_attempted_partial {evs : List FlEv} {s : Fl} (h : Fl.Run src snd {} evs s) :
    evs.countP isFlSend ≤ 2 ∧ (∀ r, s.pc = .over r → 1 ≤ evs.countP isFlSend ∧ (FlEv.inner (.return_ r) ∈ evs ∨ FlEv.sent r ∈ evs)) ∧
      (s.pc = .over none → Accepted evs) := by
  have hok := fl_run h
  refine ⟨?_, fun r hr => ⟨(hok.over r hr).1, (hok.over r hr).2.2⟩, fun hr => (hok.over none hr).2.2⟩
  cases hp : s.pc with
  | retrying => exact (hok.retrying hp).2
  | over r => exact (hok.over r hp).2.1
  | first =>
    cases hf : s.ff.pc with
    | registering => rw [(hok.before (.inl hf)).2]; omega
    | waiting => rw [(hok.before (.inr hf)).2]; omega
    | sending => rw [(hok.sending hf).2]; omega
    | returned r => rcases hok.first hp r hf with ⟨h, _⟩ | ⟨h, _⟩ <;> omega

theorem fl_prefix {s0 s : Fl} {evs pre post : List FlEv} {ev : FlEv} (h : Fl.Run src snd s0 evs s) (he : evs = pre ++ ev :: post) :
    ∃ s1 s2, Fl.Run src snd s0 pre s1 ∧ Fl.Step src snd s1 ev s2 := by
  induction h generalizing post with
  | nil => simp at he
  | @snoc s' s'' evs ev' hr hs ih =>
    rcases List.eq_nil_or_concat post with hp | ⟨post', x, hp⟩
    · subst hp
      obtain ⟨h1, h2⟩ := List.append_inj' he rfl
      cases h2
      subst h1
      exact ⟨_, _, hr, hs⟩
    · subst hp
      rw [List.concat_eq_append, ← List.cons_append, ← List.append_assoc] at he
      obtain ⟨h1, h2⟩ := List.append_inj' he rfl
      exact ih h1

/-- **C83 (content).** All it ever hands over are flush requests to the direct address of the source. -/
theorem C83_content {evs : List FlEv} {s : Fl} (h : Fl.Run src snd {} evs s) {a : String} {m : Msg}
    (hm : FlEv.inner (.send a m) ∈ evs ∨ FlEv.send a m ∈ evs) :
    a = src.direct ∧ ∀ reg, ∃ f, decodeMsg reg (some m) = .ok (.flush f) ∧ f.hdr.to = src.direct := by
  rcases hm with hm | hm
  · obtain ⟨pre, post, he⟩ := List.append_of_mem hm
    obtain ⟨s1, s2, _, hs⟩ := fl_prefix h he
    cases hs with
    | inner _ _ hff => cases hff; exact ⟨rfl, fun reg => ⟨_, rfl, rfl⟩⟩
  · obtain ⟨pre, post, he⟩ := List.append_of_mem hm
    obtain ⟨s1, s2, _, hs⟩ := fl_prefix h he
    cases hs; exact ⟨rfl, fun reg => ⟨_, rfl, rfl⟩⟩

/-- With a sender that fails only by its context, an error of FlushOnFirstMessage is the end of flushCtx. -/
theorem fl_reliable (hsnd : FailsOnlyByContext snd) {evs : List FlEv} {s : Fl} (h : Fl.Run src snd {} evs s) :
    (∀ e, s.ff.pc = .returned (some e) → ∃ c, s.ff.ctx = some c ∧ e.is c = true) ∧ (∀ e, s.pc = .over (some e) → s.parent.isSome = true) := by
  generalize hs0 : ({} : Fl) = s0 at h
  induction h with
  | nil => subst hs0; exact ⟨by simp, by simp⟩
  | @snoc s s' evs ev _ hs ih =>
    obtain ⟨i1, i2⟩ := ih
    cases hs with
    | inner _ hne hff =>
      refine ⟨?_, i2⟩
      cases hff with
      | register => simp
      | handle =>
        cases ho : s.ff.once with
        | true => rw [if_pos rfl]; exact i1
        | false => cases hd : s.ff.doneClosed <;> exact i1
      | cancel => exact absurd rfl hne
      | flush => simp
      | flushed hp hr =>
        intro e he
        rcases hsnd _ _ hr with h | ⟨e', c', h1, h2, h3⟩
        · subst h; cases he
        · subst h1; cases he
          exact ⟨c', h2, by simp [GoErr.is, h3]⟩
      | ended hp hc =>
        intro e he
        cases he
        exact ⟨_, hc, GoErr.is_refl _⟩
    | timeout hctx =>
      refine ⟨?_, i2⟩
      intro e he
      obtain ⟨c, hc, _⟩ := i1 e he
      rw [hctx] at hc; cases hc
    | shutdown e he hpar =>
      refine ⟨?_, fun _ _ => rfl⟩
      intro e' he'
      obtain ⟨c, hc, h⟩ := i1 e' he'
      exact ⟨c, by rw [hc]; rfl, h⟩
    | retry => exact ⟨i1, by simp⟩
    | @retried r hp hr =>
      refine ⟨i1, fun e he => ?_⟩
      rcases hsnd _ _ hr with h | ⟨e', c', h1, h2, h3⟩
      · subst h; cases he
      · simp [h2]
    | @noRetry r hp hret hno =>
      refine ⟨i1, fun e he => ?_⟩
      cases he
      obtain ⟨c, hc, h⟩ := i1 e hret
      rcases hno with h' | h'
      · cases h'
      · rw [hc] at h'; simp [errorsIs, h] at h'

/-- **C83 (partial, reliable senders).** If sends fail only because their context ends, the source gets its flush request unless the tool is shut down: also
if no message arrives within the five seconds, or the first attempt takes longer than that. -/
theorem C83_flushed_partial (hsnd : FailsOnlyByContext snd) {evs : List FlEv} {s : Fl} (h : Fl.Run src snd {} evs s) {r : Option GoErr}
    (hr : s.pc = .over r) (hp : s.parent = none) : r = none ∧ Accepted evs := by
  cases r with
  | none => exact ⟨rfl, (C83_attempted_partial h).2.2 hr⟩
  | some e => have := (fl_reliable hsnd h).2 e hr; rw [hp] at this; cases this

/-- **C83 (progress).** Once the five seconds are over (or a message was handled) the goroutine can always go on by itself until it is over, as long as
senders return. -/
theorem C83_progress {evs : List FlEv} {s : Fl} (h : Fl.Run src snd {} evs s) (hret : ∀ c, ∃ r, snd c r) (hn : ∀ r, s.pc ≠ .over r)
    (hw : s.ff.ctx ≠ none ∨ s.ff.doneClosed = true) : ∃ ev s', Fl.Step src snd s ev s' ∧ isFlEnv ev = false := by
  have hok := fl_run h
  cases hp : s.pc with
  | over r => exact absurd hp (hn r)
  | retrying =>
    obtain ⟨r, hr⟩ := hret s.parent
    exact ⟨_, _, .retried hp hr, rfl⟩
  | first =>
    cases hf : s.ff.pc with
    | registering => exact ⟨_, _, .inner hok.once.1 (by simp) (.register hf), rfl⟩
    | waiting =>
      rcases hw with hw | hw
      · cases hc : s.ff.ctx with
        | none => exact absurd hc hw
        | some e => exact ⟨_, _, .inner hok.once.1 (by simp) (.ended hf hc), rfl⟩
      · exact ⟨_, _, .inner hok.once.1 (by simp) (.flush hf hw), rfl⟩
    | sending =>
      obtain ⟨r, hr⟩ := hret s.ff.ctx
      exact ⟨_, _, .inner hok.once.1 (by simp) (.flushed hf hr), rfl⟩
    | returned r =>
      cases r with
      | none => exact ⟨_, _, .noRetry hp hf (.inl rfl), rfl⟩
      | some e =>
        cases he : errorsIs (some e) s.ff.ctx with
        | true => exact ⟨_, _, .retry hp hf he, rfl⟩
        | false => exact ⟨_, _, .noRetry hp hf (.inr he), rfl⟩

/-- **C83 (giving up).** Once over, nothing more is ever sent. -/
theorem C83_gives_up {evs evs' : List FlEv} {s s' : Fl} (h : Fl.Run src snd {} evs s) {r : Option GoErr} (hr : s.pc = .over r)
    (h' : Fl.Run src snd s evs' s') : evs'.countP isFlSend = 0 ∧ s'.pc = .over r := by
  have key : evs'.countP isFlSend = 0 ∧ s'.pc = .over r ∧ ∃ r', s'.ff.pc = .returned r' := by
    have h0 : ∃ r', s.ff.pc = .returned r' := by
      have hok := fl_run h
      cases hf : s.ff.pc with
      | registering => have := (hok.before (.inl hf)).1; rw [hr] at this; cases this
      | waiting => have := (hok.before (.inr hf)).1; rw [hr] at this; cases this
      | sending => have := (hok.sending hf).1; rw [hr] at this; cases this
      | returned r' => exact ⟨r', rfl⟩
    clear h
    induction h' with
    | nil => exact ⟨rfl, hr, h0⟩
    | snoc _ hs ih =>
      obtain ⟨i1, i2, r', i3⟩ := ih
      cases hs with
      | inner _ hne hff =>
        cases hff with
        | register hp => rw [i3] at hp; cases hp
        | handle =>
          refine ⟨by rw [List.countP_append, i1]; rfl, i2, r', ?_⟩
          split
          · exact i3
          · split <;> exact i3
        | cancel => exact absurd rfl hne
        | flush hp => rw [i3] at hp; cases hp
        | flushed hp => rw [i3] at hp; cases hp
        | ended hp => rw [i3] at hp; cases hp
      | timeout => exact ⟨by rw [List.countP_append, i1]; rfl, i2, r', i3⟩
      | shutdown => exact ⟨by rw [List.countP_append, i1]; rfl, i2, r', i3⟩
      | retry hp => rw [i2] at hp; cases hp
      | retried hp => rw [i2] at hp; cases hp
      | noRetry hp => rw [i2] at hp; cases hp
  exact ⟨key.1, key.2.1⟩

theorem fl_finishes {s : Fl} (hcr : s.ff.crashed = false) (hret : ∀ c, ∃ r, snd c r) (hc : s.ff.ctx ≠ none) :
    ∃ evs s', Fl.Run src snd s evs s' ∧ (∀ ev ∈ evs, isFlEnv ev = false) ∧ ∃ r, s'.pc = .over r := by
  have happ : ∀ {a b c : Fl} {e1 e2 : List FlEv}, Fl.Run src snd a e1 b → Fl.Run src snd b e2 c → Fl.Run src snd a (e1 ++ e2) c := by
    intro a b c e1 e2 h1 h2
    induction h2 with
    | nil => simpa using h1
    | snoc _ hs ih => rw [← List.append_assoc]; exact .snoc ih hs
  -- from `returned` on
  have hB : ∀ (s : Fl), (s.pc ≠ .first → ∃ evs s', Fl.Run src snd s evs s' ∧ (∀ ev ∈ evs, isFlEnv ev = false) ∧ ∃ r, s'.pc = .over r) := by
    intro s hp
    cases hpc : s.pc with
    | first => exact absurd hpc hp
    | over r => exact ⟨[], s, .nil, by simp, r, hpc⟩
    | retrying =>
      obtain ⟨r, hr⟩ := hret s.parent
      exact ⟨_, _, Fl.Run.nil.snoc (.retried hpc hr), by simp [isFlEnv], _, rfl⟩
  have hC : ∀ (s : Fl) r, s.ff.pc = .returned r → ∃ evs s', Fl.Run src snd s evs s' ∧ (∀ ev ∈ evs, isFlEnv ev = false) ∧ ∃ r, s'.pc = .over r := by
    intro s r hf
    by_cases hp : s.pc = .first
    · cases r with
      | none => exact ⟨_, _, Fl.Run.nil.snoc (.noRetry hp hf (.inl rfl)), by simp [isFlEnv], _, rfl⟩
      | some e =>
        cases he : errorsIs (some e) s.ff.ctx with
        | false => exact ⟨_, _, Fl.Run.nil.snoc (.noRetry hp hf (.inr he)), by simp [isFlEnv], _, rfl⟩
        | true =>
          obtain ⟨evs, s', h1, h2, h3⟩ := hB { s with pc := .retrying } (by simp)
          exact ⟨_, s', happ (Fl.Run.nil.snoc (.retry hp hf he)) h1, by
            intro ev hev
            rcases List.mem_append.1 hev with h | h
            · simp only [List.nil_append, List.mem_singleton] at h; subst h; rfl
            · exact h2 ev h, h3⟩
    · exact hB s hp
  have hcons : ∀ {s t : Fl} {ev : FlEv}, Fl.Step src snd s ev t → isFlEnv ev = false →
      (∃ evs s', Fl.Run src snd t evs s' ∧ (∀ ev ∈ evs, isFlEnv ev = false) ∧ ∃ r, s'.pc = .over r) →
      ∃ evs s', Fl.Run src snd s evs s' ∧ (∀ ev ∈ evs, isFlEnv ev = false) ∧ ∃ r, s'.pc = .over r := by
    rintro s t ev hs he ⟨evs, s', h1, h2, h3⟩
    exact ⟨_, s', happ (Fl.Run.nil.snoc hs) h1, by
      intro ev hev
      rcases List.mem_append.1 hev with h | h
      · simp only [List.nil_append, List.mem_singleton] at h; subst h; exact he
      · exact h2 ev h, h3⟩
  obtain ⟨e, he⟩ := Option.ne_none_iff_exists'.1 hc
  cases hf : s.ff.pc with
  | returned r => exact hC s r hf
  | sending =>
    obtain ⟨r, hr⟩ := hret s.ff.ctx
    exact hcons (.inner hcr (by simp) (.flushed hf hr)) rfl (hC _ _ rfl)
  | waiting => exact hcons (.inner hcr (by simp) (.ended hf he)) rfl (hC _ _ rfl)
  | registering =>
    exact hcons (.inner hcr (by simp) (.register hf)) rfl (hcons (.inner hcr (by simp) (.ended rfl he)) rfl (hC _ _ rfl))

/-- **C83 (shutdown).** While the tool runs it can be shut down at any time, and then, if senders return, the goroutine can finish by itself, with or without a
message from the source. -/
theorem C83_shutdown {evs : List FlEv} {s : Fl} (h : Fl.Run src snd {} evs s) (hret : ∀ c, ∃ r, snd c r) (hsh : .shutdown ∉ evs) :
    ∃ s1, Fl.Step src snd s .shutdown s1 ∧ ∃ evs' s', Fl.Run src snd s1 evs' s' ∧ (∀ ev ∈ evs', isFlEnv ev = false) ∧ ∃ r, s'.pc = .over r := by
  have hpar : s.parent = none := by
    clear hret
    induction h with
    | nil => rfl
    | snoc _ hs ih =>
      simp only [List.mem_append, List.mem_singleton, not_or] at hsh
      cases hs with
      | shutdown => exact absurd rfl hsh.2
      | inner | timeout | retry | retried | noRetry => exact ih hsh.1
  refine ⟨_, .shutdown .canceled (.inl rfl) hpar, fl_finishes (fl_run h).once.1 hret ?_⟩
  cases hx : s.ff.ctx <;> simp

/-- C83 is false: the first send fails (the router detached the link, say), the context is live, and the goroutine is over, without a flush request
accepted and without ever trying again (`C83_gives_up`). -/
theorem C83_counterexample : ∃ evs s, Fl.Run { direct := "sfe.src1" } (fun _ r => r = some (.other "detached")) {} evs s ∧
    s.pc = .over (some (.wrap "client flush error" (.other "detached"))) ∧ s.parent = none ∧ s.ff.ctx = none ∧ ¬ Accepted evs := by
  have r1 := (Fl.Run.nil (src := { direct := "sfe.src1" }) (snd := fun _ r => r = some (.other "detached")) (s := {})).snoc
    (.inner rfl (by simp) (.register rfl))
  have r2 := r1.snoc (.inner rfl (by simp) .handle)
  have r3 := r2.snoc (.inner rfl (by simp) (.flush rfl rfl))
  have r4 := r3.snoc (.inner rfl (by simp) (.flushed (r := some (.other "detached")) rfl rfl))
  have r5 := r4.snoc (.noRetry rfl rfl (.inr (by decide)))
  refine ⟨_, _, r5, rfl, rfl, rfl, ?_⟩
  simp [Accepted]

/-- Instance of the partial results: nothing arrives for five seconds, the second attempt succeeds. -/
example : ∃ evs s, Fl.Run { direct := "sfe.src1" } (fun _ r => r = none) {} evs s ∧ s.pc = .over none ∧ s.parent = none ∧
    evs.countP isFlSend = 1 ∧ FailsOnlyByContext (fun _ r => r = none) := by
  have r1 := (Fl.Run.nil (src := { direct := "sfe.src1" }) (snd := fun _ r => r = none) (s := {})).snoc
    (.inner rfl (by simp) (.register rfl))
  have r2 := r1.snoc (.timeout rfl)
  have r3 := r2.snoc (.inner rfl (by simp) (.ended rfl rfl))
  have r4 := r3.snoc (.retry rfl rfl (by decide))
  have r5 := r4.snoc (.retried (r := none) rfl rfl)
  exact ⟨_, _, r5, rfl, rfl, rfl, fun _ _ h => .inl h⟩

end Verif.Props
