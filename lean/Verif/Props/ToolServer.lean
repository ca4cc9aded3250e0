import Verif.Spec.ToolServer

/-!
# C92: the commands `serve` and `fixture` end when they should
-/
namespace Verif.Props
open Verif Verif.Model Verif.Spec

theorem laterEv_mono {x y : ToolEv} {evs : List ToolEv} (e : ToolEv) (h : laterEv x y evs) : laterEv x y (evs ++ [e]) := by
  obtain ⟨a, b, rfl, h⟩ := h
  exact ⟨a, b ++ [e], by simp, h⟩

theorem openRequests_append : ∀ a b, openRequests (a ++ b) = openRequests a + openRequests b
  | [], b => by simp [openRequests]
  | e :: a, b => by
    have := openRequests_append a b
    cases e <;> simp only [List.cons_append, openRequests, this] <;> omega

/-- Where the preparations are. -/
def ToolTodo (cmd : ToolCmd) (pc : ToolPC) (srv con reg : Bool) : Prop :=
  match pc with
  | .setup todo => ∃ done, cmd.setup = done ++ todo ∧ (srv = true ↔ .goServe ∈ done) ∧ (con = true ↔ .startContainer ∈ done) ∧ (reg = true ↔ .onSessionError ∈ done)
  | _ => srv = true ∧ con = true ∧ reg = true

/-- What is known about a command. -/
structure ToolInv (cmd : ToolCmd) (evs : List ToolEv) (s : Tool) : Prop where
  todo : ToolTodo cmd s.pc (s.srv != .none) (s.con != .none) s.registered
  var : s.cancelVar = .shutdown ↔ (s.pc = .armed ∨ s.pc = .shutting ∨ s.pc = .joining ∨ s.pc = .returned)
  ctx : s.ctxDone = true → .interrupt ∈ evs ∨ .cancel ∈ evs
  gave : (s.con = .gaveUp ∨ s.con = .handling ∨ .cancel ∈ evs) → .giveUp ∈ evs
  later : (s.pc = .woken ∨ s.pc = .armed ∨ s.pc = .shutting ∨ s.pc = .joining ∨ s.pc = .returned) → s.ctxDone = true
  down : (s.pc = .shutting ∨ s.pc = .joining ∨ s.pc = .returned) ↔ s.inShutdown = true
  srvDone : s.pc = .returned → s.srv = .failed ∨ s.srv = .closed
  shut : s.shutdownDone = true → .second ∈ evs ∨ laterEv .arm .cancel evs
  armed : s.cancelVar = .shutdown → .arm ∈ evs
  count : (s.active : Int) = openRequests evs
  grace : (s.pc = .joining ∨ s.pc = .returned) → s.shutdownDone = true ∨ s.active = 0
  told : .cancel ∈ evs → s.ctxDone = true

theorem toolTodo_step {cmd : ToolCmd} {s s' : Tool} {ev : ToolEv} (h : ToolTodo cmd s.pc (s.srv != .none) (s.con != .none) s.registered) (hs : Tool.Step s ev s') :
    ToolTodo cmd s'.pc (s'.srv != .none) (s'.con != .none) s'.registered := by
  cases hs with
  | startContainer hp =>
    rw [hp] at h
    obtain ⟨done, a1, a2, a3, a4⟩ := h
    exact ⟨done ++ [.startContainer], by rw [a1]; simp, by simpa using a2, by simp, by simpa using a4⟩
  | onSessionError hp =>
    rw [hp] at h
    obtain ⟨done, a1, a2, a3, a4⟩ := h
    exact ⟨done ++ [.onSessionError], by rw [a1]; simp, by simpa using a2, by simpa using a3, by simp⟩
  | goServe hp =>
    rw [hp] at h
    obtain ⟨done, a1, a2, a3, a4⟩ := h
    exact ⟨done ++ [.goServe], by rw [a1]; simp, by simp, by simpa using a3, by simpa using a4⟩
  | ready hp =>
    rw [hp] at h
    obtain ⟨done, a1, a2, a3, a4⟩ := h
    rw [List.append_nil] at a1
    rw [← a1] at a2 a3 a4
    refine ⟨a2.2 ?_, a3.2 ?_, a4.2 ?_⟩ <;> cases cmd <;> decide
  | wake hp => rw [hp] at h; exact h
  | arm hp => rw [hp] at h; exact h
  | shutdown hp => rw [hp] at h; exact h
  | shutdownReturns hp => rw [hp] at h; exact h
  | «return» hp => rw [hp] at h; exact h
  | listenOk hp => rw [hp] at h; exact h
  | listenFails hp => rw [hp] at h; exact h
  | serverError hp => rw [hp] at h; exact h
  | serverClosed hp => rcases hp with hp | hp <;> (rw [hp] at h; exact h)
  | giveUp hp => rw [hp] at h; exact h
  | final hp =>
    rw [hp] at h
    have : ((if s.registered = true then ConPC.handling else ConPC.over) != ConPC.none) = (ConPC.gaveUp != ConPC.none) := by split <;> rfl
    show ToolTodo cmd s.pc _ ((if s.registered = true then ConPC.handling else ConPC.over) != ConPC.none) _
    rw [this]; exact h
  | cancelCtx hp => rw [hp] at h; exact h
  | cancelShutdown hp => rw [hp] at h; exact h
  | containerEnds hp => rcases hp with hp | hp <;> (rw [hp] at h; exact h)
  | _ => exact h

theorem toolInv_step {cmd : ToolCmd} {evs : List ToolEv} {s s' : Tool} {ev : ToolEv} (h : ToolInv cmd evs s) (hs : Tool.Step s ev s') : ToolInv cmd (evs ++ [ev]) s' := by
  have h1 := toolTodo_step h.todo hs
  obtain ⟨_, h2, h3, h4, h5, h6, h7, h8, h9, h10, h11, h12⟩ := h
  have hc : openRequests (evs ++ [ev]) = openRequests evs + openRequests [ev] := openRequests_append _ _
  have hl : laterEv .arm .cancel evs → laterEv .arm .cancel (evs ++ [ev]) := laterEv_mono ev
  refine ⟨h1, ?_, ?_, ?_, ?_, ?_, ?_, ?_, ?_, ?_, ?_, ?_⟩
  · cases hs <;> simp_all
  · cases hs <;> simp_all
  · cases hs <;> simp_all
  · cases hs <;> simp_all
  · cases hs <;> simp_all
  · cases hs <;> simp_all
  · have keep : s'.shutdownDone = s.shutdownDone → s'.shutdownDone = true → .second ∈ evs ++ [ev] ∨ laterEv .arm .cancel (evs ++ [ev]) := by
      intro he hd
      rw [he] at hd
      exact (h8 hd).imp (List.mem_append_left _) hl
    cases hs with
    | second => exact fun _ => Or.inl (by simp)
    | cancelShutdown _ hv => exact fun _ => Or.inr ⟨evs, [], rfl, h9 hv⟩
    | _ => exact keep rfl
  · cases hs <;> simp_all
  · rw [hc]
    cases hs <;> simp_all [openRequests] <;> omega
  · clear hc h10 hl h8 h9 h1
    cases hs with
    | shutdownReturns _ hr => exact fun _ => hr.symm
    | second => exact fun _ => Or.inl rfl
    | cancelShutdown => exact fun _ => Or.inl rfl
    | request _ hd =>
      intro hp
      rw [h6.1 (Or.inr hp)] at hd
      cases hd
    | @answer n ha =>
      intro hp
      rcases h11 hp with h | h
      · exact Or.inl h
      · rw [ha] at h; cases h
    | «return» hp _ => exact fun _ => h11 (Or.inl hp)
    | _ => simp_all
  · cases hs <;> simp_all

theorem toolInv_run {cmd : ToolCmd} {evs : List ToolEv} {s : Tool} (h : Tool.Run cmd.init evs s) : ToolInv cmd evs s := by
  induction h with
  | nil =>
    refine ⟨⟨[], rfl, by simp [ToolCmd.init], by simp [ToolCmd.init], by simp [ToolCmd.init]⟩, ?_, ?_, ?_, ?_, ?_, ?_, ?_, ?_, ?_, ?_, ?_⟩ <;> simp [ToolCmd.init, openRequests]
  | snoc _ _ hs ih => exact toolInv_step ih hs

/-- **C92**: a command returns only after an interrupt or after its container has given up; its server has ended then. -/
theorem C92_why {cmd : ToolCmd} {evs : List ToolEv} {s : Tool} (h : Tool.Run cmd.init evs s) (hr : s.pc = .returned) :
    (.interrupt ∈ evs ∨ .giveUp ∈ evs) ∧ (s.srv = .failed ∨ s.srv = .closed) := by
  have hi := toolInv_run h
  refine ⟨?_, hi.srvDone hr⟩
  rcases hi.ctx (hi.later (by simp [hr])) with h | h
  · exact Or.inl h
  · exact Or.inr (hi.gave (Or.inr (Or.inr h)))

/-- What the server goroutine is doing, by what has happened. -/
theorem server_run {cmd : ToolCmd} {evs : List ToolEv} {s : Tool} (h : Tool.Run cmd.init evs s) :
    s.srv = serverDoes evs.reverse ∧ (s.inShutdown = true ↔ .shutdown ∈ evs) := by
  generalize hi : cmd.init = s0 at h
  induction h with
  | nil => subst hi; cases cmd <;> exact ⟨rfl, by simp [ToolCmd.init]⟩
  | snoc hr hp hs ih =>
    obtain ⟨a, b⟩ := ih
    rw [List.reverse_append]
    cases hs <;> refine ⟨?_, ?_⟩ <;> first | exact a | rfl | simp [b]

/-- **C92**: what the server can do at a time depends on what it last did and on whether `Shutdown` was called: it begins to listen or not, takes requests and fails only before that, and ends
because of it only after. -/
theorem C92_server {cmd : ToolCmd} {evs : List ToolEv} {s : Tool} (h : Tool.Run cmd.init evs s) :
    (∀ b, (∃ s', Tool.Step s (.listen b) s') ↔ serverDoes evs.reverse = .spawned ∧ .shutdown ∉ evs) ∧
    ((∃ s', Tool.Step s .serverError s') ↔ serverDoes evs.reverse = .listening ∧ .shutdown ∉ evs) ∧
    ((∃ s', Tool.Step s .request s') ↔ serverDoes evs.reverse = .listening ∧ .shutdown ∉ evs) ∧
    ((∃ s', Tool.Step s .serverClosed s') ↔ (serverDoes evs.reverse = .spawned ∨ serverDoes evs.reverse = .listening) ∧ .shutdown ∈ evs) := by
  obtain ⟨h1, h2⟩ := server_run h
  rw [← h1, ← h2]
  refine ⟨fun b => ⟨?_, ?_⟩, ⟨?_, ?_⟩, ⟨?_, ?_⟩, ⟨?_, ?_⟩⟩
  · rintro ⟨s', hs⟩
    cases hs with
    | listenOk a b => exact ⟨a, by simp [b]⟩
    | listenFails a b => exact ⟨a, by simp [b]⟩
  · rintro ⟨a, c⟩
    cases b with
    | true => exact ⟨_, .listenOk a (by simpa using c)⟩
    | false => exact ⟨_, .listenFails a (by simpa using c)⟩
  · rintro ⟨s', hs⟩
    cases hs with | serverError a b => exact ⟨a, by simp [b]⟩
  · rintro ⟨a, c⟩
    exact ⟨_, .serverError a (by simpa using c)⟩
  · rintro ⟨s', hs⟩
    cases hs with | request a b => exact ⟨a, by simp [b]⟩
  · rintro ⟨a, c⟩
    exact ⟨_, .request a (by simpa using c)⟩
  · rintro ⟨s', hs⟩
    cases hs with | serverClosed a b => exact ⟨a, b⟩
  · rintro ⟨a, c⟩
    exact ⟨_, .serverClosed a c⟩

/-- How far the program can still go by itself. -/
def toolMeasure (s : Tool) : Nat :=
  (match s.pc with | .setup todo => 7 + 10 * todo.length | .waiting => 6 | .woken => 5 | .armed => 4 | .shutting => 3 | .joining => 2 | .returned => 0) +
  (match s.srv with | .none => 3 | .spawned => 2 | .listening => 1 | _ => 0) +
  (match s.con with | .none => 4 | .running => 3 | .gaveUp => 2 | .handling => 1 | .over => 0) +
  (if s.shutdownDone then 0 else 1)

theorem toolMeasure_step {s s' : Tool} {ev : ToolEv} (hs : Tool.Step s ev s') : toolMeasure s' + (if ToolEv.own ev then 1 else 0) ≤ toolMeasure s := by
  cases hs with
  | final h1 => unfold toolMeasure; simp only [h1, ToolEv.own]; cases s.registered <;> simp <;> omega
  | cancelShutdown h1 h2 =>
    unfold toolMeasure; simp only [h1, ToolEv.own]
    cases s.shutdownDone <;> simp <;> omega
  | serverClosed h1 h2 => unfold toolMeasure; rcases h1 with h1 | h1 <;> simp [h1, ToolEv.own] <;> omega
  | containerEnds h1 h2 => unfold toolMeasure; rcases h1 with h1 | h1 <;> simp [h1, ToolEv.own] <;> omega
  | second h1 h2 => unfold toolMeasure; simp [h2, ToolEv.own]
  | _ => unfold toolMeasure; simp [*, ToolEv.own] <;> omega

/-- **C92**: a command takes a bounded number of steps of its own, whatever comes from outside. -/
theorem C92_bounded {cmd : ToolCmd} {evs : List ToolEv} {s : Tool} (h : Tool.Run cmd.init evs s) : (evs.filter ToolEv.own).length ≤ 45 := by
  have key : (evs.filter ToolEv.own).length + toolMeasure s ≤ 45 := by
    induction h with
    | nil => cases cmd <;> decide
    | @snoc _ _ _ ev _ _ hs ih =>
      have := toolMeasure_step hs
      rw [List.filter_append, List.length_append]
      cases hev : ToolEv.own ev <;> simp [hev] at this ⊢ <;> omega
  omega

/-- **C92**: after an interrupt the command always has a step of its own to take until it has returned.  Together with `C92_bounded`: it returns. -/
theorem C92_returns {cmd : ToolCmd} {evs : List ToolEv} {s : Tool} (h : Tool.Run cmd.init evs s) (hi : .interrupt ∈ evs ∨ .cancel ∈ evs) (hr : s.pc ≠ .returned) :
    ∃ ev s', ToolEv.own ev = true ∧ Tool.Step s ev s' := by
  have hinv := toolInv_run h
  have hctx : s.ctxDone = true := by
    rcases hi with hi | hi
    · clear hr hinv
      induction h with
      | nil => cases hi
      | snoc _ _ hs ih =>
        rcases List.mem_append.1 hi with hi | hi
        · have := ih hi
          cases hs <;> first | exact this | rfl
        · simp at hi
          subst hi
          cases hs
          rfl
    · exact hinv.told hi
  cases hp : s.pc with
  | setup todo =>
    match todo, hp with
    | [], hp => exact ⟨_, _, rfl, .ready hp⟩
    | .startContainer :: todo, hp => exact ⟨_, _, rfl, .startContainer hp⟩
    | .onSessionError :: todo, hp => exact ⟨_, _, rfl, .onSessionError hp⟩
    | .goServe :: todo, hp => exact ⟨_, _, rfl, .goServe hp⟩
  | waiting => exact ⟨_, _, rfl, .wake hp hctx⟩
  | woken => exact ⟨_, _, rfl, .arm hp⟩
  | armed => exact ⟨_, _, rfl, .shutdown hp⟩
  | shutting =>
    cases hd : s.shutdownDone with
    | true => exact ⟨_, _, rfl, .shutdownReturns hp (Or.inr hd)⟩
    | false => exact ⟨_, _, rfl, .second (Or.inr hp) hd⟩
  | joining =>
    have hsrv := hinv.todo
    rw [hp] at hsrv
    have hsd := hinv.down.1 (Or.inr (Or.inl hp))
    cases h3 : s.srv with
    | none => rw [h3] at hsrv; exact absurd hsrv.1 (by decide)
    | spawned => exact ⟨_, _, rfl, .serverClosed (Or.inl h3) hsd⟩
    | listening => exact ⟨_, _, rfl, .serverClosed (Or.inr h3) hsd⟩
    | failed => exact ⟨_, _, rfl, .return hp (Or.inl h3)⟩
    | closed => exact ⟨_, _, rfl, .return hp (Or.inr h3)⟩
  | returned => exact absurd hp hr

theorem tool_split : ∀ {b : List ToolEv} {a : List ToolEv} {ev : ToolEv} {s s' : Tool}, Tool.Run s (a ++ ev :: b) s' →
    ∃ s1 s2, Tool.Run s a s1 ∧ s1.pc ≠ .returned ∧ Tool.Step s1 ev s2 ∧ Tool.Run s2 b s' := by
  intro b a ev s s' h
  generalize he : a ++ ev :: b = evs at h
  induction h generalizing b with
  | nil => simp at he
  | @snoc s1 s2 evs ev' hr hp hs ih =>
    rcases List.eq_nil_or_concat b with rfl | ⟨b', x, rfl⟩
    · have : a ++ [ev] = evs ++ [ev'] := he
      obtain ⟨rfl, h2⟩ := List.append_inj' this rfl
      cases h2
      exact ⟨_, _, hr, hp, hs, .nil⟩
    · have : (a ++ ev :: b') ++ [x] = evs ++ [ev'] := by simpa using he
      obtain ⟨h1, h2⟩ := List.append_inj' this rfl
      cases h2
      obtain ⟨t1, t2, q1, q0, q2, q3⟩ := ih h1
      exact ⟨t1, t2, q1, q0, q2, by rw [List.concat_eq_append]; exact .snoc q3 hp hs⟩

theorem tool_registered {cmd : ToolCmd} {evs : List ToolEv} {s : Tool} (h : Tool.Run cmd.init evs s) (hm : .setup .onSessionError ∈ evs) : s.registered = true := by
  induction h with
  | nil => cases hm
  | snoc _ _ hs ih =>
    rcases List.mem_append.1 hm with hm' | hm'
    · have := ih hm'
      clear hm
      cases hs <;> first | exact this | rfl
    · simp at hm'
      subst hm'
      cases hs
      rfl

/-- **C92**, the part about the container that holds: once the handler is registered, the end of the container leads to the end of the command: until then the call of
`cancel` lies ahead, or the context has ended.  Missing for C92: a container that gives up before (`C92_deaf`). -/
theorem C92_container_partial {cmd : ToolCmd} {a b : List ToolEv} {s : Tool} (h : Tool.Run cmd.init (a ++ .final :: b) s) (hr : .setup .onSessionError ∈ a) :
    s.ctxDone = true ∨ (s.con = .handling ∧ ∃ s', Tool.Step s .cancel s' ∧ s'.ctxDone = true) := by
  have hinv := toolInv_run h
  obtain ⟨s1, s2, h1, _, h2, h3⟩ := tool_split h
  have h0 : s2.ctxDone = true ∨ s2.con = .handling := by
    have := tool_registered h1 hr
    cases h2 with
    | final hc => right; show (if s1.registered = true then _ else _) = _; rw [this]; rfl
  have hpre : ∃ pre, Tool.Run cmd.init pre s2 := ⟨a ++ [.final], .snoc h1 (by assumption) h2⟩
  have key : s.ctxDone = true ∨ s.con = .handling := by
    clear h hinv h1 h2 hr
    obtain ⟨pre, hpre⟩ := hpre
    have : ∀ {b : List ToolEv} {s : Tool}, Tool.Run s2 b s → Tool.Run cmd.init (pre ++ b) s ∧ (s.ctxDone = true ∨ s.con = .handling) := by
      intro b s h3
      induction h3 with
      | nil => exact ⟨by simpa using hpre, h0⟩
      | @snoc s3 s4 _ _ hr hp hs ih =>
        refine ⟨by rw [← List.append_assoc]; exact .snoc ih.1 hp hs, ?_⟩
        have hinv := toolInv_run ih.1
        rcases ih.2 with h | h
        · left
          cases hs <;> first | exact h | rfl
        · cases hs with
          | cancelCtx => exact Or.inl rfl
          | cancelShutdown _ hv =>
            left
            have := hinv.later (by rcases hinv.var.1 hv with h | h | h | h <;> simp [h])
            exact this
          | startContainer hpc =>
            have := hinv.todo
            rw [hpc, h] at this
            obtain ⟨done, e, _, hc, _⟩ := this
            have : ToolSetup.startContainer ∈ done := hc.1 rfl
            have hcnt : cmd.setup.count .startContainer = 1 := by cases cmd <;> rfl
            rw [e, List.count_append, List.count_cons] at hcnt
            have := List.count_pos_iff.2 this
            simp at hcnt
            omega
          | giveUp hc => rw [h] at hc; cases hc
          | final hc => rw [h] at hc; cases hc
          | containerEnds hc => rw [h] at hc; rcases hc with hc | hc <;> cases hc
          | _ => exact Or.inr h
    exact (this h3).2
  rcases key with h | h
  · exact Or.inl h
  · right
    refine ⟨h, ?_⟩
    cases hv : s.cancelVar with
    | ctx => exact ⟨_, .cancelCtx h hv, rfl⟩
    | shutdown =>
      refine ⟨_, .cancelShutdown h hv, ?_⟩
      exact hinv.later (by rcases hinv.var.1 hv with h | h | h | h <;> simp [h])

/-- **C92**, the part about requests that holds: when the command returns every request has been answered, or a second has passed, or the container gave up and its handler
called `cancel` after serve.go:199.  Missing for C92: that last case (`C92_cut`). -/
theorem C92_grace_partial {cmd : ToolCmd} {evs : List ToolEv} {s : Tool} (h : Tool.Run cmd.init evs s) (hr : s.pc = .returned) :
    openRequests evs = 0 ∨ .second ∈ evs ∨ laterEv .arm .cancel evs := by
  have hi := toolInv_run h
  rcases hi.grace (Or.inr hr) with h | h
  · exact Or.inr (hi.shut h)
  · left
    rw [← hi.count, h]
    rfl

/-! ## Examples and counterexamples -/

theorem tool_cons {s s' s'' : Tool} {ev : ToolEv} {evs : List ToolEv} (hp : s.pc ≠ .returned) (h : Tool.Step s ev s') (hr : Tool.Run s' evs s'') : Tool.Run s (ev :: evs) s'' := by
  induction hr with
  | nil => exact Tool.Run.snoc (evs := []) .nil hp h
  | snoc _ hp' hs ih => exact Tool.Run.snoc (evs := _ :: _) ih hp' hs

/-- The command `serve` from its start to its end. -/
example : ∃ s, Tool.Run (ToolCmd.init .serve) [.setup .startContainer, .setup .onSessionError, .setup .goServe, .ready, .listen true, .request, .giveUp, .final, .cancel,
    .wake, .arm, .shutdown, .serverClosed, .answer, .shutdownReturns, .«return»] s ∧ s.pc = .returned :=
  ⟨_, tool_cons (by decide) (.startContainer rfl) <| tool_cons (by decide) (.onSessionError rfl) <| tool_cons (by decide) (.goServe rfl) <| tool_cons (by decide) (.ready rfl) <|
    tool_cons (by decide) (.listenOk rfl rfl) <| tool_cons (by decide) (.request rfl rfl) <| tool_cons (by decide) (.giveUp rfl rfl) <| tool_cons (by decide) (.final rfl) <|
    tool_cons (by decide) (.cancelCtx rfl rfl) <| tool_cons (by decide) (.wake rfl rfl) <| tool_cons (by decide) (.arm rfl) <| tool_cons (by decide) (.shutdown rfl) <|
    tool_cons (by decide) (.serverClosed (Or.inr rfl) rfl) <| tool_cons (by decide) (.answer rfl) <| tool_cons (by decide) (.shutdownReturns rfl (Or.inl rfl)) <|
    tool_cons (by decide) (.return rfl (Or.inr rfl)) .nil, rfl⟩

/-- Nothing of its own is left for the command to do, and it has not returned. -/
def Rests (s : Tool) : Prop := s.pc ≠ .returned ∧ ∀ ev s', ToolEv.own ev = true → ¬ Tool.Step s ev s'

/-- C92 is false: if the server cannot listen (its port is taken), the error is logged and the command stays up without a server. -/
theorem C92_no_server (cmd : ToolCmd) : ∃ evs s, Tool.Run cmd.init evs s ∧ .listen false ∈ evs ∧ s.srv = .failed ∧ Rests s := by
  cases cmd with
  | serve =>
    refine ⟨[.setup .startContainer, .setup .onSessionError, .setup .goServe, .ready, .listen false], _,
      tool_cons (by decide) (.startContainer rfl) <| tool_cons (by decide) (.onSessionError rfl) <| tool_cons (by decide) (.goServe rfl) <| tool_cons (by decide) (.ready rfl) <|
      tool_cons (by decide) (.listenFails rfl rfl) .nil, by decide, rfl, by decide, ?_⟩
    intro ev s' ho hs
    cases hs <;> simp_all [ToolCmd.init, ToolEv.own]
  | fixture =>
    refine ⟨[.setup .goServe, .setup .startContainer, .setup .onSessionError, .ready, .listen false], _,
      tool_cons (by decide) (.goServe rfl) <| tool_cons (by decide) (.startContainer rfl) <| tool_cons (by decide) (.onSessionError rfl) <| tool_cons (by decide) (.ready rfl) <|
      tool_cons (by decide) (.listenFails rfl rfl) .nil, by decide, rfl, by decide, ?_⟩
    intro ev s' ho hs
    cases hs <;> simp_all [ToolCmd.init, ToolEv.own]

/-- C92 is false: a container that gives up before the handler is registered (serve.go:112-113) tells nobody, and the command stays up without a container. -/
theorem C92_deaf (cmd : ToolCmd) : ∃ evs s, Tool.Run cmd.init evs s ∧ .giveUp ∈ evs ∧ s.con = .over ∧ Rests s := by
  cases cmd with
  | serve =>
    refine ⟨[.setup .startContainer, .giveUp, .final, .setup .onSessionError, .setup .goServe, .ready, .listen true], _,
      tool_cons (by decide) (.startContainer rfl) <| tool_cons (by decide) (.giveUp rfl rfl) <| tool_cons (by decide) (.final rfl) <|
      tool_cons (by decide) (.onSessionError rfl) <| tool_cons (by decide) (.goServe rfl) <| tool_cons (by decide) (.ready rfl) <|
      tool_cons (by decide) (.listenOk rfl rfl) .nil, by decide, rfl, by decide, ?_⟩
    intro ev s' ho hs
    cases hs <;> simp_all [ToolCmd.init, ToolEv.own]
  | fixture =>
    refine ⟨[.setup .goServe, .setup .startContainer, .giveUp, .final, .setup .onSessionError, .ready, .listen true], _,
      tool_cons (by decide) (.goServe rfl) <| tool_cons (by decide) (.startContainer rfl) <| tool_cons (by decide) (.giveUp rfl rfl) <| tool_cons (by decide) (.final rfl) <|
      tool_cons (by decide) (.onSessionError rfl) <| tool_cons (by decide) (.ready rfl) <|
      tool_cons (by decide) (.listenOk rfl rfl) .nil, by decide, rfl, by decide, ?_⟩
    intro ev s' ho hs
    cases hs <;> simp_all [ToolCmd.init, ToolEv.own]

/-- C92 is false: the container gives up, an interrupt comes before its handler calls `cancel`, and by then the variable refers to the shutdown: a request being answered is cut off
at once. -/
theorem C92_cut : ∃ evs s, Tool.Run (ToolCmd.init .serve) evs s ∧ s.pc = .returned ∧ openRequests evs = 1 ∧ .second ∉ evs :=
  ⟨[.setup .startContainer, .setup .onSessionError, .setup .goServe, .ready, .listen true, .request, .giveUp, .final, .interrupt,
    .wake, .arm, .shutdown, .serverClosed, .cancel, .shutdownReturns, .«return»], _,
    tool_cons (by decide) (.startContainer rfl) <| tool_cons (by decide) (.onSessionError rfl) <| tool_cons (by decide) (.goServe rfl) <| tool_cons (by decide) (.ready rfl) <|
    tool_cons (by decide) (.listenOk rfl rfl) <| tool_cons (by decide) (.request rfl rfl) <| tool_cons (by decide) (.giveUp rfl rfl) <| tool_cons (by decide) (.final rfl) <|
    tool_cons (by decide) .interrupt <| tool_cons (by decide) (.wake rfl rfl) <| tool_cons (by decide) (.arm rfl) <| tool_cons (by decide) (.shutdown rfl) <|
    tool_cons (by decide) (.serverClosed (Or.inr rfl) rfl) <| tool_cons (by decide) (.cancelShutdown rfl rfl) <| tool_cons (by decide) (.shutdownReturns rfl (Or.inr rfl)) <|
    tool_cons (by decide) (.return rfl (Or.inr rfl)) .nil, rfl, by decide, by decide⟩

/-- **C92.** Once the server is shut down the command can wait for every request being answered and return then, without cutting any off. -/
theorem C92_graceful {s : Tool} (hp : s.pc = .shutting) (hs : s.srv = .failed ∨ s.srv = .closed) :
    ∃ s', Tool.Run s (List.replicate s.active .answer ++ [.shutdownReturns, .«return»]) s' ∧ s'.pc = .returned ∧ s'.active = 0 := by
  have key : ∀ (n : Nat) {s : Tool}, s.active = n → s.pc = .shutting → (s.srv = .failed ∨ s.srv = .closed) →
      ∃ s', Tool.Run s (List.replicate n .answer ++ [.shutdownReturns, .«return»]) s' ∧ s'.pc = .returned ∧ s'.active = 0 := by
    intro n
    induction n with
    | zero =>
      intro s ha hp hs
      exact ⟨_, tool_cons (by rw [hp]; decide) (.shutdownReturns hp (.inl ha)) <| tool_cons (fun h => nomatch h) (.return rfl hs) .nil, rfl, ha⟩
    | succ n ih =>
      intro s ha hp hs
      obtain ⟨s', h1, h2, h3⟩ := ih (s := { s with active := n }) rfl hp hs
      exact ⟨s', tool_cons (by rw [hp]; decide) (.answer ha) h1, h2, h3⟩
  exact key _ rfl hp hs

example : ∃ evs s, Tool.Run (ToolCmd.init .serve) evs s ∧ s.pc = .shutting ∧ s.srv = .closed ∧ s.active = 1 :=
  ⟨_, _, tool_cons (by decide) (.startContainer rfl) <| tool_cons (by decide) (.onSessionError rfl) <| tool_cons (by decide) (.goServe rfl) <| tool_cons (by decide) (.ready rfl) <|
    tool_cons (by decide) (.listenOk rfl rfl) <| tool_cons (by decide) (.request rfl rfl) <|
    tool_cons (by decide) .interrupt <| tool_cons (by decide) (.wake rfl rfl) <| tool_cons (by decide) (.arm rfl) <| tool_cons (by decide) (.shutdown rfl) <|
    tool_cons (by decide) (.serverClosed (Or.inr rfl) rfl) .nil, rfl, rfl, rfl⟩

end Verif.Props
