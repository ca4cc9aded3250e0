import Verif.Spec.Client
import Verif.Props.Messages

/-!
# C43-C45: the client
-/
namespace Verif.Props
open Verif Verif.Model Verif.Spec

variable {reg : Registry}

/-! ## C43 -/

/-- One turn of a listener: a message and the handlers looked up for it. -/
abbrev Turn := Decoded × List Nat

/-- The calls of a turn. -/
def Turn.calls (t : Turn) : List (Nat × Decoded) := t.2.map (·, t.1)

/-- Turn number `i` looked up its handlers at a moment when message `i` was the last one accepted and all calls of the earlier turns, and
no others, had been made; it found the handlers of the kind registered before that moment. -/
def LookedUp (reg : Registry) (l : Nat) (evs : List ClEv) (turns : List Turn) : Prop :=
  ∀ i t, turns[i]? = some t → ∃ pre post, evs = pre ++ post ∧ (decodedOf reg l pre).length = i + 1 ∧
    callsOf l pre = (turns.take i).flatMap Turn.calls ∧ t.2 = registeredFor t.1 pre

def TurnsOK (reg : Registry) (l : Nat) (evs : List ClEv) (pc : LPC) : Prop :=
  ∃ turns : List Turn, turns.map Prod.fst ++ notLooked pc = decodedOf reg l evs ∧
    callsOf l evs ++ callsLeft pc = turns.flatMap Turn.calls ∧ LookedUp reg l evs turns

theorem decodedOf_snoc {l : Nat} {evs : List ClEv} {ev : ClEv} : decodedOf reg l (evs ++ [ev]) = decodedOf reg l evs ++ decodedOf reg l [ev] := by
  simp [decodedOf, List.filterMap_append]

theorem callsOf_snoc {l : Nat} {evs : List ClEv} {ev : ClEv} : callsOf l (evs ++ [ev]) = callsOf l evs ++ callsOf l [ev] := by
  simp [callsOf, List.filterMap_append]

theorem LookedUp.snoc {l : Nat} {evs : List ClEv} {turns : List Turn} (h : LookedUp reg l evs turns) (ev : ClEv) :
    LookedUp reg l (evs ++ [ev]) turns := by
  intro i t ht
  obtain ⟨pre, post, he, h1, h2, h3⟩ := h i t ht
  exact ⟨pre, post ++ [ev], by rw [he, List.append_assoc], h1, h2, h3⟩

/-- A step that is not about listener `l`, or does not look up, call or accept, changes nothing. -/
theorem TurnsOK.silent {l : Nat} {evs : List ClEv} {ev : ClEv} {pc pc' : LPC} (h : TurnsOK reg l evs pc) (h1 : decodedOf reg l [ev] = [])
    (h2 : callsOf l [ev] = []) (h3 : notLooked pc' = notLooked pc) (h4 : callsLeft pc' = callsLeft pc) : TurnsOK reg l (evs ++ [ev]) pc' := by
  obtain ⟨turns, a, b, c⟩ := h
  exact ⟨turns, by rw [decodedOf_snoc, h1, List.append_nil, h3, a], by rw [callsOf_snoc, h2, List.append_nil, h4, b], c.snoc ev⟩

/-- Where listener `l` is; listeners that do not exist yet count as starting. -/
def pcOf (s : Client) (l : Nat) : LPC := match s.listeners[l]? with | some x => x.pc | none => .adding

theorem pcOf_some {s : Client} {l : Nat} {x : Listener} (h : s.listeners[l]? = some x) : pcOf s l = x.pc := by simp [pcOf, h]

theorem pcOf_at {s : Client} {l : Nat} {x : Listener} (h : s.listeners[l]? = some x) (pc : LPC) (l' : Nat) :
    pcOf (s.at l pc) l' = if l' = l then pc else pcOf s l' := by
  simp only [pcOf, Client.at, List.getElem?_modify]
  by_cases e : l' = l
  · subst e; simp [h]
  · simp [e, Ne.symm e]

theorem cleanup_pc (x : Listener) : x.cleanup.pc = x.pc := by
  unfold Listener.cleanup; split <;> rfl

theorem pcOf_cleanup {s : Client} (ls : List Listener) (h : ls = s.listeners.map Listener.cleanup) (s' : Client) (hs : s'.listeners = ls) (l : Nat) :
    pcOf s' l = pcOf s l := by
  subst h
  simp only [pcOf, hs, List.getElem?_map]
  cases s.listeners[l]? with
  | none => rfl
  | some x => exact cleanup_pc x

/-- What a run has done with each listener and with the handlers. -/
structure ClOK (reg : Registry) (evs : List ClEv) (s : Client) : Prop where
  turns : ∀ l, TurnsOK reg l evs (pcOf s l)
  handlers : ∀ d, s.handlersFor d = registeredFor d evs

theorem clOK_silent {evs : List ClEv} {ev : ClEv} {s s' : Client} (h : ClOK reg evs s) (h1 : ∀ l, decodedOf reg l [ev] = [])
    (h2 : ∀ l, callsOf l [ev] = []) (h3 : ∀ l, notLooked (pcOf s' l) = notLooked (pcOf s l))
    (h4 : ∀ l, callsLeft (pcOf s' l) = callsLeft (pcOf s l)) (h5 : ∀ d, registeredFor d [ev] = [])
    (h6 : ∀ d, s'.handlersFor d = s.handlersFor d) : ClOK reg (evs ++ [ev]) s' := by
  refine ⟨fun l => (h.turns l).silent (h1 l) (h2 l) (h3 l) (h4 l), fun d => ?_⟩
  rw [h6, h.handlers]
  have := h5 d
  simp only [registeredFor, List.filterMap_append] at this ⊢
  rw [this, List.append_nil]

theorem clOK_step {evs : List ClEv} {ev : ClEv} {s s' : Client} (h : ClOK reg evs s) (hs : Client.Step reg s ev s') :
    ClOK reg (evs ++ [ev]) s' := by
  have sil : ∀ {l : Nat} {x : Listener} {pc : LPC} {s' : Client}, s.listeners[l]? = some x → notLooked pc = notLooked x.pc →
      callsLeft pc = callsLeft x.pc → s'.listeners = (s.at l pc).listeners → 
      (∀ l, notLooked (pcOf s' l) = notLooked (pcOf s l)) ∧ (∀ l, callsLeft (pcOf s' l) = callsLeft (pcOf s l)) := by
    intro l x pc s' hx h1 h2 hl
    have e : ∀ l', pcOf s' l' = pcOf (s.at l pc) l' := by intro l'; simp only [pcOf, hl]
    constructor <;> intro l' <;> rw [e, pcOf_at hx] <;> by_cases hl' : l' = l
    · subst hl'; rw [if_pos rfl, pcOf_some hx, h1]
    · rw [if_neg hl']
    · subst hl'; rw [if_pos rfl, pcOf_some hx, h2]
    · rw [if_neg hl']
  have hreg : ∀ {ev : ClEv}, (∀ h, ev ≠ .onRecord h) → (∀ h, ev ≠ .onHeartbeat h) → ∀ d, registeredFor d [ev] = [] := by
    intro ev h1 h2 d
    cases ev <;> first | (simp [registeredFor]; done) | (exact absurd rfl (h1 _)) | (exact absurd rfl (h2 _))
  have hq : ∀ {s' : Client}, s'.listeners = s.listeners → (∀ l, notLooked (pcOf s' l) = notLooked (pcOf s l)) ∧
      (∀ l, callsLeft (pcOf s' l) = callsLeft (pcOf s l)) := by
    intro s' hl; simp [pcOf, hl]
  cases hs with
  | onRecord hh =>
    refine ⟨fun l => (h.turns l).silent (by simp [decodedOf]) (by simp [callsOf]) rfl rfl, fun d => ?_⟩
    have := h.handlers d
    cases d <;> simp_all [registeredFor, Client.handlersFor, List.filterMap_append]
  | onHeartbeat hh =>
    refine ⟨fun l => (h.turns l).silent (by simp [decodedOf]) (by simp [callsOf]) rfl rfl, fun d => ?_⟩
    have := h.handlers d
    cases d <;> simp_all [registeredFor, Client.handlersFor, List.filterMap_append]
  | listen =>
    have e : ∀ l, pcOf { s with wg := s.wg + 1, listeners := s.listeners ++ [{}] } l = pcOf s l := by
      intro l
      simp only [pcOf]
      rcases Nat.lt_trichotomy l s.listeners.length with hl | hl | hl
      · rw [List.getElem?_append_left hl]
      · subst hl; simp
      · rw [List.getElem?_eq_none (by simp; omega), List.getElem?_eq_none (by omega)]
    exact clOK_silent h (by simp [decodedOf]) (by simp [callsOf]) (by simp [e]) (by simp [e]) (hreg (by simp) (by simp)) (fun _ => by rfl)
  | listenStart hx hp _ =>
    obtain ⟨a, b⟩ := sil (pc := .receiving) hx (by rw [hp]; rfl) (by rw [hp]; rfl) rfl
    exact clOK_silent h (by simp [decodedOf]) (by simp [callsOf]) a b (hreg (by simp) (by simp)) (fun _ => by rfl)
  | @cancel l x e _ hx _ =>
    have e' : ∀ l', pcOf { s with listeners := s.listeners.modify l fun x => { x with ctx := some e } } l' = pcOf s l' := by
      intro l'
      simp only [pcOf, List.getElem?_modify]
      cases h' : s.listeners[l']? with
      | none => rfl
      | some y => by_cases hl : l = l' <;> simp [hl]
    exact clOK_silent h (by simp [decodedOf]) (by simp [callsOf]) (by simp [e']) (by simp [e']) (hreg (by simp) (by simp)) (fun _ => by rfl)
  | deliver m hx hp =>
    obtain ⟨a, b⟩ := sil (pc := .accepting m) hx (by rw [hp]; rfl) (by rw [hp]; rfl) rfl
    exact clOK_silent h (by simp [decodedOf]) (by simp [callsOf]) a b (hreg (by simp) (by simp)) (fun _ => by rfl)
  | @nextEnded l x e hx hp _ =>
    obtain ⟨a, b⟩ := sil (s' := { s.at l .finished with wg := s.wg - 1 }) (pc := .finished) hx (by rw [hp]; rfl) (by rw [hp]; rfl) rfl
    exact clOK_silent h (by simp [decodedOf]) (by simp [callsOf]) a b (hreg (by simp) (by simp)) (fun _ => by rfl)
  | nextError e hx hp _ =>
    obtain ⟨a, b⟩ := hq (s' := s) rfl
    exact clOK_silent h (by simp [decodedOf]) (by simp [callsOf]) a b (hreg (by simp) (by simp)) (fun _ => by rfl)
  | @acceptEnded l x m e hx hp _ =>
    obtain ⟨a, b⟩ := sil (s' := { s.at l .finished with wg := s.wg - 1 }) (pc := .finished) hx (by rw [hp]; rfl) (by rw [hp]; rfl) rfl
    exact clOK_silent h (by simp [decodedOf]) (by simp [callsOf]) a b (hreg (by simp) (by simp)) (fun _ => by rfl)
  | acceptError e hx hp _ =>
    obtain ⟨a, b⟩ := sil (pc := .receiving) hx (by rw [hp]; rfl) (by rw [hp]; rfl) rfl
    exact clOK_silent h (by simp [decodedOf]) (by simp [callsOf]) a b (hreg (by simp) (by simp)) (fun _ => by rfl)
  | @decoded l x m d hx hp hd =>
    refine ⟨fun l' => ?_, fun d' => ?_⟩
    · rw [pcOf_at hx]
      by_cases hl : l' = l
      · subst hl
        rw [if_pos rfl]
        obtain ⟨turns, a, b, c⟩ := h.turns l'
        rw [pcOf_some hx, hp] at a b
        refine ⟨turns, ?_, ?_, c.snoc _⟩
        · rw [decodedOf_snoc, ← a]; simp [decodedOf, hd, notLooked]
        · rw [callsOf_snoc]; simpa [callsOf, callsLeft] using b
      · rw [if_neg hl]
        exact (h.turns l').silent (by simp [decodedOf, Ne.symm hl]) (by simp [callsOf]) rfl rfl
    · rw [show (s.at l (.fetching d)).handlersFor d' = s.handlersFor d' from by cases d' <;> rfl, h.handlers]
      simp [registeredFor, List.filterMap_append]
  | @undecodable l x m e hx hp hd =>
    obtain ⟨a, b⟩ := sil (pc := .receiving) hx (by rw [hp]; rfl) (by rw [hp]; rfl) rfl
    exact clOK_silent h (by simp [decodedOf, hd]) (by simp [callsOf]) a b (hreg (by simp) (by simp)) (fun _ => by rfl)
  | decodePanic hx hp hd =>
    obtain ⟨a, b⟩ := hq (s' := { s with crashed := true }) rfl
    exact clOK_silent h (by simp [decodedOf]) (by simp [callsOf]) a b (hreg (by simp) (by simp)) (fun _ => by rfl)
  | @fetch l x d hx hp _ =>
    refine ⟨fun l' => ?_, fun d' => ?_⟩
    · rw [pcOf_at hx]
      by_cases hl : l' = l
      · subst hl
        rw [if_pos rfl]
        obtain ⟨turns, a, b, c⟩ := h.turns l'
        rw [pcOf_some hx, hp] at a b
        simp only [callsLeft, List.append_nil] at b
        refine ⟨turns ++ [(d, s.handlersFor d)], ?_, ?_, ?_⟩
        · rw [decodedOf_snoc, ← a]; simp [decodedOf, notLooked]
        · rw [callsOf_snoc, b]; simp [callsOf, callsLeft, Turn.calls]
        · intro i t ht
          by_cases hi : i < turns.length
          · rw [List.getElem?_append_left hi] at ht
            obtain ⟨pre, post, he, h1, h2, h3⟩ := c i t ht
            refine ⟨pre, post ++ [.fetched l'], by rw [he, List.append_assoc], h1, ?_, h3⟩
            rw [List.take_append_of_le_length (by omega)]; exact h2
          · have hi' : i = turns.length := by
              have := List.getElem?_eq_some_iff.1 ht
              obtain ⟨hlt, _⟩ := this
              simp at hlt; omega
            subst hi'
            simp at ht
            subst ht
            refine ⟨evs, [.fetched l'], rfl, ?_, ?_, h.handlers d⟩
            · rw [← a]; simp [notLooked]
            · simpa using b
      · rw [if_neg hl]
        exact (h.turns l').silent (by simp [decodedOf]) (by simp [callsOf]) rfl rfl
    · rw [show (s.at l (.calling d (s.handlersFor d))).handlersFor d' = s.handlersFor d' from by cases d' <;> rfl, h.handlers]
      simp [registeredFor, List.filterMap_append]
  | @call l x d hh hs hx hp =>
    refine ⟨fun l' => ?_, fun d' => ?_⟩
    · rw [pcOf_at hx]
      by_cases hl : l' = l
      · subst hl
        rw [if_pos rfl]
        obtain ⟨turns, a, b, c⟩ := h.turns l'
        rw [pcOf_some hx, hp] at a b
        refine ⟨turns, ?_, ?_, c.snoc _⟩
        · rw [decodedOf_snoc, ← a]; simp [decodedOf, notLooked]
        · rw [callsOf_snoc, ← b]; simp [callsOf, callsLeft]
      · rw [if_neg hl]
        exact (h.turns l').silent (by simp [decodedOf]) (by simp [callsOf, Ne.symm hl]) rfl rfl
    · rw [show (s.at l (.calling d hs)).handlersFor d' = s.handlersFor d' from by cases d' <;> rfl, h.handlers]
      simp [registeredFor, List.filterMap_append]
  | again hx hp =>
    obtain ⟨a, b⟩ := sil (pc := .receiving) hx (by rw [hp]; rfl) (by rw [hp]; rfl) rfl
    exact clOK_silent h (by simp [decodedOf]) (by simp [callsOf]) a b (hreg (by simp) (by simp)) (fun _ => by rfl)
  | close =>
    obtain ⟨a, b⟩ := hq (s' := { s with closers := s.closers ++ [.locking] }) rfl
    exact clOK_silent h (by simp [decodedOf]) (by simp [callsOf]) a b (hreg (by simp) (by simp)) (fun _ => by rfl)
  | @closeLock c _ _ _ =>
    have e := pcOf_cleanup (s := s) _ rfl { s with lock := some c, doneClosed := true, closers := s.closers.set c .waiting, listeners := s.listeners.map Listener.cleanup } rfl
    exact clOK_silent h (by simp [decodedOf]) (by simp [callsOf]) (by simp [e]) (by simp [e]) (hreg (by simp) (by simp)) (fun _ => by rfl)
  | closePanic =>
    obtain ⟨a, b⟩ := hq (s' := { s with crashed := true }) rfl
    exact clOK_silent h (by simp [decodedOf]) (by simp [callsOf]) a b (hreg (by simp) (by simp)) (fun _ => by rfl)
  | @closeReturn c _ _ =>
    obtain ⟨a, b⟩ := hq (s' := { s with lock := none, closers := s.closers.set c .returned }) rfl
    exact clOK_silent h (by simp [decodedOf]) (by simp [callsOf]) a b (hreg (by simp) (by simp)) (fun _ => by rfl)

theorem clOK_run {evs : List ClEv} {s : Client} (h : Client.Run reg {} evs s) : ClOK reg evs s := by
  generalize hs0 : ({} : Client) = s0 at h
  induction h with
  | nil =>
    subst hs0
    exact ⟨fun l => ⟨[], rfl, rfl, by simp [LookedUp]⟩, fun d => by cases d <;> rfl⟩
  | snoc _ _ hs ih => exact clOK_step ih hs

/-- C43: the handler calls a listener makes are those of its turns, one after the other; the turns are the messages it has received, accepted
and could decode, in order; in its turn a message is given to exactly the handlers of its kind registered before it was looked up
(after the message arrived, before the first call for it), each once, in registration order.  Between messages everything due has
been done (`callsLeft` and `notLooked` are empty then). -/
theorem C43_handlers {evs : List ClEv} {s : Client} (h : Client.Run reg {} evs s) {l : Nat} {x : Listener} (hx : s.listeners[l]? = some x) :
    ∃ turns : List Turn, turns.map Prod.fst ++ notLooked x.pc = decodedOf reg l evs ∧
      callsOf l evs ++ callsLeft x.pc = turns.flatMap Turn.calls ∧ LookedUp reg l evs turns := by
  have := (clOK_run h).turns l
  rwa [pcOf_some hx] at this

/-- No handler is registered in these events. -/
def NoRegistration (evs : List ClEv) : Prop := ∀ ev ∈ evs, (∀ h, ev ≠ .onRecord h) ∧ ∀ h, ev ≠ .onHeartbeat h

theorem registeredFor_none {evs : List ClEv} (h : NoRegistration evs) (d : Decoded) : registeredFor d evs = [] := by
  rw [registeredFor, List.filterMap_eq_nil_iff]
  intro ev hev
  obtain ⟨h1, h2⟩ := h ev hev
  cases ev <;> first | rfl | exact absurd rfl (h1 _) | exact absurd rfl (h2 _)

/-- C43, the usual case: with all handlers registered before the first message (`evs0`), a listener that waits for the next message has called
exactly these handlers, in order, for each record or heartbeat message it got, in order, and none for any other message. -/
theorem C43_all_handlers {evs0 evs1 : List ClEv} {s : Client} (h : Client.Run reg {} (evs0 ++ evs1) s) {l : Nat} {x : Listener}
    (hx : s.listeners[l]? = some x) (hp : x.pc = .receiving) (h0 : decodedOf reg l evs0 = []) (h1 : NoRegistration evs1) :
    callsOf l (evs0 ++ evs1) = (decodedOf reg l evs1).flatMap fun d => (registeredFor d evs0).map (·, d) := by
  obtain ⟨turns, a, b, c⟩ := C43_handlers h hx
  rw [hp] at a b
  simp only [notLooked, callsLeft, List.append_nil] at a b
  have hd : decodedOf reg l (evs0 ++ evs1) = decodedOf reg l evs1 := by
    have : decodedOf reg l (evs0 ++ evs1) = decodedOf reg l evs0 ++ decodedOf reg l evs1 := List.filterMap_append
    rw [this, h0, List.nil_append]
  rw [b, ← hd, ← a, List.flatMap_map]
  have ht : ∀ t ∈ turns, t.2 = registeredFor t.1 evs0 := by
    intro t hm
    obtain ⟨i, hi⟩ := List.getElem?_of_mem hm
    obtain ⟨pre, post, he, hlen, _, hr⟩ := c i t hi
    rw [hr]
    rcases List.append_eq_append_iff.1 he with ⟨w, h2, h3⟩ | ⟨w, h2, h3⟩
    · subst h2
      have hw : NoRegistration w := fun ev hev => h1 ev (h3 ▸ List.mem_append_left _ hev)
      have : registeredFor t.1 (evs0 ++ w) = registeredFor t.1 evs0 ++ registeredFor t.1 w := List.filterMap_append
      rw [this, registeredFor_none hw, List.append_nil]
    · rw [h2] at h0
      have : decodedOf reg l (pre ++ w) = decodedOf reg l pre ++ decodedOf reg l w := List.filterMap_append
      rw [this, List.append_eq_nil_iff] at h0
      rw [h0.1] at hlen; simp at hlen
  clear a b c h hx
  induction turns with
  | nil => rfl
  | cons t ts ih =>
    rw [List.flatMap_cons, List.flatMap_cons, ih (fun t' h' => ht t' (List.mem_cons_of_mem _ h'))]
    congr 1
    rw [Turn.calls, ht t List.mem_cons_self]

theorem getElem?_at {s : Client} {l : Nat} {x : Listener} (h : s.listeners[l]? = some x) (pc : LPC) (l' : Nat) :
    (s.at l pc).listeners[l']? = if l' = l then some { x with pc := pc } else s.listeners[l']? := by
  simp only [Client.at, List.getElem?_modify]
  by_cases e : l' = l
  · subst e; simp [h]
  · simp [e, Ne.symm e]

theorem cleanup_ctx {x : Listener} (h : x.ctx.isSome = true) : x.cleanup.ctx.isSome = true := by
  unfold Listener.cleanup; split <;> simp_all

/-- C43: no message, decodable or not, and no receive error stops a listener: it ends only when its context has ended.
Missing for the full claim: messages whose decoding panics end the process, see `C43_counterexample`. -/
theorem C43_keeps_listening_partial {evs : List ClEv} {s : Client} (h : Client.Run reg {} evs s) {l : Nat} {x : Listener} (hx : s.listeners[l]? = some x)
    (hp : x.pc = .finished) : x.ctx.isSome = true := by
  have key : ∀ (l : Nat) (x : Listener), s.listeners[l]? = some x → x.pc = .finished → x.ctx.isSome = true := by
    clear hx hp x l
    generalize hs0 : ({} : Client) = s0 at h
    induction h with
    | nil => subst hs0; simp
    | @snoc s s' evs ev _ _ hs ih =>
      have upd : ∀ {l : Nat} {y : Listener} {pc : LPC}, s.listeners[l]? = some y → (pc = .finished → y.ctx.isSome = true) →
          ∀ (l' : Nat) (x : Listener), (s.at l pc).listeners[l']? = some x → x.pc = .finished → x.ctx.isSome = true := by
        intro l y pc hy hpc l' x hx hf
        rw [getElem?_at hy] at hx
        split at hx
        · cases hx; exact hpc hf
        · exact ih l' x hx hf
      cases hs with
      | onRecord | onHeartbeat | nextError | decodePanic | close | closePanic | closeReturn => exact ih
      | listen =>
        intro l x hx hf
        dsimp only at hx
        by_cases hl : l < s.listeners.length
        · rw [List.getElem?_append_left hl] at hx; exact ih l x hx hf
        · rw [List.getElem?_append_right (by omega)] at hx
          obtain ⟨hlt, hx⟩ := List.getElem?_eq_some_iff.1 hx
          simp at hlt
          simp [hlt] at hx
          subst hx; cases hf
      | listenStart hy | deliver _ hy | acceptError _ hy | decoded hy | undecodable hy | fetch hy | call hy | again hy => exact upd hy (by simp)
      | nextEnded e hy _ he =>
        refine upd hy (fun _ => ?_)
        revert he; cases (‹Listener›).ctx <;> simp [errorsIs]
      | acceptEnded e hy _ he =>
        refine upd hy (fun _ => ?_)
        revert he; cases (‹Listener›).ctx <;> simp [errorsIs]
      | @cancel l y e _ hy hc =>
        intro l' x hx hf
        simp only [List.getElem?_modify] at hx
        cases h' : s.listeners[l']? with
        | none => simp [h'] at hx
        | some z =>
          by_cases hl : l = l'
          · simp [hl, h'] at hx; subst hx; rfl
          · simp [hl, h'] at hx; subst hx; exact ih l' _ h' hf
      | closeLock =>
        intro l' x hx hf
        simp only [List.getElem?_map, Option.map_eq_some_iff] at hx
        obtain ⟨y, hy, rfl⟩ := hx
        rw [cleanup_pc] at hf
        exact cleanup_ctx (ih l' y hy hf)
  exact key l x hx hp

/-- A record message with a null attribute. -/
def nullMsg : Msg :=
  { props := some { to := some "", subject := some "RECORD" }, value := .list [.map (some [(.u32 0, .u32 13), (.u32 1, .str "h1"), (.u32 30, .nil)])] }

theorem is_iff_caused {e c : GoErr} : e.is c = true ↔ Caused e c := by
  constructor
  · intro h
    induction e with
    | wrap m e ih =>
      simp only [GoErr.is, Bool.or_eq_true, decide_eq_true_eq] at h
      rcases h with rfl | h
      · exact .same
      · exact .wrapped (ih h)
    | _ => simp only [GoErr.is, decide_eq_true_eq] at h; subst h; exact .same
  · intro h
    induction h with
    | @same e => cases e <;> simp [GoErr.is]
    | wrapped _ ih => simp [GoErr.is, ih]

/-- C43, failed calls: when receiving or accepting a message fails, the listener ends if the error is that of its ended context, or wraps it, and
otherwise goes on to receive the next message.  Neither kind of failure can stop it in any other way, and either call may fail with any error. -/
theorem C43_failures {s s' : Client} {l : Nat} {e : GoErr} :
    (Client.Step reg s (.failed l e) s' → ∃ x x', s.listeners[l]? = some x ∧ s'.listeners[l]? = some x' ∧ (x.pc = .receiving ∨ ∃ m, x.pc = .accepting m) ∧
      (x'.pc = .finished ∨ x'.pc = .receiving) ∧ (x'.pc = .finished ↔ ∃ c, x.ctx = some c ∧ Caused e c) ∧ x'.ctx = x.ctx ∧ s'.crashed = s.crashed) ∧
    (∀ x, s.listeners[l]? = some x → (x.pc = .receiving ∨ ∃ m, x.pc = .accepting m) → ∃ s'', Client.Step reg s (.failed l e) s'') := by
  have his : ∀ {c : Option GoErr}, errorsIs (some e) c = true ↔ ∃ c', c = some c' ∧ Caused e c' := by
    intro c
    cases c with
    | none => simp [errorsIs]
    | some c => simp [errorsIs, is_iff_caused]
  constructor
  · intro hs
    cases hs with
    | @nextEnded _ x _ hx hp he | @acceptEnded _ x _ _ hx hp he =>
      refine ⟨x, { x with pc := .finished }, hx, by simp [Client.at, hx], by simp [hp], .inl rfl, ?_, rfl, rfl⟩
      exact ⟨fun _ => his.1 he, fun _ => rfl⟩
    | @nextError _ x _ hx hp he =>
      refine ⟨x, x, hx, hx, .inl hp, .inr hp, ?_, rfl, rfl⟩
      rw [← his, he, hp]; simp
    | @acceptError _ x m _ hx hp he =>
      refine ⟨x, { x with pc := .receiving }, hx, by simp [Client.at, hx], .inr ⟨m, hp⟩, .inr rfl, ?_, rfl, rfl⟩
      rw [← his, he]; simp
  · intro x hx hp
    cases he : errorsIs (some e) x.ctx with
    | true =>
      rcases hp with hp | ⟨m, hp⟩
      · exact ⟨_, .nextEnded e hx hp he⟩
      · exact ⟨_, .acceptEnded e hx hp he⟩
    | false =>
      rcases hp with hp | ⟨m, hp⟩
      · exact ⟨_, .nextError e hx hp he⟩
      · exact ⟨_, .acceptError e hx hp he⟩

/-- C43 does not hold as stated: one record message with a null attribute ends the whole process. -/
theorem C43_counterexample : ∃ evs s, Client.Run vanRegistry {} evs s ∧ ClEv.delivered 0 nullMsg ∈ evs ∧ s.crashed = true := by
  have hp : ∃ e, decodeMsg vanRegistry (some nullMsg) = .panic e := by
    have : (decodeMsg vanRegistry (some nullMsg)).isPanic = true := by decide +kernel
    cases h : decodeMsg vanRegistry (some nullMsg) <;> simp_all [Res.isPanic]
  obtain ⟨e, he⟩ := hp
  have r1 := (Client.Run.nil (reg := vanRegistry) (s := {})).snoc rfl .listen
  have r2 := r1.snoc rfl (.listenStart (l := 0) rfl rfl rfl)
  have r3 := r2.snoc rfl (.deliver (l := 0) nullMsg rfl rfl)
  have r4 := r3.snoc rfl (.decodePanic (l := 0) rfl rfl he)
  exact ⟨_, _, r4, by simp, rfl⟩

/-! ## C44 -/

theorem sum_modify {α : Type} (f : α → Nat) (g : α → α) : ∀ (ls : List α) (i : Nat) (x : α), ls[i]? = some x →
    ((ls.modify i g).map f).sum + f x = (ls.map f).sum + f (g x)
  | [], i, x, h => by simp at h
  | a :: ls, 0, x, h => by simp at h; subst h; simp; omega
  | a :: ls, i + 1, x, h => by
    simp at h
    have := sum_modify f g ls i x h
    simp
    omega

/-- The listeners the wait group counts. -/
def live (s : Client) : Nat := (s.listeners.map fun x => (unfinished x).toNat).sum

theorem live_at {s : Client} {l : Nat} {x : Listener} (h : s.listeners[l]? = some x) (pc : LPC) :
    live (s.at l pc) + (unfinished x).toNat = live s + (unfinished { x with pc := pc }).toNat :=
  sum_modify _ _ _ _ _ h

theorem live_pos {s : Client} {l : Nat} {x : Listener} (h : s.listeners[l]? = some x) (hu : unfinished x = true) : 0 < live s := by
  have := live_at h .finished
  have h2 : unfinished { x with pc := LPC.finished } = false := rfl
  rw [hu, h2] at this
  simp at this; omega

/-- Invariants of the client. -/
structure ClInv (s : Client) : Prop where
  wg : s.wg = live s
  holder : ∀ c : Nat, s.closers[c]? = some .waiting ↔ s.lock = some c
  ended : s.lock.isSome = true → ∀ (l : Nat) (x : Listener), s.listeners[l]? = some x → x.pc ≠ .adding → x.ctx.isSome = true
  done : s.doneClosed = true → ∃ (c : Nat) (pc : ClosePC), s.closers[c]? = some pc ∧ pc ≠ ClosePC.locking

theorem clInv_start : ClInv {} := ⟨rfl, by simp, by simp, by simp⟩

/-- A listener that counts before and after moves. -/
theorem ClInv.move {s : Client} (h : ClInv s) {l : Nat} {x : Listener} {pc : LPC} (hx : s.listeners[l]? = some x)
    (hu : unfinished x = true) (hu' : unfinished { x with pc := pc } = true) (ha : x.pc = .adding → s.lock = none) : ClInv (s.at l pc) := by
  refine ⟨?_, h.holder, ?_, h.done⟩
  · have := live_at hx pc
    rw [hu, hu'] at this
    show s.wg = _
    rw [h.wg]; omega
  · intro hl l' y hy hp
    rw [getElem?_at hx] at hy
    split at hy
    · cases hy
      refine h.ended hl l x hx (fun hadd => ?_)
      have hn := ha hadd
      change s.lock.isSome = true at hl
      rw [hn] at hl; cases hl
    · exact h.ended hl l' y hy hp

theorem ClInv.finish {s : Client} (h : ClInv s) {l : Nat} {x : Listener} (hx : s.listeners[l]? = some x)
    (hu : unfinished x = true) (ha : x.pc ≠ .adding) : ClInv { s.at l .finished with wg := s.wg - 1 } := by
  refine ⟨?_, h.holder, ?_, h.done⟩
  · have h1 := live_at hx .finished
    have h2 : unfinished { x with pc := LPC.finished } = false := rfl
    rw [hu, h2] at h1
    simp at h1
    show s.wg - 1 = live (s.at l .finished)
    rw [h.wg]; omega
  · intro hl l' y hy hp
    replace hy : (s.at l .finished).listeners[l']? = some y := hy
    rw [getElem?_at hx] at hy
    split at hy
    · cases hy; exact h.ended hl l x hx ha
    · exact h.ended hl l' y hy hp

theorem clInv_step {s s' : Client} {ev : ClEv} (h : ClInv s) (hs : Client.Step reg s ev s') : ClInv s' := by
  cases hs with
  | onRecord => exact ⟨h.wg, h.holder, h.ended, h.done⟩
  | onHeartbeat => exact ⟨h.wg, h.holder, h.ended, h.done⟩
  | listen =>
    refine ⟨?_, h.holder, ?_, h.done⟩
    · simp only [live, List.map_append, List.sum_append]
      have : (([{}] : List Listener).map fun x => (unfinished x).toNat).sum = 1 := rfl
      rw [this, h.wg]; rfl
    · intro hl l x hx hp
      dsimp only at hx hl
      by_cases hlt : l < s.listeners.length
      · rw [List.getElem?_append_left hlt] at hx; exact h.ended hl l x hx hp
      · rw [List.getElem?_append_right (by omega)] at hx
        obtain ⟨hlt, hx⟩ := List.getElem?_eq_some_iff.1 hx
        simp at hlt
        simp [hlt] at hx
        subst hx; exact absurd rfl hp
  | listenStart hx hp hl => exact h.move hx (by simp [unfinished, hp]) rfl (fun _ => hl)
  | @cancel l x e _ hx hc =>
    refine ⟨?_, h.holder, ?_, h.done⟩
    · have := sum_modify (fun x : Listener => (unfinished x).toNat) (fun x => { x with ctx := some e }) s.listeners l x hx
      have h2 : unfinished { x with ctx := some e } = unfinished x := rfl
      rw [h2] at this
      show s.wg = (List.map (fun x : Listener => (unfinished x).toNat) (s.listeners.modify l fun x => { x with ctx := some e })).sum
      rw [h.wg, live]; omega
    · intro hl l' y hy hp
      simp only [List.getElem?_modify] at hy
      cases h' : s.listeners[l']? with
      | none => simp [h'] at hy
      | some z =>
        by_cases hll : l = l'
        · simp [hll, h'] at hy; subst hy; rfl
        · simp [hll, h'] at hy; subst hy; exact h.ended hl l' _ h' hp
  | deliver m hx hp => exact h.move hx (by simp [unfinished, hp]) rfl (by simp [hp])
  | nextEnded e hx hp => exact h.finish hx (by simp [unfinished, hp]) (by simp [hp])
  | nextError => exact h
  | acceptEnded e hx hp => exact h.finish hx (by simp [unfinished, hp]) (by simp [hp])
  | acceptError e hx hp => exact h.move hx (by simp [unfinished, hp]) rfl (by simp [hp])
  | decoded hx hp => exact h.move hx (by simp [unfinished, hp]) rfl (by simp [hp])
  | undecodable hx hp => exact h.move hx (by simp [unfinished, hp]) rfl (by simp [hp])
  | decodePanic => exact ⟨h.wg, h.holder, h.ended, h.done⟩
  | fetch hx hp => exact h.move hx (by simp [unfinished, hp]) rfl (by simp [hp])
  | call hx hp => exact h.move hx (by simp [unfinished, hp]) rfl (by simp [hp])
  | again hx hp => exact h.move hx (by simp [unfinished, hp]) rfl (by simp [hp])
  | close =>
    refine ⟨h.wg, ?_, h.ended, ?_⟩
    · intro c
      rw [← h.holder c]
      dsimp only
      by_cases hc : c < s.closers.length
      · rw [List.getElem?_append_left hc]
      · rw [List.getElem?_append_right (by omega), List.getElem?_eq_none (l := s.closers) (by omega)]
        cases hcl : c - s.closers.length <;> simp
    · intro hd
      obtain ⟨c, pc, hc, hp⟩ := h.done hd
      have hlt := (List.getElem?_eq_some_iff.1 hc).1
      exact ⟨c, pc, by dsimp only; rw [List.getElem?_append_left hlt]; exact hc, hp⟩
  | @closeLock c hc hl hd =>
    have hlt := (List.getElem?_eq_some_iff.1 hc).1
    refine ⟨?_, ?_, ?_, ?_⟩
    · show s.wg = (List.map (fun x : Listener => (unfinished x).toNat) (s.listeners.map Listener.cleanup)).sum
      rw [h.wg, live, List.map_map]
      congr 1
      apply List.map_congr_left
      intro x _
      simp only [Function.comp, unfinished, cleanup_pc]
    · intro c'
      dsimp only
      by_cases e : c' = c
      · subst e; simp [hlt]
      · rw [List.getElem?_set_ne (Ne.symm e)]
        constructor
        · intro hw; rw [h.holder] at hw; rw [hl] at hw; cases hw
        · intro hw; cases hw; exact absurd rfl e
    · intro _ l x hx hp
      simp only [List.getElem?_map, Option.map_eq_some_iff] at hx
      obtain ⟨y, _, rfl⟩ := hx
      rw [cleanup_pc] at hp
      cases hpc : y.pc with
      | adding => exact absurd hpc hp
      | _ => cases hcx : y.ctx <;> simp [Listener.cleanup, hpc, hcx]
    · intro _; exact ⟨c, .waiting, by simp [hlt], by simp⟩
  | closePanic => exact ⟨h.wg, h.holder, h.ended, h.done⟩
  | @closeReturn c hc _ =>
    have hlt := (List.getElem?_eq_some_iff.1 hc).1
    have hl := (h.holder c).1 hc
    refine ⟨h.wg, ?_, by simp, ?_⟩
    · intro c'
      dsimp only
      by_cases e : c' = c
      · subst e; simp [hlt]
      · rw [List.getElem?_set_ne (Ne.symm e), h.holder, hl]
        simp [Ne.symm e]
    · intro _; exact ⟨c, .returned, by simp [hlt], by simp⟩

theorem clInv_run {s s' : Client} {evs : List ClEv} (hr : Client.Run reg s evs s') (h : ClInv s) : ClInv s' := by
  induction hr with
  | nil => exact h
  | snoc _ _ hs ih => exact clInv_step ih hs

theorem unfinished_of_needs {x : Listener} (h : NeedsLock x.pc) : unfinished x = true := by
  unfold unfinished; split <;> simp_all [NeedsLock]

/-- C44 does not hold as stated.  Once `Close` waits and some listener needs the client's lock — because it has decoded a message and is about
to look up the handlers, or because `Listen` has been called in between — `Close` never returns, and that listener never moves,
whatever else happens. -/
theorem C44_counterexample_stuck {evs : List ClEv} {s : Client} (h : Client.Run reg {} evs s) {c : Nat} (hc : s.closers[c]? = some .waiting)
    {l : Nat} {x : Listener} (hx : s.listeners[l]? = some x) (hn : NeedsLock x.pc) {evs' : List ClEv} {s' : Client}
    (h' : Client.Run reg s evs' s') : s'.closers[c]? = some .waiting ∧ ∃ x', s'.listeners[l]? = some x' ∧ x'.pc = x.pc := by
  have hinv := clInv_run h clInv_start
  induction h' with
  | nil => exact ⟨hc, x, hx, rfl⟩
  | @snoc s1 s2 evs1 ev hr _ hs ih =>
    obtain ⟨hc1, x1, hx1, hp1⟩ := ih
    have hi := clInv_run hr hinv
    have hl := (hi.holder c).1 hc1
    have hn1 : NeedsLock x1.pc := by rw [hp1]; exact hn
    have mv : ∀ {l' : Nat} {y : Listener} {pc : LPC}, s1.listeners[l']? = some y → ¬ NeedsLock y.pc →
        ∃ x', (s1.at l' pc).listeners[l]? = some x' ∧ x'.pc = x.pc := by
      intro l' y pc hy hny
      rw [getElem?_at hy]
      by_cases e : l = l'
      · subst e; rw [hx1] at hy; cases hy; exact absurd hn1 hny
      · rw [if_neg e]; exact ⟨x1, hx1, hp1⟩
    cases hs with
    | onRecord _ hn | onHeartbeat _ hn => exact absurd (hl.symm.trans hn) (by simp)
    | listenStart _ _ hn | fetch _ _ hn => exact absurd (hl.symm.trans hn) (by simp)
    | closeLock _ hn _ | closePanic _ hn _ => exact absurd (hl.symm.trans hn) (by simp)
    | listen =>
      refine ⟨hc1, x1, ?_, hp1⟩
      dsimp only
      rw [List.getElem?_append_left (List.getElem?_eq_some_iff.1 hx1).1]; exact hx1
    | @cancel l' y e _ hy _ =>
      refine ⟨hc1, ?_⟩
      simp only [List.getElem?_modify, hx1]
      by_cases el : l' = l
      · exact ⟨{ x1 with ctx := some e }, by simp [el], hp1⟩
      · exact ⟨x1, by simp [el], hp1⟩
    | deliver _ hy hp | nextEnded _ hy hp | acceptEnded _ hy hp | acceptError _ hy hp => exact ⟨hc1, mv hy (by simp [hp, NeedsLock])⟩
    | decoded hy hp | undecodable hy hp | call hy hp | again hy hp => exact ⟨hc1, mv hy (by simp [hp, NeedsLock])⟩
    | nextError | decodePanic => exact ⟨hc1, x1, hx1, hp1⟩
    | close =>
      refine ⟨?_, x1, hx1, hp1⟩
      dsimp only
      rw [List.getElem?_append_left (List.getElem?_eq_some_iff.1 hc1).1]; exact hc1
    | @closeReturn c' _ hw =>
      have := live_pos hx1 (unfinished_of_needs hn1)
      rw [← hi.wg] at this; omega

theorem settled_modify {s : Client} (h : ∀ (l : Nat) (x : Listener), s.listeners[l]? = some x → Settled x.pc) {l : Nat} {x : Listener}
    (hx : s.listeners[l]? = some x) {pc : LPC} (hpc : Settled pc) :
    ∀ (l' : Nat) (x : Listener), (s.at l pc).listeners[l']? = some x → Settled x.pc := by
  intro l' y hy
  rw [getElem?_at hx] at hy
  split at hy
  · cases hy; exact hpc
  · exact h l' y hy

theorem settled_step {s s' : Client} {ev : ClEv} (hinv : ClInv s) {c : Nat} (hc : s.closers[c]? = some .waiting)
    (h : ∀ (l : Nat) (x : Listener), s.listeners[l]? = some x → Settled x.pc) (hs : Client.Step reg s ev s')
    (hq : Quiet [ev]) : (∀ (l : Nat) (x : Listener), s'.listeners[l]? = some x → Settled x.pc) ∧ s'.crashed = s.crashed ∧
      (s'.closers[c]? = some .waiting ∨ s'.closers[c]? = some .returned) := by
  have hl := (hinv.holder c).1 hc
  have hns : ∀ {l : Nat} {x : Listener}, s.listeners[l]? = some x → Settled x.pc := fun hx => h _ _ hx
  cases hs with
  | onRecord _ hn | onHeartbeat _ hn => exact absurd (hl.symm.trans hn) (by simp)
  | listenStart _ _ hn | fetch _ _ hn => exact absurd (hl.symm.trans hn) (by simp)
  | closeLock _ hn _ | closePanic _ hn _ => exact absurd (hl.symm.trans hn) (by simp)
  | listen => exact absurd rfl (hq _ (List.mem_singleton.2 rfl)).1
  | deliver m => exact absurd rfl ((hq _ (List.mem_singleton.2 rfl)).2 _ m)
  | @cancel l y e _ hy _ =>
    refine ⟨fun l' x hx => ?_, rfl, .inl hc⟩
    simp only [List.getElem?_modify] at hx
    cases h' : s.listeners[l']? with
    | none => simp [h'] at hx
    | some z =>
      by_cases hll : l = l'
      · simp [hll, h'] at hx; subst hx; exact h l' z h'
      · simp [hll, h'] at hx; subst hx; exact h l' _ h'
  | nextEnded _ hy hp => exact ⟨settled_modify h hy trivial, rfl, .inl hc⟩
  | acceptEnded _ hy hp | acceptError _ hy hp => have := h _ _ hy; rw [hp] at this; exact this.elim
  | decoded hy hp | undecodable hy hp | decodePanic hy hp => have := h _ _ hy; rw [hp] at this; exact this.elim
  | call hy hp => exact ⟨settled_modify h hy trivial, rfl, .inl hc⟩
  | again hy hp => exact ⟨settled_modify h hy trivial, rfl, .inl hc⟩
  | nextError => exact ⟨h, rfl, .inl hc⟩
  | close =>
    refine ⟨h, rfl, .inl ?_⟩
    dsimp only
    rw [List.getElem?_append_left (List.getElem?_eq_some_iff.1 hc).1]; exact hc
  | @closeReturn c' hc' hw =>
    have := (hinv.holder c').1 hc'
    rw [hl] at this; cases this
    exact ⟨h, rfl, .inr (by simp [(List.getElem?_eq_some_iff.1 hc).1])⟩

/-- Steps a settled listener needs to finish. -/
def stepsLeft (x : Listener) : Nat :=
  match x.pc with
  | .calling _ hs => hs.length + 2
  | .receiving => 1
  | _ => 0

theorem is_refl (e : GoErr) : e.is e = true := by
  cases e <;> simp [GoErr.is]

theorem client_run_trans {s s1 s2 : Client} {evs1 evs2 : List ClEv} (h1 : Client.Run reg s evs1 s1) (h2 : Client.Run reg s1 evs2 s2) :
    Client.Run reg s (evs1 ++ evs2) s2 := by
  induction h2 with
  | nil => rw [List.append_nil]; exact h1
  | snoc _ hc hs ih => rw [← List.append_assoc]; exact ih.snoc hc hs

theorem sum_pos_exists {α : Type} (f : α → Nat) : ∀ ls : List α, 0 < (ls.map f).sum → ∃ x ∈ ls, 0 < f x
  | [], h => by simp at h
  | a :: ls, h => by
    by_cases ha : 0 < f a
    · exact ⟨a, List.mem_cons_self, ha⟩
    · obtain ⟨x, hx, hp⟩ := sum_pos_exists f ls (by simp at h; omega)
      exact ⟨x, List.mem_cons_of_mem _ hx, hp⟩

theorem close_finishes (n : Nat) : ∀ {s : Client} {c : Nat}, ClInv s → s.crashed = false → s.closers[c]? = some .waiting →
    (∀ (l : Nat) (x : Listener), s.listeners[l]? = some x → Settled x.pc) → (s.listeners.map stepsLeft).sum = n →
    ∃ evs' s', Client.Run reg s evs' s' ∧ Quiet evs' ∧ s'.closers[c]? = some .returned := by
  induction n using Nat.strongRecOn with
  | ind n ih =>
    intro s c hinv hcr hc hset hn
    have go : ∀ {l : Nat} {x : Listener} {pc : LPC} {wg : Nat} {ev : ClEv}, s.listeners[l]? = some x →
        stepsLeft { x with pc := pc } < stepsLeft x → Settled pc → Quiet [ev] →
        Client.Step reg s ev { s.at l pc with wg := wg } →
        ∃ evs' s', Client.Run reg s evs' s' ∧ Quiet evs' ∧ s'.closers[c]? = some .returned := by
      intro l x pc wg ev hx hlt hset' hqe hstep
      have hsum := sum_modify stepsLeft (fun x => { x with pc := pc }) s.listeners l x hx
      have hlt' : (({ s.at l pc with wg := wg } : Client).listeners.map stepsLeft).sum < n := by
        show (List.map stepsLeft (s.listeners.modify l fun x => { x with pc := pc })).sum < n
        omega
      obtain ⟨evs', s', hr, hq, hret⟩ := ih _ hlt' (clInv_step hinv hstep) (by exact hcr) (by exact hc)
        (by exact settled_modify hset hx hset') rfl
      refine ⟨[ev] ++ evs', s', client_run_trans (Client.Run.nil.snoc hcr hstep) hr, ?_, hret⟩
      intro ev' hev
      rcases List.mem_append.1 hev with hev | hev
      · exact hqe ev' hev
      · exact hq ev' hev
    by_cases hw : s.wg = 0
    · refine ⟨_, _, Client.Run.nil.snoc hcr (.closeReturn hc hw), ?_, by simp [(List.getElem?_eq_some_iff.1 hc).1]⟩
      intro ev hev; simp at hev; subst hev; simp
    · rw [hinv.wg] at hw
      have : ∃ (l : Nat) (x : Listener), s.listeners[l]? = some x ∧ unfinished x = true := by
        obtain ⟨x, hx, hpos⟩ := sum_pos_exists (fun x : Listener => (unfinished x).toNat) s.listeners (Nat.pos_of_ne_zero hw)
        obtain ⟨l, hl⟩ := List.getElem?_of_mem hx
        refine ⟨l, x, hl, ?_⟩
        cases hu : unfinished x with
        | false => simp [hu] at hpos
        | true => rfl
      obtain ⟨l, x, hx, hu⟩ := this
      have hs := hset l x hx
      cases hp : x.pc with
      | adding | accepting | fetching => rw [hp] at hs; exact hs.elim
      | finished => simp [unfinished, hp] at hu
      | receiving =>
        have hctx := hinv.ended (by rw [(hinv.holder c).1 hc]; rfl) l x hx (by simp [hp])
        obtain ⟨e, he⟩ := Option.isSome_iff_exists.1 hctx
        exact go hx (pc := .finished) (ev := .failed l e) (by simp [stepsLeft, hp]) trivial (by simp [Quiet])
          (.nextEnded e hx hp (by rw [he]; exact is_refl e))
      | calling d hs' =>
        cases hs' with
        | nil => exact go hx (pc := .receiving) (wg := s.wg) (ev := .tau) (by simp [stepsLeft, hp]) trivial (by simp [Quiet]) (.again hx hp)
        | cons hh hs' =>
          exact go hx (pc := .calling d hs') (wg := s.wg) (ev := .call l hh d) (by simp [stepsLeft, hp]) trivial (by simp [Quiet]) (.call hx hp)

/-- C44, the part that holds: when `Close` has the lock and every listener is waiting for a message, calling handlers or finished, and no new
listener and no new message comes, then in every schedule `Close` has returned or can still return (so it does, if the goroutines keep
running and receivers report the end of their context); and when it returns all listeners have finished.  Missing for the full claim:
a listener between receiving a message and looking up the handlers, or a concurrent `Listen`, see `C44_counterexample_stuck`; a second
`Close`, see `C44_counterexample_twice`. -/
theorem C44_returns_partial {evs : List ClEv} {s : Client} (h : Client.Run reg {} evs s) (hcr : s.crashed = false) {c : Nat}
    (hc : s.closers[c]? = some .waiting) (hset : ∀ (l : Nat) (x : Listener), s.listeners[l]? = some x → Settled x.pc)
    {evs' : List ClEv} {s' : Client} (h' : Client.Run reg s evs' s') (hq : Quiet evs') :
    ClEv.closeReturned c ∈ evs' ∨ ∃ evs'' s'', Client.Run reg s' evs'' s'' ∧ Quiet evs'' ∧ s''.closers[c]? = some .returned := by
  have hinv := clInv_run h clInv_start
  have key : ClEv.closeReturned c ∈ evs' ∨ (s'.closers[c]? = some .waiting ∧ s'.crashed = false ∧
      ∀ (l : Nat) (x : Listener), s'.listeners[l]? = some x → Settled x.pc) := by
    induction h' with
    | nil => exact .inr ⟨hc, hcr, hset⟩
    | @snoc s1 s2 evs1 ev hr _ hs ih =>
      rcases ih (fun ev hev => hq ev (List.mem_append_left _ hev)) with ih | ⟨i1, i2, i3⟩
      · exact .inl (List.mem_append_left _ ih)
      · obtain ⟨a, b, d⟩ := settled_step (clInv_run hr hinv) i1 i3 hs (fun ev hev => hq ev (List.mem_append_right _ hev))
        rcases d with d | d
        · exact .inr ⟨d, by rw [b]; exact i2, a⟩
        · left
          cases hs with
          | @closeReturn c' hc' _ =>
            have h1 := ((clInv_run hr hinv).holder c').1 hc'
            rw [((clInv_run hr hinv).holder c).1 i1] at h1
            cases h1; simp
          | close => 
            dsimp only at d
            rw [List.getElem?_append_left (List.getElem?_eq_some_iff.1 i1).1, i1] at d; cases d
          | closeLock _ hn => rw [((clInv_run hr hinv).holder c).1 i1] at hn; cases hn
          | _ => exact absurd (i1.symm.trans d) (by simp)
  rcases key with key | ⟨k1, k2, k3⟩
  · exact .inl key
  · exact .inr (close_finishes _ (clInv_run h' hinv) k2 k1 k3 rfl)

/-- C44: when `Close` returns, every listener has finished. -/
theorem C44_listeners_stopped {evs : List ClEv} {s s' : Client} (h : Client.Run reg {} evs s) {c : Nat}
    (hs : Client.Step reg s (.closeReturned c) s') : ∀ (l : Nat) (x : Listener), s'.listeners[l]? = some x → x.pc = .finished := by
  have hinv := clInv_run h clInv_start
  cases hs with
  | closeReturn _ hw =>
    intro l x hx
    cases hp : x.pc with
    | finished => rfl
    | _ => have := live_pos (s := s) hx (by simp [unfinished, hp]); rw [← hinv.wg] at this; omega

/-- The context of a listener can end at any time, as long as it has not: nothing the listener, the handlers or Close do keeps it from that. -/
theorem C44_cancel {s : Client} {l : Nat} {x : Listener} (hx : s.listeners[l]? = some x) : (∃ s', Client.Step reg s (.cancel l) s') ↔ x.ctx = none := by
  constructor
  · rintro ⟨s', hs⟩
    cases hs with
    | cancel e h1 h2 h3 =>
      rw [hx] at h2
      cases h2
      exact h3
  · intro h
    exact ⟨_, .cancel .canceled (.inl rfl) hx h⟩

/-- What `Close` has cancelled when it begins to wait: every listener that is registered, unless its context has ended already, and none that is not registered yet. -/
theorem C44_cancels {s s' : Client} {ev : ClEv} (hs : Client.Step reg s ev s') {c : Nat} (h1 : s.closers[c]? = some .locking) (h2 : s'.closers[c]? = some .waiting)
    {l : Nat} {x : Listener} (hx : s.listeners[l]? = some x) :
    ∃ x', s'.listeners[l]? = some x' ∧ x'.pc = x.pc ∧
      ((x.pc = .adding ∧ x'.ctx = x.ctx) ∨ (x.pc ≠ .adding ∧ ((x.ctx = none ∧ x'.ctx = some .canceled) ∨ (x.ctx.isSome = true ∧ x'.ctx = x.ctx)))) := by
  cases hs with
  | closeLock k1 k2 k3 =>
    refine ⟨x.cleanup, by simp [hx], cleanup_pc x, ?_⟩
    unfold Listener.cleanup
    cases hp : x.pc <;> cases hc : x.ctx <;> simp_all
  | close =>
    replace h2 : (s.closers ++ [.locking])[c]? = some .waiting := h2
    rw [List.getElem?_append_left (List.getElem?_eq_some_iff.1 h1).1, h1] at h2; cases h2
  | closeReturn k1 k2 =>
    replace h2 : (s.closers.set _ _)[c]? = some .waiting := h2
    rw [List.getElem?_set] at h2
    split at h2
    · simp at h2
    · rw [h1] at h2; cases h2
  | _ =>
    replace h2 : s.closers[c]? = some .waiting := h2
    rw [h1] at h2; cases h2

/-- A `Listen` that is called before `Close` and gets the lock first is cancelled; one that does not is left running by it. -/
example : ∃ evs s s', Client.Run reg {} evs s ∧ Client.Step reg s .tau s' ∧ s.closers[0]? = some .locking ∧ s'.closers[0]? = some .waiting ∧
    s'.listeners.map Listener.ctx = [some .canceled, none] := by
  have r := (Client.Run.nil (reg := reg) (s := {})).snoc rfl .listen
  have r := r.snoc rfl (.listenStart (l := 0) rfl rfl rfl)
  have r := r.snoc rfl .listen
  have r := r.snoc rfl .close
  exact ⟨_, _, _, r, .closeLock (c := 0) rfl rfl rfl, rfl, rfl, rfl⟩

theorem closers_count {evs : List ClEv} {s : Client} (h : Client.Run reg {} evs s) : s.closers.length = evs.countP isClose := by
  generalize hs0 : ({} : Client) = s0 at h
  induction h with
  | nil => subst hs0; rfl
  | snoc _ _ hs ih =>
    rw [List.countP_append, ← ih]
    cases hs <;> simp [isClose, Client.at]

theorem accepting_delivered {evs : List ClEv} {s : Client} (h : Client.Run reg {} evs s) :
    ∀ (l : Nat) (x : Listener) (m : Msg), s.listeners[l]? = some x → x.pc = .accepting m → ClEv.delivered l m ∈ evs := by
  generalize hs0 : ({} : Client) = s0 at h
  induction h with
  | nil => subst hs0; simp
  | @snoc s s' evs ev _ _ hs ih =>
    have upd : ∀ {l : Nat} {y : Listener} {pc : LPC}, s.listeners[l]? = some y → (∀ m, pc = .accepting m → ClEv.delivered l m ∈ evs ++ [ev]) →
        ∀ (l' : Nat) (x : Listener) (m : Msg), (s.at l pc).listeners[l']? = some x → x.pc = .accepting m →
          ClEv.delivered l' m ∈ evs ++ [ev] := by
      intro l y pc hy hpc l' x m hx hf
      rw [getElem?_at hy] at hx
      split at hx
      · rename_i e; cases hx; subst e; exact hpc m hf
      · exact List.mem_append_left _ (ih l' x m hx hf)
    have keep : s'.listeners = s.listeners → ∀ (l' : Nat) (x : Listener) (m : Msg), s'.listeners[l']? = some x → x.pc = .accepting m →
          ClEv.delivered l' m ∈ evs ++ [ev] := by
      intro e l' x m hx hf; rw [e] at hx; exact List.mem_append_left _ (ih l' x m hx hf)
    cases hs with
    | onRecord | onHeartbeat | nextError | decodePanic | close | closePanic | closeReturn => exact keep rfl
    | listen =>
      intro l x m hx hf
      dsimp only at hx
      by_cases hl : l < s.listeners.length
      · rw [List.getElem?_append_left hl] at hx; exact List.mem_append_left _ (ih l x m hx hf)
      · rw [List.getElem?_append_right (by omega)] at hx
        obtain ⟨hlt, hx⟩ := List.getElem?_eq_some_iff.1 hx
        simp at hlt
        simp [hlt] at hx
        subst hx; cases hf
    | deliver m hy => exact upd hy (fun m' h' => by cases h'; simp)
    | listenStart hy | acceptError _ hy | decoded hy | undecodable hy | fetch hy | call hy | again hy => exact upd hy (by simp)
    | nextEnded e hy | acceptEnded e hy => exact upd hy (by simp)
    | @cancel l y e _ hy hc =>
      intro l' x m hx hf
      simp only [List.getElem?_modify] at hx
      cases h' : s.listeners[l']? with
      | none => simp [h'] at hx
      | some z =>
        by_cases hl : l = l'
        · simp [hl, h'] at hx; subst hx; exact List.mem_append_left _ (ih l' z m h' hf)
        · simp [hl, h'] at hx; subst hx; exact List.mem_append_left _ (ih l' _ m h' hf)
    | closeLock =>
      intro l' x m hx hf
      simp only [List.getElem?_map, Option.map_eq_some_iff] at hx
      obtain ⟨y, hy, rfl⟩ := hx
      rw [cleanup_pc] at hf
      exact List.mem_append_left _ (ih l' y m hy hf)

/-- C44: calling `Close` once never panics: a process with at most one call of `Close` crashes only by a message whose decoding panics. -/
theorem C44_once_partial {evs : List ClEv} {s : Client} (h : Client.Run reg {} evs s) (h1 : evs.countP isClose ≤ 1)
    (hm : ∀ l m, ClEv.delivered l m ∈ evs → ∀ e, decodeMsg reg (some m) ≠ .panic e) : s.crashed = false := by
  cases h with
  | nil => rfl
  | @snoc s' _ evs' ev hr hcr hs =>
    have hcount := closers_count hr
    rw [List.countP_append] at h1
    cases hs with
    | @closePanic c hc _ hd =>
      obtain ⟨c', pc, hc', hp⟩ := (clInv_run hr clInv_start).done hd
      have hne : c ≠ c' := by rintro rfl; rw [hc] at hc'; cases hc'; exact hp rfl
      have h2 := (List.getElem?_eq_some_iff.1 hc).1
      have h3 := (List.getElem?_eq_some_iff.1 hc').1
      omega
    | decodePanic hx hp hd => exact absurd hd (hm _ _ (List.mem_append_left _ (accepting_delivered hr _ _ _ hx hp)) _)
    | _ => exact hcr

/-- C44: a second call of `Close` panics. -/
theorem C44_counterexample_twice : ∃ evs s, Client.Run reg {} evs s ∧ ClEv.closeReturned 0 ∈ evs ∧ s.crashed = true := by
  have r1 := (Client.Run.nil (reg := reg) (s := {})).snoc rfl .close
  have r2 := r1.snoc rfl (.closeLock (c := 0) rfl rfl rfl)
  have r3 := r2.snoc rfl (.closeReturn (c := 0) rfl rfl)
  have r4 := r3.snoc rfl .close
  have r5 := r4.snoc rfl (.closePanic (c := 1) rfl rfl rfl)
  exact ⟨_, _, r5, by simp, rfl⟩

/-- A heartbeat as a manager sends it. -/
def hbMsg : Msg := Heartbeat.encode { identity := "src1", version := 1, now := 1700000000000000 }

/-- Both situations of `C44_counterexample_stuck` occur: a listener that has just received a heartbeat, and a `Listen` during `Close`. -/
example : (∃ evs s x d, Client.Run vanRegistry {} evs s ∧ s.closers[0]? = some .waiting ∧ s.listeners[0]? = some x ∧ x.pc = .fetching d) ∧
    (∃ evs s x, Client.Run vanRegistry {} evs s ∧ s.closers[0]? = some .waiting ∧ s.listeners[0]? = some x ∧ x.pc = .adding) := by
  constructor
  · have r1 := (Client.Run.nil (reg := vanRegistry) (s := {})).snoc rfl .listen
    have r2 := r1.snoc rfl (.listenStart (l := 0) rfl rfl rfl)
    have r3 := r2.snoc rfl (.deliver (l := 0) hbMsg rfl rfl)
    have r4 := r3.snoc rfl (.decoded (l := 0) rfl rfl rfl)
    have r5 := r4.snoc rfl .close
    have r6 := r5.snoc rfl (.closeLock (c := 0) rfl rfl rfl)
    exact ⟨_, _, _, _, r6, rfl, rfl, rfl⟩
  · have r1 := (Client.Run.nil (reg := vanRegistry) (s := {})).snoc rfl .close
    have r2 := r1.snoc rfl (.closeLock (c := 0) rfl rfl rfl)
    have r3 := r2.snoc rfl .listen
    exact ⟨_, _, _, r3, rfl, rfl, rfl⟩

/-- The hypotheses of C43 and of the partial C44 are met: two handlers see a heartbeat, in order, an unreadable message is skipped, then
`Close` waits for the idle listener. -/
example : ∃ evs0 evs1 s x, Client.Run vanRegistry {} (evs0 ++ evs1) s ∧ s.listeners[0]? = some x ∧ x.pc = .receiving ∧
    decodedOf vanRegistry 0 evs0 = [] ∧ NoRegistration evs1 ∧ s.crashed = false ∧ s.closers[0]? = some .waiting ∧
    (callsOf 0 (evs0 ++ evs1)).map Prod.fst = [7, 8] := by
  have r1 := (Client.Run.nil (reg := vanRegistry) (s := {})).snoc rfl (.onHeartbeat 7 rfl)
  have r2 := r1.snoc rfl (.onHeartbeat 8 rfl)
  have r3 := r2.snoc rfl .listen
  have r4 := r3.snoc rfl (.listenStart (l := 0) rfl rfl rfl)
  have r5 := r4.snoc rfl (.deliver (l := 0) hbMsg rfl rfl)
  have r6 := r5.snoc rfl (.decoded (l := 0) rfl rfl rfl)
  have r7 := r6.snoc rfl (.fetch (l := 0) rfl rfl rfl)
  have r8 := r7.snoc rfl (.call (l := 0) rfl rfl)
  have r9 := r8.snoc rfl (.call (l := 0) rfl rfl)
  have r10 := r9.snoc rfl (.again (l := 0) rfl rfl)
  have r11 := r10.snoc rfl (.deliver (l := 0) {} rfl rfl)
  have r12 := r11.snoc rfl (.undecodable (l := 0) rfl rfl rfl)
  have r13 := r12.snoc rfl .close
  have r14 := r13.snoc rfl (.closeLock (c := 0) rfl rfl rfl)
  exact ⟨[.onHeartbeat 7, .onHeartbeat 8], _, _, _, r14, rfl, rfl, rfl, by simp [NoRegistration], rfl, rfl, rfl⟩

/-! ## C45 -/

variable {src : Info} {snd : Callee}

/-- What FlushOnFirstMessage has done so far. -/
structure FfOK (evs : List FfEv) (s : Ff) : Prop where
  crashed : s.crashed = false
  once : s.once = s.doneClosed
  closed : s.doneClosed = true ↔ FfEv.handled ∈ evs
  none_yet : s.pc = .registering ∨ s.pc = .waiting → evs.countP isFfSend = 0
  sending : s.pc = .sending → evs.countP isFfSend = 1
  returned : ∀ r, s.pc = .returned r → evs.countP isFfSend = 1 ∨ (evs.countP isFfSend = 0 ∧ r.isSome = true ∧ s.ctx = r)
  after : ∀ a m, FfEv.send a m ∈ evs → FfEv.handled ∈ evs

theorem ff_run {evs : List FfEv} {s : Ff} (h : Ff.Run src snd {} evs s) : FfOK evs s := by
  generalize hs0 : ({} : Ff) = s0 at h
  induction h with
  | nil => subst hs0; exact ⟨rfl, rfl, by simp, fun _ => rfl, by simp, by simp, by simp⟩
  | @snoc s s' evs ev _ hcr hs ih =>
    obtain ⟨i1, i2, i3, i4, i5, i6, i7⟩ := ih
    have ia : ∀ ev : FfEv, (∀ a m, ev ≠ .send a m) → ∀ a m, FfEv.send a m ∈ evs ++ [ev] → FfEv.handled ∈ evs ++ [ev] := by
      intro ev hne a m hm
      rcases List.mem_append.1 hm with hm | hm
      · exact List.mem_append_left _ (i7 a m hm)
      · rw [List.mem_singleton] at hm; exact absurd hm.symm (hne a m)
    cases hs with
    | register hp =>
      refine ⟨i1, i2, by simpa using i3, fun _ => ?_, by simp, by simp, ia _ (by simp)⟩
      rw [List.countP_append, i4 (.inl hp)]; rfl
    | handle =>
      cases ho : s.once with
      | true =>
        have hd : s.doneClosed = true := by rw [← i2, ho]
        rw [if_pos rfl]
        refine ⟨i1, i2, by simp [hd], fun h => ?_, fun h => ?_, fun r h => ?_, ia _ (by simp)⟩
        · rw [List.countP_append, i4 h]; rfl
        · rw [List.countP_append, i5 h]; rfl
        · rw [List.countP_append]; exact i6 r h
      | false =>
        have hd : s.doneClosed = false := by rw [← i2, ho]
        rw [hd]
        refine ⟨i1, rfl, by simp, fun h => ?_, fun h => ?_, fun r h => ?_, ia _ (by simp)⟩
        · rw [List.countP_append, i4 h]; rfl
        · rw [List.countP_append, i5 h]; rfl
        · rw [List.countP_append]; exact i6 r h
    | cancel e _ hc =>
      refine ⟨i1, i2, by simpa using i3, fun h => ?_, fun h => ?_, fun r h => ?_, ia _ (by simp)⟩
      · rw [List.countP_append, i4 h]; rfl
      · rw [List.countP_append, i5 h]; rfl
      · rw [List.countP_append]
        rcases i6 r h with h' | ⟨h', h2, h3⟩
        · exact .inl h'
        · rw [hc] at h3; rw [← h3] at h2; cases h2
    | flush hp hd =>
      refine ⟨i1, i2, by simpa using i3, by simp, fun _ => ?_, by simp, fun a m _ => List.mem_append_left _ (i3.1 hd)⟩
      rw [List.countP_append, i4 (.inr hp)]; rfl
    | flushed hp _ =>
      refine ⟨i1, i2, by simpa using i3, by simp, by simp, fun r' _ => ?_, ia _ (by simp)⟩
      rw [List.countP_append, i5 hp]; exact .inl rfl
    | ended hp hc =>
      refine ⟨i1, i2, by simpa using i3, by simp, by simp, fun r' hr => ?_, ia _ (by simp)⟩
      rw [List.countP_append, i4 (.inr hp)]
      cases hr
      exact .inr ⟨rfl, rfl, hc⟩

theorem ff_prefix {s0 s : Ff} {evs pre post : List FfEv} {ev : FfEv} (h : Ff.Run src snd s0 evs s) (he : evs = pre ++ ev :: post) :
    ∃ s1 s2, Ff.Run src snd s0 pre s1 ∧ Ff.Step src snd s1 ev s2 := by
  induction h generalizing post with
  | nil => simp at he
  | @snoc s' s'' evs ev' hr _ hs ih =>
    rcases List.eq_nil_or_concat post with hp | ⟨post', x, hp⟩
    · subst hp
      obtain ⟨h1, h2⟩ := List.append_inj' he rfl
      cases h2
      subst h1
      exact ⟨_, _, hr, hs⟩
    · subst hp
      rw [List.concat_eq_append, ← List.cons_append, ← List.append_assoc] at he
      obtain ⟨h1, h2⟩ := List.append_inj' he rfl
      exact ih h1

/-- C45: FlushOnFirstMessage never panics, however many messages are handled, and sends at most one message: a flush request to the source's
direct address, only after a message has been handled.  If it returns while the context is live, or returns without an error, it has
sent it.  If no message is handled it sends nothing. -/
theorem C45_flush_once {evs : List FfEv} {s : Ff} (h : Ff.Run src snd {} evs s) :
    s.crashed = false ∧ evs.countP isFfSend ≤ 1 ∧
    (∀ a m pre post, evs = pre ++ .send a m :: post → a = src.direct ∧ FfEv.handled ∈ pre ∧
      ∀ reg, ∃ f, decodeMsg reg (some m) = .ok (.flush f) ∧ f.hdr.to = src.direct) ∧
    (∀ r, s.pc = .returned r → (s.ctx = none ∨ r = none) → evs.countP isFfSend = 1) ∧
    (FfEv.handled ∉ evs → evs.countP isFfSend = 0) := by
  have hok := ff_run h
  have hcases : s.pc = .registering ∨ s.pc = .waiting ∨ s.pc = .sending ∨ ∃ r, s.pc = .returned r := by
    cases s.pc <;> simp
  refine ⟨hok.crashed, ?_, ?_, ?_, ?_⟩
  · rcases hcases with hp | hp | hp | ⟨r, hp⟩
    · rw [hok.none_yet (.inl hp)]; omega
    · rw [hok.none_yet (.inr hp)]; omega
    · exact Nat.le_of_eq (hok.sending hp)
    · rcases hok.returned r hp with h' | ⟨h', _⟩ <;> omega
  · intro a m pre post he
    obtain ⟨s1, s2, h1, h2⟩ := ff_prefix h he
    cases h2 with
    | flush hp hd => exact ⟨rfl, (ff_run h1).closed.1 hd, fun reg => ⟨_, rfl, rfl⟩⟩
  · intro r hp hr
    rcases hok.returned r hp with h' | ⟨_, h2, h3⟩
    · exact h'
    · rcases hr with hr | hr
      · rw [hr] at h3; rw [← h3] at h2; cases h2
      · rw [hr] at h2; cases h2
  · intro hn
    rw [List.countP_eq_zero]
    intro ev hev hsend
    cases ev <;> simp [isFfSend] at hsend
    exact hn (hok.after _ _ hev)

/-- C45: once a message has been handled the flush is sent next, unless the context has ended; and FlushOnFirstMessage is never stuck once a
message has been handled or the context has ended. -/
theorem C45_prompt {evs : List FfEv} {s : Ff} (h : Ff.Run src snd {} evs s) (hp : s.pc = .waiting) :
    (FfEv.handled ∈ evs → ∃ a m s', Ff.Step src snd s (.send a m) s') ∧
    (s.ctx = none → ∀ r s', ¬ Ff.Step src snd s (.return_ r) s') ∧
    (∀ e, s.ctx = some e → ∃ s', Ff.Step src snd s (.return_ (some e)) s') := by
  refine ⟨fun hm => ⟨_, _, _, .flush hp ((ff_run h).closed.2 hm)⟩, ?_, fun e he => ⟨_, .ended hp he⟩⟩
  intro hc r s' hs
  cases hs with
  | flushed hq => rw [hp] at hq; cases hq
  | ended _ hc' => rw [hc] at hc'; cases hc'

/-- Instance: two messages are handled, one flush goes out. -/
example : ∃ evs s, Ff.Run { direct := "sfe.src1" } (fun _ _ => True) {} evs s ∧ evs.countP isFfHandled = 2 ∧ evs.countP isFfSend = 1 ∧
    s.pc = .returned none := by
  have r1 := (Ff.Run.nil (src := { direct := "sfe.src1" }) (snd := fun _ _ => True) (s := {})).snoc rfl (.register rfl)
  have r2 := r1.snoc rfl .handle
  have r3 := r2.snoc rfl .handle
  have r4 := r3.snoc rfl (.flush rfl rfl)
  have r5 := r4.snoc rfl (.flushed (r := none) rfl trivial)
  exact ⟨_, _, r5, rfl, rfl, rfl⟩

end Verif.Props
