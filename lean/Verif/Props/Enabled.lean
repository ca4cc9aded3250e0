import Verif.Props.Container
import Verif.Props.FixtureServer
import Verif.Props.Keepalive
import Verif.Props.ToolServer
import Verif.Props.VancapForward
import Verif.Props.Mock
import Verif.Props.Client
import Verif.Props.FirstFlush
import Verif.Props.Alive
import Verif.Props.Announce
import Verif.Props.Request
import Verif.Props.Watch

/-!
# What the goroutines can do: steps that must not be missing

The claims about what happens in every run would also hold of a program that does nothing.  Here are runs that each goroutine must be able to make from any state of a kind.
-/
namespace Verif.Props
open Verif Verif.Model Verif.Spec

/-! ## The container -/

theorem ctr_run_append {P : LinkPolicy} {s0 s1 s2 : Ctr} {a b : List CtrEv} (h1 : Ctr.Run P s0 a s1) (h2 : Ctr.Run P s1 b s2) : Ctr.Run P s0 (a ++ b) s2 := by
  induction h2 with
  | nil => rw [List.append_nil]; exact h1
  | snoc _ hc hs ih => rw [← List.append_assoc]; exact ih.snoc hc hs

/-- **C55.** An error of another session than the current one is taken off the queue, and nothing else happens. -/
theorem C55_old_error {P : LinkPolicy} {s : Ctr} {g : Nat} {e : GoErr} {rest : List (Nat × GoErr)} (hl : s.loop = .serving) (he : s.errs = (g, e) :: rest) (hg : g ≠ s.gen) :
    Ctr.Step P s (.dropped g) { s with errs := rest } ∧ ∀ ev s', Ctr.Step P s ev s' → (s'.gen ≠ s.gen ∨ s'.loop ≠ s.loop) → s.ctx ≠ none := by
  refine ⟨.dropped hl he hg, fun ev s' hs hd => ?_⟩
  cases hs with
  | interrupted _ hc => rw [hc]; simp
  | restart _ _ he' => rw [he] at he'; cases he'; exact absurd rfl hg
  | start h | dialFail _ h | dialOk h | sessionFail _ h | session h | stopFailed h | retry h | giveUp h | notify h | reenter h | notified h | again h | stopWaiting h | stopGaveUp h | finish h | final h
  | finished h => rw [hl] at h; cases h
  | _ => simp [Ctr.setOp, Ctr.setLink] at hd

theorem finishing_ends {P : LinkPolicy} {e : GoErr} : ∀ (left : List Nat) {s : Ctr}, s.crashed = false → s.loop = .finishing e left →
    ∃ evs s', Ctr.Run P s evs s' ∧ (∀ ev ∈ evs, ev.windsUp = true) ∧ s'.loop = .ended ∧ s'.gen = s.gen
  | [], s, hc, hl => ⟨[.ended], _, Ctr.Run.nil.snoc hc (.finished hl), by simp [CtrEv.windsUp], rfl, rfl⟩
  | h :: left, s, hc, hl => by
    have st : Ctr.Step P s (.handler h false) _ := .final hl
    obtain ⟨evs, s', hr, hw, he, hg⟩ := finishing_ends (P := P) left (s := { s with loop := .finishing e left }) hc rfl
    exact ⟨[.handler h false] ++ evs, s', ctr_run_append (Ctr.Run.nil.snoc hc st) hr, by simpa [CtrEv.windsUp] using hw, he, hg⟩

theorem notifying_ends {P : LinkPolicy} {e ce : GoErr} : ∀ (left : List Nat) {s : Ctr}, s.crashed = false → s.ctx = some ce → s.loop = .notifying e left →
    ∃ evs s', Ctr.Run P s evs s' ∧ (∀ ev ∈ evs, ev.windsUp = true) ∧ s'.loop = .ended ∧ s'.gen = s.gen
  | [], s, hc, hx, hl =>
    ⟨_, _, (Ctr.Run.nil.snoc hc (.notified hl)).snoc hc (.stopWaiting (e := ce) rfl hx), by simp [CtrEv.windsUp], rfl, rfl⟩
  | h :: left, s, hc, hx, hl => by
    have st : Ctr.Step P s (.handler h true) _ := .notify hl
    obtain ⟨evs, s', hr, hw, he, hg⟩ := notifying_ends (P := P) left (s := { s with loop := .notifying e left }) hc hx rfl
    exact ⟨[.handler h true] ++ evs, s', ctr_run_append (Ctr.Run.nil.snoc hc st) hr, by simpa [CtrEv.windsUp] using hw, he, hg⟩

/-- **C60.** When the context has ended, the goroutine of `Start` can end from wherever it is, without opening another session, unless a handler has called the container (C59); then the connection of
its session is closed. -/
theorem C60_can_end {P : LinkPolicy} {evs0 : List CtrEv} {s : Ctr} (h0 : Ctr.Run P {} evs0 s) {ce : GoErr} (hc : s.crashed = false) (hx : s.ctx = some ce) (hn : s.loop ≠ .notStarted)
    (hsl : s.loop ≠ .selfLocked) :
    ∃ evs s', Ctr.Run P s evs s' ∧ (∀ ev ∈ evs, ev.windsUp = true) ∧ s'.loop = .ended ∧ s'.gen = s.gen ∧ ∀ c ∈ s'.conns, c.gen = some s.gen → c.open_ = false := by
  suffices ∃ evs s', Ctr.Run P s evs s' ∧ (∀ ev ∈ evs, ev.windsUp = true) ∧ s'.loop = .ended ∧ s'.gen = s.gen by
    obtain ⟨evs, s', hr, hw, he, hg⟩ := this
    refine ⟨evs, s', hr, hw, he, hg, fun c hm hcg => ?_⟩
    cases hop : c.open_ with
    | false => rfl
    | true =>
      have := C60_connections_partial (ctr_run_append h0 hr) hm hcg hop
      exact absurd he this.2
  have failed : ∀ {s : Ctr} {e : GoErr}, s.crashed = false → s.ctx = some ce → s.loop = .failed e →
      ∃ evs s', Ctr.Run P s evs s' ∧ (∀ ev ∈ evs, ev.windsUp = true) ∧ s'.loop = .ended ∧ s'.gen = s.gen :=
    fun hc hx hl => ⟨[.ended], _, Ctr.Run.nil.snoc hc (.stopFailed hl hx), by simp [CtrEv.windsUp], rfl, rfl⟩
  have via : ∀ {ev : CtrEv} {s1 : Ctr}, Ctr.Step P s ev s1 → ev.windsUp = true → s1.gen = s.gen →
      (∃ evs s', Ctr.Run P s1 evs s' ∧ (∀ ev ∈ evs, ev.windsUp = true) ∧ s'.loop = .ended ∧ s'.gen = s1.gen) →
      ∃ evs s', Ctr.Run P s evs s' ∧ (∀ ev ∈ evs, ev.windsUp = true) ∧ s'.loop = .ended ∧ s'.gen = s.gen := by
    intro ev s1 st hw hg ⟨evs, s', hr, hws, he, hg'⟩
    exact ⟨[ev] ++ evs, s', ctr_run_append (Ctr.Run.nil.snoc hc st) hr, by simpa [hw] using hws, he, hg'.trans hg⟩
  cases hl : s.loop with
  | notStarted => exact absurd hl hn
  | selfLocked => exact absurd hl hsl
  | dialing => exact via (.dialFail "" hl) rfl rfl (failed hc hx rfl)
  | opening c => exact via (.sessionFail "" hl) rfl rfl (failed hc hx rfl)
  | serving => exact via (.interrupted hl hx) rfl rfl (failed hc hx rfl)
  | failed e => exact failed hc hx hl
  | notifying e left => exact notifying_ends left hc hx hl
  | waiting => exact ⟨[.ended], _, Ctr.Run.nil.snoc hc (.stopWaiting hl hx), by simp [CtrEv.windsUp], rfl, rfl⟩
  | gaveUp e => exact ⟨[.ended], _, Ctr.Run.nil.snoc hc (.stopGaveUp hl hx), by simp [CtrEv.windsUp], rfl, rfl⟩
  | finishing e left => exact finishing_ends left hc hl
  | ended => exact ⟨[], s, .nil, by simp, hl, rfl⟩

/-- **C69.** An operation that waits for a session and missed that there is one gets it: it wakes up and takes the current session, unless the container calls handlers at the moment. -/
theorem C69_wakes {P : LinkPolicy} {s : Ctr} {o prev : Nat} {op : LOp} (hc : s.crashed = false) (ho : s.ops[o]? = some op) (hp : op.pc = .parked prev) (hg : s.gen ≠ prev) (hm : s.muHeld = false) :
    ∃ s', Ctr.Run P s [.step o, .step o] s' ∧ s'.ops[o]? = some { op with pc := .got s.gen } := by
  have st : Ctr.Step P s (.step o) _ := .wake ho hp hg
  have ho1 : (s.setOp o (.waking prev)).ops[o]? = some { op with pc := .waking prev } := by simp [Ctr.setOp, ho]
  have st2 : Ctr.Step P (s.setOp o (.waking prev)) (.step o) _ := .woken ho1 rfl hm hg
  exact ⟨_, (Ctr.Run.nil.snoc hc st).snoc hc st2, by simp [Ctr.setOp, ho]⟩

/-- Non-vacuity of `C69_wakes`: an operation parks before the first session, then there is one. -/
example : ∃ evs s op, Ctr.Run exclusive {} evs s ∧ s.crashed = false ∧ s.ops[0]? = some op ∧ op.pc = .parked 0 ∧ s.gen ≠ 0 ∧ s.muHeld = false := by
  have r1 := (Ctr.Run.nil (P := exclusive) (s := {})).snoc rfl (.newLink false rfl)
  have r2 := r1.snoc rfl (.call 0 .next none rfl rfl (by simp) (by intro _; rfl))
  have r3 := r2.snoc rfl (.startWait (o := 0) rfl rfl rfl rfl rfl)
  have r4 := r3.snoc rfl (.park (o := 0) rfl rfl rfl rfl)
  have r5 := r4.snoc rfl (.start rfl)
  have r6 := r5.snoc rfl (.dialOk rfl)
  have r7 := r6.snoc rfl (.session rfl)
  exact ⟨_, _, _, r7, rfl, rfl, rfl, by decide, rfl⟩

/-! ## The keepalive goroutine -/

variable {cfg : KaConfig} {snd : Callee}

/-- **C41.** When the goroutine waits in its select, it sends a beacon when the beacon ticker is due and a heartbeat when the heartbeat ticker is due: after the clock has moved there
and the ticker has fired. -/
theorem C41_due {s : Ka} (hp : s.pc = .loop) :
    (∃ s', Ka.Run cfg snd s [.time, .tick, .begin_ .beacon beaconAddress cfg.beacon.encode] s' ∧ s'.now = max s.now s.beaconTick.next ∧
      s'.pc = .sending .beacon s'.now (s'.now + cfg.deliveryTimeout) s.ctx) ∧
    (∃ s' t, Ka.Run cfg snd s [.time, .tick, .begin_ .heartbeat cfg.heartbeatAddr (cfg.heartbeat t).encode] s' ∧ s'.now = t ∧ t = max s.now s.heartbeatTick.next ∧
      s'.pc = .sending .heartbeat t (t + cfg.deliveryTimeout) s.ctx) := by
  constructor
  · have s1 : Ka.Step cfg snd s .time _ := .time (max s.now s.beaconTick.next) (by omega)
    have s2 : Ka.Step cfg snd { s with now := max s.now s.beaconTick.next } .tick _ := .tickBeacon (by show s.beaconTick.next ≤ max _ _; omega) (by simp [hp]) (by simp [hp])
    have s3 := Ka.Step.beginBeacon (cfg := cfg) (snd := snd)
      (s := { s with now := max s.now s.beaconTick.next, beaconTick := s.beaconTick.fire cfg.beaconEvery (max s.now s.beaconTick.next) }) hp rfl
    exact ⟨_, ((Ka.Run.nil.snoc s1).snoc s2).snoc s3, rfl, rfl⟩
  · have s1 : Ka.Step cfg snd s .time _ := .time (max s.now s.heartbeatTick.next) (by omega)
    have s2 : Ka.Step cfg snd { s with now := max s.now s.heartbeatTick.next } .tick _ := .tickHeartbeat (by show s.heartbeatTick.next ≤ max _ _; omega) (by simp [hp]) (by simp [hp])
    have s3 := Ka.Step.beginHeartbeat (cfg := cfg) (snd := snd)
      (s := { s with now := max s.now s.heartbeatTick.next, heartbeatTick := s.heartbeatTick.fire cfg.heartbeatEvery (max s.now s.heartbeatTick.next) }) hp rfl
    exact ⟨_, _, ((Ka.Run.nil.snoc s1).snoc s2).snoc s3, rfl, rfl, rfl⟩

/-- **C42.** The context of a send ends when its time is up, if it has not ended before. -/
theorem C42_expires {s : Ka} {k : KaKind} {b u : Int} (hp : s.pc = .sending k b u none) :
    ∃ s', Ka.Run cfg snd s [.time, .expire] s' ∧ s'.now = max s.now u ∧ s'.pc = .sending k b u (some .deadline) := by
  have s1 : Ka.Step cfg snd s .time _ := .time (max s.now u) (by omega)
  have s2 : Ka.Step cfg snd { s with now := max s.now u } .expire _ := .expire (k := k) (b := b) (u := u) hp (by show u ≤ max _ _; omega)
  exact ⟨_, (Ka.Run.nil.snoc s1).snoc s2, rfl, rfl⟩

/-! ## The client -/

/-- **C43.** A message that is no event message is skipped: the listener accepts it and receives again. -/
theorem C43_skips {reg : Registry} {s : Client} {l : Nat} {x : Listener} {m : Msg} {e : String} (hc : s.crashed = false) (hx : s.listeners[l]? = some x) (hp : x.pc = .receiving)
    (hd : decodeMsg reg (some m) = .err e) :
    ∃ s', Client.Run reg s [.delivered l m, .accepted l m] s' ∧ s'.listeners[l]? = some { x with pc := .receiving } ∧ s'.crashed = false := by
  have s1 : Client.Step reg s (.delivered l m) _ := .deliver m hx hp
  have hx1 : (s.at l (.accepting m)).listeners[l]? = some { x with pc := .accepting m } := by simp [Client.at, hx]
  have s2 : Client.Step reg (s.at l (.accepting m)) (.accepted l m) _ := .undecodable hx1 rfl hd
  exact ⟨_, (Client.Run.nil.snoc hc s1).snoc hc s2, by simp [Client.at, hx], hc⟩

/-! ## The mock -/

/-- **C62.** A sender can be closed, and then a call of Send fails. -/
theorem C62_close_sender {evs : List MockEv} {s : Mock} (h : Mock.Run {} evs s) {i : Nat} {x : MSnd} (hx : s.snds[i]? = some x) (m : Nat) :
    ∃ s' o, Mock.Run {} (evs ++ [.closeSender i, .call o i x.addr m, .ret o (some (.other "sender closed"))]) s' := by
  have r1 := h.snoc (.closeSender hx)
  have hx1 : (s.snds.modify i fun y => { y with closed := true })[i]? = some { x with closed := true } := by simp [hx]
  have r2 := r1.snoc (.call (i := i) (x := { x with closed := true }) m none hx1)
  have r3 := r2.snoc (.startClosed (o := s.ops.length) (op := { sender := i, addr := x.addr, msg := m }) (x := { x with closed := true }) (by simp) rfl hx1 rfl)
  exact ⟨_, _, by simpa using r3⟩

/-! ## The fixture server -/

/-- **C89.** A POST whose body cannot be read is answered with an error; /flows answers all the same. -/
theorem C89_bad_body {s : Fx} {t : Nat} :
    (∀ st, s.reqs[t]? = some (.fxBody st) → ∃ s', Fx.Run s [.body t none, .answered t (.bad st)] s' ∧ s'.reqs[t]? = some .done ∧ s'.starter = s.starter ∧ s'.lock = s.lock) ∧
    (s.reqs[t]? = some .flBody → ∃ s', Fx.Run s [.flowsBody t false, .answered t .flows] s' ∧ s'.reqs[t]? = some .done ∧ s'.replays = s.replays ∧ s'.lock = none) := by
  constructor
  · intro st ht
    have hlt := (List.getElem?_eq_some_iff.1 ht).1
    have s1 : Fx.Step s (.body t none) _ := .fxBad ht
    have s2 : Fx.Step { s with reqs := s.reqs.set t (.fxAnswer (.bad st)) } (.answered t (.bad st)) _ := .fxAnswer (by simp [hlt])
    exact ⟨_, (Fx.Run.nil.snoc s1).snoc s2, by simp [hlt], rfl, rfl⟩
  · intro ht
    have hlt := (List.getElem?_eq_some_iff.1 ht).1
    have s1 : Fx.Step s (.flowsBody t false) _ := .flBad ht
    have s2 : Fx.Step { s with reqs := s.reqs.set t .flAnswer } (.answered t .flows) _ := .flAnswer (by simp [hlt])
    exact ⟨_, (Fx.Run.nil.snoc s1).snoc s2, by simp [hlt], rfl, rfl⟩

/-- **C89.** A replay can end, and gives the lock back, when nobody else has it. -/
theorem C89_replay_ends {s : Fx} {i : Nat} (hi : s.replays[i]? = some .publishing) (hl : s.lock = none) :
    ∃ s', Fx.Run s [.published i, .tau, .tau] s' ∧ s'.replays[i]? = some .done ∧ s'.lock = none ∧ s'.reqs = s.reqs ∧ s'.starter = s.starter := by
  have hlt := (List.getElem?_eq_some_iff.1 hi).1
  have s1 : Fx.Step s (.published i) _ := .published hi
  have s2 : Fx.Step { s with replays := s.replays.set i .lock } .tau _ := .rpLock (i := i) (by simp [hlt]) hl
  have s3 : Fx.Step { s with replays := (s.replays.set i .lock).set i .held, lock := some (.replay i) } .tau _ := .rpDone (i := i) (by simp [hlt])
  exact ⟨_, ((Fx.Run.nil.snoc s1).snoc s2).snoc s3, by simp [hlt], rfl, rfl, rfl⟩

/-! ## vancap -/

/-- **C91.** Each failure is reported, if nothing else happens meanwhile: creating the file, the request, copying (also into a file that could not be created), the forwarding, the interruption. -/
theorem C91_reports {s : Vf} :
    (s.pc = .creating → ∃ s', Vf.Run s [.create false, .test] s' ∧ s'.pc = .over (.err "failed to create output file") ∧ s'.effs = s.effs) ∧
    (∀ f, s.pc = .requesting f → ∃ s', Vf.Run s [.request none, .test] s' ∧ s'.pc = .over (.err "error requesting vanflow capture") ∧ s'.effs = s.effs) ∧
    (∀ body, s.pc = .copying false body → ∃ s', Vf.Run s [.copy (some 0), .test] s' ∧ s'.pc = .over (.err "error writing capture file") ∧ s'.effs = s.effs) ∧
    (∀ e, s.pc = .selecting → s.fw = .forwarding → ∃ s', Vf.Run s [.forwardReturns (some e), .forwardTest, .forwardSend, .chosen .failed] s' ∧
      s'.pc = .over (.err "vancap port forward error") ∧ s'.effs = s.effs) ∧
    (s.pc = .selecting → s.ctxDone = false → ∃ s', Vf.Run s [.interrupt, .chosen .cancelled] s' ∧ s'.pc = .over (.err "vancap interrupted") ∧ s'.effs = s.effs) := by
  refine ⟨fun hp => ?_, fun f hp => ?_, fun body hp => ?_, fun e hp hf => ?_, fun hp hc => ?_⟩
  · exact ⟨_, (Vf.Run.nil.snoc (.create false "" hp)).snoc (.createdErr (f := false) rfl rfl), rfl, rfl⟩
  · exact ⟨_, (Vf.Run.nil.snoc (.request none "" hp)).snoc (.requestedErr rfl rfl), rfl, rfl⟩
  · exact ⟨_, (Vf.Run.nil.snoc (.copyInvalid hp)).snoc (.copiedErr rfl rfl), rfl, rfl⟩
  · have r1 := Vf.Run.nil.snoc (.forwardReturns (s := s) (some e) hf)
    have r2 := r1.snoc (.forwardTest rfl)
    have r3 := r2.snoc (.forwardSend rfl)
    exact ⟨_, r3.snoc (.chooseFailed (e := some e) hp rfl), rfl, rfl⟩
  · exact ⟨_, (Vf.Run.nil.snoc (.interrupt hc)).snoc (.chooseCancelled hp rfl), rfl, rfl⟩

/-! ## serve and fixture -/

/-- **C92.** When the context has ended, the container can end, before it has called the handlers. -/
theorem C92_container_ends {s : Tool} (hr : s.pc ≠ .returned) (hc : s.con = .running ∨ s.con = .gaveUp) (hx : s.ctxDone = true) :
    ∃ s', Tool.Run s [.containerEnds] s' ∧ s'.con = .over ∧ s'.pc = s.pc := by
  exact ⟨_, Tool.Run.nil.snoc hr (.containerEnds hc hx), rfl, rfl⟩

/-- **C53.** Where the context of a watch ends, the watch can return at once when it waits. -/
theorem C53_can_end {cfg : WatchCfg} {s : Watch} (hp : s.pc = .select) : ∃ s', Watch.Run cfg s [.cancel, .return_] s' ∧ s'.pc = .done :=
  ⟨_, (Watch.Run.nil.snoc .cancel).snoc (.return_ hp rfl), rfl⟩

example : ∃ s : Watch, s.pc = .select ∧ s.cancelled = false := ⟨{ now := 0, pc := .select }, rfl, rfl⟩

/-- **C45.** A flush that waits for a first message can give up when its context ends, with the error of the context. -/
theorem C45_gives_up {src : Info} {snd : Callee} {s : Ff} {e : GoErr} (hc : s.crashed = false) (hp : s.pc = .waiting) (hx : s.ctx = none) (he : e.IsCtx) :
    ∃ s', Ff.Run src snd s [.cancel, .return_ (some e)] s' ∧ s'.pc = .returned (some e) :=
  ⟨_, (Ff.Run.nil.snoc hc (.cancel e he hx)).snoc hc (.ended hp rfl), rfl⟩

/-- **C96.** A record counts like a heartbeat: while the client listens and one of its listeners is free, a record that comes makes its time the time the source was last seen. -/
theorem C96_record {kc : KaConfig} {wc : WatchCfg} {d : Delays} {snd : Callee} {s : Alive} (hl : s.listening.isSome = true) (hw : s.w.inflight.length < wc.listeners) :
    ∃ s', Alive.Run kc wc d snd s [.watch (.stamp s.w.now), .watch (.store s.w.now)] s' ∧ s'.w.lastSeen = some s.w.now ∧ s'.w.inflight = s.w.inflight ∧
      s'.handling = s.handling ∧ s'.net = s.net :=
  ⟨_, (Alive.Run.nil.snoc (.record hl (.stamp hw))).snoc (.store (l := s.handling) (r := []) rfl (.store s.w.inflight [] s.w.now rfl)), rfl, by simp, by simp, rfl⟩

/-- **C109.** Time passes for the source whatever the others do, and `Run` of the discovery can return when it waits for a message. -/
theorem C109_can_return {c : AnnCfg} {s : Ann} {t : Int} (ht : s.ka.now ≤ t) (hc : s.crashed = false) (hr : s.run = .receiving) :
    ∃ s', Ann.Run c s { k := [.time] } s' ∧ s'.run = .returned ∧ s'.ka.now = t :=
  ⟨_, (Ann.Run.nil.snoc (.ka (ev := .time) trivial (.time t ht))).snoc (.return_ hc hr), rfl, rfl⟩

/-- **C107.** The goroutine that receives requests can end when the manager is told to stop. -/
theorem C107_can_end {k : SysCfg} {f : Nat} {s : FSys} (hp : s.pc = .receiving) (hc : s.sys.src.mgr.cancelled = true) : ∃ s', FSys.Run k f s {} s' ∧ s'.pc = .finished :=
  ⟨_, FSys.Run.nil.snoc (.stop hp hc), rfl⟩

end Verif.Props
