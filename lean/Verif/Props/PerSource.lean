import Verif.Spec.PerSource
import Verif.Props.Client

/-!
# C110: what is started for a source is released when the source is forgotten
-/
namespace Verif.Props
open Verif Verif.Model Verif.Spec

variable {reg : Registry} {cmd : DiscCmd} {o : ToolOpts}

theorem upd_get {s : ToolRes} {k j : Nat} {f : SrcRes → SrcRes} :
    (s.upd k f).srcs[j]? = if k = j then s.srcs[j]?.map f else s.srcs[j]? := by
  simp only [ToolRes.upd, List.getElem?_modify]
  split <;> simp

theorem clientEvs_snoc {k : Nat} {evs : List TrEv} {ev : TrEv} : clientEvs k (evs ++ [ev]) = clientEvs k evs ++ clientEvs k [ev] := by
  simp [clientEvs]

theorem new_get {s : ToolRes} {j : Nat} {x r : SrcRes} (h : (s.srcs ++ [x])[j]? = some r) : s.srcs[j]? = some r ∨ (j = s.srcs.length ∧ r = x) := by
  rcases Nat.lt_trichotomy j s.srcs.length with hj | hj | hj
  · exact .inl (by rwa [List.getElem?_append_left hj] at h)
  · subst hj
    rw [List.getElem?_concat_length] at h
    exact .inr ⟨rfl, (Option.some.inj h).symm⟩
  · rw [List.getElem?_append_right (by omega), List.getElem?_singleton] at h
    split at h
    · omega
    · simp at h

/-- What happens to a source in a step: it is new, or its client makes the steps that belong to it. -/
theorem src_step {s s' : ToolRes} {ev : TrEv} (hc : ∀ r ∈ s.srcs, r.client.crashed = false) (hx : ∀ e, s.ctx = some e → e.IsCtx)
    (hs : ToolRes.Step reg cmd o s ev s') {j : Nat} {r' : SrcRes}
    (hj : s'.srcs[j]? = some r') :
    (∃ r, s.srcs[j]? = some r ∧ Client.Run reg r.client (clientEvs j [ev]) r'.client ∧ r'.source = r.source) ∨
      (j = s.srcs.length ∧ ev = .discovered j ∧ r'.client = {} ∧ r'.ctr = true ∧ r'.watch = .none ∧ r'.addrs = [] ∧ r'.flush = false) := by
  have hcr : ∀ {j : Nat} {r : SrcRes}, s.srcs[j]? = some r → r.client.crashed = false := fun h => hc _ (List.mem_of_getElem? h)
  cases hs with
  | discovered hh hd =>
    rcases new_get hj with h | ⟨h, rfl⟩
    · exact .inl ⟨r', h, by simpa [clientEvs] using Client.Run.nil, rfl⟩
    · exact .inr ⟨h, by rw [h], rfl, rfl, rfl, rfl, rfl⟩
  | beacon | unknown | listened | returned | forgotten | stopped | cancel => exact .inl ⟨r', hj, by simpa [clientEvs] using Client.Run.nil, rfl⟩
  | goFlush | ctrEnded | gaveUp =>
    rw [upd_get] at hj
    split at hj
    · subst j
      obtain ⟨r, hr, rfl⟩ := Option.map_eq_some_iff.1 hj
      exact .inl ⟨r, hr, by simpa [clientEvs] using Client.Run.nil, rfl⟩
    · exact .inl ⟨r', hj, by simpa [clientEvs] using Client.Run.nil, rfl⟩
  | @watched k r i hh hk hi hl =>
    rw [upd_get] at hj
    split at hj
    · subst j
      rw [hk] at hj; cases hj
      refine .inl ⟨r, hk, ?_, rfl⟩
      have h1 := (Client.Run.nil (reg := reg) (s := r.client)).snoc (hcr hk) (.onHeartbeat 0 hl)
      have h2 := h1.snoc (hcr hk) (.onRecord 0 hl)
      simpa [clientEvs] using h2
    · rename_i hne
      exact .inl ⟨r', hj, by simpa [clientEvs, hne] using Client.Run.nil, rfl⟩
  | @onRecord k r t hh hk hl =>
    rw [upd_get] at hj
    split at hj
    · subst j
      rw [hk] at hj; cases hj
      refine .inl ⟨r, hk, ?_, rfl⟩
      simpa [clientEvs] using (Client.Run.nil (reg := reg) (s := r.client)).snoc (hcr hk) (.onRecord 1 hl)
    · rename_i hne
      exact .inl ⟨r', hj, by simpa [clientEvs, hne] using Client.Run.nil, rfl⟩
  | @onHeartbeat k r t hh hk hl =>
    rw [upd_get] at hj
    split at hj
    · subst j
      rw [hk] at hj; cases hj
      refine .inl ⟨r, hk, ?_, rfl⟩
      simpa [clientEvs] using (Client.Run.nil (reg := reg) (s := r.client)).snoc (hcr hk) (.onHeartbeat 1 hl)
    · rename_i hne
      exact .inl ⟨r', hj, by simpa [clientEvs, hne] using Client.Run.nil, rfl⟩
  | @listen k r a t hh hk =>
    rw [upd_get] at hj
    split at hj
    · subst j
      rw [hk] at hj; cases hj
      refine .inl ⟨r, hk, ?_, rfl⟩
      simpa [clientEvs] using (Client.Run.nil (reg := reg) (s := r.client)).snoc (hcr hk) .listen
    · rename_i hne
      exact .inl ⟨r', hj, by simpa [clientEvs, hne] using Client.Run.nil, rfl⟩
  | @forget k r hk hw =>
    rw [upd_get] at hj
    split at hj
    · subst j
      rw [hk] at hj; cases hj
      refine .inl ⟨r, hk, ?_, rfl⟩
      simpa [clientEvs] using (Client.Run.nil (reg := reg) (s := r.client)).snoc (hcr hk) .close
    · rename_i hne
      exact .inl ⟨r', hj, by simpa [clientEvs, hne] using Client.Run.nil, rfl⟩
  | @watchEnded k r hk hw _ =>
    rw [upd_get] at hj
    split at hj
    · subst j
      rw [hk] at hj; cases hj
      refine .inl ⟨r, hk, ?_, rfl⟩
      simpa [clientEvs] using (Client.Run.nil (reg := reg) (s := r.client)).snoc (hcr hk) .close
    · rename_i hne
      exact .inl ⟨r', hj, by simpa [clientEvs, hne] using Client.Run.nil, rfl⟩
  | @client k r ev c' hk hin hst =>
    rw [upd_get] at hj
    split at hj
    · subst j
      rw [hk] at hj; cases hj
      refine .inl ⟨r, hk, ?_, rfl⟩
      simpa [clientEvs] using (Client.Run.nil (reg := reg) (s := r.client)).snoc (hcr hk) hst
    · rename_i hne
      exact .inl ⟨r', hj, by simpa [clientEvs, hne] using Client.Run.nil, rfl⟩
  | @flushRecord k r hk hf hl =>
    rw [upd_get] at hj
    split at hj
    · subst j
      rw [hk] at hj; cases hj
      refine .inl ⟨r, hk, ?_, rfl⟩
      simpa [clientEvs] using (Client.Run.nil (reg := reg) (s := r.client)).snoc (hcr hk) (.onRecord 2 hl)
    · rename_i hne
      exact .inl ⟨r', hj, by simpa [clientEvs, hne] using Client.Run.nil, rfl⟩
  | @flushHeartbeat k r hk hf hl =>
    rw [upd_get] at hj
    split at hj
    · subst j
      rw [hk] at hj; cases hj
      refine .inl ⟨r, hk, ?_, rfl⟩
      simpa [clientEvs] using (Client.Run.nil (reg := reg) (s := r.client)).snoc (hcr hk) (.onHeartbeat 2 hl)
    · rename_i hne
      exact .inl ⟨r', hj, by simpa [clientEvs, hne] using Client.Run.nil, rfl⟩
  | @listenerCtx k l r x e he hk hl hn =>
    rw [upd_get] at hj
    split at hj
    · subst j
      rw [hk] at hj; cases hj
      refine .inl ⟨r, hk, ?_, rfl⟩
      simpa [clientEvs] using (Client.Run.nil (reg := reg) (s := r.client)).snoc (hcr hk) (.cancel e (hx e he) hl hn)
    · rename_i hne
      exact .inl ⟨r', hj, by simpa [clientEvs, hne] using Client.Run.nil, rfl⟩

theorem ctx_step {s s' : ToolRes} {ev : TrEv} (hs : ToolRes.Step reg cmd o s ev s') : s'.ctx = s.ctx ∨ (ev = .cancel ∧ s.ctx = none ∧ ∃ e, e.IsCtx ∧ s'.ctx = some e) := by
  cases hs with
  | cancel e he hn => exact .inr ⟨rfl, hn, e, he, rfl⟩
  | _ => exact .inl rfl

theorem ctx_run {s0 s : ToolRes} {evs : List TrEv} (h : ToolRes.Run reg cmd o s0 evs s) (h0 : ∀ e, s0.ctx = some e → e.IsCtx) : ∀ e, s.ctx = some e → e.IsCtx := by
  induction h with
  | nil => exact h0
  | snoc hr _ hs ih =>
    rcases ctx_step hs with h | ⟨-, -, e, he, h⟩
    · rw [h]; exact ih
    · intro e' h'
      rw [h] at h'; cases h'; exact he

/-- Events are about sources that exist. -/
theorem clientEvs_lt {s s' : ToolRes} {ev : TrEv} (hs : ToolRes.Step reg cmd o s ev s') {j : Nat} (hj : s.srcs.length ≤ j) : clientEvs j [ev] = [] := by
  have ne : ∀ {k : Nat} {r : SrcRes}, s.srcs[k]? = some r → k ≠ j := by
    intro k r hk he
    subst he
    rw [List.getElem?_eq_none hj] at hk; cases hk
  cases hs with
  | watched _ hk | onRecord _ hk | onHeartbeat _ hk | listen _ hk | forget hk | watchEnded hk | client hk | flushRecord hk | flushHeartbeat hk | listenerCtx _ hk =>
    simp [clientEvs, ne hk]
  | _ => simp [clientEvs]

theorem srcs_length {s s' : ToolRes} {ev : TrEv} (hs : ToolRes.Step reg cmd o s ev s') :
    s'.srcs.length = s.srcs.length ∨ s'.srcs.length = s.srcs.length + 1 := by
  cases hs <;> simp [ToolRes.upd]

theorem clientEvs_run_lt {s : ToolRes} {evs : List TrEv} (h : ToolRes.Run reg cmd o {} evs s) {j : Nat} (hj : s.srcs.length ≤ j) : clientEvs j evs = [] := by
  generalize hs0 : ({} : ToolRes) = s0 at h
  induction h with
  | nil => simp [clientEvs]
  | @snoc s1 s2 evs1 ev hr _ hs ih =>
    have h1 : s1.srcs.length ≤ j := by rcases srcs_length hs with h | h <;> omega
    rw [clientEvs_snoc, ih h1, clientEvs_lt hs h1]; rfl

/-- The client of a source behaves like a client. -/
theorem client_proj {s : ToolRes} {evs : List TrEv} (h : ToolRes.Run reg cmd o {} evs s) {j : Nat} {r : SrcRes} (hj : s.srcs[j]? = some r) :
    Client.Run reg {} (clientEvs j evs) r.client := by
  generalize hs0 : ({} : ToolRes) = s0 at h
  induction h generalizing r with
  | nil => subst hs0; simp at hj
  | @snoc s1 s2 evs1 ev hr hc hs ih =>
    subst hs0
    rw [clientEvs_snoc]
    rcases src_step hc (ctx_run hr (by simp)) hs hj with ⟨r0, h0, h1, -⟩ | ⟨h0, h1, h2, -⟩
    · exact client_run_trans (ih h0) h1
    · rw [h2, clientEvs_run_lt hr (by omega), clientEvs_lt hs (by omega)]
      exact .nil

theorem tool_run_split {s0 s : ToolRes} {evs : List TrEv} (h : ToolRes.Run reg cmd o s0 evs s) {pre post : List TrEv} (he : evs = pre ++ post) :
    ∃ m, ToolRes.Run reg cmd o s0 pre m ∧ ToolRes.Run reg cmd o m post s := by
  induction h generalizing post with
  | nil =>
    obtain ⟨rfl, rfl⟩ := List.append_eq_nil_iff.1 he.symm
    exact ⟨_, .nil, .nil⟩
  | @snoc s1 s2 evs1 ev hr hc hs ih =>
    rcases List.eq_nil_or_concat post with rfl | ⟨post', e, rfl⟩
    · rw [List.append_nil] at he
      subst he
      exact ⟨_, .snoc hr hc hs, .nil⟩
    · rw [List.concat_eq_append, ← List.append_assoc] at he
      obtain ⟨rfl, h2⟩ := List.append_inj' he rfl
      cases h2
      obtain ⟨m, h1, h2⟩ := ih rfl
      exact ⟨m, h1, by rw [List.concat_eq_append]; exact .snoc h2 hc hs⟩

theorem tool_run_append {s0 s1 s2 : ToolRes} {evs1 evs2 : List TrEv} (h1 : ToolRes.Run reg cmd o s0 evs1 s1) (h2 : ToolRes.Run reg cmd o s1 evs2 s2) :
    ToolRes.Run reg cmd o s0 (evs1 ++ evs2) s2 := by
  induction h2 with
  | nil => simpa using h1
  | snoc _ hc hs ih => rw [← List.append_assoc]; exact .snoc ih hc hs

theorem tool_run_nil {s s' : ToolRes} (h : ToolRes.Run reg cmd o s [] s') : s' = s := by
  generalize hev : ([] : List TrEv) = evs at h
  cases h with
  | nil => rfl
  | snoc => simp at hev

theorem tool_run_one {s s' : ToolRes} {ev : TrEv} (h : ToolRes.Run reg cmd o s [ev] s') : ToolRes.Step reg cmd o s ev s' := by
  generalize hev : [ev] = evs at h
  cases h with
  | nil => cases hev
  | @snoc s1 _ evs2 ev2 hr hc hs =>
    obtain ⟨rfl, h2⟩ := List.append_inj' (s₁ := []) hev rfl
    cases h2
    rw [tool_run_nil hr] at hs
    exact hs

/-- The Discovered handler is busy with the `k`-th source. -/
def Busy (k : Nat) : ToolHandlerPC → Prop
  | .making k' | .doing k' _ | .listening k' _ _ => k' = k
  | _ => False

/-- While the handler is busy with a source it has not returned from it. -/
structure ToolHandlerInv (evs : List TrEv) (s : ToolRes) : Prop where
  busy : ∀ k, Busy k s.handler → k < s.srcs.length ∧ TrEv.returned k ∉ evs
  returned : ∀ k, TrEv.returned k ∈ evs → k < s.srcs.length

theorem toolHandlerInv_step {s s' : ToolRes} {evs : List TrEv} {ev : TrEv} (h : ToolHandlerInv evs s) (hs : ToolRes.Step reg cmd o s ev s') :
    ToolHandlerInv (evs ++ [ev]) s' := by
  have hl : s.srcs.length ≤ s'.srcs.length := by rcases srcs_length hs with h | h <;> omega
  have hb := h.busy
  have keep : ∀ k, Busy k s.handler → (∀ k, ev ≠ .returned k) → k < s'.srcs.length ∧ TrEv.returned k ∉ evs ++ [ev] := by
    intro k hk hne
    obtain ⟨h1, h2⟩ := hb k hk
    refine ⟨by omega, ?_⟩
    simp only [List.mem_append, List.mem_singleton, not_or]
    exact ⟨h2, fun he => hne _ he.symm⟩
  have ret : (∀ k, ev ≠ .returned k) → ∀ k, TrEv.returned k ∈ evs ++ [ev] → k < s'.srcs.length := by
    intro hne k hk
    rcases List.mem_append.1 hk with h1 | h1
    · have := h.returned k h1; omega
    · exact absurd (List.mem_singleton.1 h1).symm (hne _)
  cases hs with
  | @returned k hh =>
    refine ⟨fun k hk => hk.elim, fun k' hk => ?_⟩
    rcases List.mem_append.1 hk with h1 | h1
    · exact h.returned k' h1
    · simp at h1; subst h1
      exact (hb k' (by rw [hh]; rfl)).1
  | discovered hh hd =>
    refine ⟨fun k hk => ?_, ret (by simp)⟩
    obtain rfl : _ = k := hk
    simp only [List.mem_append, List.mem_singleton, not_or]
    refine ⟨by simp, fun h1 => ?_, by simp⟩
    have := h.returned _ h1; omega
  | unknown | stopped => exact ⟨fun k hk => hk.elim, ret (by simp)⟩
  | watched hh | onRecord hh | onHeartbeat hh | listen hh | listened hh | goFlush hh =>
    refine ⟨fun k hk => keep k ?_ (by simp), ret (by simp)⟩
    rw [hh]; exact hk
  | _ => exact ⟨fun k hk => keep k hk (by simp), ret (by simp)⟩

theorem toolHandlerInv {s : ToolRes} {evs : List TrEv} (h : ToolRes.Run reg cmd o {} evs s) : ToolHandlerInv evs s := by
  generalize hs0 : ({} : ToolRes) = s0 at h
  induction h with
  | nil => subst hs0; exact ⟨fun k hk => hk.elim, by simp⟩
  | snoc hr _ hs ih => exact toolHandlerInv_step ih hs

/-- What the Discovered handler does with the client of a source it does while it is busy with it. -/
theorem listen_busy {s s' : ToolRes} {ev : TrEv} (hs : ToolRes.Step reg cmd o s ev s') {k : Nat} (h : ClEv.listen ∈ clientEvs k [ev]) : Busy k s.handler := by
  cases hs with
  | @listen k' r a t hh hk =>
    rw [hh]
    simp [clientEvs] at h
    exact h
  | @client k' r ev c' hk hin hst =>
    simp [clientEvs] at h
    obtain ⟨h1, h2⟩ := h
    subst h2; simp [ClEv.inner] at hin
  | _ => simp [clientEvs] at h <;> (first | exact h.elim | (obtain ⟨-, h⟩ := h; cases h))

/-- A client whose listeners have all finished calls no handler until `Listen` is called again. -/
theorem ended_run {c c' : Client} {cevs : List ClEv} (h : Client.Run reg c cevs c') (hl : ClEv.listen ∉ cevs) (hf : ∀ x ∈ c.listeners, x.pc = .finished) :
    (∀ x ∈ c'.listeners, x.pc = .finished) ∧ ∀ l hd d, ClEv.call l hd d ∉ cevs := by
  induction h with
  | nil => exact ⟨hf, by simp⟩
  | @snoc c1 c2 cevs1 ev hr _ hs ih =>
    simp only [List.mem_append, List.mem_singleton, not_or] at hl ⊢
    obtain ⟨ih1, ih2⟩ := ih hl.1
    have no : ∀ {l : Nat} {x : Listener} {pc : LPC}, c1.listeners[l]? = some x → x.pc = pc → pc ≠ .finished → False :=
      fun hx hp hn => hn (hp ▸ ih1 _ (List.mem_of_getElem? hx))
    have call : (∀ l hd d, ev ≠ .call l hd d) → ∀ l hd d, ClEv.call l hd d ∉ cevs1 ∧ ¬ ClEv.call l hd d = ev :=
      fun hn l hd d => ⟨ih2 l hd d, fun he => hn l hd d he.symm⟩
    cases hs with
    | listen => exact absurd rfl hl.2
    | listenStart hx hp | deliver _ hx hp | nextEnded _ hx hp | acceptEnded _ hx hp | acceptError _ hx hp | decoded hx hp | undecodable hx hp | fetch hx hp
    | call hx hp | again hx hp => exact (no hx hp (by simp)).elim
    | @cancel l x e he hx hn =>
      refine ⟨fun y hy => ?_, call (by simp)⟩
      obtain ⟨i, hi⟩ := List.mem_iff_getElem?.1 hy
      simp only [List.getElem?_modify] at hi
      obtain ⟨z, hz, rfl⟩ := Option.map_eq_some_iff.1 hi
      have := ih1 z (List.mem_of_getElem? hz)
      split <;> exact this
    | closeLock =>
      refine ⟨fun y hy => ?_, call (by simp)⟩
      obtain ⟨z, hz, rfl⟩ := List.mem_map.1 hy
      rw [cleanup_pc]; exact ih1 z hz
    | _ => exact ⟨ih1, call (by simp)⟩

/-- C110, the part that holds: when the Discovered handler had returned before the watch's `Close` returned, no listener of the source is left from
then on, and no handler is called for it any more.  Missing for the full claim: the container, see `C110_containers`, and a handler that is
slower than its watch, see `C110_late`. -/
theorem C110_listeners_partial {s : ToolRes} {evs pre post : List TrEv} {k c : Nat} (h : ToolRes.Run reg cmd o {} evs s)
    (he : evs = pre ++ .client k (.closeReturned c) :: post) (hret : TrEv.returned k ∈ pre) :
    (∃ r, s.srcs[k]? = some r ∧ ListenersEnded r) ∧ ∀ l hd d, TrEv.client k (.call l hd d) ∉ post := by
  obtain ⟨m1, h1, h2⟩ := tool_run_split h (pre := pre ++ [.client k (.closeReturned c)]) (post := post) (by simp [he])
  have hm : ∃ r, m1.srcs[k]? = some r ∧ ListenersEnded r := by
    obtain ⟨m0, h3, h4⟩ := tool_run_split h1 rfl
    have hend : ∀ {r : SrcRes} {c' : Client}, m0.srcs[k]? = some r → Client.Step reg r.client (.closeReturned c) c' → ∀ x ∈ c'.listeners, x.pc = .finished := by
      intro r c' hk hst x hx
      obtain ⟨i, hi⟩ := List.mem_iff_getElem?.1 hx
      exact C44_listeners_stopped (client_proj h3 hk) hst i x hi
    cases tool_run_one h4 with
    | @client _ r _ c' hk hin hst => exact ⟨{ r with client := c' }, by simp [upd_get, hk], hend hk hst⟩
  have hret1 : TrEv.returned k ∈ pre ++ [TrEv.client k (.closeReturned c)] := List.mem_append_left _ hret
  clear he h
  revert h1
  generalize pre ++ [TrEv.client k (.closeReturned c)] = evs1 at hret1
  intro h1
  induction h2 with
  | nil => exact ⟨hm, by simp⟩
  | @snoc s1 s2 post1 ev hr hc hs ih =>
    obtain ⟨⟨r, hk, hr0⟩, ih2⟩ := ih
    have hrun := tool_run_append h1 hr
    have hnb : ¬ Busy k s1.handler := fun hb => (toolHandlerInv hrun).busy k hb |>.2 (List.mem_append_left _ hret1)
    obtain ⟨r', hk'⟩ : ∃ r', s2.srcs[k]? = some r' := by
      have hlt : k < s1.srcs.length := by
        rcases Nat.lt_or_ge k s1.srcs.length with h | h
        · exact h
        · rw [List.getElem?_eq_none h] at hk; cases hk
      exact ⟨_, List.getElem?_eq_getElem (by rcases srcs_length hs with h | h <;> omega)⟩
    rcases src_step hc (ctx_run hrun (by simp)) hs hk' with ⟨r0, h0, hcl, -⟩ | ⟨h0, -⟩
    · rw [hk] at h0; cases h0
      obtain ⟨h5, h6⟩ := ended_run hcl (fun hl => hnb (listen_busy hs hl)) hr0
      refine ⟨⟨r', hk', h5⟩, fun l hd d hm => ?_⟩
      rcases List.mem_append.1 hm with hm | hm
      · exact ih2 l hd d hm
      · rw [← List.mem_singleton.1 hm] at h6
        exact h6 l hd d (by simp [clientEvs])
    · rw [h0] at hk; simp at hk

/-- C110: as long as the tool runs, a container that was started for a source ends only by giving up reconnecting; that the source is forgotten makes no difference. -/
theorem C110_containers {s : ToolRes} {evs : List TrEv} (h : ToolRes.Run reg cmd o {} evs s) (hctx : s.ctx = none) {k : Nat} {r : SrcRes}
    (hk : s.srcs[k]? = some r) (hr : r.ctr = false) : TrEv.gaveUp k ∈ evs := by
  generalize hs0 : ({} : ToolRes) = s0 at h
  induction h generalizing r with
  | nil => subst hs0; simp at hk
  | @snoc s1 s2 evs1 ev hrun hc hs ih =>
    have old : ∀ r0, s1.srcs[k]? = some r0 → r0.ctr = false → s1.ctx = none → TrEv.gaveUp k ∈ evs1 ++ [ev] :=
      fun r0 h1 h2 h3 => List.mem_append_left _ (ih h3 h1 h2)
    cases hs with
    | beacon | unknown | listened | returned | forgotten | stopped => exact old r hk hr hctx
    | cancel => cases hctx
    | discovered hh hd =>
      rcases new_get hk with h | ⟨h, rfl⟩
      · exact old r h hr hctx
      · cases hr
    | ctrEnded _ _ hx => rw [show s1.ctx = none from hctx] at hx; cases hx
    | @gaveUp k' r' hk' _ =>
      rw [upd_get] at hk
      split at hk
      · subst k; simp
      · exact old r hk hr hctx
    | _ =>
      rw [upd_get] at hk
      split at hk
      · subst k
        obtain ⟨r0, h0, rfl⟩ := Option.map_eq_some_iff.1 hk
        exact old r0 h0 hr hctx
      · exact old r hk hr hctx

theorem containerEnds_snoc (k : Nat) (evs : List TrEv) (ev : TrEv) : containerEnds k (evs ++ [ev]) = containerEnds k evs + containerEnds k [ev] := by
  simp [containerEnds]

theorem ctr_upd {s : ToolRes} {k j : Nat} {f : SrcRes → SrcRes} (hf : ∀ r, (f r).ctr = r.ctr) :
    (match (s.upd k f).srcs[j]? with
      | some r => if r.ctr then 0 else 1
      | none => 0) = match s.srcs[j]? with
      | some r => if r.ctr then 0 else 1
      | none => 0 := by
  rw [upd_get]
  cases s.srcs[j]? with
  | none => by_cases e : k = j <;> simp [e]
  | some r => by_cases e : k = j <;> simp [e, hf]

/-- C110: the container of a source runs from its discovery on; it ends once, and then it runs no more. -/
theorem C110_container {s : ToolRes} {evs : List TrEv} (h : ToolRes.Run reg cmd o {} evs s) (k : Nat) :
    containerEnds k evs = match s.srcs[k]? with
      | some r => if r.ctr then 0 else 1
      | none => 0 := by
  generalize hs0 : ({} : ToolRes) = s0 at h
  induction h with
  | nil => subst hs0; simp [containerEnds]
  | @snoc s1 s2 evs1 ev hrun hc hs ih =>
    subst hs0
    rw [containerEnds_snoc]
    cases hs with
    | beacon | unknown | listened | returned | forgotten | stopped | cancel => simpa [containerEnds] using ih
    | discovered hh hd =>
      simp only [containerEnds, List.countP_cons_of_neg, Bool.false_eq_true, not_false_eq_true, List.countP_nil, Nat.add_zero] at ih ⊢
      rw [ih]
      rcases Nat.lt_trichotomy k s1.srcs.length with hlt | heq | hgt
      · simp [List.getElem?_append_left hlt]
      · subst heq; simp
      · rw [List.getElem?_eq_none (by omega), List.getElem?_eq_none (by simp; omega)]
    | @ctrEnded k' r' hk' hr' _ =>
      rw [upd_get]
      by_cases e : k' = k
      · subst e; simp only [hk', hr', if_true] at ih; rw [ih]; simp [hk', containerEnds]
      · rw [ih]; simp [e, containerEnds]
    | @gaveUp k' r' hk' hr' =>
      rw [upd_get]
      by_cases e : k' = k
      · subst e; simp only [hk', hr', if_true] at ih; rw [ih]; simp [hk', containerEnds]
      · rw [ih]; simp [e, containerEnds]
    | _ =>
      refine Eq.trans ?_ (Eq.symm (ctr_upd ?_))
      · rw [ih]
        simp [containerEnds]
      · intro _; rfl

/-- C110: a container ends by itself only after the context has. -/
theorem C110_container_ctx {s : ToolRes} {evs : List TrEv} (h : ToolRes.Run reg cmd o {} evs s) {k : Nat} (he : TrEv.ctrEnded k ∈ evs) : s.ctx.isSome = true := by
  generalize hs0 : ({} : ToolRes) = s0 at h
  induction h with
  | nil => cases he
  | @snoc s1 s2 evs1 ev hrun hc hs ih =>
    subst hs0
    rcases List.mem_append.1 he with he | he
    · have ih := ih he
      cases hs <;> first | exact ih | rfl
    · rw [← List.mem_singleton.1 he] at hs
      cases hs
      assumption

/-- C110 does not hold as stated: while the tool runs, nothing that was started for a source is released as a whole, unless its container has lost its connection for good. -/
theorem C110_counterexample {s : ToolRes} {evs : List TrEv} (h : ToolRes.Run reg cmd o {} evs s) (hctx : s.ctx = none) {k : Nat}
    (hg : TrEv.gaveUp k ∉ evs) {r : SrcRes} (hk : s.srcs[k]? = some r) : ¬ Released r :=
  fun hr => hg (C110_containers h hctx hk hr.container)

/-- At NewWatchClient nothing has been done with the client. -/
theorem making_fresh {s : ToolRes} {evs : List TrEv} (h : ToolRes.Run reg cmd o {} evs s) {k : Nat} (hh : s.handler = .making k) {r : SrcRes}
    (hk : s.srcs[k]? = some r) : r.watch = .none ∧ r.addrs = [] ∧ r.client = {} ∧ r.flush = false := by
  generalize hs0 : ({} : ToolRes) = s0 at h
  induction h generalizing r with
  | nil => subst hs0; simp at hk
  | @snoc s1 s2 evs1 ev hrun hc hs ih =>
    cases hs with
    | discovered hh1 hd =>
      cases hh
      simp at hk
      subst hk
      exact ⟨rfl, rfl, rfl, rfl⟩
    | beacon | forgotten | cancel => exact ih hh hk
    | unknown | listened | returned | stopped | watched | onRecord | onHeartbeat | listen | goFlush => cases hh
    | @client k' r' ev' c' hk' hin hst =>
      rw [upd_get] at hk
      split at hk
      · subst k
        rw [hk'] at hk; cases hk
        obtain ⟨h1, h2, h3, h4⟩ := ih hh hk'
        rw [h3] at hst
        cases hst <;> simp_all [ClEv.inner]
      · exact ih hh hk
    | @forget k' r' hk' hw | @watchEnded k' r' hk' hw =>
      rw [upd_get] at hk
      split at hk
      · subst k
        rw [hk'] at hk; cases hk
        rw [(ih hh hk').1] at hw; cases hw
      · exact ih hh hk
    | @flushRecord k' r' hk' hw | @flushHeartbeat k' r' hk' hw =>
      rw [upd_get] at hk
      split at hk
      · subst k
        rw [hk'] at hk; cases hk
        rw [(ih hh hk').2.2.2] at hw; cases hw
      · exact ih hh hk
    | @listenerCtx k' l r' x e he hk' hx hn =>
      rw [upd_get] at hk
      split at hk
      · subst k
        rw [hk'] at hk; cases hk
        rw [(ih hh hk').2.2.1] at hx; simp at hx
      · exact ih hh hk
    | ctrEnded | gaveUp =>
      rw [upd_get] at hk
      split at hk
      · subst k
        obtain ⟨r0, h0, rfl⟩ := Option.map_eq_some_iff.1 hk
        have := ih hh h0
        exact this
      · exact ih hh hk

/-- The watch closes the client of its source, once, and nobody else does. -/
theorem closers_watch {s : ToolRes} {evs : List TrEv} (h : ToolRes.Run reg cmd o {} evs s) {k : Nat} {r : SrcRes} (hk : s.srcs[k]? = some r) :
    r.client.closers.length = (if r.watch = .forgot ∨ r.watch = .cancelled then 1 else 0) := by
  generalize hs0 : ({} : ToolRes) = s0 at h
  induction h generalizing r with
  | nil => subst hs0; simp at hk
  | @snoc s1 s2 evs1 ev hrun hc hs ih =>
    cases hs with
    | beacon | unknown | listened | returned | forgotten | stopped | cancel => exact ih hk
    | discovered hh hd =>
      rcases new_get hk with h | ⟨h, rfl⟩
      · exact ih h
      · simp
    | @client k' r' ev' c' hk' hin hst =>
      rw [upd_get] at hk
      split at hk
      · subst k
        rw [hk'] at hk; cases hk
        have := ih hk'
        rw [← this]
        cases hst <;> simp_all [ClEv.inner, Client.at]
      · exact ih hk
    | @watched k' r' i hh hk' =>
      subst hs0
      rw [upd_get] at hk
      split at hk
      · subst k
        rw [hk'] at hk; cases hk
        have := ih hk'
        rw [(making_fresh hrun hh hk').1] at this
        simpa using this
      · exact ih hk
    | @forget k' r' hk' hw | @watchEnded k' r' hk' hw =>
      rw [upd_get] at hk
      split at hk
      · subst k
        rw [hk'] at hk; cases hk
        have := ih hk'
        rw [hw] at this
        simpa using this
      · exact ih hk
    | _ =>
      rw [upd_get] at hk
      split at hk
      · subst k
        obtain ⟨r0, h0, rfl⟩ := Option.map_eq_some_iff.1 hk
        have := ih h0
        exact this
      · exact ih hk

theorem client_proj_from {s s' : ToolRes} {evs : List TrEv} (h : ToolRes.Run reg cmd o s evs s') (hx : ∀ e, s.ctx = some e → e.IsCtx) {k : Nat} {r : SrcRes}
    (hk : s.srcs[k]? = some r) : ∃ r', s'.srcs[k]? = some r' ∧ Client.Run reg r.client (clientEvs k evs) r'.client ∧ r'.source = r.source := by
  induction h with
  | nil => exact ⟨r, hk, .nil, rfl⟩
  | @snoc s1 s2 evs1 ev hrun hc hs ih =>
    obtain ⟨r1, h1, h2, h3⟩ := ih
    have hlt : k < s1.srcs.length := by
      rcases Nat.lt_or_ge k s1.srcs.length with h | h
      · exact h
      · rw [List.getElem?_eq_none h] at h1; cases h1
    have hlt2 : k < s2.srcs.length := by rcases srcs_length hs with h | h <;> omega
    have h4 : s2.srcs[k]? = some s2.srcs[k] := List.getElem?_eq_getElem hlt2
    rcases src_step hc (ctx_run hrun hx) hs h4 with ⟨r0, h0, h5, h6⟩ | ⟨h0, -⟩
    · rw [h1] at h0; cases h0
      exact ⟨_, h4, by rw [clientEvs_snoc]; exact client_run_trans h2 h5, h6.trans h3⟩
    · omega

/-- While the tool runs nobody ends the context of a listener from outside. -/
theorem no_cancel {s s' : ToolRes} {evs : List TrEv} (h : ToolRes.Run reg cmd o s evs s') (hx : s'.ctx = none) (k l : Nat) : ClEv.cancel l ∉ clientEvs k evs := by
  induction h with
  | nil => simp [clientEvs]
  | @snoc s1 s2 evs1 ev hrun hc hs ih =>
    rw [clientEvs_snoc, List.mem_append, not_or]
    have h1 : s1.ctx = none := by
      rcases ctx_step hs with h | ⟨-, -, e, -, h⟩
      · rw [← h, hx]
      · rw [h] at hx; cases hx
    refine ⟨ih h1, fun hm => ?_⟩
    cases hs with
    | listenerCtx he => rw [h1] at he; cases he
    | @client k' r ev c' hk hin hst =>
      simp [clientEvs] at hm
      obtain ⟨-, rfl⟩ := hm
      cases hin
    | _ => simp [clientEvs] at hm <;> (first | exact hm.elim | (obtain ⟨-, h⟩ := hm; cases h))

theorem close_count {s : ToolRes} {evs : List TrEv} (h : ToolRes.Run reg cmd o {} evs s) {k : Nat} {r : SrcRes} (hk : s.srcs[k]? = some r) :
    (clientEvs k evs).countP isClose = r.client.closers.length ∧ r.client.closers.length ≤ 1 := by
  refine ⟨(closers_count (client_proj h hk)).symm, ?_⟩
  rw [closers_watch h hk]; split <;> omega

/-- C110: the tool closes no client twice: the process does not panic, unless by a message that cannot be decoded without one. -/
theorem C110_no_panic {s : ToolRes} {evs : List TrEv} (h : ToolRes.Run reg cmd o {} evs s)
    (hm : ∀ k l m, TrEv.client k (.delivered l m) ∈ evs → ∀ e, decodeMsg reg (some m) ≠ .panic e) : ∀ r ∈ s.srcs, r.client.crashed = false := by
  intro r hr
  obtain ⟨k, hk⟩ := List.mem_iff_getElem?.1 hr
  obtain ⟨h1, h2⟩ := close_count h hk
  refine C44_once_partial (client_proj h hk) (by omega) fun l m hl => hm k l m ?_
  simp only [clientEvs, List.mem_flatMap] at hl
  obtain ⟨ev, he, hl⟩ := hl
  split at hl <;> (try split at hl) <;> simp at hl
  subst hl
  simp_all

/-- A listener that has been started after `Close`. -/
def Late (l : Nat) (c : Client) : Prop :=
  (∀ i : Nat, c.closers[i]? ≠ some ClosePC.locking) ∧ ∃ x : Listener, c.listeners[l]? = some x ∧ x.ctx = none ∧ x.pc ≠ .finished

theorem late_run {c c' : Client} {cevs : List ClEv} (h : Client.Run reg c cevs c') (h1 : ∀ l, ClEv.cancel l ∉ cevs) (h2 : ClEv.close ∉ cevs) {l : Nat} (hl : Late l c) :
    Late l c' := by
  induction h with
  | nil => exact hl
  | @snoc c1 c2 cevs1 ev hr _ hs ih =>
    simp only [List.mem_append, List.mem_singleton, not_or] at h1 h2
    obtain ⟨hlk, x, hx, hctx, hpc⟩ := ih (fun l => (h1 l).1) h2.1
    have move : ∀ {l' : Nat} {y : Listener} {pc : LPC}, c1.listeners[l']? = some y → (l' = l → pc ≠ .finished) →
        ∃ x : Listener, (c1.at l' pc).listeners[l]? = some x ∧ x.ctx = none ∧ x.pc ≠ .finished := by
      intro l' y pc hy hp
      simp only [Client.at, List.getElem?_modify]
      by_cases he : l' = l
      · subst he
        exact ⟨{ x with pc := pc }, by simp [hx], hctx, hp rfl⟩
      · exact ⟨x, by simp [he, hx], hctx, hpc⟩
    have noEnd : ∀ {l' : Nat} {y : Listener} {e : GoErr}, c1.listeners[l']? = some y → errorsIs (some e) y.ctx = true → l' ≠ l := by
      intro l' y e hy he hne
      subst hne
      rw [hx] at hy; cases hy
      rw [hctx] at he; simp [errorsIs] at he
    cases hs with
    | close => exact absurd rfl h2.2
    | cancel => exact absurd rfl (h1 _).2
    | closeLock hc => exact absurd hc (hlk _)
    | closePanic hc => exact absurd hc (hlk _)
    | listen =>
      refine ⟨hlk, x, ?_, hctx, hpc⟩
      rw [List.getElem?_append_left]
      · exact hx
      · exact (List.getElem?_eq_some_iff.1 hx).1
    | listenStart hy | deliver _ hy | acceptError _ hy | decoded hy | undecodable hy | fetch hy | call hy | again hy => exact ⟨hlk, move hy (by simp)⟩
    | nextEnded _ hy _ he | acceptEnded _ hy _ he => exact ⟨hlk, move hy (fun h => absurd h (noEnd hy he))⟩
    | closeReturn hc hw =>
      refine ⟨fun i hi => ?_, x, hx, hctx, hpc⟩
      simp only [List.getElem?_set] at hi
      split at hi
      · split at hi <;> simp at hi
      · exact hlk i hi
    | _ => exact ⟨hlk, x, hx, hctx, hpc⟩

/-- Before `Close` no listener's context has ended, and after `Close` only those of listeners that have finished. -/
theorem late_inv {c : Client} {cevs : List ClEv} (h : Client.Run reg {} cevs c) (h1 : ∀ l, ClEv.cancel l ∉ cevs) (h2 : cevs.countP isClose ≤ 1) :
    (c.doneClosed = false → ∀ x ∈ c.listeners, x.ctx = none) ∧
      (c.closers[0]? = some .returned → ∀ x ∈ c.listeners, x.pc = .finished ∨ x.ctx = none) ∧
      (c.closers[0]? = some .locking → c.doneClosed = false) ∧ (c.closers = [] → c.doneClosed = false) := by
  generalize hs0 : ({} : Client) = s0 at h
  induction h with
  | nil => subst hs0; simp
  | @snoc c1 c2 cevs1 ev hr _ hs ih =>
    subst hs0
    simp only [List.mem_append, List.mem_singleton, not_or] at h1
    have hcc := closers_count hr
    rw [List.countP_append] at h2
    obtain ⟨i1, i2, i3, i4⟩ := ih (fun l => (h1 l).1) (by omega)
    have move : ∀ {l : Nat} {y : Listener} {pc : LPC}, c1.listeners[l]? = some y → (y.pc ≠ .finished) →
        (c1.doneClosed = false → ∀ x ∈ (c1.at l pc).listeners, x.ctx = none) ∧
        (c1.closers[0]? = some .returned → ∀ x ∈ (c1.at l pc).listeners, x.pc = .finished ∨ x.ctx = none) := by
      intro l y pc hy hp
      refine ⟨fun hd x hx => ?_, fun hd x hx => ?_⟩
      all_goals
        obtain ⟨i, hi⟩ := List.mem_iff_getElem?.1 hx
        simp only [Client.at, List.getElem?_modify] at hi
        obtain ⟨z, hz, rfl⟩ := Option.map_eq_some_iff.1 hi
      · have := i1 hd z (List.mem_of_getElem? hz)
        split <;> exact this
      · have := i2 hd z (List.mem_of_getElem? hz)
        split
        · rename_i he
          subst he
          rw [hy] at hz; cases hz
          exact .inr (this.resolve_left hp)
        · exact this
    have ne : ∀ {y : Listener} {pc : LPC}, y.pc = pc → pc ≠ .finished → y.pc ≠ .finished := fun h1 h2 => h1 ▸ h2
    cases hs with
    | cancel => exact absurd rfl (h1 _).2
    | listenStart hy hp | deliver _ hy hp | acceptError _ hy hp | decoded hy hp | undecodable hy hp | fetch hy hp | call hy hp | again hy hp
    | nextEnded _ hy hp | acceptEnded _ hy hp =>
      exact ⟨(move hy (ne hp (by simp))).1, (move hy (ne hp (by simp))).2, i3, i4⟩
    | listen =>
      refine ⟨fun hd x hx => ?_, fun hd x hx => ?_, i3, i4⟩
      · rcases List.mem_append.1 hx with hx | hx
        · exact i1 hd x hx
        · rw [List.mem_singleton.1 hx]
      · rcases List.mem_append.1 hx with hx | hx
        · exact i2 hd x hx
        · rw [List.mem_singleton.1 hx]; exact .inr rfl
    | close =>
      have h0 : c1.closers = [] := List.length_eq_zero_iff.1 (by rw [hcc]; simp [isClose] at h2 ⊢; omega)
      refine ⟨i1, ?_, fun _ => i4 h0, ?_⟩
      · simp [h0]
      · simp
    | @closeLock c hc hl hd =>
      have hlen := (List.getElem?_eq_some_iff.1 hc).1
      have h0 : c = 0 := by omega
      subst h0
      refine ⟨by simp, ?_, ?_, fun h => ?_⟩
      · simp [List.getElem?_set]
      · simp [List.getElem?_set]
      · simp at h; rw [h] at hlen; simp at hlen
    | @closeReturn c hc hw =>
      have hlen := (List.getElem?_eq_some_iff.1 hc).1
      have h0 : c = 0 := by omega
      subst h0
      have hfin := C44_listeners_stopped hr (.closeReturn hc hw)
      refine ⟨i1, fun _ x hx => ?_, ?_, fun h => ?_⟩
      · obtain ⟨i, hi⟩ := List.mem_iff_getElem?.1 hx
        exact .inl (hfin i x hi)
      · simp [List.getElem?_set]
      · simp at h; rw [h] at hlen; simp at hlen
    | _ => exact ⟨i1, i2, i3, i4⟩

/-- C110: a listener that has been started when its client was closed already never ends while the tool runs, although its source has been forgotten. -/
theorem C110_late {s s' : ToolRes} {evs evs' : List TrEv} (h : ToolRes.Run reg cmd o {} evs s) {k l : Nat} {r : SrcRes} {x : Listener}
    (hk : s.srcs[k]? = some r) (hc : r.client.closers[0]? = some .returned) (hx : r.client.listeners[l]? = some x) (hn : x.pc ≠ .finished)
    (h' : ToolRes.Run reg cmd o s evs' s') (hctx : s'.ctx = none) :
    ∃ r' x', s'.srcs[k]? = some r' ∧ r'.client.listeners[l]? = some x' ∧ x'.pc ≠ .finished := by
  have hall := tool_run_append h h'
  have hcancel := no_cancel hall hctx k
  have hsplit : clientEvs k (evs ++ evs') = clientEvs k evs ++ clientEvs k evs' := by simp [clientEvs]
  rw [hsplit] at hcancel
  obtain ⟨c1, c2⟩ := close_count h hk
  have hj := late_inv (client_proj h hk) (fun l hm => hcancel l (List.mem_append_left _ hm)) (by omega)
  obtain ⟨r', hk', hrun, -⟩ := client_proj_from h' (ctx_run h (by simp)) hk
  obtain ⟨c3, c4⟩ := close_count hall hk'
  have hlen := (List.getElem?_eq_some_iff.1 hc).1
  have hclose : ClEv.close ∉ clientEvs k evs' := by
    intro hm
    have : 0 < (clientEvs k evs').countP isClose := List.countP_pos_iff.2 ⟨_, hm, rfl⟩
    rw [hsplit, List.countP_append] at c3
    omega
  have hlate : Late l r.client := by
    refine ⟨fun i hi => ?_, x, hx, (hj.2.1 hc x (List.mem_of_getElem? hx)).resolve_left hn, hn⟩
    have h1 := (List.getElem?_eq_some_iff.1 hi).1
    have h0 : i = 0 := by omega
    subst h0
    rw [hc] at hi; cases hi
  obtain ⟨-, x', h1, -, h2⟩ := late_run hrun (fun l hm => hcancel l (List.mem_append_right _ hm)) hclose hlate
  exact ⟨r', x', hk', h1, h2⟩

theorem countP_modify {α : Type} (p : α → Bool) (f : α → α) : ∀ (ls : List α) (k : Nat) (x : α), ls[k]? = some x →
    (ls.modify k f).countP p + (p x).toNat = ls.countP p + (p (f x)).toNat
  | [], k, x, h => by simp at h
  | y :: ls, 0, x, h => by
    simp at h; subst h
    simp only [List.modify_zero_cons, List.countP_cons]
    cases p y <;> cases p (f y) <;> simp <;> omega
  | y :: ls, k + 1, x, h => by
    have := countP_modify p f ls k x (by simpa using h)
    simp only [List.modify_succ_cons, List.countP_cons]
    omega

theorem countP_upd {s : ToolRes} {k : Nat} {f : SrcRes → SrcRes} (p : SrcRes → Bool) (h : ∀ r, p (f r) = p r) : (s.upd k f).srcs.countP p = s.srcs.countP p := by
  rcases hk : s.srcs[k]? with _ | x
  · simp only [ToolRes.upd]
    rw [List.modify_eq_self (by simpa using hk)]
  · have := countP_modify p f s.srcs k x hk
    rw [h] at this
    exact Nat.add_right_cancel this

theorem about_upd {s : ToolRes} {k : Nat} {f : SrcRes → SrcRes} (hi : ∀ r, (f r).source = r.source) (id : String) :
    aboutToWatch id (s.upd k f) = aboutToWatch id s := by
  have h2 : ∀ k' : Nat, ((s.upd k f).srcs[k']?).any (fun r => r.source.id == id) = (s.srcs[k']?).any (fun r => r.source.id == id) := by
    intro k'
    rw [upd_get]
    split
    · cases s.srcs[k']? <;> simp [hi]
    · rfl
  unfold aboutToWatch
  simp only [h2]
  rfl

/-- A step that changes nothing that matters for looking after a source. -/
theorem lookedAfter_upd {s : ToolRes} {k : Nat} {f : SrcRes → SrcRes} (hw : ∀ r, (f r).watch = r.watch) (hi : ∀ r, (f r).source = r.source) (id : String) :
    lookedAfter id (s.upd k f) = lookedAfter id s := by
  unfold lookedAfter
  rw [countP_upd _ (by intro r; simp [Watched, hw, hi]), about_upd hi]
  rfl

theorem lookedAfter_handler {s : ToolRes} {hp : ToolHandlerPC} (h1 : ∀ k, s.handler ≠ .making k) (h2 : ∀ k, hp ≠ .making k) (id : String) :
    lookedAfter id { s with handler := hp } = lookedAfter id s := by
  have e1 : aboutToWatch id { s with handler := hp } = 0 := by
    unfold aboutToWatch; split
    · rename_i h; exact absurd h (h2 _)
    · rfl
  have e2 : aboutToWatch id s = 0 := by
    unfold aboutToWatch; split
    · rename_i h; exact absurd h (h1 _)
    · rfl
  unfold lookedAfter
  rw [e1, e2]

/-- C110: every known source is looked after at exactly one place, and an unknown one nowhere: no source is watched twice, and none is left without a watch. -/
theorem C110_one_watch {s : ToolRes} {evs : List TrEv} (h : ToolRes.Run reg cmd o {} evs s) (id : String) :
    lookedAfter id s = if (s.known.get? id).isSome then 1 else 0 := by
  generalize hs0 : ({} : ToolRes) = s0 at h
  induction h with
  | nil => subst hs0; simp [lookedAfter, aboutToWatch]
  | @snoc s1 s2 evs1 ev hrun hc hs ih =>
    subst hs0
    cases hs with
    | beacon i hi =>
      have e : lookedAfter id { s1 with known := s1.known.set i.id i, discovered := s1.discovered ++ [i] } = lookedAfter id s1 + (i.id == id).toNat := by
        simp only [lookedAfter, aboutToWatch, List.countP_append, List.countP_singleton]
        cases i.id == id <;> simp <;> omega
      rw [e]
      by_cases he : i.id = id
      · subst he
        rw [hi] at ih
        simp [ih]
      · simp only []
        rw [GMap.get?_set_ne _ _ he, ih]
        simp [he]
    | @discovered i rest hh hd =>
      refine Eq.trans ?_ ih
      simp [lookedAfter, aboutToWatch, hh, hd, List.countP_append, List.countP_cons, Watched]
    | @watched k r i hh hk hi hl =>
      refine Eq.trans ?_ ih
      have hw := (making_fresh hrun hh hk).1
      have := countP_modify (fun r => Watched r && r.source.id == id) (fun r => { r with
            watch := .watching
            client := { r.client with heartbeatHandlers := r.client.heartbeatHandlers ++ [0], recordHandlers := r.client.recordHandlers ++ [0] } }) s1.srcs k r hk
      simp [Watched, hw, show (WatchPart.none == WatchPart.watching || WatchPart.none == WatchPart.cancelled) = false from rfl] at this
      simp [lookedAfter, aboutToWatch, hh, hk, ToolRes.upd, Watched]
      by_cases he : r.source.id = id
      · subst he; simp at this ⊢; omega
      · rw [beq_eq_false_iff_ne.2 he] at this; simp [he] at this ⊢; omega
    | @unknown k r hh hk hn =>
      refine Eq.trans ?_ ih
      simp only [lookedAfter, aboutToWatch, hh, hk]
      have : (r.source.id == id) = false := by
        rw [beq_eq_false_iff_ne]
        intro he
        subst he
        rw [hn] at ih
        simp [lookedAfter, aboutToWatch, hh, hk] at ih
      simp [this]
    | @forget k r hk hw =>
      have h1 := countP_modify (fun r => Watched r && r.source.id == id) (fun r => { r with
            watch := .forgot, client := { r.client with closers := r.client.closers ++ [.locking] } }) s1.srcs k r hk
      simp [Watched, hw, show (WatchPart.forgot == WatchPart.watching || WatchPart.forgot == WatchPart.cancelled) = false from rfl] at h1
      have h2 := about_upd (s := s1) (k := k) (f := fun r => { r with
            watch := .forgot, client := { r.client with closers := r.client.closers ++ [.locking] } }) (fun _ => rfl) id
      have h3 : lookedAfter id s1 = lookedAfter id (s1.upd k fun r => { r with
            watch := .forgot, client := { r.client with closers := r.client.closers ++ [.locking] } }) + (r.source.id == id).toNat := by
        unfold lookedAfter
        rw [h2]
        simp only [ToolRes.upd, Watched]
        omega
      rw [ih] at h3
      refine Eq.trans (b := lookedAfter id (s1.upd k fun r => { r with
            watch := .forgot, client := { r.client with closers := r.client.closers ++ [.locking] } })) rfl ?_
      simp only [GMap.get?_del]
      by_cases he : r.source.id = id
      · subst he
        rw [if_pos rfl]
        rw [beq_self_eq_true] at h3
        simp only [Bool.toNat_true] at h3
        simp
        split at h3 <;> omega
      · rw [beq_eq_false_iff_ne.2 he] at h3
        rw [if_neg he, h3]
        rfl
    | @watchEnded k r hk hw hx =>
      refine Eq.trans ?_ ih
      unfold lookedAfter
      rw [about_upd (by intro; rfl)]
      have h1 := countP_modify (fun r => Watched r && r.source.id == id) (fun r => { r with
            watch := .cancelled, client := { r.client with closers := r.client.closers ++ [.locking] } }) s1.srcs k r hk
      simp [Watched, hw] at h1
      simp [ToolRes.upd, Watched, h1]
    | onRecord hh | onHeartbeat hh | listen hh | goFlush hh =>
      refine Eq.trans ?_ ih
      exact (lookedAfter_handler (by simp [ToolRes.upd, hh]) (by simp) id).trans (lookedAfter_upd (by simp) (by simp) id)
    | listened hh | returned hh | stopped hh => exact (lookedAfter_handler (by simp [hh]) (by simp) id).trans ih
    | forgotten | cancel => exact ih
    | client | flushRecord | flushHeartbeat | listenerCtx | ctrEnded | gaveUp => exact (lookedAfter_upd (by simp) (by simp) id).trans ih

/-- C110: in the tool NewWatchClient never fails: only its watch forgets a source. -/
theorem C110_watched {s : ToolRes} {evs : List TrEv} (h : ToolRes.Run reg cmd o {} evs s) (k : Nat) : TrEv.unknown k ∉ evs := by
  generalize hs0 : ({} : ToolRes) = s0 at h
  induction h with
  | nil => simp
  | @snoc s1 s2 evs1 ev hrun hc hs ih =>
    subst hs0
    intro hm
    rcases List.mem_append.1 hm with hm | hm
    · exact ih hm
    · rw [← List.mem_singleton.1 hm] at hs
      cases hs with
      | @unknown _ r hh hk hn =>
        have := C110_one_watch hrun r.source.id
        rw [hn] at this
        simp [lookedAfter, aboutToWatch, hh, hk] at this

/-- The addresses of a list of things to do. -/
def listensOf : List HOp → List String
  | [] => []
  | .listen a :: ops => a :: listensOf ops
  | _ :: ops => listensOf ops

/-- `done` is what the handler has done with the client of a source. -/
structure Done (done : List HOp) (r : SrcRes) : Prop where
  addrs : r.addrs = listensOf done
  listeners : r.addrs.length = r.client.listeners.length
  record : HOp.onRecord ∈ done → 1 ∈ r.client.recordHandlers
  heartbeat : HOp.onHeartbeat ∈ done → 1 ∈ r.client.heartbeatHandlers

/-- The handlers of the watch are registered. -/
def WatchReg (r : SrcRes) : Prop := 0 ∈ r.client.recordHandlers ∧ 0 ∈ r.client.heartbeatHandlers

/-- What the handler has done for a source, and what it is still going to do. -/
structure OpsInv (cmd : DiscCmd) (o : ToolOpts) (evs : List TrEv) (s : ToolRes) (k : Nat) (r : SrcRes) (done : List HOp) : Prop where
  isDone : Done done r
  todo : ∀ todo, (s.handler = .doing k todo ∨ ∃ l, s.handler = .listening k l todo) → done ++ todo = cmd.ops o r.source
  prefix_ : ∃ rest, done ++ rest = cmd.ops o r.source
  returned : TrEv.returned k ∈ evs → done = cmd.ops o r.source
  watch : s.handler = .making k ∨ WatchReg r

theorem listensOf_snoc (a : List HOp) (x : HOp) : listensOf (a ++ [x]) = listensOf a ++ listensOf [x] := by
  induction a with
  | nil => rfl
  | cons y a ih => cases y <;> simp [listensOf, ih]

theorem Done.mono {done : List HOp} {r r' : SrcRes} (h : Done done r) (h1 : r'.addrs = r.addrs) (h2 : r'.client.listeners.length = r.client.listeners.length)
    (h3 : ∀ x ∈ r.client.recordHandlers, x ∈ r'.client.recordHandlers) (h4 : ∀ x ∈ r.client.heartbeatHandlers, x ∈ r'.client.heartbeatHandlers) : Done done r' :=
  ⟨h1 ▸ h.addrs, by rw [h1, h2]; exact h.listeners, fun hm => h3 _ (h.record hm), fun hm => h4 _ (h.heartbeat hm)⟩

theorem inner_same {c c' : Client} {ev : ClEv} (hin : ev.inner = true) (hs : Client.Step reg c ev c') :
    c'.listeners.length = c.listeners.length ∧ c'.recordHandlers = c.recordHandlers ∧ c'.heartbeatHandlers = c.heartbeatHandlers := by
  cases hs with
  | onRecord | onHeartbeat | listen | cancel | close => cases hin
  | _ => simp [Client.at]

theorem ops_inv {s : ToolRes} {evs : List TrEv} (h : ToolRes.Run reg cmd o {} evs s) {k : Nat} {r : SrcRes} (hk : s.srcs[k]? = some r) :
    ∃ done, OpsInv cmd o evs s k r done := by
  generalize hs0 : ({} : ToolRes) = s0 at h
  induction h generalizing r with
  | nil => subst hs0; simp at hk
  | @snoc s1 s2 evs1 ev hrun hc hs ih =>
    subst hs0
    have hH := toolHandlerInv hrun
    -- the source and the handler's place in it stay as they are
    have old : ∀ {r0 : SrcRes}, s1.srcs[k]? = some r0 → r.addrs = r0.addrs → r.source = r0.source → r.client.listeners.length = r0.client.listeners.length →
        (∀ x ∈ r0.client.recordHandlers, x ∈ r.client.recordHandlers) → (∀ x ∈ r0.client.heartbeatHandlers, x ∈ r.client.heartbeatHandlers) →
        s2.handler = s1.handler → (∀ k, ev ≠ .returned k) → ∃ done, OpsInv cmd o (evs1 ++ [ev]) s2 k r done := by
      intro r0 h0 h1 h2 h3 h3a h3b h4 h5
      obtain ⟨done, i1, i2, i3, i4, i5⟩ := ih h0
      refine ⟨done, i1.mono h1 h3 h3a h3b, ?_, ?_, fun hm => ?_, ?_⟩
      · rw [h4, h2]; exact i2
      · rw [h2]; exact i3
      · rw [h2]
        rcases List.mem_append.1 hm with hm | hm
        · exact i4 hm
        · exact absurd (List.mem_singleton.1 hm).symm (h5 k)
      · rw [h4]; exact i5.imp_right fun h => ⟨h3a _ h.1, h3b _ h.2⟩
    -- the handler leaves the source or is elsewhere
    have away : s1.srcs[k]? = some r → (∀ todo, s2.handler ≠ .doing k todo) → (∀ l todo, s2.handler ≠ .listening k l todo) →
        (s1.handler = .making k → s2.handler = .making k) → (∀ k, ev ≠ .returned k) → ∃ done, OpsInv cmd o (evs1 ++ [ev]) s2 k r done := by
      intro h0 h1 h2 h3 h4
      obtain ⟨done, i1, i2, i3, i4, i5⟩ := ih h0
      refine ⟨done, i1, fun todo ht => ?_, i3, fun hm => ?_, i5.imp_left h3⟩
      · rcases ht with ht | ⟨l, ht⟩
        · exact absurd ht (h1 _)
        · exact absurd ht (h2 _ _)
      · rcases List.mem_append.1 hm with hm | hm
        · exact i4 hm
        · exact absurd (List.mem_singleton.1 hm).symm (h4 k)
    cases hs with
    | beacon | forgotten | cancel => exact old hk rfl rfl rfl (by simp) (by simp) rfl (by simp)
    | @discovered i rest hh hd =>
      rcases new_get hk with h | ⟨h, rfl⟩
      · exact away h (by simp) (by simp) (by simp [hh]) (by simp)
      · refine ⟨[], ⟨rfl, rfl, by simp, by simp⟩, by simp, ⟨_, rfl⟩, fun hm => ?_, .inl (by rw [h])⟩
        have := hH.returned k (by simpa using hm)
        omega
    | @unknown k' r' hh hk' hn =>
      exact absurd (List.mem_append_right _ (List.mem_singleton_self _)) (C110_watched (.snoc hrun hc (.unknown hh hk' hn)) k')
    | stopped hh => exact away hk (by simp) (by simp) (by simp [hh]) (by simp)
    | @returned k' hh =>
      obtain ⟨done, i1, i2, i3, i4, i5⟩ := ih hk
      refine ⟨done, i1, by simp, i3, fun hm => ?_, i5.imp_left (by simp [hh])⟩
      rcases List.mem_append.1 hm with hm | hm
      · exact i4 hm
      · simp at hm; subst hm
        simpa using i2 [] (.inl hh)
    | @listened k' l r' x todo hh hk' =>
      obtain ⟨done, i1, i2, i3, i4, i5⟩ := ih hk
      refine ⟨done, i1, fun todo' ht => ?_, i3, fun hm => i4 (by simpa using hm), i5.imp_left (by simp [hh])⟩
      simp at ht
      obtain ⟨rfl, rfl⟩ := ht
      exact i2 _ (.inr ⟨l, hh⟩)
    | @watched k' r' i hh hk' hi hl =>
      rw [upd_get] at hk
      split at hk
      · subst k'
        rw [hk'] at hk; cases hk
        obtain ⟨f1, f2, f3, f4⟩ := making_fresh hrun hh hk'
        refine ⟨[], ⟨by simp [f2, listensOf], by simp [f2, f3], by simp, by simp⟩, fun todo ht => ?_, ⟨_, rfl⟩, fun hm => ?_, .inr ⟨by simp, by simp⟩⟩
        · simp at ht
          subst ht; rfl
        · exact absurd (by simpa using hm) (hH.busy k (by rw [hh]; rfl)).2
      · rename_i hne
        exact away hk (by simp [hne]) (by simp) (by simp [hh, hne]) (by simp)
    | @onRecord k' r' todo hh hk' hl | @onHeartbeat k' r' todo hh hk' hl =>
      rw [upd_get] at hk
      split at hk
      · subst k'
        rw [hk'] at hk; cases hk
        obtain ⟨done, i1, i2, i3, i4, i5⟩ := ih hk'
        have hd := i2 _ (.inl hh)
        refine ⟨done ++ [_], ⟨?_, i1.listeners, ?_, ?_⟩, fun todo' ht => ?_, ⟨todo, by simpa using hd⟩, fun hm => ?_, ?_⟩
        · rw [listensOf_snoc]; simpa [listensOf] using i1.addrs
        · simp only [List.mem_append]
          intro hm
          first
          | exact .inr (by simp)
          | (rcases hm with hm | hm
             · exact i1.record hm
             · simp at hm)
        · simp only [List.mem_append]
          intro hm
          first
          | exact .inr (by simp)
          | (rcases hm with hm | hm
             · exact i1.heartbeat hm
             · simp at hm)
        · simp at ht
          subst ht
          simpa using hd
        · exact absurd (by simpa using hm) (hH.busy k (by rw [hh]; rfl)).2
        · rcases i5 with h | h
          · rw [hh] at h; cases h
          · exact .inr ⟨by simp [h.1], by simp [h.2]⟩
      · rename_i hne
        exact away hk (by simp [hne]) (by simp) (by simp [hh]) (by simp)
    | @goFlush k' todo hh =>
      rw [upd_get] at hk
      split at hk
      · subst k'
        obtain ⟨r0, h0, rfl⟩ := Option.map_eq_some_iff.1 hk
        obtain ⟨done, i1, i2, i3, i4, i5⟩ := ih h0
        have hd := i2 _ (.inl hh)
        refine ⟨done ++ [.goFlush], ⟨?_, i1.listeners, fun hm => i1.record (by simpa using hm), fun hm => i1.heartbeat (by simpa using hm)⟩, fun todo' ht => ?_,
          ⟨todo, by simpa using hd⟩, fun hm => ?_, ?_⟩
        · rw [listensOf_snoc]; simpa [listensOf] using i1.addrs
        · simp at ht
          subst ht
          simpa using hd
        · exact absurd (by simpa using hm) (hH.busy k (by rw [hh]; rfl)).2
        · rcases i5 with h | h
          · rw [hh] at h; cases h
          · exact .inr h
      · rename_i hne
        exact away hk (by simp [hne]) (by simp) (by simp [hh]) (by simp)
    | @listen k' r' a todo hh hk' =>
      rw [upd_get] at hk
      split at hk
      · subst k'
        rw [hk'] at hk; cases hk
        obtain ⟨done, i1, i2, i3, i4, i5⟩ := ih hk'
        have hd := i2 _ (.inl hh)
        refine ⟨done ++ [.listen a], ⟨?_, by simp [i1.listeners], fun hm => i1.record (by simpa using hm), fun hm => i1.heartbeat (by simpa using hm)⟩,
          fun todo' ht => ?_, ⟨todo, by simpa using hd⟩, fun hm => ?_, ?_⟩
        · rw [listensOf_snoc]; simp [listensOf, i1.addrs]
        · simp at ht
          obtain ⟨-, rfl⟩ := ht
          simpa using hd
        · exact absurd (by simpa using hm) (hH.busy k (by rw [hh]; rfl)).2
        · rcases i5 with h | h
          · rw [hh] at h; cases h
          · exact .inr h
      · rename_i hne
        exact away hk (by simp) (by simp [hne]) (by simp [hh]) (by simp)
    | @client k' r' ev' c' hk' hin hst =>
      rw [upd_get] at hk
      split at hk
      · subst k'
        rw [hk'] at hk; cases hk
        obtain ⟨e1, e2, e3⟩ := inner_same hin hst
        exact old hk' rfl rfl e1 (by simp [e2]) (by simp [e3]) rfl (by simp)
      · exact old hk rfl rfl rfl (by simp) (by simp) rfl (by simp)
    | _ =>
      rw [upd_get] at hk
      split at hk
      · subst k
        obtain ⟨r0, h0, rfl⟩ := Option.map_eq_some_iff.1 hk
        exact old h0 rfl rfl (by simp) (by simp +contextual) (by simp +contextual) rfl (by simp)
      · exact old hk rfl rfl rfl (by simp) (by simp) rfl (by simp)

theorem listensOf_append (a b : List HOp) : listensOf (a ++ b) = listensOf a ++ listensOf b := by
  induction a with
  | nil => rfl
  | cons x a ih => cases x <;> simp [listensOf, ih]

theorem listens_ops (o : ToolOpts) (i : Info) (cmd : DiscCmd) : listensOf (cmd.ops o i) =
    [i.address] ++ (if o.flow then [i.address ++ ".flows"] else []) ++ (if o.logs then [i.address ++ ".logs"] else [])
      ++ (if i.type = "CONTROLLER" then [i.address ++ ".heartbeats"] else []) := by
  cases cmd <;>
  · simp only [DiscCmd.ops, listenOps, listensOf_append]
    (repeat' split) <;>
      simp [listensOf, fromSourceAddress, fromSourceAddressFlows, fromSourceAddressLogs, fromSourceAddressHeartbeats]

/-- C110: when the Discovered handler has returned, the tool listens at exactly the addresses that the flags and the type of the source ask for, once at each. -/
theorem C110_listens {s : ToolRes} {evs : List TrEv} (h : ToolRes.Run reg cmd o {} evs s) {k : Nat} {r : SrcRes} (hk : s.srcs[k]? = some r)
    (hret : TrEv.returned k ∈ evs) :
    (∀ a, a ∈ r.addrs ↔ ListensAt o r.source a) ∧ r.addrs.Nodup ∧ r.addrs.length = r.client.listeners.length := by
  obtain ⟨done, h1, -, -, h2, -⟩ := ops_inv h hk
  have h4 := h1.addrs
  rw [h2 hret, listens_ops] at h4
  refine ⟨fun a => ?_, ?_, h1.listeners⟩
  · rw [h4]
    simp only [ListensAt]
    clear h1 h2 h4
    (repeat' split) <;> simp [*]
  · have : (r.addrs.map String.length).Nodup := by
      rw [h4]
      clear h1 h2 h4
      (repeat' split) <;> simp <;> decide
    exact List.Pairwise.of_map _ (fun a b h e => h (congrArg _ e)) this

/-- Whoever listens has registered before. -/
theorem listens_after {cmd : DiscCmd} {i : Info} {done rest : List HOp} (h : done ++ rest = cmd.ops o i) (hl : listensOf done ≠ []) :
    (cmd = .serve ∨ o.records = true → HOp.onRecord ∈ done) ∧ (cmd = .log ∧ o.heartbeat = true → HOp.onHeartbeat ∈ done) := by
  have key : ∀ {l1 l2 : List HOp}, l1 ++ l2 = cmd.ops o i → listensOf l1 = [] → ∃ d, done = l1 ++ d := by
    intro l1 l2 h1 h2
    rw [← h1] at h
    rcases List.append_eq_append_iff.1 h with ⟨a, rfl, h3⟩ | ⟨a, rfl, h3⟩
    · rw [listensOf_append, List.append_eq_nil_iff] at h2
      exact absurd h2.1 hl
    · exact ⟨a, rfl⟩
  cases cmd with
  | serve =>
    obtain ⟨d, rfl⟩ := key (l1 := [.onRecord]) (l2 := listenOps o i ++ [.goFlush]) (by simp [DiscCmd.ops]) rfl
    exact ⟨fun _ => by simp, by simp⟩
  | log =>
    obtain ⟨d, rfl⟩ := key (l1 := (if o.heartbeat then [.onHeartbeat] else []) ++ (if o.records then [.onRecord] else []))
      (l2 := (if o.flush then [.goFlush] else []) ++ listenOps o i) (by simp [DiscCmd.ops])
      (by (repeat' split) <;> simp [listensOf])
    exact ⟨fun h => by simp at h; simp [h], fun h => by simp [h.2]⟩

/-- C110: no listener is started before the handlers of the watch and those of the command are registered, so that no message misses them. -/
theorem C110_registered {s : ToolRes} {evs : List TrEv} (h : ToolRes.Run reg cmd o {} evs s) {k : Nat} {r : SrcRes} (hk : s.srcs[k]? = some r)
    (hl : r.client.listeners ≠ []) :
    0 ∈ r.client.recordHandlers ∧ 0 ∈ r.client.heartbeatHandlers ∧ (cmd = .serve ∨ o.records = true → 1 ∈ r.client.recordHandlers) ∧
      (cmd = .log ∧ o.heartbeat = true → 1 ∈ r.client.heartbeatHandlers) := by
  obtain ⟨done, h1, -, ⟨rest, h3⟩, -, h5⟩ := ops_inv h hk
  have h6 : listensOf done ≠ [] := by
    intro h7
    have := h1.listeners
    rw [h1.addrs, h7] at this
    exact hl (List.length_eq_zero_iff.1 this.symm)
  obtain ⟨h7, h8⟩ := listens_after h3 h6
  have h9 : WatchReg r := by
    rcases h5 with h | h
    · rename_i hrun
      rw [(making_fresh hrun h hk).2.2.1] at hl
      exact absurd rfl hl
    · exact h
  exact ⟨h9.1, h9.2, fun h => h1.record (h7 h), fun h => h1.heartbeat (h8 h)⟩

/-! ## Runs -/

/-- The sources started before, and the one the run is about. -/
def trAt (old : List SrcRes) (known : GMap String Info) (disc forg : List Info) (h : ToolHandlerPC) (x : SrcRes) : ToolRes :=
  { known := known, discovered := disc, forgotten := forg, handler := h, srcs := old ++ [x] }

theorem trAt_get {old : List SrcRes} {known : GMap String Info} {disc forg : List Info} {h : ToolHandlerPC} {x : SrcRes} :
    (trAt old known disc forg h x).srcs[old.length]? = some x := by simp [trAt]

theorem modify_end {α : Type} (f : α → α) (x : α) : ∀ l : List α, (l ++ [x]).modify l.length f = l ++ [f x]
  | [] => rfl
  | y :: l => by simp [modify_end f x l]

theorem trAt_upd {old : List SrcRes} {known : GMap String Info} {disc forg : List Info} {h : ToolHandlerPC} {x : SrcRes} (f : SrcRes → SrcRes) :
    (trAt old known disc forg h x).upd old.length f = trAt old known disc forg h (f x) := by
  simp only [trAt, ToolRes.upd, modify_end]

section
variable {old : List SrcRes} (hold : ∀ r ∈ old, r.client.crashed = false) {known : GMap String Info} {disc forg : List Info} {x : SrcRes} {s0 : ToolRes}
  {evs : List TrEv}
include hold

theorem tr_snoc {h : ToolHandlerPC} (hx : x.client.crashed = false) (r : ToolRes.Run reg cmd o s0 evs (trAt old known disc forg h x)) {ev : TrEv} {s : ToolRes}
    (hs : ToolRes.Step reg cmd o (trAt old known disc forg h x) ev s) : ToolRes.Run reg cmd o s0 (evs ++ [ev]) s := by
  refine .snoc r (fun y hy => ?_) hs
  rcases List.mem_append.1 hy with hy | hy
  · exact hold y hy
  · rw [List.mem_singleton.1 hy]; exact hx

/-- A step of the client. -/
theorem tr_client {h : ToolHandlerPC} (hx : x.client.crashed = false) (r : ToolRes.Run reg cmd o s0 evs (trAt old known disc forg h x)) {ev : ClEv} {c' : Client}
    (hin : ev.inner = true) (hs : Client.Step reg x.client ev c') :
    ToolRes.Run reg cmd o s0 (evs ++ [.client old.length ev]) (trAt old known disc forg h { x with client := c' }) := by
  have := tr_snoc hold hx r (.client trAt_get hin hs)
  rwa [trAt_upd] at this

/-- A call of `Listen`. -/
theorem tr_listen {a : String} {todo : List HOp} (hx : x.client.crashed = false) (hlk : x.client.lock = none)
    (r : ToolRes.Run reg cmd o s0 evs (trAt old known disc forg (.doing old.length (.listen a :: todo)) x)) :
    ToolRes.Run reg cmd o s0
      (evs ++ [.did old.length (.listen a), .client old.length .tau, .listened old.length x.client.listeners.length])
      (trAt old known disc forg (.doing old.length todo)
        { x with client := { x.client with wg := x.client.wg + 1, listeners := x.client.listeners ++ [{ pc := .receiving }] }, addrs := x.addrs ++ [a] }) := by
  have r1 := tr_snoc hold hx r (.listen rfl trAt_get)
  rw [trAt_upd] at r1
  have r2 := tr_client hold (h := .listening old.length x.client.listeners.length todo) (x := { x with
    client := { x.client with wg := x.client.wg + 1, listeners := x.client.listeners ++ [{}] }, addrs := x.addrs ++ [a] }) hx r1 (ev := .tau) rfl
    (.listenStart (l := x.client.listeners.length) (x := {}) (by simp) rfl hlk)
  simp only [Client.at, modify_end] at r2
  have r3 := tr_snoc hold (x := { x with
    client := { x.client with wg := x.client.wg + 1, listeners := x.client.listeners ++ [{ pc := .receiving }] }, addrs := x.addrs ++ [a] }) hx r2
    (.listened (l := x.client.listeners.length) (x := { pc := .receiving }) rfl trAt_get (by simp) (by simp))
  simpa [trAt] using r3

theorem tr_watched {i : Info} (hx : x.client.crashed = false) (hlk : x.client.lock = none) (hi : known.get? x.source.id = some i)
    (r : ToolRes.Run reg cmd o s0 evs (trAt old known disc forg (.making old.length) x)) :
    ToolRes.Run reg cmd o s0 (evs ++ [.watched old.length]) (trAt old known disc forg (.doing old.length (cmd.ops o x.source))
      { x with
        watch := .watching
        client := { x.client with heartbeatHandlers := x.client.heartbeatHandlers ++ [0], recordHandlers := x.client.recordHandlers ++ [0] } }) := by
  have r1 := tr_snoc hold hx r (.watched rfl trAt_get hi hlk)
  rw [trAt_upd] at r1
  exact r1

theorem tr_onRecord {todo : List HOp} (hx : x.client.crashed = false) (hlk : x.client.lock = none)
    (r : ToolRes.Run reg cmd o s0 evs (trAt old known disc forg (.doing old.length (.onRecord :: todo)) x)) :
    ToolRes.Run reg cmd o s0 (evs ++ [.did old.length .onRecord]) (trAt old known disc forg (.doing old.length todo)
      { x with client := { x.client with recordHandlers := x.client.recordHandlers ++ [1] } }) := by
  have r1 := tr_snoc hold hx r (.onRecord rfl trAt_get hlk)
  rw [trAt_upd] at r1
  exact r1

theorem tr_goFlush {todo : List HOp} (hx : x.client.crashed = false)
    (r : ToolRes.Run reg cmd o s0 evs (trAt old known disc forg (.doing old.length (.goFlush :: todo)) x)) :
    ToolRes.Run reg cmd o s0 (evs ++ [.did old.length .goFlush]) (trAt old known disc forg (.doing old.length todo) { x with flush := true }) := by
  have r1 := tr_snoc hold hx r (.goFlush rfl)
  rw [trAt_upd] at r1
  exact r1

theorem tr_forget {h : ToolHandlerPC} (hx : x.client.crashed = false) (hw : x.watch = .watching)
    (r : ToolRes.Run reg cmd o s0 evs (trAt old known disc forg h x)) :
    ToolRes.Run reg cmd o s0 (evs ++ [.forget old.length]) (trAt old (known.del x.source.id) disc (forg ++ (known.get? x.source.id).toList) h
      { x with watch := .forgot, client := { x.client with closers := x.client.closers ++ [.locking] } }) := by
  have r1 := tr_snoc hold hx r (.forget trAt_get hw)
  rw [trAt_upd] at r1
  exact r1

end

/-- A router. -/
def leakSource : Info := { id := "r1", version := 1, type := "ROUTER", address := "mc/sfe.r1", direct := "sfe.r1" }

/-- What is left of the router after it has been forgotten: its container. -/
def leaked : SrcRes :=
  { source := leakSource
    ctr := true
    watch := .forgot
    client := { recordHandlers := [0, 1], heartbeatHandlers := [0], doneClosed := true
                listeners := [⟨.finished, some .canceled⟩, ⟨.finished, some .canceled⟩, ⟨.finished, some .canceled⟩], closers := [.returned] }
    addrs := ["mc/sfe.r1", "mc/sfe.r1.flows", "mc/sfe.r1.logs"]
    flush := true }

/-- The router's client and what belongs to it. -/
def leakClient (wg : Nat) (ls : List Listener) (closers : List ClosePC) (lock : Option Nat) (done : Bool) : Client :=
  { lock := lock, recordHandlers := [0, 1], heartbeatHandlers := [0], doneClosed := done, wg := wg, listeners := ls, closers := closers }

def leakAt (w : WatchPart) (addrs : List String) (flush : Bool) (c : Client) : SrcRes :=
  { source := leakSource, watch := w, client := c, addrs := addrs, flush := flush }

/-- The router is discovered by `vanflow-tool serve`, and forgotten when nothing has come from it. -/
theorem leak_cycle {old : List SrcRes} (hold : ∀ r ∈ old, r.client.crashed = false) {s0 : ToolRes} {evs : List TrEv}
    (r : ToolRes.Run reg .serve {} s0 evs { srcs := old }) :
    ∃ evs', ToolRes.Run reg .serve {} s0 (evs ++ evs' ++ [.client old.length (.closeReturned 0)]) { srcs := old ++ [leaked] } ∧ TrEv.returned old.length ∈ evs' ∧
      TrEv.forgotten leakSource ∈ evs' := by
  have r1 := r.snoc hold (.beacon leakSource rfl)
  have r2 := r1.snoc hold (.discovered rfl rfl)
  have r3 := tr_watched hold (known := GMap.set [] "r1" leakSource) (disc := []) (forg := []) (x := { source := leakSource }) (i := leakSource) rfl rfl rfl r2
  have r4 := tr_onRecord hold (known := GMap.set [] "r1" leakSource) (disc := []) (forg := []) (todo := [.listen "mc/sfe.r1", .listen "mc/sfe.r1.flows", .listen "mc/sfe.r1.logs", .goFlush]) rfl rfl r3
  have r5 := tr_listen hold (known := GMap.set [] "r1" leakSource) (disc := []) (forg := []) (todo := [.listen "mc/sfe.r1.flows", .listen "mc/sfe.r1.logs", .goFlush]) (x := (leakAt .watching [] false (leakClient 0 [] [] none false))) rfl rfl r4
  have r6 := tr_listen hold (known := GMap.set [] "r1" leakSource) (disc := []) (forg := []) (todo := [.listen "mc/sfe.r1.logs", .goFlush]) (x := (leakAt .watching ["mc/sfe.r1"] false (leakClient 1 [⟨.receiving, none⟩] [] none false))) rfl rfl r5
  have r7 := tr_listen hold (known := GMap.set [] "r1" leakSource) (disc := []) (forg := []) (todo := [.goFlush]) (x := (leakAt .watching ["mc/sfe.r1", "mc/sfe.r1.flows"] false (leakClient 2 [⟨.receiving, none⟩, ⟨.receiving, none⟩] [] none false))) rfl rfl r6
  have r8 := tr_goFlush hold (known := GMap.set [] "r1" leakSource) (disc := []) (forg := []) (todo := []) (x := (leakAt .watching ["mc/sfe.r1", "mc/sfe.r1.flows", "mc/sfe.r1.logs"] false (leakClient 3 [⟨.receiving, none⟩, ⟨.receiving, none⟩, ⟨.receiving, none⟩] [] none false))) rfl r7
  have r9 := tr_snoc hold (known := GMap.set [] "r1" leakSource) (disc := []) (forg := []) (x := (leakAt .watching ["mc/sfe.r1", "mc/sfe.r1.flows", "mc/sfe.r1.logs"] true (leakClient 3 [⟨.receiving, none⟩, ⟨.receiving, none⟩, ⟨.receiving, none⟩] [] none false))) rfl r8 (.returned rfl)
  have r10 := tr_forget hold (known := GMap.set [] "r1" leakSource) (disc := []) (forg := []) (h := .idle) (x := (leakAt .watching ["mc/sfe.r1", "mc/sfe.r1.flows", "mc/sfe.r1.logs"] true (leakClient 3 [⟨.receiving, none⟩, ⟨.receiving, none⟩, ⟨.receiving, none⟩] [] none false))) rfl rfl r9
  have r11 := tr_snoc hold (known := []) (disc := []) (forg := [leakSource]) (h := .idle) (x := (leakAt .forgot ["mc/sfe.r1", "mc/sfe.r1.flows", "mc/sfe.r1.logs"] true (leakClient 3 [⟨.receiving, none⟩, ⟨.receiving, none⟩, ⟨.receiving, none⟩] [.locking] none false))) rfl r10 (.forgotten (i := leakSource) (rest := []) rfl rfl)
  have r12 := tr_client hold (known := []) (disc := []) (forg := []) (h := .idle) (x := (leakAt .forgot ["mc/sfe.r1", "mc/sfe.r1.flows", "mc/sfe.r1.logs"] true (leakClient 3 [⟨.receiving, none⟩, ⟨.receiving, none⟩, ⟨.receiving, none⟩] [.locking] none false))) rfl r11 (ev := .tau) rfl (.closeLock (c := 0) rfl rfl rfl)
  have r13 := tr_client hold (known := []) (disc := []) (forg := []) (h := .idle) (x := (leakAt .forgot ["mc/sfe.r1", "mc/sfe.r1.flows", "mc/sfe.r1.logs"] true (leakClient 3 [⟨.receiving, some .canceled⟩, ⟨.receiving, some .canceled⟩, ⟨.receiving, some .canceled⟩] [.waiting] (some 0) true))) rfl r12 (ev := .failed 0 .canceled) rfl
    (.nextEnded .canceled rfl rfl rfl)
  have r14 := tr_client hold (known := []) (disc := []) (forg := []) (h := .idle) (x := (leakAt .forgot ["mc/sfe.r1", "mc/sfe.r1.flows", "mc/sfe.r1.logs"] true (leakClient 2 [⟨.finished, some .canceled⟩, ⟨.receiving, some .canceled⟩, ⟨.receiving, some .canceled⟩] [.waiting] (some 0) true))) rfl r13 (ev := .failed 1 .canceled) rfl
    (.nextEnded .canceled rfl rfl rfl)
  have r15 := tr_client hold (known := []) (disc := []) (forg := []) (h := .idle) (x := (leakAt .forgot ["mc/sfe.r1", "mc/sfe.r1.flows", "mc/sfe.r1.logs"] true (leakClient 1 [⟨.finished, some .canceled⟩, ⟨.finished, some .canceled⟩, ⟨.receiving, some .canceled⟩] [.waiting] (some 0) true))) rfl r14 (ev := .failed 2 .canceled) rfl
    (.nextEnded .canceled rfl rfl rfl)
  simp only [List.append_assoc] at r15
  have r16 := tr_client hold (known := []) (disc := []) (forg := []) (h := .idle) (x := (leakAt .forgot ["mc/sfe.r1", "mc/sfe.r1.flows", "mc/sfe.r1.logs"] true (leakClient 0 [⟨.finished, some .canceled⟩, ⟨.finished, some .canceled⟩, ⟨.finished, some .canceled⟩] [.waiting] (some 0) true))) rfl r15 (ev := .closeReturned 0) rfl (.closeReturn rfl rfl)
  exact ⟨_, r16, by simp, by simp⟩

/-- C110: after any number of discoveries and forgettings, with no source known, as many containers are running; everything else has been released. -/
theorem C110_leak (n : Nat) : ∃ evs s, ToolRes.Run reg .serve {} {} evs s ∧ s.ctx = none ∧ s.known = [] ∧ s.handler = .idle ∧ s.discovered = [] ∧ s.forgotten = [] ∧
    s.srcs.length = n ∧ containers s = n ∧ ∀ r ∈ s.srcs, r.client.closers[0]? = some .returned ∧ ListenersEnded r := by
  have key : ∃ evs, ToolRes.Run reg .serve {} {} evs { srcs := List.replicate n leaked } := by
    induction n with
    | zero => exact ⟨[], .nil⟩
    | succ n ih =>
      obtain ⟨evs, h⟩ := ih
      obtain ⟨evs', h', -⟩ := leak_cycle (by intro r hr; rw [(List.mem_replicate.1 hr).2]; rfl) h
      exact ⟨_, by rwa [List.replicate_succ']⟩
  obtain ⟨evs, h⟩ := key
  refine ⟨evs, _, h, rfl, rfl, rfl, rfl, rfl, by simp, ?_, ?_⟩
  · simp [containers, List.countP_replicate, leaked]
  · intro r hr
    rw [(List.mem_replicate.1 hr).2]
    refine ⟨rfl, ?_⟩
    intro x hx
    simp [leaked] at hx
    rw [hx]

/-- The hypotheses of `C110_listeners_partial` and of `C110_listens` are met by the run of one router. -/
example : ∃ evs pre s r, ToolRes.Run vanRegistry .serve {} {} evs s ∧ evs = pre ++ .client 0 (.closeReturned 0) :: [] ∧ TrEv.returned 0 ∈ pre ∧ s.srcs[0]? = some r ∧
    r.addrs = ["mc/sfe.r1", "mc/sfe.r1.flows", "mc/sfe.r1.logs"] ∧ r.ctr = true := by
  obtain ⟨evs', h, h1, -⟩ := leak_cycle (reg := vanRegistry) (old := []) (by simp) .nil
  exact ⟨_, _, _, leaked, h, rfl, by simpa using h1, rfl, rfl, rfl⟩

/-- A run that meets the hypotheses of `C110_late`: the handler is delayed between starting the watch and `Listen` for as long as the watch waits before it forgets. -/
theorem C110_late_example : ∃ evs s r x, ToolRes.Run reg .serve {} {} evs s ∧ s.ctx = none ∧ s.known = [] ∧ s.srcs[0]? = some r ∧
    r.client.closers[0]? = some .returned ∧ r.client.listeners[0]? = some x ∧ x.pc = .receiving := by
  have hold : ∀ r ∈ ([] : List SrcRes), r.client.crashed = false := by simp
  have r1 := (ToolRes.Run.nil (reg := reg) (cmd := .serve) (o := {}) (s := {})).snoc hold (.beacon leakSource rfl)
  have r2 := r1.snoc hold (.discovered rfl rfl)
  have r3 := tr_watched hold (known := GMap.set [] "r1" leakSource) (disc := []) (forg := []) (x := { source := leakSource }) (i := leakSource) rfl rfl rfl r2
  have r4 := tr_forget hold rfl rfl r3
  have r5 := tr_client hold (known := []) (disc := []) (forg := [leakSource])
    (x := { source := leakSource, watch := .forgot, client := { recordHandlers := [0], heartbeatHandlers := [0], closers := [.locking] } }) rfl r4 (ev := .tau) rfl
    (.closeLock (c := 0) rfl rfl rfl)
  have r6 := tr_client hold (known := []) (disc := []) (forg := [leakSource])
    (x := { source := leakSource, watch := .forgot
            client := { recordHandlers := [0], heartbeatHandlers := [0], closers := [.waiting], lock := some 0, doneClosed := true } }) rfl r5
    (ev := .closeReturned 0) rfl (.closeReturn rfl rfl)
  have r7 := tr_onRecord hold (known := []) (disc := []) (forg := [leakSource])
    (todo := [.listen "mc/sfe.r1", .listen "mc/sfe.r1.flows", .listen "mc/sfe.r1.logs", .goFlush])
    (x := { source := leakSource, watch := .forgot
            client := { recordHandlers := [0], heartbeatHandlers := [0], closers := [.returned], doneClosed := true } }) rfl rfl r6
  have r8 := tr_listen hold (known := []) (disc := []) (forg := [leakSource]) (a := "mc/sfe.r1")
    (todo := [.listen "mc/sfe.r1.flows", .listen "mc/sfe.r1.logs", .goFlush])
    (x := { source := leakSource, watch := .forgot
            client := { recordHandlers := [0, 1], heartbeatHandlers := [0], closers := [.returned], doneClosed := true } }) rfl rfl r7
  exact ⟨_, _, _, _, r8, rfl, rfl, trAt_get, rfl, rfl, rfl⟩

/-- C110: when the tool's context has ended, every container can end, and so can every watch. -/
theorem C110_shutdown {s : ToolRes} (hx : s.ctx.isSome = true) {k : Nat} {r : SrcRes} (hk : s.srcs[k]? = some r) :
    (r.ctr = true → ∃ s', ToolRes.Step reg cmd o s (.ctrEnded k) s') ∧ (r.watch = .watching → ∃ s', ToolRes.Step reg cmd o s (.watchEnded k) s') :=
  ⟨fun h => ⟨_, .ctrEnded hk h hx⟩, fun h => ⟨_, .watchEnded hk h hx⟩⟩

end Verif.Props
