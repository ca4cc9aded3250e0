import Verif.Spec.Announce
import Verif.Props.Discovery
import Verif.Props.Keepalive
import Verif.Props.FirstFlush
import Verif.Props.Messages

/-!
# C109: a running source is discovered
-/
namespace Verif.Props
open Verif Verif.Model Verif.Spec Verif.Proofs

theorem ann_mock {c : AnnCfg} {s s' : Ann} {evs : AnnEv} (h : Ann.Run c s evs s') : Mock.Run s.mock evs.n s'.mock := by
  induction h with
  | nil => exact .nil
  | snoc _ hs ih =>
    cases hs with
    | announce _ _ _ h | announced _ _ _ _ h | post _ h | router _ h | next _ _ h => exact ih.snoc h
    | _ => simpa using ih

theorem ann_disc {c : AnnCfg} {s s' : Ann} {evs : AnnEv} (h : Ann.Run c s evs s') : Disc.Run s.disc evs.d s'.disc := by
  induction h with
  | nil => exact .nil
  | snoc _ hs ih =>
    cases hs with
    | observe _ _ _ _ _ h | disc _ _ h => exact ih.snoc h
    | _ => simpa using ih

theorem ann_trans {c : AnnCfg} {s1 s2 s3 : Ann} {e1 e2 : AnnEv} (h1 : Ann.Run c s1 e1 s2) (h2 : Ann.Run c s2 e2 s3) :
    Ann.Run c s1 { k := e1.k ++ e2.k, n := e1.n ++ e2.n, d := e1.d ++ e2.d } s3 := by
  induction h2 with
  | nil => simpa using h1
  | snoc _ hs ih => simpa [List.append_assoc] using ih.snoc hs

/-- The receiver is open while `Run` has not returned. -/
theorem ann_open {c : AnnCfg} {s s' : Ann} {evs : AnnEv} (h : Ann.Run c s evs s') (hc : MockEv.closeReceiver c.rcv ∈ evs.n ∨ s.run = .returned) : s'.run = .returned := by
  induction h with
  | nil => rcases hc with h | h; cases h; exact h
  | snoc _ hs ih =>
    have ih' : ∀ {l : List MockEv}, (MockEv.closeReceiver c.rcv ∉ l) → (MockEv.closeReceiver c.rcv ∈ _ ++ l ∨ _ = DiscRunPC.returned) → _ := fun hn h => ih (by
      rcases h with h | h
      · exact .inl ((List.mem_append.1 h).resolve_right hn)
      · exact .inr h)
    cases hs with
    | announce | announced | post => exact ih' (by simp) hc
    | router hf =>
      rcases hc with h | h
      · rcases List.mem_append.1 h with h | h
        · exact ih (.inl h)
        · rw [← List.mem_singleton.1 h] at hf
          exact hf rfl
      · exact ih (.inr h)
    | next _ hp => rw [ih' (by simp) hc] at hp; cases hp
    | return_ => rfl
    | skip _ hp | observe _ _ hp | observed _ hp => rw [ih' (by simp) hc] at hp; cases hp
    | _ => exact ih' (by simp) hc

/-- The messages stay. -/
theorem ann_msgs {c : AnnCfg} {s s' : Ann} {ev : AnnEv} (h : Ann.Step c s ev s') {m : Nat} {msg : Msg} (hm : s.msgs[m]? = some msg) : s'.msgs[m]? = some msg := by
  have : ∀ x, (s.msgs ++ [x])[m]? = some msg := fun x => by
    rw [List.getElem?_append_left (List.getElem?_eq_some_iff.1 hm).1]
    exact hm
  cases h with
  | announce | post => exact this _
  | _ => exact hm

theorem begin_beacon {cfg : KaConfig} {snd : Callee} {s s' : Ka} {k : KaKind} {a : String} {msg : Msg} (h : Ka.Step cfg snd s (.begin_ k a msg) s') (hk : k ≠ .heartbeat) :
    msg = cfg.beacon.encode := by
  cases h with
  | beginInit | beginBeacon => rfl
  | beginHeartbeat => exact absurd rfl hk

/-- A Send of a beacon that ended without an error is a Send of the router that did. -/
theorem ann_sent {c : AnnCfg} {s s' : Ann} {evs : AnnEv} (h : Ann.Run c s evs s') (h0 : s.sending = none) :
    (∀ o, s'.sending = some o → ∃ m, MockEv.call o c.snd beaconAddress m ∈ evs.n ∧ s'.msgs[m]? = some c.ka.beacon.encode) ∧
    (∀ k, k ≠ .heartbeat → KaEv.end_ k .ok ∈ evs.k →
      ∃ o m, MockEv.call o c.snd beaconAddress m ∈ evs.n ∧ s'.msgs[m]? = some c.ka.beacon.encode ∧ MockEv.ret o none ∈ evs.n) := by
  induction h with
  | nil => exact ⟨fun o h => (by rw [h0] at h; cases h), fun k _ h => (by cases h)⟩
  | @snoc s1 s2 evs ev _ hs ih =>
    have keep := fun {m : Nat} {msg : Msg} => ann_msgs (m := m) (msg := msg) hs
    have left : s2.sending = s1.sending → ∀ o, s2.sending = some o → ∃ m, MockEv.call o c.snd beaconAddress m ∈ evs.n ++ ev.n ∧ s2.msgs[m]? = some c.ka.beacon.encode := by
      intro e o ho
      rw [e] at ho
      obtain ⟨m, h1, h2⟩ := ih.1 o ho
      exact ⟨m, List.mem_append_left _ h1, keep h2⟩
    have right : (∀ k, k ≠ .heartbeat → KaEv.end_ k .ok ∉ ev.k) → ∀ k, k ≠ .heartbeat → KaEv.end_ k .ok ∈ evs.k ++ ev.k →
        ∃ o m, MockEv.call o c.snd beaconAddress m ∈ evs.n ++ ev.n ∧ s2.msgs[m]? = some c.ka.beacon.encode ∧ MockEv.ret o none ∈ evs.n ++ ev.n := by
      intro hn k hk h
      obtain ⟨o, m, h1, h2, h3⟩ := ih.2 k hk ((List.mem_append.1 h).resolve_right (hn k hk))
      exact ⟨o, m, List.mem_append_left _ h1, keep h2, List.mem_append_left _ h3⟩
    cases hs with
    | announce h1 h2 h3 h4 =>
      refine ⟨?_, right (by simp)⟩
      intro o' ho
      obtain rfl := Option.some.inj ho
      exact ⟨_, List.mem_append_right _ (List.mem_singleton.2 rfl), by simp [begin_beacon h3 h2]⟩
    | @announced o k' r e _ _ h1 h2 h3 h4 h5 =>
      refine ⟨fun o' ho => by (cases ho), ?_⟩
      intro k hk h
      rcases List.mem_append.1 h with h | h
      · obtain ⟨o, m, g1, g2, g3⟩ := ih.2 k hk h
        exact ⟨o, m, List.mem_append_left _ g1, g2, List.mem_append_left _ g3⟩
      · have hr : r = .ok := by have := List.mem_singleton.1 h; injection this with _ e; exact e.symm
        obtain rfl := h3.1 hr
        obtain ⟨m, g1, g2⟩ := ih.1 _ h1
        exact ⟨_, m, List.mem_append_left _ g1, g2, List.mem_append_right _ (List.mem_singleton.2 rfl)⟩
    | ka ha =>
      refine ⟨left rfl, right ?_⟩
      intro k hk h
      rw [← List.mem_singleton.1 h] at ha
      exact hk ha
    | _ => exact ⟨left rfl, right (by simp)⟩

theorem call_msg {n : List MockEv} {s0 s : Mock} (h : Mock.Run s0 n s) {o i m : Nat} {a : String} (hc : MockEv.call o i a m ∈ n) :
    s0.ops[o]? = none ∧ ∃ op, s.ops[o]? = some op ∧ op.addr = a ∧ op.msg = m := by
  have grow : ∀ {s : Mock} {n : List MockEv}, Mock.Run s0 n s → ∀ {op : MSend}, s0.ops[o]? = some op → ∃ op', s.ops[o]? = some op' := by
    intro s n h op h0
    induction h with
    | nil => exact ⟨_, h0⟩
    | snoc _ hs ih => obtain ⟨op1, h1⟩ := ih; obtain ⟨op', h3, _⟩ := (ops_step hs).keep o op1 h1; exact ⟨op', h3⟩
  induction h with
  | nil => cases hc
  | @snoc s1 s2 evs ev hr hs ih =>
    rcases List.mem_append.1 hc with hc | hc
    · obtain ⟨h0, op, h1, h2, h3⟩ := ih hc
      obtain ⟨op', g1, g2, g3⟩ := (ops_step hs).keep o op h1
      exact ⟨h0, op', g1, g2.trans h2, g3.trans h3⟩
    · have hc := List.mem_singleton.1 hc
      subst hc
      cases hs with
      | call m ctx hx =>
        refine ⟨?_, _, by simp; rfl, rfl, rfl⟩
        cases h0 : s0.ops[s1.ops.length]? with
        | none => rfl
        | some op =>
          obtain ⟨op', h⟩ := grow hr h0
          simp at h

/-- What happens to goroutine 1 while it waits for the lock. -/
theorem disc_wanting {s s' : Disc} {ev : DiscEv} (h : Disc.Step s ev s') {op : DiscOp} (hw : s.pcs 1 = .wanting op) : s'.pcs 1 = .wanting op ∨ ev = .effect 1 op := by
  cases h with
  | @call t op' h1 =>
    left
    show (if 1 = t then _ else s.pcs 1) = _
    split
    · rename_i e; subst e; rw [hw] at h1; cases h1
    · exact hw
  | @effect t op' h1 =>
    by_cases e : t = 1
    · subst e; rw [hw] at h1; cases h1; exact .inr rfl
    · left
      show (if 1 = t then _ else s.pcs 1) = _
      rw [if_neg (Ne.symm e)]; exact hw
  | @effectSend t op' n h1 =>
    by_cases e : t = 1
    · subst e; rw [hw] at h1; cases h1; exact .inr rfl
    · left
      show (if 1 = t then _ else s.pcs 1) = _
      rw [if_neg (Ne.symm e)]; exact hw
  | @send t n h1 =>
    left
    show (if 1 = t then _ else (s.push n).pcs 1) = _
    split
    · rename_i e; subst e; rw [hw] at h1; cases h1
    · cases n <;> exact hw
  | _ => exact .inl hw

/-- Every message that `Next` has handed over and that is a beacon has been observed, but for the one in hand. -/
theorem ann_handled {c : AnnCfg} {s s' : Ann} {evs : AnnEv} (h : Ann.Run c s evs s') (hcr : s'.crashed = false) {m : Nat} (hm : MockEv.recv c.rcv m ∈ evs.n) :
    s'.run = .holding m ∨ ∃ msg, s'.msgs[m]? = some msg ∧ ∀ b, discReceive msg = .ok (some b) →
      (s'.run = .observing ∧ ∃ now, s'.disc.pcs 1 = .wanting (.observe b now)) ∨ ∃ now, DiscEv.effect 1 (.observe b now) ∈ evs.d := by
  induction h with
  | nil => cases hm
  | @snoc s1 s2 evs ev _ hs ih =>
    have hcr1 : s1.crashed = false := by cases hs <;> first | exact hcr | cases hcr
    have keep := fun {m : Nat} {msg : Msg} => ann_msgs (m := m) (msg := msg) hs
    have same : MockEv.recv c.rcv m ∉ ev.n → s2.run = s1.run → s2.disc = s1.disc → s2.run = .holding m ∨ ∃ msg, s2.msgs[m]? = some msg ∧ ∀ b, discReceive msg = .ok (some b) →
        (s2.run = .observing ∧ ∃ now, s2.disc.pcs 1 = .wanting (.observe b now)) ∨ ∃ now, DiscEv.effect 1 (.observe b now) ∈ evs.d ++ ev.d := by
      intro hn e1 e2
      rw [e1, e2]
      rcases ih hcr1 ((List.mem_append.1 hm).resolve_right hn) with h | ⟨msg, h1, h2⟩
      · exact .inl h
      · refine .inr ⟨msg, keep h1, fun b hb => ?_⟩
        rcases h2 b hb with h | ⟨now, h⟩
        · exact .inl h
        · exact .inr ⟨now, List.mem_append_left _ h⟩
    have moved : MockEv.recv c.rcv m ∉ ev.n → s1.run = .receiving → ∃ msg, s2.msgs[m]? = some msg ∧ ∀ b, discReceive msg = .ok (some b) → ∃ now, DiscEv.effect 1 (.observe b now) ∈ evs.d ++ ev.d := by
      intro hn hp
      rcases ih hcr1 ((List.mem_append.1 hm).resolve_right hn) with h | ⟨msg, h1, h2⟩
      · rw [hp] at h; cases h
      · refine ⟨msg, keep h1, fun b hb => ?_⟩
        rcases h2 b hb with ⟨h, _⟩ | ⟨now, h⟩
        · rw [hp] at h; cases h
        · exact ⟨now, List.mem_append_left _ h⟩
    cases hs with
    | announce | announced | ka | post => exact same (by simp) rfl rfl
    | router hf =>
      refine same ?_ rfl rfl
      intro h
      rw [← List.mem_singleton.1 h] at hf
      exact hf rfl
    | @next m' _ _ hp hr =>
      by_cases e : m' = m
      · subst e; exact .inl rfl
      · obtain ⟨msg, h1, h2⟩ := moved (by simp [Ne.symm e]) hp
        exact .inr ⟨msg, h1, fun b hb => .inr (h2 b hb)⟩
    | return_ _ hp =>
      obtain ⟨msg, h1, h2⟩ := moved (by simp) hp
      exact .inr ⟨msg, h1, fun b hb => .inr (h2 b hb)⟩
    | @skip m' msg' _ hp hm' hd =>
      rcases ih hcr1 ((List.mem_append.1 hm).resolve_right (by simp)) with h | ⟨msg, h1, h2⟩
      · rw [hp] at h
        cases h
        exact .inr ⟨msg', hm', fun b hb => by rw [hd] at hb; cases hb⟩
      · refine .inr ⟨msg, h1, fun b hb => ?_⟩
        rcases h2 b hb with ⟨h, _⟩ | ⟨now, h⟩
        · rw [hp] at h; cases h
        · exact .inr ⟨now, List.mem_append_left _ h⟩
    | crash => cases hcr
    | @observe m' msg' b' disc now _ hp hm' hd hst =>
      rcases ih hcr1 ((List.mem_append.1 hm).resolve_right (by simp)) with h | ⟨msg, h1, h2⟩
      · rw [hp] at h
        cases h
        refine .inr ⟨msg', hm', fun b hb => ?_⟩
        rw [hd] at hb
        cases hb
        refine .inl ⟨rfl, now, ?_⟩
        cases hst
        simp [Disc.at]
      · refine .inr ⟨msg, h1, fun b hb => ?_⟩
        rcases h2 b hb with ⟨h, _⟩ | ⟨now, h⟩
        · rw [hp] at h; cases h
        · exact .inr ⟨now, List.mem_append_left _ h⟩
    | observed _ hp ho =>
      rcases ih hcr1 ((List.mem_append.1 hm).resolve_right (by simp)) with h | ⟨msg, h1, h2⟩
      · rw [hp] at h; cases h
      · refine .inr ⟨msg, h1, fun b hb => ?_⟩
        rcases h2 b hb with ⟨_, now, h⟩ | ⟨now, h⟩
        · rw [ho] at h; cases h
        · exact .inr ⟨now, List.mem_append_left _ h⟩
    | disc _ ha hst =>
      rcases ih hcr1 ((List.mem_append.1 hm).resolve_right (by simp)) with h | ⟨msg, h1, h2⟩
      · exact .inl h
      · refine .inr ⟨msg, h1, fun b hb => ?_⟩
        rcases h2 b hb with ⟨h, now, hw⟩ | ⟨now, h⟩
        · rcases disc_wanting hst hw with hw | rfl
          · exact .inl ⟨h, now, hw⟩
          · exact .inr ⟨now, List.mem_append_right _ (List.mem_singleton.2 rfl)⟩
        · exact .inr ⟨now, List.mem_append_left _ h⟩

theorem toUint32_mod (v : Int) : ((toUint32 v).toNat : Int) = v % 4294967296 := by
  have h1 := Int.emod_nonneg v (show (4294967296 : Int) ≠ 0 by decide)
  have h2 := Int.emod_lt_of_pos v (show (0 : Int) < 4294967296 by decide)
  unfold toUint32
  rw [UInt32.toNat_ofNat']
  omega

/-- `Run` takes the beacon of a manager for what it is. -/
theorem receive_beacon (cfg : KaConfig) : ∃ b, discReceive cfg.beacon.encode = .ok (some b) ∧ BeaconData cfg.source b :=
  ⟨_, rfl, rfl, rfl, rfl, rfl, toUint32_mod _⟩

/-- **C109 (heard).** The discovery is subscribed, and after that a Send of a beacon begins and ends without an error.  Once the Sends to the address of the beacons have returned, the
receiver's channel is empty and `Run` waits for the next message, the discovery has observed a beacon with the data of the source since. -/
theorem C109_observed {c : AnnCfg} {t : Int} {s1 s2 : Ann} {evs1 evs2 : AnnEv} (hr1 : Ann.Run c (annStart t) evs1 s1) (hr2 : Ann.Run c s1 evs2 s2)
    (hnew : MockEv.newReceiver c.rcv beaconAddress ∈ evs1.n) (hsub : MockEv.subscribed c.rcv ∈ evs1.n) (hidle : s1.sending = none) {k : KaKind} (hk : k ≠ .heartbeat)
    (hend : KaEv.end_ k .ok ∈ evs2.k)
    (hret : ∀ o m, MockEv.accepted o beaconAddress m ∈ evs1.n ++ evs2.n → ∃ r, MockEv.ret o r ∈ evs1.n ++ evs2.n)
    (hchan : ∀ x, s2.mock.rcvs[c.rcv]? = some x → x.chan = []) (hpc : s2.run = .receiving) (hcr : s2.crashed = false) :
    ∃ b now, DiscEv.effect 1 (.observe b now) ∈ evs2.d ∧ BeaconData c.ka.source b := by
  obtain ⟨o, m, h1, h2, h3⟩ := (ann_sent hr2 hidle).2 k hk hend
  have m1 : Mock.Run {} evs1.n s1.mock := ann_mock hr1
  have m2 := mock_trans m1 (ann_mock hr2)
  have hopen : MockEv.closeReceiver c.rcv ∉ evs1.n ++ evs2.n := fun h => by
    rw [ann_open (ann_trans hr1 hr2) (.inl h)] at hpc; cases hpc
  have hall : received c.rcv (evs1.n ++ evs2.n) = sentAfter c.rcv beaconAddress (evs1.n ++ evs2.n) := by
    rcases C62_complete m2 (List.mem_append_left _ hnew) (List.mem_append_left _ hsub) hopen with h | ⟨m', s', _, h⟩ | ⟨o', m', _, h, h'⟩
    · exact h
    · cases h with | recv hx _ h => rw [hchan _ hx] at h; cases h
    · obtain ⟨r, h⟩ := hret o' m' h
      exact absurd h (h' r)
  have hacc : MockEv.accepted o beaconAddress m ∈ evs2.n := by
    have hone := (C62_sent m2 o).2.2.1 (List.mem_append_right _ h3)
    have : 0 < (evs1.n ++ evs2.n).countP (isAccepted o) := by omega
    obtain ⟨e, he, hacc⟩ := List.countP_pos_iff.1 this
    cases e with
    | accepted o' x m' =>
      have : o' = o := by simpa [isAccepted] using hacc
      subst this
      obtain ⟨op, q1, q2, q3, _⟩ := (callInv_run m2).acc _ _ _ he
      obtain ⟨hf, op', q4, q5, q6⟩ := call_msg (ann_mock hr2) h1
      rw [q1] at q4
      obtain rfl := Option.some.inj q4
      rw [← q2, ← q3, q5, q6] at he
      rcases List.mem_append.1 he with he | he
      · obtain ⟨op, q7, _⟩ := (callInv_run m1).acc _ _ _ he
        rw [hf] at q7; cases q7
      · exact he
    | _ => cases hacc
  rw [received_append, sentAfter_append hsub] at hall
  obtain ⟨t, ht⟩ := C62_order m1 hnew
  rw [← ht, List.append_assoc] at hall
  have hrec := List.append_cancel_left hall
  have hne : m ∈ received c.rcv evs2.n := by rw [hrec]; exact List.mem_append_right _ (mem_sentTo hacc)
  obtain ⟨b, hb, hd⟩ := receive_beacon c.ka
  rcases ann_handled hr2 hcr (received_mem hne) with h | ⟨msg, g1, g2⟩
  · rw [hpc] at h; cases h
  · rw [h2] at g1
    obtain rfl := Option.some.inj g1
    rcases g2 b hb with ⟨h, _⟩ | ⟨now, h⟩
    · rw [hpc] at h; cases h
    · exact ⟨b, now, h, hd⟩

/-- What is said of a source comes from a beacon or from `Add`. -/
def Told (ops : List DiscOp) (i : Info) : Prop :=
  ∃ τ, (∃ b now, DiscOp.observe b now ∈ ops ∧ i = { b.toInfo now with lastSeen := τ }) ∨ ∃ i0, DiscOp.add i0 ∈ ops ∧ i = { i0 with lastSeen := τ }

theorem Told.mono {ops ops' : List DiscOp} {i : Info} (h : Told ops i) (hs : ∀ op ∈ ops, op ∈ ops') : Told ops' i := by
  obtain ⟨τ, ⟨b, now, h1, h2⟩ | ⟨i0, h1, h2⟩⟩ := h
  · exact ⟨τ, .inl ⟨b, now, hs _ h1, h2⟩⟩
  · exact ⟨τ, .inr ⟨i0, hs _ h1, h2⟩⟩

theorem Told.seen {ops : List DiscOp} {i : Info} (h : Told ops i) (t : Int) : Told ops { i with lastSeen := t } := by
  obtain ⟨τ, ⟨b, now, h1, rfl⟩ | ⟨i0, h1, rfl⟩⟩ := h
  · exact ⟨t, .inl ⟨b, now, h1, rfl⟩⟩
  · exact ⟨t, .inr ⟨i0, h1, rfl⟩⟩

/-- A method that takes effect writes and sends what it was told. -/
theorem effect_told {m : GMap String Info} {ops : List DiscOp} (op : DiscOp) (hop : op ∈ ops) (hm : ∀ k i, m.get? k = some i → Told ops i ∧ i.id = k) :
    (∀ k i, (op.effect m).1.get? k = some i → Told ops i ∧ i.id = k) ∧ ∀ i, (op.effect m).2 = some (.discovered i) → Told ops i := by
  have set : ∀ {k0 : String} {i0 : Info}, Told ops i0 → i0.id = k0 → ∀ k i, (m.set k0 i0).get? k = some i → Told ops i ∧ i.id = k := by
    intro k0 i0 h1 h2 k i h
    rw [GMap.get?_set] at h
    split at h
    · rename_i e; subst e; cases h; exact ⟨h1, h2⟩
    · exact hm k i h
  cases op with
  | observe b now =>
    have hb : Told ops (b.toInfo now) := ⟨now, .inl ⟨b, now, hop, rfl⟩⟩
    simp only [DiscOp.effect]
    split
    · rename_i st hst
      exact ⟨set ((hm _ _ hst).1.seen now) (hm _ _ hst).2, by simp⟩
    · exact ⟨set hb rfl, fun i h => by cases h; exact hb⟩
  | add info =>
    have hb : Told ops info := ⟨info.lastSeen, .inr ⟨info, hop, rfl⟩⟩
    simp only [DiscOp.effect]
    split
    · exact ⟨hm, by simp⟩
    · exact ⟨set hb rfl, fun i h => by cases h; exact hb⟩
  | forget id =>
    simp only [DiscOp.effect]
    have del : ∀ k i, (m.del id).get? k = some i → Told ops i ∧ i.id = k := by
      intro k i h
      rw [GMap.get?_del] at h
      split at h
      · cases h
      · exact hm k i h
    split <;> exact ⟨del, by simp⟩
  | lastSeen id t =>
    simp only [DiscOp.effect]
    split
    · exact ⟨hm, by simp⟩
    · rename_i st hst
      split
      · exact ⟨set ((hm _ _ hst).1.seen t) (hm _ _ hst).2, by simp⟩
      · exact ⟨hm, by simp⟩
  | get _ | list => exact ⟨hm, by simp [DiscOp.effect]⟩

structure ToldInv (ops : List DiscOp) (evs : List DiscEv) (s : Disc) : Prop where
  known : ∀ k i, s.state.get? k = some i → Told ops i ∧ i.id = k
  sending : ∀ t i, s.pcs t = .sending (.discovered i) → Told ops i
  sent : ∀ i, DiscEv.sent (.discovered i) ∈ evs → Told ops i

theorem told_run {s : Disc} {evs : List DiscEv} (h : Disc.Run {} evs s) : ToldInv (effects evs) evs s := by
  generalize hs0 : ({} : Disc) = s0 at h
  induction h with
  | nil => subst hs0; exact ⟨by simp, by simp, by simp⟩
  | @snoc s s' evs ev _ hs ih =>
    have up : ∀ {i : Info}, Told (effects evs) i → Told (effects (evs ++ [ev])) i := fun h => h.mono (fun op ho => by rw [effects_append]; exact List.mem_append_left _ ho)
    have hk : ∀ k i, s.state.get? k = some i → Told (effects (evs ++ [ev])) i ∧ i.id = k := fun k i h => ⟨up (ih.known k i h).1, (ih.known k i h).2⟩
    have hS : ∀ t i, s.pcs t = .sending (.discovered i) → Told (effects (evs ++ [ev])) i := fun t i h => up (ih.sending t i h)
    have hsent : (∀ i, ev ≠ .sent (.discovered i)) → ∀ i, DiscEv.sent (.discovered i) ∈ evs ++ [ev] → Told (effects (evs ++ [ev])) i := by
      intro hn i h
      rcases List.mem_append.1 h with h | h
      · exact up (ih.sent i h)
      · exact absurd (List.mem_singleton.1 h).symm (hn i)
    have hat : ∀ {t0 : Nat} {pc : DiscPC}, (∀ i, pc = .sending (.discovered i) → Told (effects (evs ++ [ev])) i) → ∀ t i, (if t = t0 then pc else s.pcs t) = .sending (.discovered i) →
        Told (effects (evs ++ [ev])) i := by
      intro t0 pc hp t i h
      split at h
      · exact hp i h
      · exact hS t i h
    cases hs with
    | call t op => exact ⟨hk, hat (by simp), hsent (by simp)⟩
    | @effect t op h1 h2 h3 =>
      have := effect_told op (ops := effects (evs ++ [.effect t op])) (by simp [effects]) hk
      exact ⟨this.1, hat (by simp), hsent (by simp)⟩
    | @effectSend t op n h1 h2 h3 =>
      have := effect_told op (ops := effects (evs ++ [.effect t op])) (by simp [effects]) hk
      refine ⟨this.1, hat ?_, hsent (by simp)⟩
      intro i e
      cases e
      exact this.2 i h3
    | @send t n h1 h2 =>
      refine ⟨by cases n <;> exact hk, ?_, ?_⟩
      · have : ∀ (t' : Nat), ((s.push n).at t .out).pcs t' = if t' = t then .out else s.pcs t' := by intro t'; cases n <;> rfl
        intro t' i h
        exact hat (pc := .out) (by simp) t' i (by rw [← this]; exact h)
      · intro i h
        rcases List.mem_append.1 h with h | h
        · exact up (ih.sent i h)
        · have := List.mem_singleton.1 h
          injection this with e
          subst e
          exact hS t i h1
    | _ => exact ⟨hk, hS, hsent (by simp)⟩

/-- What `Run` observes are messages that were sent to the address of the beacons. -/
theorem ann_observes {c : AnnCfg} {t : Int} {s : Ann} {evs : AnnEv} (h : Ann.Run c (annStart t) evs s) :
    (∀ t b now, s.disc.pcs t = .wanting (.observe b now) → ∃ msg ∈ s.msgs, discReceive msg = .ok (some b)) ∧
    ∀ b now, DiscOp.observe b now ∈ effects evs.d → ∃ msg ∈ s.msgs, discReceive msg = .ok (some b) := by
  generalize hs0 : annStart t = s0 at h
  induction h with
  | nil => subst hs0; exact ⟨fun t b now h => (by cases h), by simp [effects]⟩
  | @snoc s s' evs ev _ hs ih =>
    have keep : ∀ {b : Beacon}, (∃ msg ∈ s.msgs, discReceive msg = .ok (some b)) → ∃ msg ∈ s'.msgs, discReceive msg = .ok (some b) := by
      rintro b ⟨msg, h1, h2⟩
      obtain ⟨m, hm⟩ := List.getElem?_of_mem h1
      exact ⟨msg, List.mem_of_getElem? (ann_msgs hs hm), h2⟩
    have same : s'.disc = s.disc → ev.d = [] → (∀ t b now, s'.disc.pcs t = .wanting (.observe b now) → ∃ msg ∈ s'.msgs, discReceive msg = .ok (some b)) ∧
        ∀ b now, DiscOp.observe b now ∈ effects (evs.d ++ ev.d) → ∃ msg ∈ s'.msgs, discReceive msg = .ok (some b) := by
      intro e1 e2
      rw [e1, e2, List.append_nil]
      exact ⟨fun t b now h => keep (ih.1 t b now h), fun b now h => keep (ih.2 b now h)⟩
    cases hs with
    | @observe m msg b' disc now' _ _ hm hd hst =>
      refine ⟨?_, ?_⟩
      · intro t b now h
        cases hst
        by_cases e : t = 1
        · subst e
          have : DiscPC.wanting (.observe b' now') = .wanting (.observe b now) := by simpa [Disc.at] using h
          cases this
          exact ⟨msg, List.mem_of_getElem? hm, hd⟩
        · exact ih.1 t b now (by simpa [Disc.at, e] using h)
      · intro b now h
        rw [effects_append] at h
        rcases List.mem_append.1 h with h | h
        · exact ih.2 b now h
        · simp [effects] at h
    | @disc ev _ _ ha hst =>
      refine ⟨?_, ?_⟩
      · intro t b now h
        cases hst with
        | call t' op =>
          by_cases e : t = t'
          · subst e
            have : DiscPC.wanting op = .wanting (.observe b now) := by simpa [Disc.at] using h
            cases this
            exact absurd rfl (ha.2 b now)
          · exact ih.1 t b now (by simpa [Disc.at, e] using h)
        | @effect t' op | @effectSend t' op | @send t' n =>
          by_cases e : t = t'
          · subst e
            simp [Disc.at] at h
          · refine ih.1 t b now ?_
            simpa [Disc.at, e] using h
        | _ => exact ih.1 t b now h
      · intro b now h
        rw [effects_append] at h
        rcases List.mem_append.1 h with h | h
        · exact ih.2 b now h
        · cases ev with
          | effect t' op =>
            have : DiscOp.observe b now = op := by simpa [effects] using h
            subst this
            cases hst with
            | effect h1 | effectSend h1 => exact ih.1 _ _ _ h1
          | _ => simp [effects] at h
    | _ => exact same rfl rfl

theorem told_data {c : AnnCfg} {t : Int} {s : Ann} {evs : AnnEv} (h : Ann.Run c (annStart t) evs s) (hs : Sincere c.ka.source s.msgs evs.d) {i : Info} (hi : Told (effects evs.d) i)
    (hid : i.id = c.ka.source.id) : SourceData c.ka.source i := by
  obtain ⟨τ, ⟨b, now, h1, rfl⟩ | ⟨i0, h1, rfl⟩⟩ := hi
  · obtain ⟨msg, hm, hb⟩ := (ann_observes h).2 b now h1
    obtain ⟨g1, g2, g3, g4, g5⟩ := hs.beacons msg hm b hb hid
    exact ⟨g1, g2, g3, g4, g5⟩
  · have : ∃ t, DiscEv.effect t (.add i0) ∈ evs.d := by
      unfold effects at h1
      obtain ⟨ev, he, h2⟩ := List.mem_filterMap.1 h1
      cases ev <;> simp at h2
      subst h2
      exact ⟨_, he⟩
    obtain ⟨t, ht⟩ := this
    exact hs.adds t i0 ht hid

/-- A source that was observed and not forgotten since is known. -/
theorem observed_known {s s' : Disc} {evs : List DiscEv} (h : Disc.Run s evs s') {t : Nat} {b : Beacon} {now : Int} (he : DiscEv.effect t (.observe b now) ∈ evs)
    (hf : .forget b.identity ∉ effects evs) : ∃ i, discGet s'.state b.identity = some i := by
  induction h with
  | nil => cases he
  | snoc _ hs ih =>
    rw [effects_append, List.mem_append, not_or] at hf
    rcases List.mem_append.1 he with he | he
    · obtain ⟨i, hi⟩ := ih he hf.1
      rcases state_step hs with ⟨t, op, rfl, hst⟩ | ⟨hst, -⟩
      · have hne : op ≠ .forget b.identity := by rintro rfl; exact hf.2 (by simp [effects])
        obtain ⟨τ', hτ', -⟩ := effect_keeps op hi hne
        exact ⟨_, by unfold discGet; rw [hst]; exact hτ'⟩
      · exact ⟨i, by unfold discGet; rw [hst]; exact hi⟩
    · have := List.mem_singleton.1 he
      subst this
      obtain ⟨i, hi, _⟩ := C48_seen_partial hs
      exact ⟨i, hi⟩

/-- **C109 (known).** A discovery is subscribed, and after that a manager's Send of a beacon begins and ends without an error.  Once the Sends to the address of the beacons have returned, the
receiver's channel is empty and `Run` waits for the next message, the source is known unless it was forgotten since; and once the discoveries are handled, the handler has been called with
a source of that identity. -/
theorem C109_known {c : AnnCfg} {t : Int} {s1 s2 : Ann} {evs1 evs2 : AnnEv} (hr1 : Ann.Run c (annStart t) evs1 s1) (hr2 : Ann.Run c s1 evs2 s2)
    (hnew : MockEv.newReceiver c.rcv beaconAddress ∈ evs1.n) (hsub : MockEv.subscribed c.rcv ∈ evs1.n) (hidle : s1.sending = none) {k : KaKind} (hk : k ≠ .heartbeat)
    (hend : KaEv.end_ k .ok ∈ evs2.k)
    (hret : ∀ o m, MockEv.accepted o beaconAddress m ∈ evs1.n ++ evs2.n → ∃ r, MockEv.ret o r ∈ evs1.n ++ evs2.n)
    (hchan : ∀ x, s2.mock.rcvs[c.rcv]? = some x → x.chan = []) (hpc : s2.run = .receiving) (hcr : s2.crashed = false)
    (hforget : ∀ t, DiscEv.effect t (.forget c.ka.source.id) ∉ evs2.d) :
    (∃ i, discGet s2.disc.state c.ka.source.id = some i ∧ i.id = c.ka.source.id) ∧
    (s2.disc.lock = none → s2.disc.discovered = [] → ∃ i, DiscEv.handled (.discovered i) ∈ evs1.d ++ evs2.d ∧ i.id = c.ka.source.id) := by
  obtain ⟨b, now, hb, hd⟩ := C109_observed hr1 hr2 hnew hsub hidle hk hend hret hchan hpc hcr
  have hD : Disc.Run {} (evs1.d ++ evs2.d) s2.disc := ann_disc (ann_trans hr1 hr2)
  have hno : .forget b.identity ∉ effects evs2.d := by
    intro h
    unfold effects at h
    obtain ⟨ev, he, h2⟩ := List.mem_filterMap.1 h
    cases ev <;> simp at h2
    rw [h2, hd.1] at he
    exact hforget _ he
  obtain ⟨i, hi⟩ := observed_known (ann_disc hr2) hb hno
  rw [hd.1] at hi
  refine ⟨⟨i, hi, ((told_run hD).known _ i hi).2⟩, ?_⟩
  intro hl hq
  have hc := C46_quiet hD hl c.ka.source.id
  rw [hi] at hc
  have hf := (C50_fifo_partial hD).1
  rw [hq, List.append_nil] at hf
  rw [noteFlags_count_true, ← hf] at hc
  have hpos : 0 < (discoveredOf (notesHandled (evs1.d ++ evs2.d))).countP (fun i => decide (i.id = c.ka.source.id)) := by rw [hc]; simp
  obtain ⟨j, hj, hid⟩ := List.countP_pos_iff.1 hpos
  refine ⟨j, ?_, by simpa using hid⟩
  unfold discoveredOf notesHandled at hj
  obtain ⟨n, hn, h2⟩ := List.mem_filterMap.1 hj
  obtain ⟨ev, he, h3⟩ := List.mem_filterMap.1 hn
  cases n <;> simp at h2
  subst h2
  cases ev <;> simp at h3
  subst h3
  exact he

/-- **C109 (partial).** A discovery is subscribed, and after that a manager's Send of a beacon begins and ends without an error.  Once the Sends to the address of the beacons have returned, the
receiver's channel is empty and `Run` waits for the next message, the source is known unless it was forgotten since; with the data of the manager's configuration, if nobody else announces it
with other data; and once the discoveries are handled, the handler has been called with that data.  Missing: the data of a later beacon is ignored (`C109_counterexample`). -/
theorem C109_discovered_partial {c : AnnCfg} {t : Int} {s1 s2 : Ann} {evs1 evs2 : AnnEv} (hr1 : Ann.Run c (annStart t) evs1 s1) (hr2 : Ann.Run c s1 evs2 s2)
    (hnew : MockEv.newReceiver c.rcv beaconAddress ∈ evs1.n) (hsub : MockEv.subscribed c.rcv ∈ evs1.n) (hidle : s1.sending = none) {k : KaKind} (hk : k ≠ .heartbeat)
    (hend : KaEv.end_ k .ok ∈ evs2.k)
    (hret : ∀ o m, MockEv.accepted o beaconAddress m ∈ evs1.n ++ evs2.n → ∃ r, MockEv.ret o r ∈ evs1.n ++ evs2.n)
    (hchan : ∀ x, s2.mock.rcvs[c.rcv]? = some x → x.chan = []) (hpc : s2.run = .receiving) (hcr : s2.crashed = false)
    (hforget : ∀ t, DiscEv.effect t (.forget c.ka.source.id) ∉ evs2.d) (hsin : Sincere c.ka.source s2.msgs (evs1.d ++ evs2.d)) :
    (∃ i, discGet s2.disc.state c.ka.source.id = some i ∧ SourceData c.ka.source i) ∧
    (s2.disc.lock = none → s2.disc.discovered = [] → ∃ i, DiscEv.handled (.discovered i) ∈ evs1.d ++ evs2.d ∧ SourceData c.ka.source i) := by
  obtain ⟨⟨i, hi, hid⟩, hh⟩ := C109_known hr1 hr2 hnew hsub hidle hk hend hret hchan hpc hcr hforget
  have hr := ann_trans hr1 hr2
  have hD : Disc.Run {} (evs1.d ++ evs2.d) s2.disc := ann_disc hr
  have hT := told_run hD
  refine ⟨⟨i, hi, told_data hr hsin (hT.known _ i hi).1 hid⟩, ?_⟩
  intro hl hq
  obtain ⟨j, hj, hjd⟩ := hh hl hq
  have hj' : j ∈ discoveredOf (notesSent (evs1.d ++ evs2.d)) := by
    rw [← (C50_fifo_partial hD).1]
    refine List.mem_append_left _ ?_
    unfold discoveredOf notesHandled
    exact List.mem_filterMap.2 ⟨.discovered j, List.mem_filterMap.2 ⟨_, hj, rfl⟩, rfl⟩
  have memS : DiscEv.sent (.discovered j) ∈ evs1.d ++ evs2.d := by
    unfold discoveredOf notesSent at hj'
    obtain ⟨n, hn, h2⟩ := List.mem_filterMap.1 hj'
    obtain ⟨ev, he, h3⟩ := List.mem_filterMap.1 hn
    cases n <;> simp at h2
    subst h2
    cases ev <;> simp at h3
    subst h3
    exact he
  exact ⟨j, hj, told_data hr hsin (hT.sent j memS) hjd⟩

/-! ## An instance -/

def annSource : Info := { id := "r1", version := 3, type := "ROUTER", address := "mc/sfe.r1", direct := "sfe.r1" }
def annCfg : AnnCfg := { ka := { source := annSource }, snd := 0, rcv := 0 }

/-- A router with the receiver of a discovery and two senders. -/
def annMock (ops : List MSend) (holder : Option Nat) (chan : List Nat) : Mock :=
  { topics := [(beaconAddress, 0)], mcs := [{ receivers := [0], ver := 1, holder := holder }], rcvs := [{ addr := beaconAddress, cap := 256, chan := chan, sub := .done }],
    snds := [{ addr := beaconAddress }, { addr := beaconAddress }], ops := ops }

/-- A state between messages: `Run` waits. -/
def annAt (ka : Ka) (ops : List MSend) (holder : Option Nat) (chan : List Nat) (disc : Disc) (msgs : List Msg) (snd : Option Nat) : Ann :=
  { ka := ka, mock := annMock ops holder chan, disc := disc, msgs := msgs, sending := snd }

/-- The discovery is subscribed. -/
theorem ann_ready (c : AnnCfg) (t : Int) : ∃ evs, Ann.Run c (annStart t) evs (annAt (kaStart t) [] none [] {} [] none) ∧ MockEv.newReceiver 0 beaconAddress ∈ evs.n ∧
    MockEv.subscribed 0 ∈ evs.n ∧ evs.d = [] ∧ ∀ o m, MockEv.accepted o beaconAddress m ∉ evs.n := by
  have r0 : Ann.Run c (annStart t) {} (annStart t) := .nil
  have r1 := r0.snoc (.router (ev := .newReceiver 0 beaconAddress) trivial (.newReceiver beaconAddress 0))
  have r2 := r1.snoc (.router (ev := .step 0) trivial (.subGet (r := 0) rfl rfl))
  have r3 := r2.snoc (.router (ev := .subscribed 0) trivial (.subscribe (r := 0) rfl rfl rfl rfl))
  have r4 := r3.snoc (.router (ev := .newSender 0 beaconAddress) trivial (.newSender beaconAddress))
  have r5 := r4.snoc (.router (ev := .newSender 1 beaconAddress) trivial (.newSender beaconAddress))
  exact ⟨_, r5, by simp, by simp, rfl, by simp⟩

/-- The router takes a message for the address of the beacons. -/
theorem ann_taken {c : AnnCfg} {s0 : Ann} {evs : AnnEv} {ka : Ka} {disc : Disc} {msgs : List Msg} {i m o : Nat} {snd : Option Nat} {ops : MSend → List MSend}
    (h1 : ∀ x, (ops x)[o]? = some x) (h2 : ∀ x f, (ops x).modify o f = ops (f x)) (hi : i = 0 ∨ i = 1)
    (r : Ann.Run c s0 evs (annAt ka (ops { sender := i, addr := beaconAddress, msg := m }) none [] disc msgs snd)) :
    Ann.Run c s0 { evs with n := evs.n ++ [.step o] ++ [.step o] ++ [.accepted o beaconAddress m] ++ [.step o] ++ [.step o] }
      (annAt ka (ops { sender := i, addr := beaconAddress, msg := m, pc := .sending 0 [] }) (some o) [m] disc msgs snd) := by
  unfold annAt at r ⊢
  have set : ∀ {x : MSend} {h : Option Nat} {ch : List Nat} {pc : MSendPC}, (annMock (ops x) h ch).setOp o pc = annMock (ops { x with pc := pc }) h ch := by
    intro x h ch pc
    simp [annMock, Mock.setOp, h2]
  have r1 := r.snoc (.router (ev := .step o) trivial (.startGo (x := { addr := beaconAddress }) (h1 _) rfl (by rcases hi with rfl | rfl <;> rfl) rfl rfl))
  rw [set] at r1
  have r2 := r1.snoc (.router (ev := .step o) trivial (.get (h1 _) rfl))
  rw [show ((annMock (ops _) none []).get _) = (0, annMock (ops _) none []) from rfl, set] at r2
  have r3 := r2.snoc (.router (ev := .accepted o beaconAddress m) trivial (.lock (op := { sender := i, addr := beaconAddress, msg := m, pc := .locking 0 }) (m := { receivers := [0], ver := 1 }) (h1 _) rfl rfl rfl (by simp)))
  rw [show ((annMock (ops _) none []).setMC 0 _) = annMock (ops _) (some o) [] from rfl, set] at r3
  have r4 := r3.snoc (.router (ev := .step o) trivial (.offer (h1 _) rfl rfl rfl))
  rw [set] at r4
  have r5 := r4.snoc (.router (ev := .step o) trivial (.put (x := { addr := beaconAddress, cap := 256, sub := .done }) (h1 _) rfl rfl (by simp)))
  rw [show ((annMock (ops _) (some o) []).setRcv 0 _) = annMock (ops _) (some o) [m] from rfl, set] at r5
  simp only [List.append_nil] at r5
  exact r5

/-- A Send of the keepalive goroutine and its end. -/
theorem ann_beacon {c : AnnCfg} {s0 : Ann} {evs : AnnEv} {t : Int} {disc : Disc} {msgs : List Msg} {o : Nat} {ops : MSend → List MSend} {pre : List MSend} (hc : c.snd = 0)
    (h1 : ∀ x, (ops x)[o]? = some x) (h2 : ∀ x f, (ops x).modify o f = ops (f x)) (h3 : pre.length = o) (h4 : ∀ x, ops x = pre ++ [x])
    (r : Ann.Run c s0 evs (annAt (kaStart t) pre none [] disc msgs none)) :
    Ann.Run c s0 { k := evs.k ++ [.begin_ .initial beaconAddress c.ka.beacon.encode] ++ [.end_ .initial .ok],
                   n := evs.n ++ [.call o 0 beaconAddress msgs.length] ++ [.step o] ++ [.step o] ++ [.accepted o beaconAddress msgs.length] ++ [.step o] ++ [.step o] ++ [.ret o none], d := evs.d }
      (annAt { kaStart t with pc := .loop, beaconTick := ⟨t + c.ka.beaconEvery, false⟩, heartbeatTick := ⟨t + c.ka.heartbeatEvery, false⟩ }
        (ops { sender := 0, addr := beaconAddress, msg := msgs.length, pc := .done none }) none [msgs.length] disc (msgs ++ [c.ka.beacon.encode]) none) := by
  have call : Mock.Step (annMock pre none []) (.call o c.snd beaconAddress msgs.length) (annMock (ops { sender := 0, addr := beaconAddress, msg := msgs.length }) none []) := by
    rw [h4, ← h3, hc]
    exact Mock.Step.call (s := annMock pre none []) (i := 0) (x := { addr := beaconAddress }) msgs.length none rfl
  have r1 := r.snoc (.announce (k := .initial) rfl (by simp) (.beginInit rfl) call)
  have r2 := ann_taken h1 h2 (.inl rfl) r1
  have fin : Mock.Step (annMock (ops { sender := 0, addr := beaconAddress, msg := msgs.length, pc := .sending 0 [] }) (some o) [msgs.length]) (.ret o none)
      (annMock (ops { sender := 0, addr := beaconAddress, msg := msgs.length, pc := .done none }) none [msgs.length]) := by
    have := Mock.Step.finish (s := annMock (ops { sender := 0, addr := beaconAddress, msg := msgs.length, pc := .sending 0 [] }) (some o) [msgs.length]) (h1 _) rfl
    simpa [Mock.setOp, Mock.setMC, annMock, h2] using this
  have r3 := r2.snoc (.announced (k := .initial) (r := .ok) (e := none) rfl (by simp) (by simp) (.doneInit rfl trivial) fin)
  simp only [List.append_nil, hc] at r3
  exact r3

theorem out_again {f : Nat → DiscPC} (hf : f = fun _ => .out) {p q : DiscPC} : (fun u => if u = 1 then DiscPC.out else if u = 1 then p else if u = 1 then q else f u) = fun _ => .out := by
  subst hf
  funext u
  split <;> rfl

/-- A beacon of an unknown source is observed, and the handler is called. -/
theorem ann_new {c : AnnCfg} {s0 : Ann} {evs : AnnEv} {ka : Ka} {st : GMap String Info} {msgs : List Msg} {m : Nat} {msg : Msg} {snd : Option Nat} {ops : List MSend} {b : Beacon} (now : Int)
    (hc : c.rcv = 0) (hm : msgs[m]? = some msg) (hb : discReceive msg = .ok (some b)) (hn : st.get? b.identity = none)
    (r : Ann.Run c s0 evs (annAt ka ops none [m] { state := st } msgs snd)) :
    Ann.Run c s0 { k := evs.k, n := evs.n ++ [.recv 0 m],
                   d := evs.d ++ [.call 1 (.observe b now)] ++ [.effect 1 (.observe b now)] ++ [.sent (.discovered (b.toInfo now))] ++ [.handled (.discovered (b.toInfo now))] }
      (annAt ka ops none [] { state := st.set b.identity (b.toInfo now), handler := .running (.discovered (b.toInfo now)) } msgs snd) := by
  have he : DiscOp.effect st (.observe b now) = (st.set b.identity (b.toInfo now), some (.discovered (b.toInfo now))) := by simp [DiscOp.effect, hn]
  have r1 := r.snoc (.next (m := m) (mock := annMock ops none []) rfl rfl (by rw [hc]; exact .recv (s := annMock ops none [m]) rfl rfl rfl))
  have r2 := r1.snoc (.observe (b := b) now rfl rfl (m := m) hm hb (.call 1 _ rfl (by simp)))
  have r3 := r2.snoc (.disc (ev := .effect 1 (.observe b now)) rfl trivial (.effectSend (n := .discovered (b.toInfo now)) rfl rfl (congrArg Prod.snd he)))
  have r4 := r3.snoc (.disc (ev := .sent (.discovered (b.toInfo now))) rfl trivial (.send (t := 1) rfl (by simp [Disc.room, Disc.at, annAt, discCap])))
  have r5 := r4.snoc (.observed rfl rfl rfl)
  have r6 := r5.snoc (.disc (ev := .handled (.discovered (b.toInfo now))) rfl trivial (.takeDiscovered rfl rfl))
  simp only [List.append_nil, hc] at r6
  have e := out_again (f := fun _ => .out) rfl (p := .sending (.discovered (b.toInfo now))) (q := .wanting (.observe b now))
  simpa [annAt, Disc.at, Disc.push, he, e] using r6

/-- A beacon of a known source is observed. -/
theorem ann_old {c : AnnCfg} {s0 : Ann} {evs : AnnEv} {ka : Ka} {st : GMap String Info} {hp : HandlerPC} {msgs : List Msg} {m : Nat} {msg : Msg} {snd : Option Nat} {ops : List MSend} {b : Beacon}
    {i : Info} (now : Int) (hc : c.rcv = 0) (hm : msgs[m]? = some msg) (hb : discReceive msg = .ok (some b)) (hi : st.get? b.identity = some i)
    (r : Ann.Run c s0 evs (annAt ka ops none [m] { state := st, handler := hp } msgs snd)) :
    Ann.Run c s0 { k := evs.k, n := evs.n ++ [.recv 0 m], d := evs.d ++ [.call 1 (.observe b now)] ++ [.effect 1 (.observe b now)] }
      (annAt ka ops none [] { state := st.set b.identity { i with lastSeen := now }, handler := hp } msgs snd) := by
  have he : DiscOp.effect st (.observe b now) = (st.set b.identity { i with lastSeen := now }, none) := by simp [DiscOp.effect, hi]
  have r1 := r.snoc (.next (m := m) (mock := annMock ops none []) rfl rfl (by rw [hc]; exact .recv (s := annMock ops none [m]) rfl rfl rfl))
  have r2 := r1.snoc (.observe (b := b) now rfl rfl (m := m) hm hb (.call 1 _ rfl (by simp)))
  have r3 := r2.snoc (.disc (ev := .effect 1 (.observe b now)) rfl trivial (.effect rfl rfl (congrArg Prod.snd he)))
  have r4 := r3.snoc (.observed rfl rfl rfl)
  simp only [List.append_nil, hc] at r4
  have e : (fun u => if u = 1 then DiscPC.out else if u = 1 then .wanting (.observe b now) else .out) = fun _ => .out := by funext u; split <;> rfl
  simpa [annAt, Disc.at, he, e] using r4

/-- The beacon of the manager of the instance, as the discovery gets it. -/
def annBeacon : Beacon :=
  { hdr := ⟨"mc/sfe.all", "BEACON", ""⟩, version := 3, sourceType := "ROUTER", address := "mc/sfe.r1", direct := "sfe.r1", identity := "r1" }

/-- The beacon of an earlier run of the source, with another address. -/
def oldBeacon : Beacon :=
  { hdr := ⟨"mc/sfe.all", "BEACON", ""⟩, version := 3, sourceType := "ROUTER", address := "mc/sfe.old", direct := "sfe.old", identity := "r1" }

/-- The conditions of `C109_discovered_partial` can be met: a source starts, its first beacon is observed, and the handler is called. -/
theorem ann_example : ∃ s1 s2 evs1 evs2, Ann.Run annCfg (annStart 0) evs1 s1 ∧ Ann.Run annCfg s1 evs2 s2 ∧ MockEv.newReceiver annCfg.rcv beaconAddress ∈ evs1.n ∧
    MockEv.subscribed annCfg.rcv ∈ evs1.n ∧ s1.sending = none ∧ KaEv.end_ .initial .ok ∈ evs2.k ∧
    (∀ o m, MockEv.accepted o beaconAddress m ∈ evs1.n ++ evs2.n → ∃ r, MockEv.ret o r ∈ evs1.n ++ evs2.n) ∧ (∀ x, s2.mock.rcvs[annCfg.rcv]? = some x → x.chan = []) ∧
    s2.run = .receiving ∧ s2.crashed = false ∧ (∀ t, DiscEv.effect t (.forget annCfg.ka.source.id) ∉ evs2.d) ∧ Sincere annCfg.ka.source s2.msgs (evs1.d ++ evs2.d) ∧
    s2.disc.lock = none ∧ s2.disc.discovered = [] ∧ discGet s2.disc.state "r1" = some (annBeacon.toInfo 7) := by
  obtain ⟨evs1, h1, h2, h3, h4, h5⟩ := ann_ready annCfg 0
  have r1 := ann_beacon (c := annCfg) (ops := fun x => [x]) (o := 0) rfl (fun _ => rfl) (fun _ _ => rfl) rfl (fun _ => rfl) (Ann.Run.nil (s := annAt (kaStart 0) [] none [] {} [] none))
  have r2 := ann_new (b := annBeacon) (m := 0) 7 rfl rfl rfl rfl r1
  refine ⟨_, _, evs1, _, h1, r2, h2, h3, rfl, by simp, ?_, ?_, rfl, rfl, by simp, ⟨?_, ?_⟩, rfl, rfl, rfl⟩
  · intro o m h
    have hm : o = 0 := by
      rcases List.mem_append.1 h with h | h
      · exact absurd h (h5 o m)
      · simp at h; exact h.1
    subst hm
    exact ⟨none, List.mem_append_right _ (by simp)⟩
  · intro x hx
    have : x = { addr := beaconAddress, cap := 256, chan := [], sub := .done } := (Option.some.inj hx).symm
    rw [this]
  · intro msg hm b hb _
    have : msg = annCfg.ka.beacon.encode := List.mem_singleton.1 hm
    subst this
    cases hb
    exact ⟨rfl, rfl, rfl, rfl, rfl⟩
  · intro t i h
    rw [h4] at h
    simp at h

/-- Without the condition on other announcements the source is known under another address: a source that has been restarted with another address is observed, and its old address stays. -/
theorem C109_counterexample : ∃ s1 s2 evs1 evs2, Ann.Run annCfg (annStart 0) evs1 s1 ∧ Ann.Run annCfg s1 evs2 s2 ∧ MockEv.newReceiver annCfg.rcv beaconAddress ∈ evs1.n ∧
    MockEv.subscribed annCfg.rcv ∈ evs1.n ∧ s1.sending = none ∧ KaEv.end_ .initial .ok ∈ evs2.k ∧
    (∀ o m, MockEv.accepted o beaconAddress m ∈ evs1.n ++ evs2.n → ∃ r, MockEv.ret o r ∈ evs1.n ++ evs2.n) ∧ (∀ x, s2.mock.rcvs[annCfg.rcv]? = some x → x.chan = []) ∧
    s2.run = .receiving ∧ s2.crashed = false ∧ (∀ t, DiscEv.effect t (.forget annCfg.ka.source.id) ∉ evs1.d ++ evs2.d) ∧
    s2.disc.lock = none ∧ s2.disc.discovered = [] ∧ (∃ i, discGet s2.disc.state "r1" = some i ∧ i.address = "mc/sfe.old" ∧ i.direct = "sfe.old") ∧
    ∀ i, DiscEv.handled (.discovered i) ∈ evs1.d ++ evs2.d → i.address = "mc/sfe.old" := by
  obtain ⟨evs1, h1, h2, h3, h4, h5⟩ := ann_ready annCfg 0
  have r1 : Ann.Run annCfg (annAt (kaStart 0) [] none [] {} [] none) { n := [.call 0 1 beaconAddress 0] }
      (annAt (kaStart 0) [{ sender := 1, addr := beaconAddress, msg := 0 }] none [] {} [oldBeacon.encode] none) :=
    Ann.Run.nil.snoc (.post oldBeacon.encode (Mock.Step.call (i := 1) (x := { addr := beaconAddress }) 0 none rfl))
  have r2 := ann_taken (ops := fun x => [x]) (o := 0) (i := 1) (m := 0) (fun _ => rfl) (fun _ _ => rfl) (.inr rfl) r1
  have r3 := r2.snoc (.router (ev := .ret 0 none) (mock := annMock [{ sender := 1, addr := beaconAddress, msg := 0, pc := .done none }] none [0]) (by simp [Ann.Free, annAt])
    (Mock.Step.finish (s := annMock [{ sender := 1, addr := beaconAddress, msg := 0, pc := .sending 0 [] }] (some 0) [0]) (o := 0) (mc := 0) rfl rfl))
  have r4 := ann_new (b := oldBeacon) (m := 0) 5 rfl rfl rfl rfl r3
  have t1 := ann_beacon (c := annCfg) (ops := fun x => [{ sender := 1, addr := beaconAddress, msg := 0, pc := .done none }, x]) (o := 1) rfl (fun _ => rfl) (fun _ _ => rfl) rfl (fun _ => rfl) r4
  have t2 := ann_old (b := annBeacon) (m := 1) 7 rfl rfl rfl rfl t1
  refine ⟨_, _, evs1, _, h1, t2, h2, h3, rfl, by simp, ?_, ?_, rfl, rfl, ?_, rfl, rfl, ⟨_, rfl, rfl, rfl⟩, ?_⟩
  · intro o m h
    have hm : o = 0 ∨ o = 1 := by
      rcases List.mem_append.1 h with h | h
      · exact absurd h (h5 o m)
      · simp at h
        rcases h with h | h
        · exact .inl h.1
        · exact .inr h.1
    rcases hm with rfl | rfl
    · exact ⟨none, List.mem_append_right _ (by simp)⟩
    · exact ⟨none, List.mem_append_right _ (by simp)⟩
  · intro x hx
    have : x = { addr := beaconAddress, cap := 256, chan := [], sub := .done } := (Option.some.inj hx).symm
    rw [this]
  · rw [h4]; simp
  · intro i h
    rw [h4] at h
    simp at h
    rw [h]; rfl

/-- **C109 (not stuck).** While a message waits at the open receiver, or one is in hand, `Run` can move, unless another method holds the lock of the discovery or the message has no subject. -/
theorem C109_not_stuck {c : AnnCfg} {s : Ann} (hcr : s.crashed = false) :
    (∀ (x : MRcv) m rest, s.mock.rcvs[c.rcv]? = some x → x.sub = .done → x.chan = m :: rest → s.run = .receiving → ∃ s', Ann.Step c s { n := [.recv c.rcv m] } s' ∧ s'.run = .holding m) ∧
    (∀ m msg, s.run = .holding m → s.msgs[m]? = some msg → s.disc.pcs 1 = .out → ∃ ev s', Ann.Step c s ev s' ∧ (s'.run = .receiving ∨ s'.run = .observing ∨ s'.crashed = true)) ∧
    (∀ b now, s.disc.pcs 1 = .wanting (.observe b now) → s.disc.lock = none → ∃ s', Ann.Step c s { d := [.effect 1 (.observe b now)] } s') ∧
    (s.run = .observing → s.disc.pcs 1 = .out → ∃ s', Ann.Step c s {} s' ∧ s'.run = .receiving) := by
  refine ⟨fun _ _ _ h1 h2 h3 h4 => ⟨_, .next hcr h4 (.recv h1 h2 h3), rfl⟩, ?_, ?_, fun h1 h2 => ⟨_, .observed hcr h1 h2, rfl⟩⟩
  · intro m msg h1 h2 h3
    cases h : discReceive msg with
    | ok b =>
      cases b with
      | none => exact ⟨_, _, .skip hcr h1 h2 h, .inl rfl⟩
      | some b => exact ⟨_, _, .observe 0 hcr h1 h2 h (.call 1 _ h3 (by simp)), .inr (.inl rfl)⟩
    | panic t => exact ⟨_, _, .crash hcr h1 h2 h, .inr (.inr rfl)⟩
    | err e =>
      unfold discReceive at h
      split at h
      · cases h
      · split at h
        · cases h
        · split at h
          · cases h
          · unfold decodeBeacon at h
            simp_all [Res.map]
  · intro b now h1 h2
    cases h : (DiscOp.effect s.disc.state (.observe b now)).2 with
    | none => exact ⟨_, .disc hcr trivial (.effect h1 h2 h)⟩
    | some n => exact ⟨_, .disc hcr trivial (.effectSend h1 h2 h)⟩

end Verif.Props
