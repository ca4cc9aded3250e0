import Verif.Props.Json
import Verif.Proofs.Accumulate

/-!
# C82: from messages through the record server and its JSON to a fixture
-/
namespace Verif.Props
open Verif Verif.Model Verif.Spec Verif.Proofs

/-! ## Received records -/

/-- The times in a value have less than a second of nanoseconds. -/
def NsecOK : FVal GoTime → Prop
  | .custom t => t.nsec < 1000000000
  | .ptr v => NsecOK v
  | _ => True

theorem nsec_zero (ty : FTy) : NsecOK (ty.zero vanEnv) := by cases ty <;> simp [FTy.zero, NsecOK, vanEnv, timeCodec, GoTime.zero]

theorem ofUnixMicro_nsec (us : Int) : (GoTime.ofUnixMicro us).nsec < 1000000000 := by
  simp only [GoTime.ofUnixMicro]
  have := Int.emod_lt_of_pos us (by decide : (0 : Int) < 1000000)
  omega

theorem timeDecode_nsec {a : Any} {t : GoTime} (h : timeDecode a = .ok t) : t.nsec < 1000000000 := by
  unfold timeDecode at h
  split at h
  · split at h
    · cases h
    · injection h with h; subst h; exact ofUnixMicro_nsec _
  · cases h

theorem decoded_value : ∀ {d : FieldDecoder} {ty : FTy} {a : Any} {v : FVal GoTime}, getFieldDecoder ty = .ok d → d.decode vanEnv ty a = .ok v → HasTy ty v ∧ NsecOK v := by
  have raw : ∀ {ty : FTy} {a : Any} {v : FVal GoTime}, rawDecode ty a = .ok v → HasTy ty v ∧ NsecOK v := by
    intro ty a v h
    unfold rawDecode at h
    split at h <;> first | (injection h with h; subst h; exact ⟨trivial, trivial⟩) | cases h
  have cust : ∀ {ty : FTy} {c : String} {a : Any} {v : FVal GoTime}, (ty = .custom c ∨ ty = .ptr (.custom c)) → recordAttrDecode vanEnv c ty a = .ok v → HasTy ty v ∧ NsecOK v := by
    intro ty c a v ht h
    unfold recordAttrDecode at h
    split at h
    · cases h
    · rename_i x hx
      have hn := timeDecode_nsec (a := a) (t := x) hx
      rcases ht with rfl | rfl
      · injection h with h; subst h; exact ⟨trivial, hn⟩
      · injection h with h; subst h; exact ⟨trivial, hn⟩
  intro d ty
  induction ty generalizing d with
  | ptr t ih =>
    intro a v hd hv
    by_cases hc : ∃ c, t = .custom c
    · obtain ⟨c, rfl⟩ := hc
      simp only [getFieldDecoder, Res.ok.injEq] at hd
      subst hd
      exact cust (.inr rfl) hv
    · have hd' : (getFieldDecoder t).map FieldDecoder.pointer = .ok d := by
        cases t <;> first | exact hd | exact absurd ⟨_, rfl⟩ hc
      cases hs : getFieldDecoder t with
      | err m => rw [hs] at hd'; cases hd'
      | panic m => rw [hs] at hd'; cases hd'
      | ok sub =>
        rw [hs] at hd'
        simp only [Res.map, Res.ok.injEq] at hd'
        subst hd'
        simp only [FieldDecoder.decode] at hv
        cases hw : sub.decode vanEnv t a with
        | err m => rw [hw] at hv; cases hv
        | panic m => rw [hw] at hv; cases hv
        | ok w =>
          rw [hw] at hv
          simp only [Res.map, Res.ok.injEq] at hv
          subst hv
          exact ih hs hw
  | custom c =>
    intro a v hd hv
    simp only [getFieldDecoder, Res.ok.injEq] at hd
    subst hd
    exact cust (.inl rfl) hv
  | unsupported k => intro a v hd; simp [getFieldDecoder] at hd
  | _ =>
    intro a v hd hv
    simp only [getFieldDecoder, Res.ok.injEq] at hd
    subst hd
    exact raw hv

theorem decodeFields_good {decls : List FieldDecl} {attrs : Attrs} : ∀ (fs : List Field) {mem out : Mem GoTime}, (∀ f ∈ fs, FieldOf decls f.index f) → HasStructTy decls mem →
    (∀ p, NsecOK (mem p)) → decodeFields vanEnv fs attrs mem = .ok out → HasStructTy decls out ∧ ∀ p, NsecOK (out p)
  | [], mem, out, _, h1, h2, h => by
    simp only [decodeFields, Res.ok.injEq] at h
    subst h
    exact ⟨h1, h2⟩
  | f :: fs, mem, out, hf, h1, h2, h => by
    simp only [decodeFields] at h
    split at h
    · split at h
      · cases h
      · exact decodeFields_good fs (fun f' h' => hf f' (List.mem_cons_of_mem _ h')) h1 h2 h
    · rename_i obj hobj
      rw [Res.bind_eq_ok] at h
      obtain ⟨v, hv, h⟩ := h
      obtain ⟨⟨tag, htag, _⟩, _, hde⟩ := hf f List.mem_cons_self
      obtain ⟨g1, g2⟩ := decoded_value hde hv
      refine decodeFields_good fs (fun f' h' => hf f' (List.mem_cons_of_mem _ h')) ?_ ?_ h
      · intro p ty hl
        unfold Mem.set
        split
        · rename_i hp
          subst hp
          have h3 := declAt_iff.2 hl
          rw [declAt_iff.2 htag.leaf] at h3
          injection h3 with h3
          exact h3 ▸ g1
        · exact h1 p ty hl
      · intro p
        unfold Mem.set
        split
        · exact g2
        · exact h2 p

/-- The times of a record have less than a second of nanoseconds. -/
def RecNsec : GoRec GoTime → Prop
  | .value r | .pointer r => ∀ p, NsecOK (r.mem p)
  | _ => True

/-- What a received record is. -/
theorem received_good {r : GoRec GoTime} (h : Received r) : GoodRecord vanRegistry r ∧ RecNsec r := by
  obtain ⟨attrs, hd, hr⟩ := h
  simp only [decode] at hd
  split at hd
  · cases hd
  · split at hd
    · cases hd
    · rename_i enc henc
      obtain ⟨hc, he⟩ := vanRegistry_reach.inv.goodD _ _ henc
      obtain ⟨hg, _, _⟩ := vanRegistry_reach.inv.goodE _ _ he
      cases hf : decodeFields vanEnv enc.fields attrs (zeroMem vanEnv enc.decls) with
      | err m => rw [hf] at hd; cases hd
      | panic m => rw [hf] at hd; cases hd
      | ok mem =>
        rw [hf] at hd
        simp only [Res.map, Res.ok.injEq] at hd
        subst hd
        obtain ⟨h1, h2⟩ := decodeFields_good enc.fields hg.sound (by
          intro p ty hl
          rw [zeroMem_leaf vanEnv hl]
          cases ty <;> simp [FTy.zero, HasTy]) (by
          intro p
          unfold zeroMem
          split
          · exact nsec_zero _
          · trivial) hf
        exact ⟨⟨_, enc.decls, enc.codepoint, .inr rfl, by simpa [isRecord] using hr, ⟨enc, he, rfl, rfl⟩, h1⟩, h2⟩
  · cases hd

/-! ## The stored entries -/

/-- Something true of every stored entry stays true when a record is accumulated. -/
theorem accumulate_keeps (P : String → Entry (GoRec GoTime) → Prop) {c : Cache (GoRec GoTime)} (h : ∀ k e, view c k = some e → P k e)
    {src : SourceRef} {r : GoRec GoTime} {now : GoTime}
    (fresh : ∀ k tm, c.keyFunc (Entry.ofRecord r) = .ok k → vanTypeMeta r = .ok tm → P k { record := r, md := { source := src, updatedAt := now, annotations := [] }, typeMeta := tm })
    (merge : ∀ k old a b y, c.keyFunc (Entry.ofRecord r) = .ok k → P k old → encode vanEnv vanRegistry old.record = .ok a → encode vanEnv vanRegistry r = .ok b →
      decode vanEnv vanRegistry (some (b ++ a)) = .ok y → P k { old with md := { old.md with updatedAt := now }, record := y })
    {k : String} {e : Entry (GoRec GoTime)} (he : view (c.accumulate vanOps src r now).1 k = some e) : P k e := by
  have hv := step_view vanOps_lawful c (.accumulate src r now)
  simp only [Cache.step] at hv
  rw [hv] at he
  generalize (c.accumulate vanOps src r now).2.res = res at he
  unfold effect at he
  cases res with
  | err m => exact h k e he
  | panic m => exact h k e he
  | ok u =>
    simp only at he
    split at he
    · rename_i k' hk'
      split at he
      · rename_i e' hacc
        simp only [Effect.apply] at he
        split at he
        · rename_i hkk
          obtain rfl := Option.some.inj he
          subst hkk
          unfold accumulated at hacc
          split at hacc
          · split at hacc
            · rename_i tm htm
              obtain rfl := Option.some.inj hacc
              exact fresh _ tm hk' htm
            · cases hacc
          · rename_i old hold
            split at hacc
            · rename_i a b ha hb
              split at hacc
              · cases hacc
              · split at hacc
                · rename_i y hy
                  obtain rfl := Option.some.inj hacc
                  exact merge _ old a b y hk' (h _ old hold) ha hb hy
                · cases hacc
            · cases hacc
        · exact h k e he
      · exact h k e he
    · exact h k e he

theorem accumulate_keyFunc (c : Cache (GoRec GoTime)) (src : SourceRef) (r : GoRec GoTime) (now : GoTime) : (c.accumulate vanOps src r now).1.keyFunc = c.keyFunc :=
  (step_keyFunc vanOps_lawful c (.accumulate src r now)).1

/-- A property of stored entries through a dispatch to the stores of one server. -/
theorem dispatch_keeps (P : String → Entry (GoRec GoTime) → Prop) (kf : KeyFunc (GoRec GoTime)) (acc : GMap String Nat) {src : SourceRef} : ∀ (rs : List (GoRec GoTime × GoTime)),
    (∀ p ∈ rs, (∀ k tm, kf (Entry.ofRecord p.1) = .ok k → vanTypeMeta p.1 = .ok tm → P k { record := p.1, md := { source := src, updatedAt := p.2, annotations := [] }, typeMeta := tm }) ∧
      (∀ k old a b y, kf (Entry.ofRecord p.1) = .ok k → P k old → encode vanEnv vanRegistry old.record = .ok a → encode vanEnv vanRegistry p.1 = .ok b →
        decode vanEnv vanRegistry (some (b ++ a)) = .ok y → P k { old with md := { old.md with updatedAt := p.2 }, record := y })) →
    ∀ (s : Stores (GoRec GoTime)), (∀ i, SIMInv (s i).storage ∧ (s i).keyFunc = kf ∧ ∀ k e, view (s i) k = some e → P k e) →
    ∀ i, SIMInv ((dispatch vanOps acc src rs s).1 i).storage ∧ ((dispatch vanOps acc src rs s).1 i).keyFunc = kf ∧ ∀ k e, view ((dispatch vanOps acc src rs s).1 i) k = some e → P k e := by
  intro rs
  induction rs with
  | nil => intro _ s h; exact h
  | cons p rs ih =>
    obtain ⟨r, now⟩ := p
    intro hrs s h
    have ih := ih (fun p hp => hrs p (List.mem_cons_of_mem _ hp))
    unfold dispatch
    cases vanOps.typeMeta r with
    | err m => exact h
    | panic m => exact h
    | ok tm =>
      simp only
      cases acc.get? tm.str with
      | none => exact ih s h
      | some j =>
        simp only
        have hs : ∀ i, SIMInv (if i = j then ((s j).accumulate vanOps src r now).1 else s i).storage ∧ (if i = j then ((s j).accumulate vanOps src r now).1 else s i).keyFunc = kf ∧
            ∀ k e, view (if i = j then ((s j).accumulate vanOps src r now).1 else s i) k = some e → P k e := by
          intro i
          by_cases hij : i = j
          · simp only [hij, if_true]
            obtain ⟨q1, q2⟩ := hrs (r, now) List.mem_cons_self
            obtain ⟨h1, h2, h3⟩ := h j
            exact ⟨step_inv vanOps_lawful h1 (.accumulate src r now), by rw [accumulate_keyFunc]; exact h2,
              fun k e he => accumulate_keeps P h3 (by rw [h2]; exact q1) (by rw [h2]; exact q2) he⟩
          · simp only [hij, if_false]
            exact h i
        split
        · exact hs
        · exact ih _ hs

theorem receivedRecords_mem {evs : List ServeEv} {src : SourceRef} {rs : List (GoRec GoTime × GoTime)} (h : ServeEv.records src rs ∈ evs) {p : GoRec GoTime × GoTime} (hp : p ∈ rs) :
    p ∈ receivedRecords evs := List.mem_flatMap.2 ⟨_, h, hp⟩

/-- What holds of every entry of the server's store. -/
structure StoredOK (evs : List ServeEv) (k : String) (e : Entry (GoRec GoTime)) : Prop where
  good : GoodRecord vanRegistry e.record
  nsec : RecNsec e.record
  at_ : e.md.updatedAt.nsec < 1000000000
  ann : e.md.annotations = []
  type : vanTypeMeta e.record = .ok e.typeMeta
  key : ∃ id, vanIdentity e.record = .ok id ∧ k = "//" ++ id
  from_ : ∃ p ∈ receivedRecords evs, vanIdentity p.1 = vanIdentity e.record ∧ vanTypeMeta p.1 = vanTypeMeta e.record

theorem key_ofRecord {r : GoRec GoTime} {k : String} (h : keyByTypeAndID vanOps (Entry.ofRecord r) = .ok k) : ∃ id, vanIdentity r = .ok id ∧ k = "//" ++ id := by
  unfold keyByTypeAndID at h
  simp only [vanOps, Entry.ofRecord] at h
  cases hi : vanIdentity r with
  | err m => rw [hi] at h; cases h
  | panic m => rw [hi] at h; cases h
  | ok id =>
    rw [hi] at h
    simp only [Res.map, Res.ok.injEq] at h
    refine ⟨id, rfl, h.symm.trans ?_⟩
    rfl

theorem append_left_inj' {a b c : String} (h : a ++ b = a ++ c) : b = c := by
  have := congrArg String.toList h
  simp only [String.toList_append, List.append_cancel_left_eq] at this
  exact String.toList_inj.1 this

theorem hasTy_str {v : FVal GoTime} (h : HasTy .str v) : ∃ s, v = .str s := by
  cases v <;> first | exact ⟨_, rfl⟩ | exact absurd h (by simp [HasTy])

theorem van_id_kind {r q : GoRec GoTime} (hr : GoodRecord vanRegistry r) (hq : GoodRecord vanRegistry q) :
    (vanIdentity r = vanIdentity q → idOfRecord r = idOfRecord q) ∧ (kindOf r = kindOf q → vanTypeMeta r = vanTypeMeta q) := by
  obtain ⟨x, dx, cx, hx, _, rx, tx⟩ := hr
  obtain ⟨y, dy, cy, hy, _, ry, ty⟩ := hq
  have ix := tx _ _ (declares_base (registered_declares rx)).1
  have iy := ty _ _ (declares_base (registered_declares ry)).1
  constructor
  · intro h
    have h' : recIdentity x = recIdentity y := by
      rcases hx with rfl | rfl <;> rcases hy with rfl | rfl <;> simpa [vanIdentity] using h
    obtain ⟨s, h1⟩ := hasTy_str ix
    obtain ⟨t, h2⟩ := hasTy_str iy
    simp only [recIdentity, h1, h2] at h'
    rcases hx with rfl | rfl <;> rcases hy with rfl | rfl <;> simp [idOfRecord, h1, h2, h']
  · intro h
    rcases hx with rfl | rfl <;> rcases hy with rfl | rfl <;> simp_all [vanTypeMeta, kindOf]

theorem serve_stored (types : List String) (evs : List ServeEv) (hr : ∀ p ∈ receivedRecords evs, Received p.1 ∧ p.2.nsec < 1000000000) (hk : OneKindPerID evs) :
    SIMInv (Serve.run types evs).store.storage ∧ ∀ k e, view (Serve.run types evs).store k = some e → StoredOK evs k e := by
  have key : ∀ (es : List ServeEv) (s : Serve), (∀ ev ∈ es, ev ∈ evs) →
      (SIMInv s.store.storage ∧ s.store.keyFunc = keyByTypeAndID vanOps ∧ ∀ k e, view s.store k = some e → StoredOK evs k e) →
      SIMInv (es.foldl (Serve.step types) s).store.storage ∧ (es.foldl (Serve.step types) s).store.keyFunc = keyByTypeAndID vanOps ∧
        ∀ k e, view (es.foldl (Serve.step types) s).store k = some e → StoredOK evs k e := by
    intro es
    induction es with
    | nil => intro s _ h; exact h
    | cons ev es ih =>
      intro s hm h
      simp only [List.foldl_cons]
      refine ih _ (fun x hx => hm x (List.mem_cons_of_mem _ hx)) ?_
      cases ev with
      | discovered i w => cases w <;> exact h
      | forgotten i => exact h
      | records src rs =>
        refine dispatch_keeps (StoredOK evs) (keyByTypeAndID vanOps) _ rs ?_ (fun _ => s.store) (fun _ => h) 0
        intro p hp
        have hpe := receivedRecords_mem (hm _ List.mem_cons_self) hp
        obtain ⟨hrec, hnow⟩ := hr p hpe
        obtain ⟨g1, g2⟩ := received_good hrec
        refine ⟨fun k tm hkf htm => ⟨g1, g2, hnow, rfl, htm, key_ofRecord hkf, p, hpe, rfl, rfl⟩, ?_⟩
        intro k old a b y hkf ho ha hb hy
        obtain ⟨y', c, m1, m2, m3, m4, m5, _⟩ := merge_records ho.good g1 ha hb
        rw [hy] at m1
        injection m1 with m1
        subst m1
        obtain ⟨id, i1, i2⟩ := key_ofRecord hkf
        obtain ⟨id', i3, i4⟩ := ho.key
        have hid : id' = id := append_left_inj' (i4.symm.trans i2)
        subst hid
        obtain ⟨q, hq, q1, q2⟩ := ho.from_
        obtain ⟨gq, _⟩ := received_good (hr q hq).1
        have hqp := van_id_kind gq g1
        have hkind := hk q hq p hpe (hqp.1 (by rw [q1, i3, i1]))
        have htm : vanTypeMeta q.1 = vanTypeMeta p.1 := hqp.2 hkind
        exact ⟨m3, (received_good ⟨_, hy, m2⟩).2, hnow, ho.ann, by rw [m5, ← htm, q2]; exact ho.type, ⟨id', by rw [m4]; exact i1, i2⟩, p, hpe, m4.symm, m5.symm⟩
  have := key evs { store := newCache vanOps (fixtureConfig vanOps) } (fun _ h => h) ⟨new_inv vanOps _ fixture_good, rfl, fun k e h => by
    have : view (newCache vanOps (fixtureConfig vanOps)) k = none := rfl
    rw [this] at h; cases h⟩
  exact ⟨this.1, this.2.2⟩

theorem stored_captured {evs : List ServeEv} {k : String} {e : Entry (GoRec GoTime)} (h : StoredOK evs k e) (hw : ∀ t ∈ timesOf e, Writable t) : Captured e := by
  obtain ⟨r, ds, c, h1, _, h2, h3⟩ := h.good
  refine ⟨⟨r, ds, h1, registered_declares h2, h3, ?_⟩, fun t ht => ⟨hw t ht, ?_⟩, by rw [h.ann]; exact GMap.WF_nil⟩
  · have := h.type
    rcases h1 with h1 | h1 <;> rw [h1] at this <;> simpa [vanTypeMeta] using this.symm
  · have hn := h.nsec
    unfold timesOf at ht
    rcases List.mem_cons.1 ht with rfl | ht
    · exact h.at_
    · have key : (∀ p, NsecOK (r.mem p)) → t ∈ ([r.mem [0, 1], r.mem [0, 2]]).filterMap timeIn → t.nsec < 1000000000 := by
        intro hn ht
        rw [List.mem_filterMap] at ht
        obtain ⟨v, hv, hvt⟩ := ht
        have hvn : NsecOK v := by
          simp only [List.mem_cons, List.not_mem_nil, or_false] at hv
          rcases hv with rfl | rfl <;> exact hn _
        unfold timeIn at hvt
        split at hvt
        · obtain rfl := Option.some.inj hvt
          exact hvn
        · cases hvt
      rcases h1 with h1 | h1 <;> rw [h1] at hn ht <;> exact key hn ht

/-- The entries of an answer to "/". -/
theorem served_entries {types : List String} {evs : List ServeEv} (hr : ∀ p ∈ receivedRecords evs, Received p.1 ∧ p.2.nsec < 1000000000) (hk : OneKindPerID evs) {a : HttpAnswer}
    (ha : serveRoot (Serve.run types evs).store "/" = .ok a) {l : List (Entry (GoRec GoTime))} (hl : a.body = some l) : (∀ e ∈ l, Captured e) ∧ DistinctRecords l := by
  obtain ⟨hi, hv⟩ := serve_stored types evs hr hk
  have hle := list_exact hi
  have hbody : l = (Serve.run types evs).store.storage.list.map VC.resource ∧ ∀ e ∈ l, ∀ t ∈ timesOf e, Writable t := by
    simp only [serveRoot, ne_eq, not_true_eq_false, if_false, Cache.list, Res.ok.injEq] at ha
    subst ha
    rcases answer_body 200 ((Serve.run types evs).store.storage.list.map VC.resource) with ⟨h1, h2⟩ | ⟨h1, _⟩
    · rw [h1] at hl
      obtain rfl := Option.some.inj hl
      exact ⟨rfl, h2⟩
    · rw [h1] at hl; cases hl
  obtain ⟨hb, hw⟩ := hbody
  rw [← hb] at hle
  refine ⟨fun e he => ?_, ?_⟩
  · obtain ⟨k, hk', _⟩ := (lists_mem hle e).1 he
    exact stored_captured (hv k e hk') (hw e he)
  · obtain ⟨ks, h1, h2, h3⟩ := hle
    have hrel : Pointwise (fun k e => StoredOK evs k e) ks l := by
      have hks : ∀ k ∈ ks, ∃ e, view (Serve.run types evs).store k = some e := fun k hk' => by
        obtain ⟨e, he, _⟩ := (h2 k).1 hk'
        exact ⟨e, he⟩
      clear h1 h2 hb hw hl hi
      induction ks generalizing l with
      | nil =>
        cases l with
        | nil => trivial
        | cons _ _ => simp at h3
      | cons k ks ih =>
        cases l with
        | nil => simp at h3
        | cons e l =>
          simp only [List.map_cons, List.cons.injEq] at h3
          exact ⟨hv k e h3.1.symm, ih h3.2 (fun k hk' => hks k (List.mem_cons_of_mem _ hk'))⟩
    refine pointwise_pairwise (G := fun _ => True) (P := (· ≠ ·)) ?_ hrel (fun _ _ => trivial) h1
    rintro k k' e e' hs hs' _ _ hne ⟨_, _, hid⟩
    obtain ⟨id, i1, i2⟩ := hs.key
    obtain ⟨id', i3, i4⟩ := hs'.key
    apply hne
    rw [i2, i4]
    have h5 : ∀ {r : GoRec GoTime} {id : String}, vanIdentity r = .ok id → idOfRecord r = some id := by
      intro r id h
      cases r with
      | nil => cases h
      | nilPointer n => cases h
      | value r => simp only [vanIdentity, recIdentity, Res.ok.injEq] at h; subst h; simp only [idOfRecord]; cases r.mem [0, 0] <;> rfl
      | pointer r => simp only [vanIdentity, recIdentity, Res.ok.injEq] at h; subst h; simp only [idOfRecord]; cases r.mem [0, 0] <;> rfl
    have h6 := h5 i1
    have h7 := h5 i3
    unfold idOf at hid
    rw [h6, h7] at hid
    rw [Option.some.inj hid]

/-- C82, the part that holds: what the record server answers to "/", after any history in which the records of one ID are of one kind, can be uploaded as a fixture; the upload is accepted, and the store of
each source lists exactly the captured entries of that source that are of configured types, with everything as it was.  Missing: the condition on the IDs cannot be dropped (`C82_counterexample`), and the
answer is empty when a time cannot be written (C78). -/
theorem C82_capture_partial {types : List String} {evs : List ServeEv} (hr : ∀ p ∈ receivedRecords evs, Received p.1 ∧ p.2.nsec < 1000000000) (hk : OneKindPerID evs) {a : HttpAnswer}
    (ha : serveRoot (Serve.run types evs).store "/" = .ok a) {l : List (Entry (GoRec GoTime))} (hl : a.body = some l) (fold : String → String) (flows logs : Bool) :
    ∃ j cfg, jsonOfResponse l = some j ∧ uploadJson fold flows logs j = some (.ok cfg) ∧ cfg.WF ∧ ∀ src,
      ((l.filter fun e => e.md.source = src ∧ configured flows logs e.typeMeta) = [] → cfg.get? src = none) ∧
      ((l.filter fun e => e.md.source = src ∧ configured flows logs e.typeMeta) ≠ [] → ∃ c es es', cfg.get? src = some c ∧ c.list none 0 = .ok { entries := es, cont := "" } ∧
        es.Perm es' ∧ Pointwise SameEntry (l.filter fun e => e.md.source = src ∧ configured flows logs e.typeMeta) es') := by
  obtain ⟨h1, h2⟩ := served_entries hr hk ha hl
  exact C82_list h1 h2 fold flows logs

/-! ## Two kinds under one ID -/

/-- Attributes of a router and of a site with the same ID. -/
def twinRouter : Attrs := [(.u32 0, .u32 1), (.u32 1, .str "x"), (.u32 22, .str "host1")]
def twinSite : Attrs := [(.u32 0, .u32 0), (.u32 1, .str "x"), (.u32 9, .str "loc1")]

/-- The record with these attributes. -/
def recordOf (a : Attrs) : GoRec GoTime :=
  match decode vanEnv vanRegistry (some a) with
  | .ok r => r
  | _ => .nil

theorem twins_received : Received (recordOf twinRouter) ∧ Received (recordOf twinSite) := by
  have key : ∀ a, (decode vanEnv vanRegistry (some a)).isOk = true → isRecord (recordOf a) = true → Received (recordOf a) := by
    intro a h1 h2
    refine ⟨a, ?_, h2⟩
    unfold recordOf
    cases hd : decode vanEnv vanRegistry (some a) with
    | ok r => rfl
    | err m => rw [hd] at h1; cases h1
    | panic m => rw [hd] at h1; cases h1
  exact ⟨key _ (by decide +kernel) (by decide +kernel), key _ (by decide +kernel) (by decide +kernel)⟩

/-- One source sends both. -/
def twinEvs : List ServeEv := [.discovered exRouterInfo true, .records (refOf exRouterInfo) [(recordOf twinRouter, t0), (recordOf twinSite, t0)]]

/-- The kinds and locations of entries. -/
def kindsOf (l : List (Entry (GoRec GoTime))) : List (TypeMeta × Option String × Option (FVal GoTime)) :=
  l.map fun e => (e.typeMeta, kindOf e.record, fieldOf [1] e.record)

/-- The answer for the twins. -/
def twinAnswer : List (Entry (GoRec GoTime)) :=
  match serveRoot (Serve.run ["SiteRecord", "RouterRecord"] twinEvs).store "/" with
  | .ok { body := some l, .. } => l
  | _ => []

/-- The entries of a store. -/
def entriesIn (c : Option (Cache (GoRec GoTime))) : List (Entry (GoRec GoTime)) :=
  match c with
  | none => []
  | some c =>
    match c.list none 0 with
    | .ok r => r.entries
    | _ => []

/-- What the store of the source lists after the upload of the answer. -/
def twinLoaded : List (Entry (GoRec GoTime)) :=
  match (jsonOfResponse twinAnswer).bind (uploadJson id false false) with
  | some (.ok cfg) => entriesIn (cfg.get? (refOf exRouterInfo))
  | _ => []

/-- C82 is false without the condition: a router and a site with one ID become one entry that says router and holds a site; uploaded, it is a router without the location that was captured. -/
theorem C82_counterexample :
    (∀ p ∈ receivedRecords twinEvs, Received p.1 ∧ p.2.nsec < 1000000000) ∧
    kindsOf twinAnswer = [(⟨"flow/v1", "RouterRecord"⟩, some "SiteRecord", some (.ptr (.str "loc1")))] ∧
    kindsOf twinLoaded = [(⟨"flow/v1", "RouterRecord"⟩, some "RouterRecord", some .nilp)] := by
  refine ⟨?_, by decide +kernel, by decide +kernel⟩
  intro p hp
  have : p = (recordOf twinRouter, t0) ∨ p = (recordOf twinSite, t0) := by simpa [receivedRecords, twinEvs] using hp
  rcases this with rfl | rfl
  · exact ⟨twins_received.1, by decide⟩
  · exact ⟨twins_received.2, by decide⟩

/-- The site alone. -/
def soloEvs : List ServeEv := [.discovered exRouterInfo true, .records (refOf exRouterInfo) [(recordOf twinSite, t0)]]

def soloAnswer : List (Entry (GoRec GoTime)) :=
  match serveRoot (Serve.run ["SiteRecord", "RouterRecord"] soloEvs).store "/" with
  | .ok { body := some l, .. } => l
  | _ => []

def soloLoaded : List (Entry (GoRec GoTime)) :=
  match (jsonOfResponse soloAnswer).bind (uploadJson id false false) with
  | some (.ok cfg) => entriesIn (cfg.get? (refOf exRouterInfo))
  | _ => []

/-- Instance: the hypotheses of `C82_capture_partial` hold for the site alone, and its location arrives. -/
example : (∀ p ∈ receivedRecords soloEvs, Received p.1 ∧ p.2.nsec < 1000000000) ∧ OneKindPerID soloEvs ∧
    kindsOf soloLoaded = [(⟨"flow/v1", "SiteRecord"⟩, some "SiteRecord", some (.ptr (.str "loc1")))] := by
  have h : ∀ p ∈ receivedRecords soloEvs, p = (recordOf twinSite, t0) := by
    intro p hp
    simpa [receivedRecords, soloEvs] using hp
  refine ⟨?_, ?_, by decide +kernel⟩
  · intro p hp
    rw [h p hp]
    exact ⟨twins_received.2, by decide⟩
  · intro p hp q hq _
    rw [h p hp, h q hq]

end Verif.Props
