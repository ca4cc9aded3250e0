import Verif.Model.Compare
import Verif.Proofs.Wire

/-!
# A record that can be sent can be kept and published (C121)

The store and the manager compare the attributes of records with Go's `!=`, which panics on two values of one slice or map type.  A field type with its own encoder may encode to `[]byte`, which goes
through AMQP as it is.
-/
namespace Verif.Props
open Verif Verif.Model

/-- Go panics when it compares these two. -/
def Clash (a b : DynV) : Prop := ∃ ty c c', a = .ref ty c ∧ b = .ref ty c'

theorem goNe_panic {a b : DynV} : (goNe a b).isPanic = true ↔ Clash a b := by
  cases a with
  | cmp t c => cases b <;> simp [goNe, Clash]
  | ref t c =>
    cases b with
    | cmp t' c' => simp [goNe, Clash]
    | ref t' c' =>
      by_cases h : t = t'
      · subst h; simp [goNe, Clash]
      · simp only [goNe, h, if_false, Res.isPanic_ok, Bool.false_eq_true, false_iff]
        rintro ⟨ty, d, d', h1, h2⟩
        injection h1 with h1 _
        injection h2 with h2 _
        exact h (h1.trans h2.symm)

theorem goNe_ok {a b : DynV} (h : ¬ Clash a b) : ∃ ne, goNe a b = .ok ne := by
  cases a with
  | cmp t c => cases b <;> simp [goNe]
  | ref t c =>
    cases b with
    | cmp t' c' => simp [goNe]
    | ref t' c' =>
      by_cases h' : t = t'
      · subst h'; exact absurd ⟨t, c, c', rfl, rfl⟩ h
      · exact ⟨true, by simp [goNe, h']⟩

theorem Clash.symm {a b : DynV} (h : Clash a b) : Clash b a := by
  obtain ⟨ty, c, c', h1, h2⟩ := h
  exact ⟨ty, c', c, h2, h1⟩

/-- Two attribute sets clash at a key. -/
def ClashAt (next curr : DynAttrs) : Prop := ∃ k a b, next.get? k = some a ∧ curr.get? k = some b ∧ Clash a b

theorem clashAt_cons {k : Any} {v : DynV} {rest curr : DynAttrs} (hw : GMap.WF ((k, v) :: rest)) :
    ClashAt ((k, v) :: rest) curr ↔ (∃ b, curr.get? k = some b ∧ Clash v b) ∨ ClashAt rest curr := by
  simp only [GMap.WF, GMap.keys, List.map_cons, List.nodup_cons] at hw
  constructor
  · rintro ⟨k', a, b, h1, h2, h3⟩
    rw [GMap.get?_cons] at h1
    by_cases hk : k = k'
    · subst hk
      rw [if_pos rfl] at h1
      injection h1 with h1
      subst h1
      exact .inl ⟨b, h2, h3⟩
    · rw [if_neg hk] at h1
      exact .inr ⟨k', a, b, h1, h2, h3⟩
  · rintro (⟨b, h2, h3⟩ | ⟨k', a, b, h1, h2, h3⟩)
    · exact ⟨k, v, b, by rw [GMap.get?_cons, if_pos rfl], h2, h3⟩
    · refine ⟨k', a, b, ?_, h2, h3⟩
      have : k ≠ k' := by
        rintro rfl
        exact hw.1 (GMap.mem_keys_of_mem (GMap.mem_of_get? h1))
      rw [GMap.get?_cons, if_neg this, h1]

/-- What was written for a key that is not to come does not matter. -/
theorem clashAt_set {k : Any} {v : DynV} {rest curr : DynAttrs} (hk : k ∉ rest.keys) : ClashAt rest (curr.set k v) ↔ ClashAt rest curr := by
  have key : ∀ k' a, rest.get? k' = some a → k ≠ k' := by
    rintro k' a h1 rfl
    exact hk (GMap.mem_keys_of_mem (GMap.mem_of_get? h1))
  constructor
  · rintro ⟨k', a, b, h1, h2, h3⟩
    rw [GMap.get?_set_ne _ _ (key k' a h1)] at h2
    exact ⟨k', a, b, h1, h2, h3⟩
  · rintro ⟨k', a, b, h1, h2, h3⟩
    exact ⟨k', a, b, h1, by rw [GMap.get?_set_ne _ _ (key k' a h1)]; exact h2, h3⟩

/-- The loop of the patcher panics if and only if the two records have an attribute of one slice or map type in common; it never fails otherwise. -/
theorem C121_merge_panics {next : DynAttrs} (hw : next.WF) (curr : DynAttrs) (changed : Bool) :
    ((mergeLoopGo next curr changed).isPanic = true ↔ ClashAt next curr) ∧ (mergeLoopGo next curr changed).isErr = false := by
  induction next generalizing curr changed with
  | nil =>
    refine ⟨?_, rfl⟩
    simp [mergeLoopGo, ClashAt]
  | cons p rest ih =>
    obtain ⟨k, v⟩ := p
    have hw' := hw
    simp only [GMap.WF, GMap.keys, List.map_cons, List.nodup_cons] at hw'
    have ih := ih hw'.2
    rw [clashAt_cons hw]
    unfold mergeLoopGo
    cases hc : curr.get? k with
    | none =>
      refine ⟨?_, (ih _ _).2⟩
      rw [(ih _ _).1, clashAt_set hw'.1]
      simp
    | some cV =>
      by_cases hcl : Clash cV v
      · have hp := goNe_panic.2 hcl
        cases hg : goNe cV v with
        | ok b => rw [hg] at hp; exact absurd hp (by simp)
        | err b => rw [hg] at hp; exact absurd hp (by simp)
        | panic m =>
          simp only [hg, Res.bind_panic, Res.isPanic_panic, Res.isErr_panic, true_iff, and_true]
          exact .inl ⟨cV, rfl, hcl.symm⟩
      · obtain ⟨ne, hne⟩ := goNe_ok hcl
        have hno : ¬ ∃ b, some cV = some b ∧ Clash v b := by
          rintro ⟨b, hb, h⟩
          injection hb with hb
          subst hb
          exact hcl h.symm
        cases ne with
        | true =>
          simp only [hne, Res.bind_ok, if_true]
          refine ⟨?_, (ih _ _).2⟩
          rw [(ih _ _).1, clashAt_set hw'.1]
          exact (or_iff_right hno).symm
        | false =>
          simp only [hne, Res.bind_ok, Bool.false_eq_true, if_false]
          refine ⟨?_, (ih _ _).2⟩
          rw [(ih _ _).1]
          exact (or_iff_right hno).symm

/-- So does the loop of diffRecord. -/
theorem C121_diff_panics {next : DynAttrs} (hw : next.WF) (prev delta : DynAttrs) (isDiff : Bool) :
    ((diffLoopGo prev next delta isDiff).isPanic = true ↔ ClashAt next prev) ∧ (diffLoopGo prev next delta isDiff).isErr = false := by
  induction next generalizing delta isDiff with
  | nil =>
    refine ⟨?_, rfl⟩
    simp [diffLoopGo, ClashAt]
  | cons p rest ih =>
    obtain ⟨k, v⟩ := p
    have hw' := hw
    simp only [GMap.WF, GMap.keys, List.map_cons, List.nodup_cons] at hw'
    have ih := ih hw'.2
    rw [clashAt_cons hw]
    unfold diffLoopGo
    cases hc : prev.get? k with
    | none =>
      refine ⟨?_, (ih _ _).2⟩
      rw [(ih _ _).1]
      simp
    | some pv =>
      by_cases hcl : Clash v pv
      · have hp := goNe_panic.2 hcl
        cases hg : goNe v pv with
        | ok b => rw [hg] at hp; exact absurd hp (by simp)
        | err b => rw [hg] at hp; exact absurd hp (by simp)
        | panic m =>
          simp only [hg, Res.bind_panic, Res.isPanic_panic, Res.isErr_panic, true_iff, and_true]
          exact .inl ⟨pv, rfl, hcl⟩
      · obtain ⟨ne, hne⟩ := goNe_ok hcl
        have hno : ¬ ∃ b, some pv = some b ∧ Clash v b := by
          rintro ⟨b, hb, h⟩
          injection hb with hb
          subst hb
          exact hcl h
        have step : ∀ (b : DynAttrs) (c : Bool), ((diffLoopGo prev rest b c).isPanic = true ↔ (∃ b, some pv = some b ∧ Clash v b) ∨ ClashAt rest prev) ∧
            (diffLoopGo prev rest b c).isErr = false := by
          intro b c
          refine ⟨?_, (ih _ _).2⟩
          rw [(ih _ _).1]
          exact (or_iff_right hno).symm
        simp only [hne, Res.bind_ok]
        split
        · exact step _ _
        · split
          · exact step _ _
          · exact step _ _

/-- The first record of a key is taken, the second panics: for every record type, if the two have attributes of one slice or map type in common.  The entry is as it was. -/
theorem C121_second_panics {R : Type} (ty : DynRec R) {s : DynStore R} {old r : R} {a b : DynAttrs} (hs : s.get? (ty.key r) = some old) (ha : ty.encode old = .ok a) (hb : ty.encode r = .ok b)
    (hw : b.WF) (hc : ClashAt b a) : ∃ m, accumulateGo ty s r = (s, .panic m) := by
  have h := (C121_merge_panics hw a false).1.2 hc
  unfold accumulateGo
  rw [hs]
  simp only [ha, hb, Res.bind_ok]
  cases hm : mergeLoopGo b a false with
  | ok x => rw [hm] at h; exact absurd h (by simp)
  | err x => rw [hm] at h; exact absurd h (by simp)
  | panic m => exact ⟨m, rfl⟩

/-- An update that does not change the record panics in the manager as well. -/
theorem C121_update_panics {R : Type} (ty : DynRec R) {prev curr : R} {a b : DynAttrs} (ha : ty.encode prev = .ok a) (hb : ty.encode curr = .ok b) (hw : b.WF) (hc : ClashAt b a) :
    ∃ m, diffRecordGo ty prev curr = .panic m := by
  have h := (C121_diff_panics hw a [] false).1.2 hc
  unfold diffRecordGo
  simp only [ha, hb]
  cases hm : diffLoopGo a b [] false with
  | ok x => rw [hm] at h; exact absurd h (by simp)
  | err x => rw [hm] at h; exact absurd h (by simp)
  | panic m => exact ⟨m, rfl⟩

/-- A record type with an identity and a digest, whose type encodes to `[]byte`. -/
def digestType : DynRec (String × List UInt8) where
  key := Prod.fst
  encode := fun r => .ok [(.u32 0, .cmp "" (.u32 77)), (.u32 1, .cmp "" (.str r.1)), (.u32 2, .ref "[]byte" (.bin r.2))]
  decode := fun a =>
    match a.get? (.u32 1), a.get? (.u32 2) with
    | some (.cmp _ (.str s)), some (.ref _ (.bin b)) => .ok (s, b)
    | some (.cmp _ (.str s)), none => .ok (s, [])
    | _, _ => .err "decode error"

/-- What `C121` would like to be true: records that survive being sent can be accumulated, and their updates published. -/
def Keepable {R : Type} (ty : DynRec R) : Prop :=
  (∀ (r : R) (s : DynStore R), (accumulateGo ty s r).2 = .ok ()) ∧ ∀ prev curr : R, (diffRecordGo ty prev curr).isOk = true

/-- It is not: the records of `digestType` are encoded without error and decoded to what they were, and the digest goes through AMQP octet for octet, but accumulating one a second time panics, and so
does publishing an update of one. -/
theorem C121_counterexample :
    (∀ r, ∃ a, digestType.encode r = .ok a ∧ digestType.decode a = .ok r) ∧
    (∀ bs rest, (marshal (.bin bs)).length < 2 ^ 32 → readWire (marshal (.bin bs) ++ rest) = some (.bin bs, rest)) ∧
    (∀ (s : DynStore (String × List UInt8)) r, s.get? r.1 = none → ∃ s' m, accumulateGo digestType s r = (s', .ok ()) ∧ accumulateGo digestType s' r = (s', .panic m)) ∧
    (∀ id d d', ∃ m, diffRecordGo digestType (id, d) (id, d') = .panic m) ∧ ¬ Keepable digestType := by
  have clash : ∀ (r r' : String × List UInt8) (a b : DynAttrs), digestType.encode r = .ok a → digestType.encode r' = .ok b → b.WF ∧ ClashAt b a := by
    intro r r' a b h1 h2
    simp only [digestType, Res.ok.injEq] at h1 h2
    subst h1 h2
    exact ⟨by simp [GMap.WF, GMap.keys], .u32 2, .ref "[]byte" (.bin r'.2), .ref "[]byte" (.bin r.2), by simp [GMap.get?], by simp [GMap.get?], "[]byte", _, _, rfl, rfl⟩
  have upd : ∀ id d d', ∃ m, diffRecordGo digestType (id, d) (id, d') = .panic m := by
    intro id d d'
    obtain ⟨h1, h2⟩ := clash (id, d) (id, d') _ _ rfl rfl
    exact C121_update_panics digestType rfl rfl h1 h2
  refine ⟨fun r => ⟨_, rfl, by simp [digestType, GMap.get?]⟩, ?_, ?_, upd, ?_⟩
  · intro bs rest hl
    exact Proofs.readWire_enc (Proofs.marshal_enc (.bin bs) (by simp [Spec.Paired]) hl) rest
  · intro s r h
    have h1 : accumulateGo digestType s r = (s.set r.1 r, .ok ()) := by
      unfold accumulateGo
      rw [show digestType.key r = r.1 from rfl, h]
    obtain ⟨h2, h3⟩ := clash r r _ _ rfl rfl
    obtain ⟨m, hm⟩ := C121_second_panics digestType (s := s.set r.1 r) (r := r) (by rw [show digestType.key r = r.1 from rfl]; exact GMap.get?_set_self _ _ _) rfl rfl h2 h3
    exact ⟨_, m, h1, hm⟩
  · rintro ⟨_, h⟩
    obtain ⟨m, hm⟩ := upd "a" [] []
    have := h ("a", []) ("a", [])
    rw [hm] at this
    exact absurd this (by simp)

/-- Record types all of whose attributes are of comparable types can be kept and published, if the attributes of two of their records together can be decoded.  What is missing for the property:
types that encode to slices or maps, where it is false. -/
theorem C121_keepable_partial {R : Type} (ty : DynRec R) (henc : ∀ r, ∃ a, ty.encode r = .ok a ∧ a.WF ∧ ∀ k v, a.get? k = some v → ∃ t c, v = .cmp t c)
    (hdec : ∀ a, (ty.decode a).isPanic = false) (hmerge : ∀ old r a b ch m, ty.key old = ty.key r → ty.encode old = .ok a → ty.encode r = .ok b → mergeLoopGo b a false = .ok (ch, m) → (ty.decode m).isOk = true)
    {s : DynStore R} (hs : ∀ k r, s.get? k = some r → ty.key r = k) :
    (∀ r, (accumulateGo ty s r).2 = .ok ()) ∧ ∀ prev curr : R, (diffRecordGo ty prev curr).isOk = true := by
  have noclash : ∀ r r' a b, ty.encode r = .ok a → ty.encode r' = .ok b → b.WF ∧ ¬ ClashAt b a := by
    intro r r' a b h1 h2
    obtain ⟨a', e1, _, _⟩ := henc r
    obtain ⟨b', e2, w2, c2⟩ := henc r'
    rw [h2] at e2
    injection e2 with e2
    subst e2
    refine ⟨w2, ?_⟩
    rintro ⟨k, x, y, h3, h4, ty', c, c', h5, h6⟩
    obtain ⟨t, d, h7⟩ := c2 k x h3
    rw [h7] at h5
    exact absurd h5 (by simp)
  constructor
  · intro r
    unfold accumulateGo
    cases h : s.get? (ty.key r) with
    | none => rfl
    | some old =>
      obtain ⟨a, ha, _, _⟩ := henc old
      obtain ⟨b, hb, _, _⟩ := henc r
      obtain ⟨hw, hn⟩ := noclash _ _ _ _ ha hb
      have h1 := C121_merge_panics hw a false
      simp only [ha, hb, Res.bind_ok]
      cases hm : mergeLoopGo b a false with
      | err e => rw [hm] at h1; exact absurd h1.2 (by simp)
      | panic e => rw [hm] at h1; exact absurd (h1.1.1 rfl) hn
      | ok x =>
        obtain ⟨ch, m⟩ := x
        cases ch with
        | false => rfl
        | true =>
          have := hmerge old r a b true m (hs _ _ h) ha hb hm
          cases hd : ty.decode m with
          | ok x => simp only [hd]
          | err e => rw [hd] at this; exact absurd this (by simp)
          | panic e => rw [hd] at this; exact absurd this (by simp)
  · intro prev curr
    obtain ⟨a, ha, _, _⟩ := henc prev
    obtain ⟨b, hb, _, _⟩ := henc curr
    obtain ⟨hw, hn⟩ := noclash _ _ _ _ ha hb
    have h1 := C121_diff_panics hw a [] false
    unfold diffRecordGo
    simp only [ha, hb]
    cases hm : diffLoopGo a b [] false with
    | err e => rw [hm] at h1; exact absurd h1.2 (by simp)
    | panic e => rw [hm] at h1; exact absurd (h1.1.1 rfl) hn
    | ok x =>
      obtain ⟨m, ch⟩ := x
      cases ch with
      | false => rfl
      | true =>
        have := hdec m
        cases hd : ty.decode m with
        | ok x => simp only [hd, Res.isOk_ok]
        | err e => simp only [hd, Res.isOk_ok]
        | panic e => rw [hd] at this; exact absurd this (by simp)

/-- A record type with an identity and a count. -/
def countType : DynRec (String × UInt64) where
  key := Prod.fst
  encode := fun r => .ok [(.u32 0, .cmp "" (.u32 78)), (.u32 1, .cmp "" (.str r.1)), (.u32 2, .cmp "" (.u64 r.2))]
  decode := fun a =>
    match a.get? (.u32 1), a.get? (.u32 2) with
    | some (.cmp _ (.str s)), some (.cmp _ (.u64 n)) => .ok (s, n)
    | some (.cmp _ (.str s)), none => .ok (s, 0)
    | _, _ => .err "decode error"

/-- Its records can be kept and published, and are merged: the second value replaces the first. -/
example : (∀ r, (accumulateGo countType [("a", ("a", 5))] r).2 = .ok ()) ∧ accumulateGo countType [("a", ("a", 5))] ("a", 7) = ([("a", ("a", 7))], .ok ()) := by
  refine ⟨(C121_keepable_partial countType ?_ ?_ ?_ ?_).1, rfl⟩
  · intro r
    refine ⟨_, rfl, by simp [GMap.WF, GMap.keys], ?_⟩
    intro k v h
    have := GMap.mem_of_get? h
    simp only [List.mem_cons, Prod.mk.injEq, List.not_mem_nil, or_false] at this
    rcases this with ⟨_, rfl⟩ | ⟨_, rfl⟩ | ⟨_, rfl⟩ <;> exact ⟨_, _, rfl⟩
  · intro a
    simp only [countType]
    split <;> rfl
  · rintro ⟨i, n⟩ ⟨i', n'⟩ a b ch m hk ha hb h
    simp only [countType, Res.ok.injEq] at hk ha hb
    subst hk ha hb
    by_cases hn : n = n'
    · simp [mergeLoopGo, goNe, GMap.get?, GMap.set, hn] at h
      rw [← h.2]
      simp [countType, GMap.get?]
    · simp [mergeLoopGo, goNe, GMap.get?, GMap.set, hn] at h
      rw [← h.2]
      simp [countType, GMap.get?]
  · intro k r h
    simp only [GMap.get?] at h
    split at h
    · injection h with h; subst h; assumption
    · exact absurd h (by simp)

theorem get?_scalars (a : Attrs) (k : Any) : (scalars a).get? k = (a.get? k).map (DynV.cmp "") := by
  induction a with
  | nil => rfl
  | cons p a ih =>
    obtain ⟨k', v⟩ := p
    show GMap.get? ((k', DynV.cmp "" v) :: scalars a) k = _
    rw [GMap.get?_cons, GMap.get?_cons, ih]
    split <;> rfl

theorem set_scalars (a : Attrs) (k v : Any) : (scalars a).set k (.cmp "" v) = scalars (a.set k v) := by
  induction a with
  | nil => rfl
  | cons p a ih =>
    obtain ⟨k', v'⟩ := p
    show GMap.set ((k', DynV.cmp "" v') :: scalars a) k _ = _
    simp only [GMap.set]
    split
    · rfl
    · rw [ih]; rfl

/-- On scalar attributes, which all the records of vanflow have (and times, encoded as numbers), the loops are those of `Verif.Model.mergeLoop` and `Verif.Model.diffLoop`. -/
theorem C121_scalars (a b delta : Attrs) (ch : Bool) :
    mergeLoopGo (scalars b) (scalars a) ch = .ok ((mergeLoop b a ch).1, scalars (mergeLoop b a ch).2) ∧
    diffLoopGo (scalars a) (scalars b) (scalars delta) ch = .ok (scalars (diffLoop a b delta ch).1, (diffLoop a b delta ch).2) := by
  constructor
  · induction b generalizing a ch with
    | nil => rfl
    | cons p b ih =>
      obtain ⟨k, v⟩ := p
      show mergeLoopGo ((k, DynV.cmp "" v) :: scalars b) (scalars a) ch = _
      unfold mergeLoopGo mergeLoop
      rw [get?_scalars]
      cases h : a.get? k with
      | none => simp only [Option.map_none, set_scalars, ih]
      | some cV =>
        simp only [Option.map_some, goNe, ne_eq, not_true_eq_false, false_or, Res.bind_ok, set_scalars]
        by_cases hv : cV = v
        · simp only [hv, not_true_eq_false, decide_false, Bool.false_eq_true, if_false, ih]
        · simp only [hv, not_false_eq_true, decide_true, if_true, ih]
  · induction b generalizing delta ch with
    | nil => rfl
    | cons p b ih =>
      obtain ⟨k, v⟩ := p
      show diffLoopGo (scalars a) ((k, DynV.cmp "" v) :: scalars b) (scalars delta) ch = _
      unfold diffLoopGo diffLoop
      rw [get?_scalars]
      cases h : a.get? k with
      | none => simp only [Option.map_none, set_scalars, ih]
      | some pv =>
        simp only [Option.map_some, goNe, ne_eq, not_true_eq_false, false_or, Res.bind_ok, set_scalars]
        by_cases hv : v = pv
        · simp only [hv, not_true_eq_false, decide_false, Bool.false_eq_true, if_false, ih]
          split <;> rfl
        · simp only [hv, not_false_eq_true, decide_true, if_true, ih]

/-- Site records with times: a scalar type is kept, compared and published. -/
example : mergeLoopGo (scalars [(.u32 0, .u32 0), (.u32 1, .str "a"), (.u32 3, .u64 7)]) (scalars [(.u32 0, .u32 0), (.u32 1, .str "a"), (.u32 3, .u64 5)]) false =
    .ok (true, scalars [(.u32 0, .u32 0), (.u32 1, .str "a"), (.u32 3, .u64 7)]) :=
  (C121_scalars [(.u32 0, .u32 0), (.u32 1, .str "a"), (.u32 3, .u64 5)] [(.u32 0, .u32 0), (.u32 1, .str "a"), (.u32 3, .u64 7)] [] false).1

/-- Go finds two values equal exactly if they are of the same comparable type and have the same content. -/
theorem C121_equal {a b : DynV} : goNe a b = .ok false ↔ ∃ t c, a = .cmp t c ∧ b = .cmp t c := by
  cases a with
  | cmp t c =>
    cases b with
    | cmp t' c' =>
      simp only [goNe, Res.ok.injEq, decide_eq_false_iff_not, not_or, Decidable.not_not, DynV.cmp.injEq]
      constructor
      · rintro ⟨rfl, rfl⟩; exact ⟨t, c, ⟨rfl, rfl⟩, rfl, rfl⟩
      · rintro ⟨_, _, ⟨rfl, rfl⟩, rfl, rfl⟩; exact ⟨rfl, rfl⟩
    | ref t' c' => simp [goNe]
  | ref t c =>
    cases b with
    | cmp t' c' => simp [goNe]
    | ref t' c' =>
      by_cases h : t = t'
      · simp [goNe, h]
      · simp [goNe, h]

/-- What an update publishes: a record exactly if both records can be encoded, the comparison finds a difference, and what it found can be decoded; that record. -/
theorem C121_published {R : Type} (ty : DynRec R) (prev curr r : R) :
    diffRecordGo ty prev curr = .ok (some r) ↔
      ∃ p n delta, ty.encode prev = .ok p ∧ ty.encode curr = .ok n ∧ diffLoopGo p n [] false = .ok (delta, true) ∧ ty.decode delta = .ok r := by
  constructor
  · intro h
    unfold diffRecordGo at h
    cases hp : ty.encode prev with
    | panic m => simp [hp] at h
    | err e => simp [hp] at h
    | ok p =>
      cases hn : ty.encode curr with
      | panic m => simp [hp, hn] at h
      | err e => simp [hp, hn] at h
      | ok n =>
        cases hd : diffLoopGo p n [] false with
        | panic m => simp [hp, hn, hd] at h
        | err e => simp [hp, hn, hd] at h
        | ok x =>
          obtain ⟨delta, b⟩ := x
          cases b with
          | false => simp [hp, hn, hd] at h
          | true =>
            cases hr : ty.decode delta with
            | panic m => simp [hp, hn, hd, hr] at h
            | err e => simp [hp, hn, hd, hr] at h
            | ok r' =>
              simp only [hp, hn, hd, hr, Res.ok.injEq, Option.some.injEq] at h
              subst h
              exact ⟨p, n, delta, rfl, rfl, hd, hr⟩
  · rintro ⟨p, n, delta, hp, hn, hd, hr⟩
    simp [diffRecordGo, hp, hn, hd, hr]

/-- A panic of a type's own encoder or decoder is not caught. -/
theorem C121_uncaught {R : Type} (ty : DynRec R) (prev curr : R) :
    ((ty.encode prev).isPanic = true → (diffRecordGo ty prev curr).isPanic = true) ∧
    ((ty.encode prev).isOk = true → (ty.encode curr).isPanic = true → (diffRecordGo ty prev curr).isPanic = true) := by
  constructor
  · intro h
    cases hp : ty.encode prev <;> simp_all [diffRecordGo]
  · intro h h'
    cases hp : ty.encode prev <;> cases hn : ty.encode curr <;> simp_all [diffRecordGo, Res.isOk]

example : diffRecordGo countType ("a", 5) ("a", 7) = .ok (some ("a", 7)) ∧ goNe (.ref "[]byte" (.bin [1])) (.cmp "" (.u64 1)) = .ok true := by
  constructor <;> rfl

end Verif.Props
