import Verif.Spec.Routes
import Verif.Props.Serve

/-!
# C95: each listed path is answered by its own handler
-/
namespace Verif.Props
open Verif Verif.Model Verif.Spec

/-! ## Cleaning paths -/

theorem parts_name {s : List Char} (hs : '/' ∉ s) (q : UrlPath) : pathParts (s ++ '/' :: q) = s :: pathParts q := by
  induction s with
  | nil => simp [pathParts]
  | cons c s ih =>
    have hc : c ≠ '/' := fun e => hs (by simp [e])
    have := ih (fun h => hs (by simp [h]))
    simp [pathParts, hc, this]

theorem parts_last {s : List Char} (hs : '/' ∉ s) : pathParts s = [s] := by
  induction s with
  | nil => rfl
  | cons c s ih =>
    have hc : c ≠ '/' := fun e => hs (by simp [e])
    have := ih (fun h => hs (by simp [h]))
    simp [pathParts, hc, this]

theorem parts_ne (p : UrlPath) : pathParts p ≠ [] := by
  cases p with
  | nil => simp [pathParts]
  | cons c p =>
    simp only [pathParts]
    split
    · simp
    · split <;> simp

theorem parts_noslash (p : UrlPath) : ∀ s ∈ pathParts p, '/' ∉ s := by
  induction p with
  | nil => intro s hs; simp [pathParts] at hs; simp [hs]
  | cons c p ih =>
    intro s hs
    simp only [pathParts] at hs
    split at hs
    · simp only [List.mem_cons] at hs
      rcases hs with rfl | hs
      · simp
      · exact ih s hs
    · next hc =>
      split at hs
      · next t ts e =>
        simp only [List.mem_cons] at hs
        rcases hs with rfl | hs
        · have := ih t (by rw [e]; simp)
          simp only [List.mem_cons, not_or]
          exact ⟨fun e => hc e.symm, this⟩
        · exact ih s (by rw [e]; simp [hs])
      · simp only [List.mem_singleton] at hs
        subst hs
        simp only [List.mem_singleton]
        exact fun e => hc e.symm

theorem parts_dir (names : List (List Char)) (h : ∀ s ∈ names, GoodName s) : pathParts (dirPath names) = [] :: names ++ [[]] := by
  have : pathParts (names.flatMap (fun s => s ++ ['/'])) = names ++ [[]] := by
    induction names with
    | nil => rfl
    | cons s names ih =>
      have := ih (fun s hs => h s (by simp [hs]))
      simp only [List.flatMap_cons, List.append_assoc, List.singleton_append]
      rw [parts_name (h s (by simp)).2.2.2, this]; rfl
  simp [dirPath, pathParts, this]

theorem cleanParts_good {ss : List (List Char)} (acc : List (List Char)) (h : ∀ s ∈ ss, '/' ∉ s) (ha : ∀ s ∈ acc, GoodName s) : ∀ s ∈ cleanParts acc ss, GoodName s := by
  induction ss generalizing acc with
  | nil => intro s hs; simp only [cleanParts, List.mem_reverse] at hs; exact ha s hs
  | cons t ss ih =>
    have h' : ∀ s ∈ ss, '/' ∉ s := fun s hs => h s (by simp [hs])
    simp only [cleanParts]
    split
    · exact ih acc h' ha
    · next h1 =>
      split
      · exact ih _ h' (fun s hs => ha s (List.mem_of_mem_tail hs))
      · next h2 =>
        refine ih _ h' ?_
        intro s hs
        simp only [List.mem_cons] at hs
        rcases hs with rfl | hs
        · exact ⟨fun e => h1 (.inl e), fun e => h1 (.inr e), h2, h s (by simp)⟩
        · exact ha s hs

theorem cleanParts_names (names : List (List Char)) (h : ∀ s ∈ names, GoodName s) (acc rest : List (List Char)) :
    cleanParts acc (names ++ rest) = cleanParts (names.reverse ++ acc) rest := by
  induction names generalizing acc with
  | nil => rfl
  | cons s names ih =>
    have hs := h s (by simp)
    have := ih (fun s hs => h s (by simp [hs])) (s :: acc)
    simp only [List.cons_append, cleanParts, hs.1, hs.2.1, hs.2.2.1, or_self, if_false, this, List.reverse_cons, List.append_assoc, List.nil_append]

/-- the two ways to write a path -/
theorem render_dir (names : List (List Char)) : renderPath names true = dirPath names := by
  have : ∀ names : List (List Char), names.flatMap (fun s => '/' :: s) ++ ['/'] = '/' :: names.flatMap (fun s => s ++ ['/']) := by
    intro names
    induction names with
    | nil => rfl
    | cons s names ih => simp [ih]
  cases names with
  | nil => rfl
  | cons s names => simp only [renderPath, if_true, this, dirPath]

theorem render_file {names : List (List Char)} (hn : names ≠ []) : renderPath names false ++ ['/'] = dirPath names := by
  cases names with
  | nil => exact absurd rfl hn
  | cons s names =>
    have := render_dir (s :: names)
    simp only [renderPath, if_true] at this
    simpa [renderPath] using this

theorem dirPath_last (names : List (List Char)) : (dirPath names).getLast? = some '/' := by
  rw [← render_dir]
  cases names with
  | nil => rfl
  | cons s names => simp only [renderPath, if_true]; rw [List.getLast?_append]; rfl

/-- A path without slash at its end whose directory form is `dirPath names`. -/
theorem file_last {p : UrlPath} {names : List (List Char)} (h : ∀ s ∈ names, GoodName s) (hn : names ≠ []) (hp : p ++ ['/'] = dirPath names) : p.getLast? ≠ some '/' := by
  obtain ⟨init, s, rfl⟩ : ∃ init s, names = init ++ [s] := ⟨_, _, (List.dropLast_concat_getLast hn).symm⟩
  have hs := h s (by simp)
  have e : p = '/' :: init.flatMap (fun s => s ++ ['/']) ++ s := by
    have : dirPath (init ++ [s]) = ('/' :: init.flatMap (fun s => s ++ ['/']) ++ s) ++ ['/'] := by simp [dirPath]
    rw [this] at hp
    exact List.append_cancel_right hp
  rw [e]
  cases hsl : s.getLast? with
  | none => rw [List.getLast?_eq_none_iff] at hsl; exact absurd hsl hs.1
  | some c =>
    rw [List.getLast?_append, hsl]
    simp only [Option.some_or, ne_eq, Option.some.injEq]
    intro e; subst e
    exact hs.2.2.2 (List.mem_of_getLast? hsl)

theorem parts_file {p : UrlPath} {names : List (List Char)} (h : ∀ s ∈ names, GoodName s) (hn : names ≠ []) (hp : p ++ ['/'] = dirPath names) : pathParts p = [] :: names := by
  obtain ⟨init, s, rfl⟩ : ∃ init s, names = init ++ [s] := ⟨_, _, (List.dropLast_concat_getLast hn).symm⟩
  have e : p = '/' :: init.flatMap (fun s => s ++ ['/']) ++ s := by
    have : dirPath (init ++ [s]) = ('/' :: init.flatMap (fun s => s ++ ['/']) ++ s) ++ ['/'] := by simp [dirPath]
    rw [this] at hp
    exact List.append_cancel_right hp
  have key : ∀ init : List (List Char), (∀ s ∈ init, GoodName s) → pathParts (init.flatMap (fun s => s ++ ['/']) ++ s) = init ++ [s] := by
    intro init
    induction init with
    | nil => intro _; simpa using parts_last (h s (by simp)).2.2.2
    | cons t init ih =>
      intro hi
      simp only [List.flatMap_cons, List.append_assoc, List.cons_append]
      rw [parts_name (hi t (by simp)).2.2.2, List.nil_append, ih (fun s hs => hi s (by simp [hs]))]
  rw [e]
  simp only [List.cons_append, pathParts, if_true]
  rw [key init (fun s hs => h s (by simp [hs]))]

/-- `cleanPath` gives a path in its shortest form, and leaves such a path alone. -/
theorem clean_clean (p : UrlPath) : CleanUrl (cleanPath p) := by
  have hg : ∀ s ∈ cleanParts [] (pathParts p), GoodName s := cleanParts_good [] (parts_noslash p) (by simp)
  refine ⟨cleanParts [] (pathParts p), hg, ?_⟩
  simp only [cleanPath]
  by_cases hl : p.getLast? = some '/'
  · left; simp [hl, render_dir]
  · by_cases hn : cleanParts [] (pathParts p) = []
    · left; rw [hn]; rfl
    · right; refine ⟨hn, ?_⟩; simp [hl, render_file hn]

theorem clean_of {p : UrlPath} (h : CleanUrl p) : cleanPath p = p := by
  obtain ⟨names, hg, h | ⟨hn, h⟩⟩ := h
  · have e : cleanParts [] (pathParts p) = names := by
      rw [h, parts_dir names hg]
      have := cleanParts_names names hg [] [[]]
      simp [cleanParts] at this ⊢
      exact this
    rw [cleanPath, e, h, dirPath_last]
    simpa using render_dir names
  · have e : cleanParts [] (pathParts p) = names := by
      rw [parts_file hg hn h]
      have := cleanParts_names names hg [] []
      simp [cleanParts] at this ⊢
      exact this
    have hl := file_last hg hn h
    have := render_file hn
    rw [← h] at this
    have := List.append_cancel_right this
    rw [cleanPath, e]
    simpa [hl] using this

theorem clean_iff (p : UrlPath) : cleanPath p = p ↔ CleanUrl p := ⟨fun h => h ▸ clean_clean p, clean_of⟩

/-! ## Matching -/

/-- Patterns that have been registered: the map has them, and the sorted list those that end in a slash, longest first. -/
structure MuxOf {H : Type} (ps : List (UrlPath × H)) (mux : Mux H) : Prop where
  get : ∀ p h, mux.m.get? p = some h ↔ (p, h) ∈ ps
  mem : ∀ e, e ∈ mux.es ↔ e ∈ ps ∧ e.1.getLast? = some '/'
  sorted : mux.es.Pairwise (fun a b => b.1.length ≤ a.1.length)

theorem mem_appendSorted {H : Type} (es : List (UrlPath × H)) (e x : UrlPath × H) : x ∈ appendSorted es e ↔ x = e ∨ x ∈ es := by
  induction es with
  | nil => simp [appendSorted]
  | cons y es ih =>
    simp only [appendSorted]
    split
    · simp
    · simp only [List.mem_cons, ih]
      constructor
      · rintro (h | h | h) <;> simp [h]
      · rintro (h | h | h) <;> simp [h]

theorem appendSorted_sorted {H : Type} {es : List (UrlPath × H)} (e : UrlPath × H) (h : es.Pairwise (fun a b => b.1.length ≤ a.1.length)) :
    (appendSorted es e).Pairwise (fun a b => b.1.length ≤ a.1.length) := by
  induction es with
  | nil => simp [appendSorted]
  | cons y es ih =>
    rw [List.pairwise_cons] at h
    simp only [appendSorted]
    split
    · next hl =>
      refine List.pairwise_cons.mpr ⟨?_, List.pairwise_cons.mpr h⟩
      intro b hb
      simp only [List.mem_cons] at hb
      rcases hb with rfl | hb
      · omega
      · have := h.1 b hb; omega
    · next hl =>
      refine List.pairwise_cons.mpr ⟨?_, ih h.2⟩
      intro b hb
      rw [mem_appendSorted] at hb
      rcases hb with rfl | hb
      · omega
      · exact h.1 b hb

theorem handle_of {H : Type} {ps : List (UrlPath × H)} {mux mux' : Mux H} {p : UrlPath} {h : H} (hm : MuxOf ps mux) (he : mux.handle p h = .ok mux') :
    MuxOf (ps ++ [(p, h)]) mux' := by
  simp only [Mux.handle] at he
  split at he
  · cases he
  · split at he
    · cases he
    · next hn =>
      have hnone : mux.m.get? p = none := by cases hg : mux.m.get? p with
        | none => rfl
        | some x => rw [hg] at hn; simp at hn
      cases he
      refine ⟨?_, ?_, ?_⟩
      · intro q k
        simp only [GMap.get?_set, List.mem_append, List.mem_singleton, Prod.mk.injEq]
        split
        · next e =>
          subst e
          constructor
          · intro e; cases e; simp
          · rintro (h' | ⟨-, rfl⟩)
            · rw [← hm.get, hnone] at h'; cases h'
            · rfl
        · next hne =>
          rw [hm.get]
          constructor
          · intro h; exact .inl h
          · rintro (h' | ⟨rfl, -⟩)
            · exact h'
            · exact absurd rfl hne
      · intro e
        simp only [List.mem_append, List.mem_singleton]
        split
        · next hl =>
          rw [mem_appendSorted, hm.mem]
          constructor
          · rintro (rfl | ⟨h1, h2⟩)
            · exact ⟨.inr rfl, hl⟩
            · exact ⟨.inl h1, h2⟩
          · rintro ⟨h1 | rfl, h2⟩
            · exact .inr ⟨h1, h2⟩
            · exact .inl rfl
        · next hl =>
          rw [hm.mem]
          constructor
          · rintro ⟨h1, h2⟩; exact ⟨.inl h1, h2⟩
          · rintro ⟨h1 | rfl, h2⟩
            · exact ⟨h1, h2⟩
            · exact absurd h2 hl
      · show (if p.getLast? = some '/' then appendSorted mux.es (p, h) else mux.es).Pairwise _
        split
        · exact appendSorted_sorted _ hm.sorted
        · exact hm.sorted

theorem handleAll_of {H : Type} {qs : List (UrlPath × H)} : ∀ {ps : List (UrlPath × H)} {mux mux' : Mux H}, MuxOf ps mux → mux.handleAll qs = .ok mux' → MuxOf (ps ++ qs) mux' := by
  induction qs with
  | nil => intro ps mux mux' hm he; simp only [Mux.handleAll] at he; cases he; simpa using hm
  | cons q qs ih =>
    obtain ⟨p, h⟩ := q
    intro ps mux mux' hm he
    simp only [Mux.handleAll] at he
    split at he
    · next m1 e => simpa using ih (handle_of hm e) he
    · cases he
    · cases he

theorem mux_new {H : Type} : MuxOf ([] : List (UrlPath × H)) {} := ⟨by simp, by simp, by simp⟩

/-- The longest pattern that ends in a slash and is a prefix is found, if the path is no pattern. -/
theorem find_longest {H : Type} {ps : List (UrlPath × H)} {mux : Mux H} (hm : MuxOf ps mux) {d p : UrlPath} {h : H} (hd : (d, h) ∈ ps) (hs : d.getLast? = some '/')
    (hp : Below d p) (hmax : ∀ q k, (q, k) ∈ ps → q = p ∨ (q.getLast? = some '/' ∧ Below q p) → q.length ≤ d.length) : mux.find p = some h := by
  obtain ⟨rest, hp⟩ := hp
  have uniq : ∀ k, (d, k) ∈ ps → k = h := by
    intro k hk
    rw [← hm.get] at hk hd
    rw [hd] at hk; cases hk; rfl
  have eqlen : ∀ q k, (q, k) ∈ ps → q = p ∨ (q.getLast? = some '/' ∧ Below q p) → d.length ≤ q.length → q = d := by
    intro q k hq hb hl
    have := hmax q k hq hb
    obtain ⟨r, hb⟩ : Below q p := hb.elim (fun e => ⟨[], by simp [e]⟩) (·.2)
    rw [hp] at hb
    exact (List.append_inj hb (by omega)).1.symm
  simp only [Mux.find]
  split
  · next k hk =>
    rw [hm.get] at hk
    have := eqlen p k hk (.inl rfl) (by rw [hp]; simp)
    subst this
    rw [uniq k hk]
  · have hmem : (d, h) ∈ mux.es := (hm.mem _).mpr ⟨hd, hs⟩
    cases hf : mux.es.find? (fun e => e.1.isPrefixOf p) with
    | none =>
      rw [List.find?_eq_none] at hf
      have := hf _ hmem
      simp [hp] at this
    | some e =>
      obtain ⟨q, k⟩ := e
      rw [List.find?_eq_some_iff_append] at hf
      obtain ⟨h1, as, bs, h2, h3⟩ := hf
      have hq' := (hm.mem (q, k)).mp (by rw [h2]; simp)
      have hq : (q, k) ∈ ps := hq'.1
      have hb : Below q p := by
        simp only [List.isPrefixOf_iff_prefix] at h1
        obtain ⟨r, h1⟩ := h1
        exact ⟨r, h1.symm⟩
      have hle : d.length ≤ q.length := by
        rw [h2] at hmem
        simp only [List.mem_append, List.mem_cons] at hmem
        rcases hmem with hmem | hmem | hmem
        · have := h3 _ hmem
          have e : List.isPrefixOf d p = true := List.isPrefixOf_iff_prefix.mpr ⟨rest, hp.symm⟩
          rw [e] at this; cases this
        · cases hmem; exact Nat.le_refl _
        · have := hm.sorted
          rw [h2, List.pairwise_append] at this
          exact (List.pairwise_cons.mp this.2.1).1 _ hmem
      have := eqlen q k hq (.inr ⟨hq'.2, hb⟩) hle
      subst this
      simp [uniq k hq]

/-! ## The record server -/

/-- C95: the record server can be set up: no pattern is registered twice, whichever records are included. -/
theorem C95_setup (flows logs : Bool) : ∃ mux, serveMux flows logs = .ok mux ∧ MuxOf (servePatterns flows logs) mux := by
  have : (serveMux flows logs).isOk = true := by cases flows <;> cases logs <;> decide +kernel
  cases h : serveMux flows logs with
  | ok mux => exact ⟨mux, rfl, by simpa using handleAll_of mux_new h⟩
  | err e => rw [h] at this; cases this
  | panic e => rw [h] at this; cases this

/-- Of two patterns of the record server none is below the other, but for "/". -/
theorem patterns_apart (flows logs : Bool) : ∀ e ∈ servePatterns flows logs, ∀ e' ∈ servePatterns flows logs, e.1.isPrefixOf e'.1 = true → e = e' ∨ e.1 = ['/'] := by
  cases flows <;> cases logs <;> decide +kernel

theorem patterns_slash (flows logs : Bool) : ∀ e ∈ servePatterns flows logs, e.1.getLast? = some '/' := by
  cases flows <;> cases logs <;> decide +kernel

theorem patterns_clean (flows logs : Bool) : ∀ e ∈ servePatterns flows logs, cleanPath e.1 = e.1 := by
  cases flows <;> cases logs <;> decide +kernel

theorem below_apart {flows logs : Bool} {d q p : UrlPath} {h k : ServeHandler} (hd : (d, h) ∈ servePatterns flows logs) (hq : (q, k) ∈ servePatterns flows logs) (hd1 : d ≠ ['/'])
    (hdp : Below d p) (hqp : Below q p) : q = d ∨ q = ['/'] := by
  obtain ⟨r, rfl⟩ := hdp
  obtain ⟨r', e⟩ := hqp
  rcases Nat.le_total d.length q.length with hl | hl
  · have : d <+: q := List.prefix_of_prefix_length_le ⟨r, rfl⟩ ⟨r', e.symm⟩ hl
    rcases patterns_apart flows logs _ hd _ hq (List.isPrefixOf_iff_prefix.mpr this) with h | h
    · left; cases h; rfl
    · exact absurd h hd1
  · have : q <+: d := List.prefix_of_prefix_length_le ⟨r', e.symm⟩ ⟨r, rfl⟩ hl
    rcases patterns_apart flows logs _ hq _ hd (List.isPrefixOf_iff_prefix.mpr this) with h | h
    · left; cases h; rfl
    · exact .inr h

/-- C95: a clean path below a listed one is answered by the handler of that one. -/
theorem C95_below {flows logs : Bool} {mux : Mux ServeHandler} (hmux : serveMux flows logs = .ok mux) {d p : UrlPath} {h : ServeHandler}
    (hd : (d, h) ∈ servePatterns flows logs) (hd1 : d ≠ "/".toList) (hc : CleanUrl p) (hp : Below d p) : mux.route p = .handler h := by
  have hd1 : d ≠ ['/'] := hd1
  have hm : MuxOf (servePatterns flows logs) mux := by
    obtain ⟨mux', h1, h2⟩ := C95_setup flows logs
    rw [hmux] at h1; cases h1; exact h2
  have hnw : mux.wantsSlash p = false := by
    cases hw : mux.wantsSlash p with
    | false => rfl
    | true =>
      simp only [Mux.wantsSlash, Bool.and_eq_true, Option.isSome_iff_exists] at hw
      obtain ⟨k, hk⟩ := hw.1.2
      rw [hm.get] at hk
      have : Below d (p ++ ['/']) := by obtain ⟨r, rfl⟩ := hp; exact ⟨r ++ ['/'], by simp⟩
      rcases below_apart hd hk hd1 this ⟨[], by simp⟩ with e | e
      · obtain ⟨r, rfl⟩ := hp
        have := congrArg List.length e
        simp at this
      · have : p = [] := by cases p with
          | nil => rfl
          | cons c p => simp at e
        subst this
        obtain ⟨r, hr⟩ := hp
        have hl := patterns_slash flows logs _ hd
        cases d with
        | nil => simp at hl
        | cons _ _ => simp at hr
  have hf : mux.find p = some h := by
    refine find_longest hm hd (patterns_slash flows logs _ hd) hp ?_
    intro q k hq hb
    have hqp : Below q p := hb.elim (fun e => ⟨[], by simp [e]⟩) (·.2)
    rcases below_apart hd hq hd1 hp hqp with e | e
    · rw [e]; exact Nat.le_refl _
    · rw [e]
      cases d with
      | nil => have hl := patterns_slash flows logs _ hd; simp at hl
      | cons _ _ => simp
  simp only [Mux.route, clean_of hc, hnw, hf]
  simp

theorem mem_root (flows logs : Bool) : (['/'], ServeHandler.root) ∈ servePatterns flows logs := by
  cases flows <;> cases logs <;> decide +kernel

theorem root_only (flows logs : Bool) : ∀ e ∈ servePatterns flows logs, e.1 = ['/'] → e.2 = ServeHandler.root := by
  cases flows <;> cases logs <;> decide +kernel

theorem clean_slash_ne {p : UrlPath} (hc : CleanUrl p) : ∃ q, p = '/' :: q := by
  obtain ⟨names, hg, h | ⟨hn, h⟩⟩ := hc
  · exact ⟨_, h⟩
  · cases p with
    | nil =>
      exfalso
      cases names with
      | nil => exact hn rfl
      | cons s names =>
        have := congrArg List.length h
        have hs := (hg s (by simp)).1
        cases s with
        | nil => exact hs rfl
        | cons c s => simp [dirPath] at this
    | cons c p => simp only [dirPath, List.cons_append, List.cons.injEq] at h; exact ⟨p, by rw [h.1]⟩

/-- C95, partial: a clean path that is not below a listed one (other than "/"), and does not become a listed one with a slash, is answered by the handler of "/"; unless it is "/",
that one answers 404.  Missing: paths below a listed one, see C95_unlisted_answered. -/
theorem C95_other_partial {flows logs : Bool} {mux : Mux ServeHandler} (hmux : serveMux flows logs = .ok mux) {p : UrlPath} (hc : CleanUrl p)
    (hn : ∀ d ∈ serveRefs flows logs, d ≠ "/".toList → ¬ Below d p ∧ p ++ ['/'] ≠ d) :
    mux.route p = .handler .root ∧ (p ≠ "/".toList → ∀ c, serveRoot c (String.ofList p) = .ok { status := 404, body := some [] }) := by
  have hm : MuxOf (servePatterns flows logs) mux := by
    obtain ⟨mux', h1, h2⟩ := C95_setup flows logs
    rw [hmux] at h1; cases h1; exact h2
  have hrefs : ∀ q k, (q, k) ∈ servePatterns flows logs → q ∈ serveRefs flows logs := by
    intro q k hq
    simp only [servePatterns, serveRefs, List.mem_append, List.mem_map, List.mem_cons, List.not_mem_nil, or_false, Prod.mk.injEq] at hq ⊢
    rcases hq with (⟨rfl, -⟩ | ⟨rfl, -⟩) | ⟨t, ht, rfl, -⟩
    · simp
    · simp
    · exact .inr ⟨t, ht, rfl⟩
  obtain ⟨p', hp'⟩ := clean_slash_ne hc
  refine ⟨?_, ?_⟩
  · have hnw : mux.wantsSlash p = false := by
      cases hw : mux.wantsSlash p with
      | false => rfl
      | true =>
        simp only [Mux.wantsSlash, Bool.and_eq_true, Option.isSome_iff_exists] at hw
        obtain ⟨k, hk⟩ := hw.1.2
        rw [hm.get] at hk
        by_cases e : p ++ ['/'] = ['/']
        · rw [hp'] at e; simp at e
        · exact absurd rfl (hn _ (hrefs _ _ hk) e).2
    have hf : mux.find p = some .root := by
      refine find_longest hm (mem_root flows logs) rfl ⟨p', hp'⟩ ?_
      intro q k hq hb
      have hqp : Below q p := hb.elim (fun e => ⟨[], by simp [e]⟩) (·.2)
      by_cases e : q = ['/']
      · rw [e]; exact Nat.le_refl _
      · exact absurd hqp (hn _ (hrefs _ _ hq) e).1
    simp only [Mux.route, clean_of hc, hnw, hf]
    simp
  · intro hne c
    refine C78_not_found c ?_
    intro e
    have := congrArg String.toList e
    rw [String.toList_ofList] at this
    exact hne this

theorem refs_root (flows logs : Bool) : ∀ d ∈ serveRefs flows logs, d ≠ ['/'] → d.isPrefixOf "/".toList = false ∧ "/".toList ++ ['/'] ≠ d := by
  cases flows <;> cases logs <;> decide +kernel

theorem append_slash_ne {a b : List Char} (ha : a ≠ []) : a ++ b ++ ['/'] ≠ ['/'] := by
  cases a with
  | nil => exact absurd rfl ha
  | cons c a => simp

theorem typePath_ne (t : String) : typePath t ≠ ['/'] := append_slash_ne (by decide +kernel)

/-- C95: every listed path is answered by the handler registered for it: "/" lists everything, "/sources/" the sources, the path of a type the records of that type. -/
theorem C95_listed {flows logs : Bool} {mux : Mux ServeHandler} (hmux : serveMux flows logs = .ok mux) :
    mux.route "/".toList = .handler .root ∧ mux.route "/sources/".toList = .handler .sources ∧
    (∀ t ∈ getRecordTypes flows logs, mux.route ("/flow/v1/".toList ++ t.toList ++ ['/']) = .handler (.records t)) ∧
    serveRefs flows logs = (servePatterns flows logs).map (·.1) := by
  have cl : ∀ e ∈ servePatterns flows logs, CleanUrl e.1 := fun e he => (clean_iff e.1).mp (patterns_clean flows logs e he)
  refine ⟨?_, ?_, ?_, ?_⟩
  · refine (C95_other_partial hmux (p := "/".toList) (cl _ (mem_root flows logs)) fun d hd hne => ⟨fun hb => ?_, fun e => ?_⟩).1
    · have := (refs_root flows logs d hd hne).1
      obtain ⟨r, hb⟩ := hb
      rw [List.isPrefixOf_iff_prefix.mpr ⟨r, hb.symm⟩] at this; cases this
    · exact (refs_root flows logs d hd hne).2 e
  · have hd : ("/sources/".toList, ServeHandler.sources) ∈ servePatterns flows logs := by simp [servePatterns]
    exact C95_below hmux hd (by decide) (cl _ hd) ⟨[], by simp⟩
  · intro t ht
    have hd : (typePath t, ServeHandler.records t) ∈ servePatterns flows logs := by
      simp only [servePatterns, List.mem_append, List.mem_map]; exact .inr ⟨t, ht, rfl⟩
    exact C95_below (p := typePath t) hmux hd (typePath_ne t) (cl _ hd) ⟨[], (List.append_nil _).symm⟩
  · simp [serveRefs, servePatterns, Function.comp_def]

/-- C95: a listed path without the slash at its end is redirected to it. -/
theorem C95_slash {flows logs : Bool} {mux : Mux ServeHandler} (hmux : serveMux flows logs = .ok mux) {p : UrlPath} (hp : p ≠ []) (hd : p ++ ['/'] ∈ serveRefs flows logs) :
    mux.route p = .redirect (p ++ ['/']) := by
  have hm : MuxOf (servePatterns flows logs) mux := by
    obtain ⟨mux', h1, h2⟩ := C95_setup flows logs
    rw [hmux] at h1; cases h1; exact h2
  have hrefs : serveRefs flows logs = (servePatterns flows logs).map (·.1) := (C95_listed hmux).2.2.2
  rw [hrefs, List.mem_map] at hd
  obtain ⟨⟨d, k⟩, hk, e⟩ := hd
  simp only at e; subst e
  have hdir : CleanUrl (p ++ ['/']) := (clean_iff _).mp (patterns_clean flows logs _ hk)
  obtain ⟨names, hg, h⟩ := hdir
  have h : p ++ ['/'] = dirPath names := by
    rcases h with h | ⟨hn, h⟩
    · exact h
    · have := file_last hg hn h
      simp at this
  have hn : names ≠ [] := by
    rintro rfl
    simp [dirPath] at h
    exact hp h
  have hcl : CleanUrl p := ⟨names, hg, .inr ⟨hn, h⟩⟩
  have hl := file_last hg hn h
  have hw : mux.wantsSlash p = true := by
    have h1 : mux.m.get? p = none := by
      cases hgp : mux.m.get? p with
      | none => rfl
      | some x =>
        rw [hm.get] at hgp
        exact absurd (patterns_slash flows logs _ hgp) hl
    have h2 : mux.m.get? (p ++ ['/']) = some k := (hm.get _ _).mpr hk
    simp [Mux.wantsSlash, h1, h2, hp, hl]
  simp [Mux.route, clean_of hcl, hw]

/-- C95: whatever the path, the client gets an answer of a handler, after one redirect at most. -/
theorem C95_answered {flows logs : Bool} {mux : Mux ServeHandler} (hmux : serveMux flows logs = .ok mux) (p : UrlPath) : ∃ h, LeadsTo mux p h := by
  have hm : MuxOf (servePatterns flows logs) mux := by
    obtain ⟨mux', h1, h2⟩ := C95_setup flows logs
    rw [hmux] at h1; cases h1; exact h2
  have hrefs : serveRefs flows logs = (servePatterns flows logs).map (·.1) := (C95_listed hmux).2.2.2
  -- clean paths that do not want a slash
  have direct : ∀ q, CleanUrl q → mux.wantsSlash q = false → ∃ h, mux.route q = .handler h := by
    intro q hq hw
    by_cases hb : ∃ d ∈ serveRefs flows logs, d ≠ ['/'] ∧ Below d q
    · obtain ⟨d, hd, hne, hb⟩ := hb
      rw [hrefs, List.mem_map] at hd
      obtain ⟨⟨d, k⟩, hk, e⟩ := hd
      simp only at e; subst e
      exact ⟨k, C95_below hmux hk hne hq hb⟩
    · refine ⟨.root, (C95_other_partial hmux hq (fun d hd hne => ⟨fun h => hb ⟨d, hd, hne, h⟩, fun e => ?_⟩)).1⟩
      subst e
      by_cases hq0 : q = []
      · subst hq0; exact hne rfl
      · have := C95_slash hmux hq0 hd
        simp only [Mux.route, clean_of hq, hw] at this
        simp only [Bool.false_eq_true, if_false, ne_eq, not_true_eq_false] at this
        split at this <;> cases this
  have hcl := clean_clean p
  by_cases hw : mux.wantsSlash (cleanPath p) = true
  · -- to the listed path
    simp only [Mux.wantsSlash, Bool.and_eq_true, Option.isSome_iff_exists] at hw
    obtain ⟨k, hk⟩ := hw.1.2
    rw [hm.get] at hk
    have hr : mux.route p = .redirect (cleanPath p ++ ['/']) := by
      have : mux.wantsSlash (cleanPath p) = true := by simp only [Mux.wantsSlash, Bool.and_eq_true, Option.isSome_iff_exists]; exact ⟨⟨hw.1.1, _, (hm.get _ _).mpr hk⟩, hw.2⟩
      simp [Mux.route, this]
    have hcd : CleanUrl (cleanPath p ++ ['/']) := (clean_iff _).mp (patterns_clean flows logs _ hk)
    have hnw : mux.wantsSlash (cleanPath p ++ ['/']) = false := by simp [Mux.wantsSlash]
    obtain ⟨h, hh⟩ := direct _ hcd hnw
    exact ⟨h, .inr ⟨_, hr, hh⟩⟩
  · have hw : mux.wantsSlash (cleanPath p) = false := by simpa using hw
    obtain ⟨h, hh⟩ := direct _ hcl hw
    by_cases e : cleanPath p = p
    · rw [e] at hh; exact ⟨h, .inl hh⟩
    · refine ⟨h, .inr ⟨cleanPath p, ?_, hh⟩⟩
      simp [Mux.route, hw, e]

/-- C95 does not hold for all unlisted paths: one below a listed path is answered as that one, with status 200 and all the records of the type. -/
theorem C95_unlisted_answered : ∃ mux p, serveMux true true = .ok mux ∧ CleanUrl p ∧ p ∉ serveRefs true true ∧ p ++ ['/'] ∉ serveRefs true true ∧
    mux.route p = .handler (.records "SiteRecord") := by
  obtain ⟨mux, hmux, _⟩ := C95_setup true true
  have hc : CleanUrl "/flow/v1/SiteRecord/no-such-site".toList := (clean_iff _).mp (by decide +kernel)
  refine ⟨mux, "/flow/v1/SiteRecord/no-such-site".toList, hmux, hc, by decide +kernel, by decide +kernel, ?_⟩
  have hd : (typePath "SiteRecord", ServeHandler.records "SiteRecord") ∈ servePatterns true true := by decide +kernel
  exact C95_below hmux hd (typePath_ne _) hc ⟨"no-such-site".toList, by decide +kernel⟩

/-! ## The fixture server -/

/-- C95: `/flows` is answered by ServeFlows, every other clean path by ServeFixture. -/
theorem C95_fixture : ∃ mux, fixtureMux = .ok mux ∧ mux.route "/flows".toList = .handler .flows ∧
    ∀ p, CleanUrl p → p ≠ "/flows".toList → mux.route p = .handler .fixture := by
  cases hmux : fixtureMux with
  | err e => have : fixtureMux.isOk = true := by decide +kernel
             rw [hmux] at this; cases this
  | panic e => have : fixtureMux.isOk = true := by decide +kernel
               rw [hmux] at this; cases this
  | ok mux =>
    have hm : MuxOf fixturePatterns mux := by simpa using handleAll_of mux_new hmux
    have pats : ∀ q k, (q, k) ∈ fixturePatterns ↔ (q = ['/'] ∧ k = .fixture) ∨ (q = "/flows".toList ∧ k = .flows) := by
      intro q k; simp [fixturePatterns]
    have nw : ∀ p, p ≠ [] → mux.wantsSlash p = false := by
      intro p hp
      have : mux.m.get? (p ++ ['/']) = none := by
        cases hg : mux.m.get? (p ++ ['/']) with
        | none => rfl
        | some k =>
          rw [hm.get, pats] at hg
          rcases hg with ⟨e, -⟩ | ⟨e, -⟩
          · simp at e; exact absurd e hp
          · have := congrArg List.getLast? e
            simp at this
      simp [Mux.wantsSlash, this]
    refine ⟨mux, rfl, ?_, ?_⟩
    · have h1 : mux.m.get? "/flows".toList = some .flows := (hm.get _ _).mpr (by decide +kernel)
      have h2 : cleanPath "/flows".toList = "/flows".toList := by decide +kernel
      simp only [Mux.route, h2, nw "/flows".toList (by simp), Mux.find, h1]
      simp
    · intro p hc hne
      obtain ⟨p', hp'⟩ := clean_slash_ne hc
      have hf : mux.find p = some .fixture := by
        refine find_longest hm ((pats _ _).mpr (.inl ⟨rfl, rfl⟩)) rfl ⟨p', hp'⟩ ?_
        intro q k hq hb
        rw [pats] at hq
        rcases hq with ⟨rfl, -⟩ | ⟨rfl, -⟩
        · exact Nat.le_refl _
        · rcases hb with e | ⟨e, -⟩
          · exact absurd e.symm hne
          · simp at e
      simp only [Mux.route, clean_of hc, nw p (by simp [hp']), hf]
      simp

/-! ### Examples -/

/-- some paths and what becomes of them -/
example : ∃ mux, serveMux false false = .ok mux ∧
    mux.route "/sources".toList = .redirect "/sources/".toList ∧
    mux.route "/flow/v1/SiteRecord/".toList = .handler (.records "SiteRecord") ∧
    mux.route "/flow/v1/FlowRecord/".toList = .handler .root ∧
    mux.route "/flow//v1/../v1/LinkRecord".toList = .redirect "/flow/v1/LinkRecord/".toList ∧
    mux.route "".toList = .redirect "/".toList := by
  refine ⟨_, rfl, ?_, ?_, ?_, ?_, ?_⟩ <;> decide +kernel

end Verif.Props
