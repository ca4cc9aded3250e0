import Verif.Model.StructTag
import Verif.Spec.StructTag

/-!
# C117: what becomes of the tag of a field
-/
namespace Verif.Props
open Verif Verif.Model Verif.Spec

namespace StructTag

theorem skipBlanks_replicate (n : Nat) (t : List Char) : skipBlanks (List.replicate n ' ' ++ t) = skipBlanks t := by
  induction n with
  | zero => rfl
  | succ n ih => simpa [List.replicate_succ, skipBlanks] using ih

theorem skipBlanks_split (t : List Char) : ∃ n, t = List.replicate n ' ' ++ skipBlanks t := by
  induction t with
  | nil => exact ⟨0, rfl⟩
  | cons c cs ih =>
    rcases ih with ⟨n, hn⟩
    by_cases h : c = ' '
    · subst h
      refine ⟨n + 1, ?_⟩
      simp only [skipBlanks, if_true, List.replicate_succ, List.cons_append]
      rw [← hn]
    · exact ⟨0, by simp [skipBlanks, h]⟩

theorem isKeyChar_iff (c : Char) : isKeyChar c = true ↔ ' ' < c ∧ c ≠ ':' ∧ c ≠ '"' ∧ c ≠ Char.ofNat 127 := by
  have h1 : ' ' < c ↔ 32 < c.toNat := by
    show (' ' : Char).val < c.val ↔ _
    rw [UInt32.lt_iff_toNat_lt]; rfl
  have h2 : c = Char.ofNat 127 ↔ c.toNat = 127 := by
    constructor
    · intro h; subst h; rfl
    · intro h
      have := Char.ofNat_toNat c
      rw [h] at this; exact this.symm
  simp only [isKeyChar, Bool.and_eq_true, decide_eq_true_eq, h1, ne_eq, h2, decide_not, Bool.not_eq_true',
    decide_eq_false_iff_not, and_assoc]

theorem takeKey_split (t : List Char) : t = (takeKey t).1 ++ (takeKey t).2 := by
  induction t with
  | nil => rfl
  | cons c cs ih =>
    by_cases h : isKeyChar c = true
    · simp only [takeKey, h, if_true, List.cons_append]; rw [← ih]
    · simp [takeKey, h]

theorem takeKey_mem (t : List Char) : ∀ c ∈ (takeKey t).1, isKeyChar c = true := by
  induction t with
  | nil => intro c hc; exact absurd hc (by simp [takeKey])
  | cons d cs ih =>
    intro c hc
    by_cases h : isKeyChar d = true
    · simp only [takeKey, h, if_true, List.mem_cons] at hc
      rcases hc with rfl | hc
      · exact h
      · exact ih c hc
    · simp [takeKey, h] at hc

theorem takeKey_append (k t : List Char) (hk : ∀ c ∈ k, isKeyChar c = true) :
    takeKey (k ++ ':' :: t) = (k, ':' :: t) := by
  induction k with
  | nil => simp [takeKey, isKeyChar]
  | cons c cs ih =>
    have := ih fun d hd => hk d (List.mem_cons_of_mem _ hd)
    simp [takeKey, hk c List.mem_cons_self, this]

theorem takeQuoted_append {v : List Char} (hv : Quoted v) (rest : List Char) :
    takeQuoted false (v ++ '"' :: rest) = some (v, rest) := by
  induction hv with
  | nil => simp [takeQuoted]
  | plain h1 h2 _ ih => simp [takeQuoted, h1, h2, ih]
  | escaped _ ih => simp [takeQuoted, ih]

theorem takeQuoted_split (t : List Char) : (∀ {q rest}, takeQuoted false t = some (q, rest) →
    Quoted q ∧ t = q ++ '"' :: rest) ∧ (∀ {q rest}, takeQuoted true t = some (q, rest) →
    Quoted ('\\' :: q) ∧ t = q ++ '"' :: rest) := by
  induction t with
  | nil => exact ⟨fun h => (by simp [takeQuoted] at h), fun h => (by simp [takeQuoted] at h)⟩
  | cons c cs ih =>
    constructor
    · intro q rest h
      by_cases h1 : c = '"'
      · subst h1
        simp only [takeQuoted, if_true, Option.some.injEq, Prod.mk.injEq] at h
        rcases h with ⟨rfl, rfl⟩
        exact ⟨.nil, rfl⟩
      · by_cases h2 : c = '\\'
        · subst h2
          simp only [takeQuoted, h1, if_false, decide_true, Option.map_eq_some_iff, Prod.mk.injEq] at h
          rcases h with ⟨⟨q', r'⟩, h3, rfl, rfl⟩
          obtain ⟨hq, ht⟩ := ih.2 h3
          exact ⟨hq, by rw [ht]; rfl⟩
        · simp only [takeQuoted, h1, h2, if_false, decide_false, Option.map_eq_some_iff, Prod.mk.injEq] at h
          rcases h with ⟨⟨q', r'⟩, h3, rfl, rfl⟩
          obtain ⟨hq, ht⟩ := ih.1 h3
          exact ⟨.plain h1 h2 hq, by rw [ht]; rfl⟩
    · intro q rest h
      simp only [takeQuoted, Option.map_eq_some_iff, Prod.mk.injEq] at h
      rcases h with ⟨⟨q', r'⟩, h3, rfl, rfl⟩
      obtain ⟨hq, ht⟩ := ih.1 h3
      exact ⟨.escaped hq, by rw [ht]; rfl⟩

/-- One round over a pair. -/
theorem lookup_pair (esc : List Char → Option (List Char)) (key : List Char) (n m : Nat) {k v : List Char}
    (rest : List Char) (hk : TagKey k) (hv : Quoted v) :
    lookupTag esc key (n + 1) (List.replicate m ' ' ++ (k ++ (':' :: '"' :: (v ++ ('"' :: rest))))) =
      if k = key then unquoteTag esc v else lookupTag esc key n rest := by
  have hk' : ∀ c ∈ k, isKeyChar c = true := fun c hc => (isKeyChar_iff c).mpr (hk.2 c hc)
  have hs : skipBlanks (k ++ (':' :: '"' :: (v ++ ('"' :: rest)))) = k ++ (':' :: '"' :: (v ++ ('"' :: rest))) := by
    cases k with
    | nil => exact absurd rfl hk.1
    | cons c cs =>
      have : c ≠ ' ' := by
        intro h; subst h
        have := hk' ' ' List.mem_cons_self
        exact absurd this (by decide)
      simp [skipBlanks, this]
  rw [lookupTag, skipBlanks_replicate, hs, takeKey_append _ _ hk']
  simp only [hk.1, if_false, takeQuoted_append hv]

/-- What a round can do. -/
theorem lookup_round (esc : List Char → Option (List Char)) (key : List Char) (n : Nat) (t : List Char) {r : List Char}
    (h : lookupTag esc key (n + 1) t = some r) : ∃ m k v rest, TagKey k ∧ Quoted v ∧
      t = List.replicate m ' ' ++ (k ++ (':' :: '"' :: (v ++ ('"' :: rest)))) := by
  rcases skipBlanks_split t with ⟨m, hm⟩
  rw [lookupTag] at h
  split at h
  case h_2 => exact nomatch h
  rename_i name rest hE
  split at h
  · exact nomatch h
  rename_i hne
  split at h
  · exact nomatch h
  rename_i q rest' hq
  obtain ⟨hQ, hR⟩ := (takeQuoted_split _).1 hq
  have hsp := takeKey_split (skipBlanks t)
  rw [hE] at hsp
  refine ⟨m, name, q, rest', ⟨hne, fun c hc => (isKeyChar_iff c).mp (takeKey_mem (skipBlanks t) c (by rw [hE]; exact hc))⟩,
    hQ, ?_⟩
  rw [hm, hsp, hR]

theorem lookup_zero_len (esc : List Char → Option (List Char)) (key : List Char) (n : Nat) :
    lookupTag esc key n [] = none := by
  cases n with
  | zero => rfl
  | succ n => rfl

/-- The length of the tag is bound enough. -/
theorem lookup_fuel (esc : List Char → Option (List Char)) (key : List Char) : ∀ (n : Nat) (t : List Char) (m : Nat),
    t.length ≤ n → t.length ≤ m → lookupTag esc key n t = lookupTag esc key m t := by
  intro n
  induction n with
  | zero =>
    intro t m hn _
    have : t = [] := List.length_eq_zero_iff.mp (Nat.le_zero.mp hn)
    subst this; rw [lookup_zero_len, lookup_zero_len]
  | succ n ih =>
    intro t m hn hm
    cases m with
    | zero =>
      have : t = [] := List.length_eq_zero_iff.mp (Nat.le_zero.mp hm)
      subst this; rw [lookup_zero_len, lookup_zero_len]
    | succ m =>
      have key1 : ∀ (a b : Nat), a = n ∨ a = m → b = n ∨ b = m → ∀ r, lookupTag esc key (a + 1) t = some r →
          lookupTag esc key (b + 1) t = some r := by
        intro a b ha hb r h
        obtain ⟨l, k, v, rest, hk, hv, ht⟩ := lookup_round esc key a t h
        have hl : rest.length ≤ n ∧ rest.length ≤ m := by
          rw [ht] at hn hm
          simp only [List.length_append, List.length_cons, List.length_replicate] at hn hm
          omega
        rw [ht, lookup_pair esc key _ l rest hk hv] at h
        rw [ht, lookup_pair esc key _ l rest hk hv]
        by_cases hkk : k = key
        · simpa [hkk] using h
        · simp only [hkk, if_false] at h ⊢
          have e : ∀ c, c = n ∨ c = m → lookupTag esc key c rest = lookupTag esc key n rest := by
            intro c hc
            rcases hc with rfl | rfl
            · rfl
            · exact (ih rest _ hl.1 hl.2).symm
          rw [e b hb, ← e a ha]; exact h
      cases h1 : lookupTag esc key (n + 1) t with
      | some r => exact (key1 n m (.inl rfl) (.inr rfl) r h1).symm
      | none =>
        cases h2 : lookupTag esc key (m + 1) t with
        | none => rfl
        | some r =>
          have := key1 m n (.inr rfl) (.inl rfl) r h2
          rw [h1] at this; exact nomatch this

/-- The pairs before the one that counts are passed over. -/
theorem lookup_pairs (esc : List Char → Option (List Char)) (key : List Char)
    {ps : List (List Char × List Char)} {t : List Char} (h : TagPairs ps t) (hps : ∀ p ∈ ps, p.1 ≠ key) (rest : List Char) :
    ∀ n, (t ++ rest).length ≤ n → lookupTag esc key n (t ++ rest) = lookupTag esc key rest.length rest := by
  induction h with
  | nil => intro n hn; exact lookup_fuel esc key n _ _ hn (Nat.le_refl _)
  | @pair l k v r ps hk hv _ ih =>
    intro n hn
    cases n with
    | zero => simp at hn
    | succ n =>
      have e : (List.replicate l ' ' ++ (k ++ (':' :: '"' :: (v ++ ('"' :: r))))) ++ rest =
          List.replicate l ' ' ++ (k ++ (':' :: '"' :: (v ++ ('"' :: (r ++ rest))))) := by simp
      rw [e] at hn ⊢
      rw [lookup_pair esc key n l (r ++ rest) hk hv, if_neg (hps (k, v) List.mem_cons_self)]
      refine ih (fun p hp => hps p (List.mem_cons_of_mem _ hp)) n ?_
      simp only [List.length_append, List.length_cons, List.length_replicate] at hn ⊢
      omega

theorem tagPairs_append {ps qs : List (List Char × List Char)} {t u : List Char} (h : TagPairs ps t) (h' : TagPairs qs u) :
    TagPairs (ps ++ qs) (t ++ u) := by
  induction h with
  | nil => exact h'
  | @pair l k v r ps hk hv _ ih =>
    have e : (List.replicate l ' ' ++ (k ++ (':' :: '"' :: (v ++ ('"' :: r))))) ++ u =
        List.replicate l ' ' ++ (k ++ (':' :: '"' :: (v ++ ('"' :: (r ++ u))))) := by simp
    rw [e]; exact .pair hk hv ih

end StructTag

open StructTag

/-- What the lookup finds, for every tag: a value is found exactly if the tag begins with pairs in the conventional
format, the last of which is the first with this key, and its quoted text stands for something. -/
theorem C117_lookup (esc : List Char → Option (List Char)) (key t : List Char) (r : List Char) :
    lookupTag esc key t.length t = some r ↔
      ∃ ps q before after, TagPairs (ps ++ [(key, q)]) before ∧ t = before ++ after ∧ (∀ p ∈ ps, p.1 ≠ key) ∧
        unquoteTag esc q = some r := by
  constructor
  · have : ∀ n (t : List Char), lookupTag esc key n t = some r →
        ∃ ps q before after, TagPairs (ps ++ [(key, q)]) before ∧ t = before ++ after ∧ (∀ p ∈ ps, p.1 ≠ key) ∧
          unquoteTag esc q = some r := by
      intro n
      induction n with
      | zero => intro t h; exact nomatch h
      | succ n ih =>
        intro t h
        obtain ⟨l, k, v, rest, hk, hv, ht⟩ := lookup_round esc key n t h
        rw [ht, lookup_pair esc key n l rest hk hv] at h
        by_cases hkk : k = key
        · subst hkk
          rw [if_pos rfl] at h
          exact ⟨[], v, _, rest, .pair (n := l) hk hv .nil, by rw [ht]; simp, fun p hp => absurd hp (by simp), h⟩
        · rw [if_neg hkk] at h
          obtain ⟨ps, q, b, a, hp, he, hn, hu⟩ := ih rest h
          refine ⟨(k, v) :: ps, q, _, a, .pair (n := l) hk hv hp, by rw [ht, he]; simp, ?_, hu⟩
          intro p hp
          rcases List.mem_cons.mp hp with rfl | hp
          · exact hkk
          · exact hn p hp
    exact this _ t
  · rintro ⟨ps, q, before, after, hp, ht, hn, hu⟩
    have split : ∀ {ps : List (List Char × List Char)} {qs : List (List Char × List Char)} {t : List Char},
        TagPairs qs t → qs = ps ++ [(key, q)] → ∃ t1 l, TagPairs ps t1 ∧ TagKey key ∧ Quoted q ∧
          t = t1 ++ (List.replicate l ' ' ++ (key ++ (':' :: '"' :: (q ++ ('"' :: []))))) := by
      intro ps qs t h
      induction h generalizing ps with
      | nil => intro h; exact absurd h (by cases ps <;> simp)
      | @pair l k v r qs hk hv hr ih =>
        intro he
        cases ps with
        | nil =>
          simp only [List.nil_append, List.cons.injEq, Prod.mk.injEq] at he
          obtain ⟨⟨rfl, rfl⟩, rfl⟩ := he
          cases hr
          exact ⟨[], l, .nil, hk, hv, rfl⟩
        | cons p ps =>
          simp only [List.cons_append, List.cons.injEq] at he
          obtain ⟨rfl, he⟩ := he
          obtain ⟨t1, l', h1, h2, h3, h4⟩ := ih he
          exact ⟨_, l', .pair (n := l) hk hv h1, h2, h3, by rw [h4]; simp⟩
    obtain ⟨t1, l, h1, h2, h3, h4⟩ := split hp rfl
    have e : t = t1 ++ (List.replicate l ' ' ++ (key ++ (':' :: '"' :: (q ++ ('"' :: after))))) := by
      rw [ht, h4]; simp
    rw [e, lookup_pairs esc key h1 hn _ _ (Nat.le_refl _)]
    have : ∀ (x : List Char), 0 < x.length → ∃ m, x.length = m + 1 := fun x hx => ⟨x.length - 1, by omega⟩
    obtain ⟨m, hm⟩ := this (List.replicate l ' ' ++ (key ++ (':' :: '"' :: (q ++ ('"' :: after)))))
      (by simp only [List.length_append, List.length_cons]; omega)
    rw [hm, lookup_pair esc key m l after h2 h3, if_pos rfl, hu]

/-- A value that goes over a line end is not read, whatever escapes stand for: as in a Go string literal. -/
theorem C117_one_line (esc : List Char → Option (List Char)) (key t : List Char) (r : List Char) (h : lookupTag esc key t.length t = some r) :
    ∃ ps q before after, TagPairs (ps ++ [(key, q)]) before ∧ t = before ++ after ∧ (∀ p ∈ ps, p.1 ≠ key) ∧ '\n' ∉ q ∧ ('\\' ∉ q → r = q) := by
  obtain ⟨ps, q, before, after, h1, h2, h3, h4⟩ := (C117_lookup esc key t r).mp h
  refine ⟨ps, q, before, after, h1, h2, h3, ?_, ?_⟩
  · intro hn
    simp [unquoteTag, hn] at h4
  · intro hb
    simp only [unquoteTag, if_neg hb] at h4
    split at h4
    · cases h4
    · exact (Option.some.inj h4).symm

example (esc : List Char → Option (List Char)) : tagGet esc "vflow:\"1\n\"" = "" := by simp [tagGet, lookupTag, skipBlanks, takeKey, isKeyChar, takeQuoted, unquoteTag]

/-- A field whose tag is in the conventional format and gives `vflow` a value gets exactly this value, and it is not
passed over: it becomes a field of the record, or registering the type panics.  Partial: `C117_counterexample` has a
tag that mentions `vflow` and is passed over without a panic. -/
theorem C117_conventional_partial (esc : List Char → Option (List Char)) {raw : String} {ps : List (List Char × List Char)}
    {v : List Char} (hp : TagPairs ps raw.toList) (hg : GivesKey "vflow".toList ps v) (hv : PlainValue v) (hne : v ≠ []) :
    tagGet esc raw = String.ofList v ∧
    ∀ (index : Path) (i : Nat) (name : String) (ty : FTy),
      (∃ m, fieldsForDecl index i ((RawDecl.plain name true raw ty).read esc) = .panic m) ∨
      (∃ f, fieldsForDecl index i ((RawDecl.plain name true raw ty).read esc) = .ok [f] ∧ f.name = name ∧
        f.index = index ++ [i] ∧ parseUint32 (v.takeWhile (· ≠ ',')) = some f.codepoint) := by
  have hl : lookupTag esc "vflow".toList raw.toList.length raw.toList = some v := by
    obtain ⟨before, after, rfl, hb⟩ := hg
    have split : ∀ {bs as qs : List (List Char × List Char)} {t : List Char}, TagPairs qs t →
        qs = bs ++ ("vflow".toList, v) :: as → ∃ t1 t2, TagPairs (bs ++ [("vflow".toList, v)]) t1 ∧ t = t1 ++ t2 := by
      intro bs as qs t h
      induction h generalizing bs with
      | nil => intro h; exact absurd h (by cases bs <;> simp)
      | @pair l k w r qs hk hw hr ih =>
        intro he
        cases bs with
        | nil =>
          simp only [List.nil_append, List.cons.injEq, Prod.mk.injEq] at he
          obtain ⟨⟨rfl, rfl⟩, rfl⟩ := he
          exact ⟨_, r, .pair (n := l) hk hw .nil, by simp⟩
        | cons p bs =>
          simp only [List.cons_append, List.cons.injEq] at he
          obtain ⟨rfl, he⟩ := he
          obtain ⟨t1, t2, h1, h2⟩ := ih he
          exact ⟨_, t2, .pair (n := l) hk hw h1, by rw [h2]; simp⟩
    obtain ⟨t1, t2, h1, h2⟩ := split hp rfl
    exact (C117_lookup esc _ _ _).mpr ⟨before, v, t1, t2, h1, h2, hb, by simp [unquoteTag, hv.2.1, hv.2.2]⟩
  have hg : tagGet esc raw = String.ofList v := by simp only [tagGet, hl]
  refine ⟨hg, fun index i name ty => ?_⟩
  have hne' : String.ofList v ≠ "" := by
    intro h
    have := congrArg String.toList h
    simp at this; exact hne this
  have hcut : ∀ w : List Char, (cutComma w).1 = w.takeWhile (· ≠ ',') := by
    intro w
    induction w with
    | nil => rfl
    | cons c cs ih =>
      by_cases hc : c = ','
      · simp [cutComma, hc]
      · simp [cutComma, hc, ih]
  simp only [RawDecl.read, hg, fieldsForDecl, Bool.not_true, Bool.false_eq_true, if_false, parseFieldOpts, hne',
    String.toList_ofList, hcut]
  cases hc : parseUint32 (v.takeWhile (· ≠ ',')) with
  | none => exact .inl ⟨_, rfl⟩
  | some code =>
    dsimp only
    by_cases h1 : (cutComma v).2 = "required".toList
    · rw [if_pos h1]
      dsimp only
      split
      · split
        · exact .inr ⟨_, rfl, rfl, rfl, rfl⟩
        · exact .inl ⟨_, rfl⟩
      · exact .inl ⟨_, rfl⟩
    · rw [if_neg h1]
      by_cases h2 : (cutComma v).2 = []
      · rw [if_pos h2]
        dsimp only
        split
        · split
          · exact .inr ⟨_, rfl, rfl, rfl, rfl⟩
          · exact .inl ⟨_, rfl⟩
        · exact .inl ⟨_, rfl⟩
      · rw [if_neg h2]
        exact .inl ⟨_, rfl⟩

/-- A tag that does not begin with conventional pairs up to one for `vflow` is passed over without a word, whatever it
contains and whatever the type of the field is: the field is not part of the record. -/
theorem C117_ignored (esc : List Char → Option (List Char)) {raw : String}
    (h : ¬ ∃ ps q before after, TagPairs (ps ++ [("vflow".toList, q)]) before ∧ raw.toList = before ++ after)
    (index : Path) (i : Nat) (name : String) (ty : FTy) :
    fieldsForDecl index i ((RawDecl.plain name true raw ty).read esc) = .ok [] := by
  have hl : lookupTag esc "vflow".toList raw.toList.length raw.toList = none := by
    cases hc : lookupTag esc "vflow".toList raw.toList.length raw.toList with
    | none => rfl
    | some r =>
      obtain ⟨ps, q, b, a, h1, h2, _, _⟩ := (C117_lookup esc _ _ _).mp hc
      exact absurd ⟨ps, q, b, a, h1, h2⟩ h
  have hg : tagGet esc raw = "" := by simp only [tagGet, hl]
  simp only [RawDecl.read, hg, fieldsForDecl, parseFieldOpts, if_true, Bool.not_true, Bool.false_eq_true, if_false]

/-- The tags of the built-in records are all read as meant. -/
theorem C117_builtin (esc : List Char → Option (List Char)) : readTypes esc = vanTypes := by
  rfl

/-- A type whose second field has a blank after the colon of its tag. -/
def blankTag : List RawDecl := [rawBase, rS "Zone" "vflow: \"60\""]

/-- A successful registration, from what it gives. -/
theorem okOf {α : Type} {r : Res TypeEnc} {g : TypeEnc → α} {l : α}
    (h : (match r with | .ok te => some (g te) | _ => none) = some l) : ∃ te, r = .ok te ∧ g te = l := by
  cases r with
  | ok te => exact ⟨te, rfl, Option.some.inj h⟩
  | err _ => exact nomatch h
  | panic _ => exact nomatch h

/-- Full claim refuted: the type is registered without a panic, and its field `Zone`, whose tag says 60, is not among
the fields of the record: it is never sent, and nothing received gets into it.  With `vflow:"60"` it is. -/
theorem C117_counterexample (esc : List Char → Option (List Char)) :
    (∃ te, newEncodingForType 99 (.struct "ZoneRecord" (readAll esc blankTag)) = .ok te ∧
      te.fields.map (·.name) = ["ID", "StartTime", "EndTime"]) ∧
    (∃ te, newEncodingForType 99 (.struct "ZoneRecord" (readAll esc [rawBase, rS "Zone" "vflow:\"60\""])) = .ok te ∧
      te.fields.map (fun f => (f.name, f.codepoint.toNat)) = [("ID", 1), ("StartTime", 3), ("EndTime", 4), ("Zone", 60)]) :=
  by
  have e1 : readAll esc blankTag = [base, fS "Zone" ""] := rfl
  have e2 : readAll esc [rawBase, rS "Zone" "vflow:\"60\""] = [base, fS "Zone" "60"] := rfl
  rw [e1, e2]
  exact ⟨okOf (g := fun te => te.fields.map (·.name)) (by decide +kernel),
    okOf (g := fun te => te.fields.map (fun f => (f.name, f.codepoint.toNat))) (by decide +kernel)⟩

/-- The hypotheses of `C117_conventional_partial` for a tag with two keys. -/
theorem C117_example : ∃ ps, TagPairs ps ("json:\"zone\" vflow:\"60,required\"").toList ∧
    GivesKey "vflow".toList ps "60,required".toList ∧ PlainValue "60,required".toList := by
  have q : ∀ v : List Char, '"' ∉ v → '\\' ∉ v → Quoted v := by
    intro v
    induction v with
    | nil => intro _ _; exact .nil
    | cons c cs ih =>
      intro h1 h2
      simp only [List.mem_cons, not_or] at h1 h2
      exact .plain (Ne.symm h1.1) (Ne.symm h2.1) (ih h1.2 h2.2)
  refine ⟨[("json".toList, "zone".toList), ("vflow".toList, "60,required".toList)],
    .pair (n := 0) ⟨by decide, by decide⟩ (q _ (by decide) (by decide))
      (.pair (n := 1) (rest := []) ⟨by decide, by decide⟩ (q _ (by decide) (by decide)) .nil),
    ⟨[("json".toList, "zone".toList)], [], rfl, by decide⟩, by decide, by decide, by decide⟩

/-- What `C117_ignored` is about: a tag whose value lost its quotes, and one with an unfinished pair before it. -/
theorem C117_example_ignored (esc : List Char → Option (List Char)) :
    lookupTag esc "vflow".toList 8 "vflow:60".toList = none ∧
    lookupTag esc "vflow".toList 20 "json:zone vflow:\"60\"".toList = none ∧
    lookupTag esc "vflow".toList 21 "json:\"zone\"vflow:\"60\"".toList = some "60".toList := by
  exact ⟨rfl, rfl, rfl⟩

end Verif.Props
