import Verif.Model.JsonText
import Verif.Spec.JsonText

/-!
# Reading and writing JSON text
-/
namespace Verif.Proofs
open Verif Verif.Model Verif.Spec

/-! ## White space -/

theorem isSpace_iff {c : Char} : isSpace c = true ↔ (c = ' ' ∨ c = '\t' ∨ c = '\n' ∨ c = '\r') := by
  unfold isSpace
  simp only [Bool.or_eq_true, decide_eq_true_eq]
  constructor
  · rintro (((h | h) | h) | h) <;> simp [h]
  · rintro (h | h | h | h) <;> simp [h]

theorem spaces_nil : Spaces [] := by intro c h; cases h

/-- The text does not start with white space. -/
def NoSpace (cs : List Char) : Prop := ∀ c r, cs = c :: r → isSpace c = false

theorem skipSpace_append {a t : List Char} (ha : Spaces a) (ht : NoSpace t) : skipSpace (a ++ t) = t := by
  induction a with
  | nil =>
    cases t with
    | nil => rfl
    | cons c r => simp [skipSpace, ht c r rfl]
  | cons c a ih =>
    have hc : isSpace c = true := isSpace_iff.2 (ha c (by simp))
    simp only [List.cons_append, skipSpace, hc, if_true]
    exact ih fun c hc => ha c (List.mem_cons_of_mem _ hc)

theorem skipSpace_sound (cs : List Char) : ∃ a, Spaces a ∧ cs = a ++ skipSpace cs ∧ NoSpace (skipSpace cs) := by
  induction cs with
  | nil => exact ⟨[], spaces_nil, rfl, by intro c r h; cases h⟩
  | cons c cs ih =>
    by_cases hc : isSpace c = true
    · obtain ⟨a, h1, h2, h3⟩ := ih
      refine ⟨c :: a, ?_, ?_, ?_⟩
      · intro x hx
        rcases List.mem_cons.1 hx with rfl | hx
        · exact isSpace_iff.1 hc
        · exact h1 x hx
      · simp only [skipSpace, hc, if_true, List.cons_append]; rw [← h2]
      · simp only [skipSpace, hc, if_true]; exact h3
    · refine ⟨[], spaces_nil, ?_, ?_⟩
      · simp [skipSpace, hc]
      · simp only [skipSpace, hc]
        intro x r h
        cases h
        simpa using hc

theorem skipSpace_nil {cs : List Char} : skipSpace cs = [] ↔ Spaces cs := by
  constructor
  · intro h
    obtain ⟨a, h1, h2, _⟩ := skipSpace_sound cs
    rw [h, List.append_nil] at h2
    rw [h2]; exact h1
  · intro h
    have := skipSpace_append (t := []) h (by intro c r h; cases h)
    simpa using this

/-! ## Strings -/

theorem hexVal_iff {c : Char} {n : Nat} : hexVal c = some n ↔ HexDigit c n := by
  unfold hexVal HexDigit
  split
  · rename_i h; simp only [Option.some.injEq]; omega
  · split
    · rename_i h; simp only [Option.some.injEq]; omega
    · split
      · rename_i h; simp only [Option.some.injEq]; omega
      · simp only [reduceCtorEq, false_iff]; omega

theorem hexVal4_iff {a b c d : Char} {n : Nat} : hexVal4 a b c d = some n ↔ UnitText ['\\', 'u', a, b, c, d] n := by
  constructor
  · intro h
    unfold hexVal4 at h
    split at h
    · rename_i x y z w h1 h2 h3 h4
      refine ⟨a, b, c, d, x, y, z, w, rfl, hexVal_iff.1 h1, hexVal_iff.1 h2, hexVal_iff.1 h3, hexVal_iff.1 h4, ?_⟩
      simp only [Option.some.injEq] at h
      omega
    · cases h
  · rintro ⟨a', b', c', d', x, y, z, w, h, h1, h2, h3, h4, rfl⟩
    simp only [List.cons.injEq, true_and, and_true] at h
    obtain ⟨rfl, rfl, rfl, rfl⟩ := h
    simp only [hexVal4, hexVal_iff.2 h1, hexVal_iff.2 h2, hexVal_iff.2 h3, hexVal_iff.2 h4, Option.some.injEq]
    omega

theorem simpleEscape_iff {e c : Char} : simpleEscape e = some c ↔ (e, c) ∈ letterEscapes := by
  unfold simpleEscape letterEscapes
  simp only [List.mem_cons, Prod.mk.injEq, List.not_mem_nil, or_false]
  constructor
  · intro h
    split at h
    · rename_i he
      simp only [Option.some.injEq] at h
      subst h
      rcases he with rfl | rfl | rfl <;> simp
    · repeat' (split at h)
      all_goals first | (simp only [Option.some.injEq] at h; subst h; simp_all) | cases h
  · rintro (⟨rfl, rfl⟩ | ⟨rfl, rfl⟩ | ⟨rfl, rfl⟩ | ⟨rfl, rfl⟩ | ⟨rfl, rfl⟩ | ⟨rfl, rfl⟩ | ⟨rfl, rfl⟩ | ⟨rfl, rfl⟩) <;> rfl

/-- Texts and their tokens. -/
inductive TokText : List Char → List StrTok → Prop where
  | nil : TokText [] []
  | plain {c : Char} {t : List Char} {ts : List StrTok} : 32 ≤ c.toNat → c ≠ '"' → c ≠ '\\' → TokText t ts → TokText (c :: t) (.char c :: ts)
  | letter {e c : Char} {t : List Char} {ts : List StrTok} : (e, c) ∈ letterEscapes → TokText t ts → TokText ('\\' :: e :: t) (.char c :: ts)
  | unit {u t : List Char} {ts : List StrTok} {n : Nat} : UnitText u n → TokText t ts → TokText (u ++ t) (.unit n :: ts)

theorem readToks_complete {t : List Char} {ts : List StrTok} (h : TokText t ts) (r : List Char) : readToks (t ++ '"' :: r) = some (ts, r) := by
  induction h with
  | nil => simp [readToks]
  | @plain c t ts h1 h2 h3 _ ih =>
    rw [List.cons_append, readToks]
    · simp [h3, show ¬ c.toNat < 32 by omega, ih]
    · exact h2
    · intro a b c d r h; exact absurd h (by simp [h3])
    · intro e r h; exact absurd h (by simp [h3])
  | @letter e c t ts h1 _ ih =>
    have he : simpleEscape e = some c := simpleEscape_iff.2 h1
    have hu : e ≠ 'u' := by rintro rfl; revert he; simp [simpleEscape]
    rw [List.cons_append, List.cons_append, readToks]
    · simp [he, ih]
    · intro a b c d r h; exact absurd h (by simp [hu])
  | @unit u t ts n h1 _ ih =>
    obtain ⟨a, b, c, d, x, y, z, w, rfl, h2⟩ := id h1
    have h4 : hexVal4 a b c d = some n := hexVal4_iff.2 h1
    simp [readToks, h4, ih]

theorem readToks_sound : ∀ {cs : List Char} {ts : List StrTok} {r : List Char}, readToks cs = some (ts, r) → ∃ t, TokText t ts ∧ cs = t ++ '"' :: r
  | [], ts, r, h => by simp [readToks] at h
  | c0 :: cs0, ts, r, h => by
    unfold readToks at h
    split at h
    · cases h
    · rename_i heq
      cases heq
      cases h
      exact ⟨[], .nil, rfl⟩
    · rename_i a b c d r' heq
      injection heq with e1 e2
      subst e1 e2
      split at h
      · cases h
      · rename_i n hn
        cases hr : readToks r' with
        | none => rw [hr] at h; cases h
        | some x =>
          rw [hr] at h
          cases h
          obtain ⟨t, h1, h2⟩ := readToks_sound (cs := r') (ts := x.1) (r := x.2) hr
          exact ⟨['\\', 'u', a, b, c, d] ++ t, .unit (hexVal4_iff.1 hn) h1, by rw [h2]; rfl⟩
    · rename_i e r' _ heq
      injection heq with e1 e2
      subst e1 e2
      split at h
      · cases h
      · rename_i c hc
        cases hr : readToks r' with
        | none => rw [hr] at h; cases h
        | some x =>
          rw [hr] at h
          cases h
          obtain ⟨t, h1, h2⟩ := readToks_sound (cs := r') (ts := x.1) (r := x.2) hr
          exact ⟨'\\' :: e :: t, .letter (simpleEscape_iff.1 hc) h1, by rw [h2]; rfl⟩
    · rename_i c r' hq _ _ heq
      injection heq with e1 e2
      subst e1 e2
      split at h
      · cases h
      · rename_i hc
        cases hr : readToks cs0 with
        | none => rw [hr] at h; cases h
        | some x =>
          rw [hr] at h
          cases h
          obtain ⟨t, h1, h2⟩ := readToks_sound (cs := cs0) (ts := x.1) (r := x.2) hr
          exact ⟨c0 :: t, .plain (by omega) (fun e => hq e) (fun e => hc (.inl e)) h1, by rw [h2]; rfl⟩

theorem isHigh_iff {n : Nat} : isHigh n = true ↔ HighHalf n := by
  unfold isHigh HighHalf
  simp only [decide_eq_true_eq]; omega

theorem isLow_iff {n : Nat} : isLow n = true ↔ LowHalf n := by
  unfold isLow LowHalf
  simp only [decide_eq_true_eq]; omega

/-- A text that starts with a unit has it as its first token. -/
theorem TokText.starts {v t' t : List Char} {k : Nat} {ts : List StrTok} (h : TokText t ts) (hv : UnitText v k) (ht : t = v ++ t') : ∃ ts', ts = .unit k :: ts' ∧ TokText t' ts' := by
  obtain ⟨a, b, c, d, x, y, z, w, rfl, h2⟩ := id hv
  cases h with
  | nil => cases ht
  | plain h1 h3 h4 h5 => injection ht with e1 e2; exact absurd e1 h4
  | @letter e c' t ts h1 h3 =>
    injection ht with e1 e2
    injection e2 with e2 e3
    subst e2
    revert h1; simp [letterEscapes]
  | @unit u t2 ts n h1 h3 =>
    obtain ⟨a', b', c', d', x', y', z', w', rfl, h4⟩ := id h1
    simp only [List.cons_append, List.nil_append, List.cons.injEq, true_and] at ht
    obtain ⟨rfl, rfl, rfl, rfl, rfl⟩ := ht
    have e1 := hexVal4_iff.2 h1
    have e2 := hexVal4_iff.2 hv
    rw [e1] at e2
    cases e2
    exact ⟨ts, rfl, h3⟩

theorem joinToks_complete {t m : List Char} (h : StrBody t m) : ∃ ts, TokText t ts ∧ joinToks ts = m := by
  induction h with
  | nil => exact ⟨[], .nil, rfl⟩
  | @plain c t m h1 h2 h3 _ ih =>
    obtain ⟨ts, i1, i2⟩ := ih
    exact ⟨.char c :: ts, .plain h1 h2 h3 i1, by simp [joinToks, i2]⟩
  | @letter e c t m h1 _ ih =>
    obtain ⟨ts, i1, i2⟩ := ih
    exact ⟨.char c :: ts, .letter h1 i1, by simp [joinToks, i2]⟩
  | @unit u t m n h1 h2 h3 _ ih =>
    obtain ⟨ts, i1, i2⟩ := ih
    refine ⟨.unit n :: ts, .unit h1 i1, ?_⟩
    have e1 : isHigh n = false := by simpa using mt isHigh_iff.1 h2
    have e2 : isLow n = false := by simpa using mt isLow_iff.1 h3
    have e3 : unitChar n = Char.ofNat n := by simp [unitChar, e1, e2]
    cases ts with
    | nil => simp [joinToks, e3, ← i2]
    | cons x ts => cases x <;> simp [joinToks, e1, e3, ← i2]
  | @pair u v t m n k h1 h2 h3 h4 _ ih =>
    obtain ⟨ts, i1, i2⟩ := ih
    exact ⟨.unit n :: .unit k :: ts, .unit h1 (.unit h2 i1), by simp [joinToks, isHigh_iff.2 h3, isLow_iff.2 h4, i2]⟩
  | @half u t m n h1 h2 h3 _ ih =>
    obtain ⟨ts, i1, i2⟩ := ih
    refine ⟨.unit n :: ts, .unit h1 i1, ?_⟩
    have e3 : unitChar n = '�' := by
      unfold unitChar
      rcases h2 with h2 | h2
      · simp [isHigh_iff.2 h2]
      · simp [isLow_iff.2 h2]
    cases ts with
    | nil => simp [joinToks, e3, ← i2]
    | cons x ts =>
      cases x with
      | char c => simp [joinToks, e3, ← i2]
      | unit k =>
        have : (isHigh n && isLow k) = false := by
          rw [Bool.and_eq_false_iff]
          by_cases hh : HighHalf n
          · right
            rw [Bool.eq_false_iff]
            intro hk
            have hk := isLow_iff.1 hk
            generalize hts : StrTok.unit k :: ts = ts0 at i1
            cases i1 with
            | nil => cases hts
            | plain => cases hts
            | letter => cases hts
            | @unit v t2 ts2 n2 g1 g2 =>
              injection hts with q1 q2
              injection q1 with q1
              subst q1
              exact h3 hh v k t2 g1 hk rfl
          · left; simpa using mt isHigh_iff.1 hh
        simp [joinToks, e3, this, ← i2]

theorem joinToks_sound : ∀ {ts : List StrTok} {t : List Char}, TokText t ts → StrBody t (joinToks ts)
  | [], t, h => by cases h; exact .nil
  | .char c :: ts, t, h => by
    cases h with
    | plain h1 h2 h3 h4 => exact .plain h1 h2 h3 (joinToks_sound h4)
    | letter h1 h2 => exact .letter h1 (joinToks_sound h2)
  | [.unit n], t, h => by
    cases h with
    | @unit u t ts n h1 h2 =>
      have hb : StrBody t [] := joinToks_sound h2
      show StrBody (u ++ t) [unitChar n]
      have hnil : t = [] := by cases h2; rfl
      unfold unitChar
      split
      · rename_i hs
        rw [Bool.or_eq_true, isHigh_iff, isLow_iff] at hs
        refine .half h1 hs (fun _ v k t' hv _ e => ?_) hb
        obtain ⟨_, _, _, _, _, _, _, _, rfl, _⟩ := hv
        rw [hnil] at e; cases e
      · rename_i hs
        rw [Bool.or_eq_true, isHigh_iff, isLow_iff, not_or] at hs
        exact .unit h1 hs.1 hs.2 hb
  | .unit n :: .char c :: ts, t, h => by
    cases h with
    | @unit u t ts n h1 h2 =>
      have hb : StrBody t _ := joinToks_sound h2
      show StrBody (u ++ t) (unitChar n :: joinToks (.char c :: _))
      unfold unitChar
      split
      · rename_i hs
        rw [Bool.or_eq_true, isHigh_iff, isLow_iff] at hs
        refine .half h1 hs (fun _ v k t' hv _ e => ?_) hb
        obtain ⟨ts', e', _⟩ := h2.starts hv e
        cases e'
      · rename_i hs
        rw [Bool.or_eq_true, isHigh_iff, isLow_iff, not_or] at hs
        exact .unit h1 hs.1 hs.2 hb
  | .unit n :: .unit k :: ts, t, h => by
    cases h with
    | @unit u t ts' n h1 h2 =>
      by_cases hp : (isHigh n && isLow k) = true
      · cases h2 with
        | @unit v t ts'' k h3 h4 =>
          have hb : StrBody t _ := joinToks_sound h4
          simp only [joinToks, hp, if_true]
          rw [Bool.and_eq_true, isHigh_iff, isLow_iff] at hp
          exact .pair h1 h3 hp.1 hp.2 hb
      · have hb : StrBody t _ := joinToks_sound h2
        have e : joinToks (.unit n :: .unit k :: ts) = unitChar n :: joinToks (.unit k :: ts) := by
          rw [joinToks]; simp [hp]
        rw [e]
        unfold unitChar
        split
        · rename_i hs
          rw [Bool.or_eq_true, isHigh_iff, isLow_iff] at hs
          refine .half h1 hs (fun hh v k' t' hv hl e => ?_) hb
          obtain ⟨ts', e', _⟩ := h2.starts hv e
          cases e'
          exact hp (by rw [Bool.and_eq_true, isHigh_iff, isLow_iff]; exact ⟨hh, hl⟩)
        · rename_i hs
          rw [Bool.or_eq_true, isHigh_iff, isLow_iff, not_or] at hs
          exact .unit h1 hs.1 hs.2 hb

theorem readString_complete {t m : List Char} (h : StrBody t m) (r : List Char) : readString (t ++ '"' :: r) = some (String.ofList m, r) := by
  obtain ⟨ts, h1, h2⟩ := joinToks_complete h
  simp [readString, readToks_complete h1, h2]

theorem readString_sound {cs : List Char} {s : String} {r : List Char} (h : readString cs = some (s, r)) : ∃ t m, StrBody t m ∧ cs = t ++ '"' :: r ∧ s = String.ofList m := by
  unfold readString at h
  cases hr : readToks cs with
  | none => rw [hr] at h; cases h
  | some x =>
    rw [hr] at h
    cases h
    obtain ⟨t, h1, h2⟩ := readToks_sound (ts := x.1) (r := x.2) hr
    exact ⟨t, _, joinToks_sound h1, h2, rfl⟩

/-! ## Numbers -/

theorem isDigit_iff {c : Char} : isDigit c = true ↔ 48 ≤ c.toNat ∧ c.toNat ≤ 57 := by unfold isDigit; simp

/-- The text does not start with a digit. -/
def NoDigit (cs : List Char) : Prop := ∀ c r, cs = c :: r → isDigit c = false

theorem readRun_complete {ds r : List Char} (hd : ∀ c ∈ ds, 48 ≤ c.toNat ∧ c.toNat ≤ 57) (hr : NoDigit r) : readRun (ds ++ r) = (ds, r) := by
  induction ds with
  | nil =>
    cases r with
    | nil => rfl
    | cons c r => simp [readRun, hr c r rfl]
  | cons c ds ih =>
    have hc : isDigit c = true := isDigit_iff.2 (hd c (by simp))
    rw [List.cons_append, readRun, ih fun c h => hd c (List.mem_cons_of_mem _ h)]
    simp [hc]

theorem readRun_sound (cs : List Char) : cs = (readRun cs).1 ++ (readRun cs).2 ∧ (∀ c ∈ (readRun cs).1, 48 ≤ c.toNat ∧ c.toNat ≤ 57) := by
  induction cs with
  | nil => exact ⟨rfl, by simp [readRun]⟩
  | cons c cs ih =>
    by_cases hc : isDigit c = true
    · simp only [readRun, hc, if_true, List.cons_append]
      refine ⟨by rw [← ih.1], ?_⟩
      intro x hx
      rcases List.mem_cons.1 hx with rfl | hx
      · exact isDigit_iff.1 hc
      · exact ih.2 x hx
    · simp [readRun, hc]

theorem foldl_digits : ∀ (cs : List Char) (n : Nat), cs.foldl (fun n c => 10 * n + (c.toNat - 48)) n = n * 10 ^ cs.length + decimalOf cs
  | [], n => by simp [decimalOf]
  | c :: cs, n => by
    rw [List.foldl_cons, foldl_digits cs, decimalOf, List.length_cons, Nat.pow_succ, Nat.add_mul]
    rw [show 10 * n * 10 ^ cs.length = n * (10 ^ cs.length * 10) by rw [Nat.mul_comm (10 ^ cs.length) 10, ← Nat.mul_assoc, Nat.mul_comm n 10]]
    omega

theorem natOfDigits_eq (cs : List Char) : natOfDigits cs = decimalOf cs := by
  unfold natOfDigits; rw [foldl_digits]; simp

theorem readIntPart_complete {ds r : List Char} (h : IntText ds) (hr : NoDigit r) : readIntPart (ds ++ r) = some (ds, r) := by
  rcases h with rfl | ⟨⟨h1, h2⟩, h3⟩
  · simp [readIntPart]
  · cases ds with
    | nil => exact absurd rfl h1
    | cons c ds =>
      have hc : isDigit c = true := isDigit_iff.2 (h2 c (by simp))
      have h0 : c ≠ '0' := by simpa using h3
      rw [List.cons_append, readIntPart, readRun_complete (fun c h => h2 c (List.mem_cons_of_mem _ h)) hr]
      simp [hc, h0]

theorem readIntPart_sound {cs ds r : List Char} (h : readIntPart cs = some (ds, r)) : IntText ds ∧ cs = ds ++ r := by
  cases cs with
  | nil => cases h
  | cons c cs =>
    rw [readIntPart] at h
    split at h
    · rename_i h0
      cases h
      exact ⟨.inl rfl, by rw [h0]; rfl⟩
    · rename_i h0
      split at h
      · rename_i hc
        cases h
        obtain ⟨h1, h2⟩ := readRun_sound cs
        refine ⟨.inr ⟨⟨by simp, ?_⟩, by simpa using h0⟩, by rw [List.cons_append, ← h1]⟩
        intro x hx
        rcases List.mem_cons.1 hx with rfl | hx
        · exact isDigit_iff.1 hc
        · exact h2 x hx
      · cases h

theorem readFracPart_complete {f r : List Char} (h : FractionText f) (hr : NoDigit r) (hd : ∀ s, r ≠ '.' :: s) : readFracPart (f ++ r) = some (decide (f ≠ []), r) := by
  rcases h with rfl | ⟨ds, ⟨h1, h2⟩, rfl⟩
  · cases r with
    | nil => simp [readFracPart]
    | cons c r =>
      have : c ≠ '.' := by rintro rfl; exact hd r rfl
      rw [List.nil_append, readFracPart]
      · simp
      · intro cs e
        injection e with e1 e2
        exact this e1
  · rw [List.cons_append, readFracPart, readRun_complete h2 hr]
    simp [h1]

theorem readFracPart_sound {cs r : List Char} {b : Bool} (h : readFracPart cs = some (b, r)) : ∃ f, FractionText f ∧ cs = f ++ r ∧ b = decide (f ≠ []) := by
  unfold readFracPart at h
  split at h
  · rename_i cs
    split at h
    · cases h
    · rename_i hne
      cases h
      obtain ⟨h1, h2⟩ := readRun_sound cs
      exact ⟨'.' :: (readRun cs).1, .inr ⟨_, ⟨hne, h2⟩, rfl⟩, by rw [List.cons_append, ← h1], by simp⟩
  · cases h
    exact ⟨[], .inl rfl, rfl, by simp⟩

theorem readExpPart_complete {e r : List Char} (h : ExpText e) (hr : NoDigit r) (hd : ∀ s, r ≠ 'e' :: s ∧ r ≠ 'E' :: s) : readExpPart (e ++ r) = some (decide (e ≠ []), r) := by
  rcases h with rfl | ⟨x, sgn, ds, hx, hs, ⟨h1, h2⟩, rfl⟩
  · cases r with
    | nil => simp [readExpPart]
    | cons c r =>
      have h1 : c ≠ 'e' := by rintro rfl; exact (hd r).1 rfl
      have h2 : c ≠ 'E' := by rintro rfl; exact (hd r).2 rfl
      simp [readExpPart, h1, h2]
  · have hsk : skipSign (sgn ++ (ds ++ r)) = ds ++ r := by
      rcases hs with rfl | rfl | rfl
      · cases ds with
        | nil => exact absurd rfl h1
        | cons c ds =>
          have hc := h2 c (by simp)
          rw [List.nil_append, List.cons_append, skipSign]
          · intro cs e
            injection e with e1 e2
            rw [e1] at hc; revert hc; decide
          · intro cs e
            injection e with e1 e2
            rw [e1] at hc; revert hc; decide
      · rfl
      · rfl
    rw [List.cons_append, List.append_assoc, readExpPart, if_pos hx, hsk, readRun_complete h2 hr]
    simp [h1]

theorem readExpPart_sound {cs r : List Char} {b : Bool} (h : readExpPart cs = some (b, r)) : ∃ e, ExpText e ∧ cs = e ++ r ∧ b = decide (e ≠ []) := by
  cases cs with
  | nil => cases h; exact ⟨[], .inl rfl, rfl, by simp⟩
  | cons c cs =>
    rw [readExpPart] at h
    split at h
    · rename_i hx
      split at h
      · cases h
      · rename_i hne
        cases h
        obtain ⟨h1, h2⟩ := readRun_sound (skipSign cs)
        have hs : ∃ sgn, (sgn = [] ∨ sgn = ['+'] ∨ sgn = ['-']) ∧ cs = sgn ++ skipSign cs := by
          unfold skipSign
          split
          · exact ⟨['+'], .inr (.inl rfl), rfl⟩
          · exact ⟨['-'], .inr (.inr rfl), rfl⟩
          · exact ⟨[], .inl rfl, rfl⟩
        obtain ⟨sgn, hs1, hs2⟩ := hs
        refine ⟨c :: (sgn ++ (readRun (skipSign cs)).1), .inr ⟨c, sgn, _, hx, hs1, ⟨hne, h2⟩, rfl⟩, ?_, by simp⟩
        rw [List.cons_append, List.append_assoc, ← h1, ← hs2]
    · cases h
      exact ⟨[], .inl rfl, rfl, by simp⟩

/-- The value of a number from its parts. -/
def numOf (neg : Bool) (ds f e : List Char) : Json :=
  if decide (f ≠ []) || decide (e ≠ []) || (neg && ds == ['0']) then .other else .num (if neg then -(decimalOf ds : Int) else (decimalOf ds : Int))

def signText (neg : Bool) : List Char := if neg then ['-'] else []

theorem numText_parts {t : List Char} {j : Json} (h : NumText t j) : ∃ neg ds f e, t = signText neg ++ (ds ++ (f ++ e)) ∧ IntText ds ∧ FractionText f ∧ ExpText e ∧ j = numOf neg ds f e := by
  cases h with
  | nat h => exact ⟨false, t, [], [], by simp [signText], h, .inl rfl, .inl rfl, by simp [numOf]⟩
  | @neg ds h h0 => exact ⟨true, ds, [], [], by simp [signText], h, .inl rfl, .inl rfl, by simp [numOf, h0]⟩
  | @other sgn ds f e h1 h2 h3 h4 h5 =>
    refine ⟨decide (sgn = ['-']), ds, f, e, ?_, h2, h3, h4, ?_⟩
    · rcases h1 with rfl | rfl <;> simp [signText]
    · unfold numOf
      rw [if_pos]
      simp only [Bool.or_eq_true, decide_eq_true_eq, Bool.and_eq_true, beq_iff_eq]
      rcases h5 with h | h | h
      · exact .inl (.inl h)
      · exact .inl (.inr h)
      · exact .inr h

theorem numText_of {neg : Bool} {ds f e : List Char} (h1 : IntText ds) (h2 : FractionText f) (h3 : ExpText e) : NumText (signText neg ++ (ds ++ (f ++ e))) (numOf neg ds f e) := by
  unfold numOf
  split
  · rename_i h
    simp only [Bool.or_eq_true, decide_eq_true_eq, Bool.and_eq_true, beq_iff_eq] at h
    refine .other (by cases neg <;> simp [signText]) h1 h2 h3 ?_
    rcases h with (h | h) | h
    · exact .inl h
    · exact .inr (.inl h)
    · exact .inr (.inr ⟨by simp [signText, h.1], h.2⟩)
  · rename_i h
    simp only [Bool.or_eq_true, decide_eq_true_eq, Bool.and_eq_true, beq_iff_eq, not_or, ne_eq, Decidable.not_not] at h
    obtain ⟨⟨rfl, rfl⟩, h⟩ := h
    cases neg with
    | false => simpa [signText] using NumText.nat h1
    | true => simpa [signText] using NumText.neg h1 (fun e => h ⟨rfl, e⟩)

/-- The text does not go on with a number. -/
def NumEnd (r : List Char) : Prop := ∀ c s, r = c :: s → isDigit c = false ∧ c ≠ '.' ∧ c ≠ 'e' ∧ c ≠ 'E'

theorem readAbs_complete {neg : Bool} {ds f e r : List Char} (h1 : IntText ds) (h2 : FractionText f) (h3 : ExpText e) (hr : NumEnd r) :
    readAbs neg (ds ++ (f ++ (e ++ r))) = some (numOf neg ds f e, r) := by
  have d3 : NoDigit r := fun c s h => (hr c s h).1
  have d2 : NoDigit (e ++ r) := by
    rcases h3 with rfl | ⟨x, sgn, ds, hx, _, _, rfl⟩
    · exact d3
    · intro c s h
      injection h with h _
      subst h
      rcases hx with rfl | rfl <;> decide
  have d1 : NoDigit (f ++ (e ++ r)) := by
    rcases h2 with rfl | ⟨ds, _, rfl⟩
    · exact d2
    · intro c s h
      injection h with h _
      subst h
      decide
  have q2 : ∀ s, e ++ r ≠ '.' :: s := by
    rcases h3 with rfl | ⟨x, sgn, ds, hx, _, _, rfl⟩
    · intro s h; exact (hr _ _ h).2.1 rfl
    · intro s h
      injection h with h _
      rw [h] at hx; revert hx; decide
  have q3 : ∀ s, r ≠ 'e' :: s ∧ r ≠ 'E' :: s := fun s => ⟨fun h => (hr _ _ h).2.2.1 rfl, fun h => (hr _ _ h).2.2.2 rfl⟩
  rw [readAbs, readIntPart_complete h1 d1]
  simp only []
  rw [readFracPart_complete h2 d2 q2]
  simp only []
  rw [readExpPart_complete h3 d3 q3]
  simp only [numOf, natOfDigits_eq]

theorem readAbs_sound {neg : Bool} {cs r : List Char} {j : Json} (h : readAbs neg cs = some (j, r)) :
    ∃ ds f e, IntText ds ∧ FractionText f ∧ ExpText e ∧ cs = ds ++ (f ++ (e ++ r)) ∧ j = numOf neg ds f e := by
  unfold readAbs at h
  cases h1 : readIntPart cs with
  | none => rw [h1] at h; cases h
  | some x =>
    obtain ⟨ds, r1⟩ := x
    rw [h1] at h
    simp only [] at h
    cases h2 : readFracPart r1 with
    | none => rw [h2] at h; cases h
    | some y =>
      obtain ⟨b, r2⟩ := y
      rw [h2] at h
      simp only [] at h
      cases h3 : readExpPart r2 with
      | none => rw [h3] at h; cases h
      | some z =>
        obtain ⟨b', r3⟩ := z
        rw [h3] at h
        obtain ⟨i1, i2⟩ := readIntPart_sound h1
        obtain ⟨f, f1, f2, f3⟩ := readFracPart_sound h2
        obtain ⟨e, e1, e2, e3⟩ := readExpPart_sound h3
        simp only [Option.some.injEq, Prod.mk.injEq] at h
        obtain ⟨hj, rfl⟩ := h
        refine ⟨ds, f, e, i1, f1, e1, by rw [i2, f2, e2], ?_⟩
        rw [← hj, f3, e3, natOfDigits_eq]
        rfl

theorem intText_first {ds : List Char} (h : IntText ds) : ∃ c t, ds = c :: t ∧ isDigit c = true := by
  rcases h with rfl | ⟨⟨h1, h2⟩, _⟩
  · exact ⟨'0', [], rfl, by decide⟩
  · cases ds with
    | nil => exact absurd rfl h1
    | cons c t => exact ⟨c, t, rfl, isDigit_iff.2 (h2 c (by simp))⟩

theorem readNumber_complete {t r : List Char} {j : Json} (h : NumText t j) (hr : NumEnd r) : readNumber (t ++ r) = some (j, r) := by
  obtain ⟨neg, ds, f, e, rfl, h1, h2, h3, rfl⟩ := (numText_parts h)
  have := readAbs_complete (neg := neg) h1 h2 h3 hr
  cases neg with
  | true => simpa [signText, readNumber] using this
  | false =>
    obtain ⟨c, t, rfl, hc⟩ := (intText_first h1)
    simp only [signText, Bool.false_eq_true, if_false, List.nil_append, List.append_assoc, List.cons_append] at this ⊢
    rw [readNumber]
    · exact this
    · intro cs e
      injection e with e1 e2
      rw [e1] at hc; revert hc; decide

theorem readNumber_sound {cs r : List Char} {j : Json} (h : readNumber cs = some (j, r)) : ∃ t, NumText t j ∧ cs = t ++ r := by
  unfold readNumber at h
  split at h
  · obtain ⟨ds, f, e, h1, h2, h3, h4, rfl⟩ := readAbs_sound h
    exact ⟨_, numText_of (neg := true) h1 h2 h3, by rw [h4]; simp [signText]⟩
  · obtain ⟨ds, f, e, h1, h2, h3, h4, rfl⟩ := readAbs_sound h
    exact ⟨_, numText_of (neg := false) h1 h2 h3, by rw [h4]; simp [signText]⟩

theorem numText_first {t : List Char} {j : Json} (h : NumText t j) : ∃ c t', t = c :: t' ∧ (isDigit c = true ∨ c = '-') := by
  obtain ⟨neg, ds, f, e, rfl, h1, _⟩ := (numText_parts h)
  obtain ⟨c, t, rfl, hc⟩ := (intText_first h1)
  cases neg with
  | true => exact ⟨'-', _, rfl, .inr rfl⟩
  | false => exact ⟨c, _, rfl, .inl hc⟩

/-! ## Values -/

/-- What a number starts with starts nothing else. -/
theorem num_start {c : Char} (h : isDigit c = true ∨ c = '-') : c ≠ '"' ∧ c ≠ '[' ∧ c ≠ '{' ∧ c ≠ 'n' ∧ c ≠ 't' ∧ c ≠ 'f' ∧ isSpace c = false ∧ c ≠ ']' ∧ c ≠ '}' := by
  refine ⟨?_, ?_, ?_, ?_, ?_, ?_, ?_, ?_, ?_⟩
  all_goals first
    | (rintro rfl; revert h; decide)
    | (rw [Bool.eq_false_iff]; intro hs; rcases isSpace_iff.1 hs with rfl | rfl | rfl | rfl <;> (revert h; decide))

theorem valText_first {t : List Char} {j : Json} (h : ValText t j) : ∃ c t', t = c :: t' ∧ isSpace c = false ∧ c ≠ ']' ∧ c ≠ '}' := by
  cases h with
  | null => exact ⟨_, _, rfl, by decide⟩
  | true_ => exact ⟨_, _, rfl, by decide⟩
  | false_ => exact ⟨_, _, rfl, by decide⟩
  | num h =>
    obtain ⟨c, t', rfl, hc⟩ := numText_first h
    obtain ⟨_, _, _, _, _, _, h1, h2, h3⟩ := num_start hc
    exact ⟨c, t', rfl, h1, h2, h3⟩
  | str => exact ⟨_, _, rfl, by decide⟩
  | arr0 => exact ⟨_, _, rfl, by decide⟩
  | arr => exact ⟨_, _, rfl, by decide⟩
  | obj0 => exact ⟨_, _, rfl, by decide⟩
  | obj => exact ⟨_, _, rfl, by decide⟩

theorem itemsText_first {t : List Char} {js : List Json} (h : ItemsText t js) : ∃ c t', t = c :: t' ∧ isSpace c = false ∧ c ≠ ']' := by
  cases h with
  | one h => obtain ⟨c, t', rfl, h1, h2, _⟩ := valText_first h; exact ⟨c, _, rfl, h1, h2⟩
  | more h => obtain ⟨c, t', rfl, h1, h2, _⟩ := valText_first h; exact ⟨c, _, rfl, h1, h2⟩

theorem membersText_first {t : List Char} {ms : List (String × Json)} (h : MembersText t ms) : ∃ t', t = '"' :: t' := by
  cases h with
  | one h => cases h; exact ⟨_, rfl⟩
  | more h => cases h; exact ⟨_, rfl⟩

theorem noSpace_cons {c : Char} {t : List Char} (h : isSpace c = false) : NoSpace (c :: t) := by
  intro x r e
  injection e with e _
  rw [← e]; exact h

theorem numEnd_cons {c : Char} {t : List Char} (h : isDigit c = false ∧ c ≠ '.' ∧ c ≠ 'e' ∧ c ≠ 'E') : NumEnd (c :: t) := by
  intro x r e
  injection e with e _
  rw [← e]; exact h

/-- White space and a character that ends a number end a number. -/
theorem numEnd_spaces {a : List Char} {c : Char} {t : List Char} (ha : Spaces a) (h : isDigit c = false ∧ c ≠ '.' ∧ c ≠ 'e' ∧ c ≠ 'E') : NumEnd (a ++ c :: t) := by
  cases a with
  | nil => exact numEnd_cons h
  | cons x a =>
    refine numEnd_cons ?_
    rcases ha x (by simp) with rfl | rfl | rfl | rfl <;> decide

theorem numEnd_only_spaces {a : List Char} (ha : Spaces a) : NumEnd a := by
  cases a with
  | nil => intro c s h; cases h
  | cons x a =>
    refine numEnd_cons ?_
    rcases ha x (by simp) with rfl | rfl | rfl | rfl <;> decide

theorem readValue_cons (n : Nat) (c : Char) (r : List Char) : readValue (n + 1) (c :: r) =
    if c = '"' then (readString r).map fun x => (.str x.1, x.2)
    else if c = '[' then
      match skipSpace r with
      | ']' :: r' => some (.arr [], r')
      | r' => (readItems n r').map fun x => (.arr x.1, x.2)
    else if c = '{' then
      match skipSpace r with
      | '}' :: r' => some (.obj [], r')
      | r' => (readMembers n r').map fun x => (.obj x.1, x.2)
    else if c = 'n' then (match r with | 'u' :: 'l' :: 'l' :: r' => some (.null, r') | _ => none)
    else if c = 't' then (match r with | 'r' :: 'u' :: 'e' :: r' => some (.bool true, r') | _ => none)
    else if c = 'f' then (match r with | 'a' :: 'l' :: 's' :: 'e' :: r' => some (.bool false, r') | _ => none)
    else readNumber (c :: r) := by
  conv => lhs; unfold readValue
  rfl

theorem readValue_arr {n : Nat} {r r' : List Char} (h : skipSpace r = r') (hne : ∀ s, r' ≠ ']' :: s) :
    readValue (n + 1) ('[' :: r) = (readItems n r').map fun x => (.arr x.1, x.2) := by
  subst h
  rw [readValue_cons]
  simp only [show ('[' = '"') = False by decide, if_false, if_true]

theorem readValue_obj {n : Nat} {r r' : List Char} (h : skipSpace r = r') (hne : ∀ s, r' ≠ '}' :: s) :
    readValue (n + 1) ('{' :: r) = (readMembers n r').map fun x => (.obj x.1, x.2) := by
  subst h
  rw [readValue_cons]
  simp only [show ('{' = '"') = False by decide, show ('{' = '[') = False by decide, if_false, if_true]

/-- The value is a number. -/
def IsNumber : Json → Prop
  | .num _ | .other => True
  | _ => False

theorem numText_number {t : List Char} {j : Json} (h : NumText t j) : IsNumber j := by cases h <;> trivial

/-- What is read of a text, with enough fuel. -/
theorem read_complete : ∀ n : Nat,
    (∀ (t r : List Char) (j : Json), ValText t j → t.length ≤ n → (IsNumber j → NumEnd r) → readValue n (t ++ r) = some (j, r)) ∧
    (∀ (t r : List Char) (js : List Json), ItemsText t js → t.length + 1 ≤ n → readItems n (t ++ ']' :: r) = some (js, r)) ∧
    (∀ (t r : List Char) (ms : List (String × Json)), MembersText t ms → t.length + 1 ≤ n → readMembers n (t ++ '}' :: r) = some (ms, r))
  | 0 => by
    refine ⟨?_, ?_, ?_⟩
    · intro t r j h hl
      obtain ⟨c, t', rfl, _⟩ := valText_first h
      simp at hl
    · intro t r js h hl; omega
    · intro t r ms h hl; omega
  | n + 1 => by
    obtain ⟨ihv, ihi, ihm⟩ := read_complete n
    refine ⟨?_, ?_, ?_⟩
    · intro t r j h hl hr
      cases h with
      | null => simp [readValue]
      | true_ => simp [readValue]
      | false_ => simp [readValue]
      | num h =>
        have hn := readNumber_complete h (hr (numText_number h))
        obtain ⟨c, t', rfl, hc⟩ := numText_first h
        obtain ⟨h1, h2, h3, h4, h5, h6, _⟩ := num_start hc
        rw [List.cons_append] at hn ⊢
        rw [readValue_cons]
        simp only [h1, h2, h3, h4, h5, h6, if_false]
        exact hn
      | @str t m h =>
        rw [List.cons_append, List.append_assoc, readValue_cons]
        simp [readString_complete h]
      | @arr0 a ha =>
        have hsk : skipSpace (a ++ [']'] ++ r) = ']' :: r := by
          rw [List.append_assoc]; exact skipSpace_append ha (noSpace_cons (by decide))
        rw [List.cons_append, readValue_cons, hsk]
        simp
      | @arr a u js ha hu =>
        obtain ⟨c, t', rfl, h1, h2⟩ := itemsText_first hu
        have hsk : skipSpace (a ++ (c :: t' ++ [']']) ++ r) = c :: t' ++ ']' :: r := by
          rw [List.append_assoc, List.append_assoc]; exact skipSpace_append ha (noSpace_cons h1)
        rw [List.cons_append, readValue_arr hsk (by intro s e; injection e with e _; exact h2 e), ihi _ r js hu (by simp at hl ⊢; omega)]
        rfl
      | @obj0 a ha =>
        have hsk : skipSpace (a ++ ['}'] ++ r) = '}' :: r := by
          rw [List.append_assoc]; exact skipSpace_append ha (noSpace_cons (by decide))
        rw [List.cons_append, readValue_cons, hsk]
        simp
      | @obj a u ms ha hu =>
        obtain ⟨t', rfl⟩ := membersText_first hu
        have hsk : skipSpace (a ++ ('"' :: t' ++ ['}']) ++ r) = '"' :: t' ++ '}' :: r := by
          rw [List.append_assoc, List.append_assoc]; exact skipSpace_append ha (noSpace_cons (by decide))
        rw [List.cons_append, readValue_obj hsk (by intro s e; injection e with e _; revert e; decide), ihm _ r ms hu (by simp at hl ⊢; omega)]
        rfl
    · intro t r js h hl
      cases h with
      | @one t a j hv ha =>
        have h1 := ihv t (a ++ ']' :: r) j hv (by simp at hl; omega) (fun _ => numEnd_spaces ha (by decide))
        rw [List.append_assoc, readItems, h1]
        simp only []
        rw [skipSpace_append ha (noSpace_cons (by decide))]
        rfl
      | @more t a b u j js hv ha hb hu =>
        have h1 := ihv t (a ++ ',' :: (b ++ (u ++ ']' :: r))) j hv (by simp at hl; omega) (fun _ => numEnd_spaces ha (by decide))
        have h2 := ihi u r js hu (by simp at hl; omega)
        obtain ⟨c, t', rfl, g1, _⟩ := itemsText_first hu
        have e : t ++ (a ++ ',' :: (b ++ (c :: t'))) ++ ']' :: r = t ++ (a ++ ',' :: (b ++ (c :: t' ++ ']' :: r))) := by simp
        rw [e, readItems, h1]
        simp only []
        rw [skipSpace_append ha (noSpace_cons (by decide))]
        simp only []
        rw [skipSpace_append hb (by rw [List.cons_append]; exact noSpace_cons g1), h2]
        rfl
    · intro t r ms h hl
      cases h with
      | @one p c m hp hc =>
        cases hp with
        | @mk k m a b t j hk ha hb hv =>
          have h1 := ihv t (c ++ '}' :: r) j hv (by simp at hl; omega) (fun _ => numEnd_spaces hc (by decide))
          obtain ⟨x, t', rfl, g1, _⟩ := valText_first hv
          have e : '"' :: (k ++ '"' :: (a ++ ':' :: (b ++ (x :: t')))) ++ c ++ '}' :: r = '"' :: (k ++ '"' :: (a ++ ':' :: (b ++ (x :: t' ++ (c ++ '}' :: r))))) := by simp
          rw [e, readMembers, readString_complete hk]
          simp only []
          rw [skipSpace_append ha (noSpace_cons (by decide))]
          simp only []
          rw [skipSpace_append hb (by rw [List.cons_append]; exact noSpace_cons g1), h1]
          simp only []
          rw [skipSpace_append hc (noSpace_cons (by decide))]
          rfl
      | @more p c d u m ms hp hc hd hu =>
        cases hp with
        | @mk k m a b t j hk ha hb hv =>
          have h1 := ihv t (c ++ ',' :: (d ++ (u ++ '}' :: r))) j hv (by simp at hl; omega) (fun _ => numEnd_spaces hc (by decide))
          have h2 := ihm u r ms hu (by simp at hl; omega)
          obtain ⟨x, t', rfl, g1, _⟩ := valText_first hv
          obtain ⟨u', rfl⟩ := membersText_first hu
          have e : '"' :: (k ++ '"' :: (a ++ ':' :: (b ++ (x :: t')))) ++ (c ++ ',' :: (d ++ '"' :: u')) ++ '}' :: r =
              '"' :: (k ++ '"' :: (a ++ ':' :: (b ++ (x :: t' ++ (c ++ ',' :: (d ++ ('"' :: u' ++ '}' :: r))))))) := by simp
          rw [e, readMembers, readString_complete hk]
          simp only []
          rw [skipSpace_append ha (noSpace_cons (by decide))]
          simp only []
          rw [skipSpace_append hb (by rw [List.cons_append]; exact noSpace_cons g1), h1]
          simp only []
          rw [skipSpace_append hc (noSpace_cons (by decide))]
          simp only []
          rw [skipSpace_append hd (by rw [List.cons_append]; exact noSpace_cons (by decide)), h2]
          rfl

/-- What was read was there. -/
theorem read_sound : ∀ n : Nat,
    (∀ (cs r : List Char) (j : Json), readValue n cs = some (j, r) → ∃ t, ValText t j ∧ cs = t ++ r) ∧
    (∀ (cs r : List Char) (js : List Json), readItems n cs = some (js, r) → ∃ t, ItemsText t js ∧ cs = t ++ ']' :: r) ∧
    (∀ (cs r : List Char) (ms : List (String × Json)), readMembers n cs = some (ms, r) → ∃ t, MembersText t ms ∧ cs = t ++ '}' :: r)
  | 0 => by
    refine ⟨?_, ?_, ?_⟩ <;> intro cs r x h <;> simp [readValue, readItems, readMembers] at h
  | n + 1 => by
    obtain ⟨ihv, ihi, ihm⟩ := read_sound n
    refine ⟨?_, ?_, ?_⟩
    · intro cs r j h
      cases cs with
      | nil => simp [readValue] at h
      | cons c cs =>
        rw [readValue_cons] at h
        split at h
        · rename_i hc
          subst hc
          cases hs : readString cs with
          | none => rw [hs] at h; simp at h
          | some x =>
            obtain ⟨s, r'⟩ := x
            rw [hs] at h
            simp only [Option.map_some, Option.some.injEq, Prod.mk.injEq] at h
            obtain ⟨rfl, rfl⟩ := h
            obtain ⟨t, m, h1, rfl, rfl⟩ := readString_sound hs
            exact ⟨_, .str h1, by simp⟩
        split at h
        · rename_i hc
          subst hc
          obtain ⟨a, ha, hcs, _⟩ := skipSpace_sound cs
          split at h
          · rename_i r' heq
            simp only [Option.some.injEq, Prod.mk.injEq] at h
            obtain ⟨rfl, rfl⟩ := h
            rw [heq] at hcs
            exact ⟨_, .arr0 ha, by rw [hcs]; simp⟩
          · cases hi : readItems n (skipSpace cs) with
            | none => rw [hi] at h; simp at h
            | some x =>
              obtain ⟨js, r'⟩ := x
              rw [hi] at h
              simp only [Option.map_some, Option.some.injEq, Prod.mk.injEq] at h
              obtain ⟨rfl, rfl⟩ := h
              obtain ⟨t, h1, h2⟩ := ihi _ _ _ hi
              rw [h2] at hcs
              exact ⟨_, .arr ha h1, by rw [hcs]; simp⟩
        split at h
        · rename_i hc
          subst hc
          obtain ⟨a, ha, hcs, _⟩ := skipSpace_sound cs
          split at h
          · rename_i r' heq
            simp only [Option.some.injEq, Prod.mk.injEq] at h
            obtain ⟨rfl, rfl⟩ := h
            rw [heq] at hcs
            exact ⟨_, .obj0 ha, by rw [hcs]; simp⟩
          · cases hi : readMembers n (skipSpace cs) with
            | none => rw [hi] at h; simp at h
            | some x =>
              obtain ⟨js, r'⟩ := x
              rw [hi] at h
              simp only [Option.map_some, Option.some.injEq, Prod.mk.injEq] at h
              obtain ⟨rfl, rfl⟩ := h
              obtain ⟨t, h1, h2⟩ := ihm _ _ _ hi
              rw [h2] at hcs
              exact ⟨_, .obj ha h1, by rw [hcs]; simp⟩
        split at h
        · rename_i hc
          subst hc
          split at h
          · simp only [Option.some.injEq, Prod.mk.injEq] at h
            obtain ⟨rfl, rfl⟩ := h
            exact ⟨_, .null, rfl⟩
          · cases h
        split at h
        · rename_i hc
          subst hc
          split at h
          · simp only [Option.some.injEq, Prod.mk.injEq] at h
            obtain ⟨rfl, rfl⟩ := h
            exact ⟨_, .true_, rfl⟩
          · cases h
        split at h
        · rename_i hc
          subst hc
          split at h
          · simp only [Option.some.injEq, Prod.mk.injEq] at h
            obtain ⟨rfl, rfl⟩ := h
            exact ⟨_, .false_, rfl⟩
          · cases h
        obtain ⟨t, h1, h2⟩ := readNumber_sound h
        exact ⟨t, .num h1, h2⟩
    · intro cs r js h
      rw [readItems] at h
      cases hv : readValue n cs with
      | none => rw [hv] at h; simp at h
      | some x =>
        obtain ⟨j, r1⟩ := x
        rw [hv] at h
        simp only [] at h
        obtain ⟨t, h1, rfl⟩ := ihv _ _ _ hv
        obtain ⟨a, ha, hcs, _⟩ := skipSpace_sound r1
        split at h
        · rename_i r' heq
          simp only [Option.some.injEq, Prod.mk.injEq] at h
          obtain ⟨rfl, rfl⟩ := h
          rw [heq] at hcs
          exact ⟨_, .one h1 ha, by rw [hcs]; simp⟩
        · rename_i r' heq
          cases hi : readItems n (skipSpace r') with
          | none => rw [hi] at h; simp at h
          | some x =>
            obtain ⟨js', r2⟩ := x
            rw [hi] at h
            simp only [Option.map_some, Option.some.injEq, Prod.mk.injEq] at h
            obtain ⟨rfl, rfl⟩ := h
            obtain ⟨u, h2, h3⟩ := ihi _ _ _ hi
            obtain ⟨b, hb, hcs2, _⟩ := skipSpace_sound r'
            rw [h3] at hcs2
            rw [heq, hcs2] at hcs
            exact ⟨_, .more h1 ha hb h2, by rw [hcs]; simp⟩
        · cases h
    · intro cs r ms h
      rw [readMembers.eq_def] at h
      simp only [] at h
      split at h
      · rename_i r0
        cases hk : readString r0 with
        | none => rw [hk] at h; simp at h
        | some x =>
          obtain ⟨k, r1⟩ := x
          rw [hk] at h
          simp only [] at h
          obtain ⟨kt, km, hkb, rfl, rfl⟩ := readString_sound hk
          obtain ⟨a, ha, hcs1, _⟩ := skipSpace_sound r1
          split at h
          · rename_i r2 heq
            rw [heq] at hcs1
            cases hv : readValue n (skipSpace r2) with
            | none => rw [hv] at h; simp at h
            | some x =>
              obtain ⟨j, r3⟩ := x
              rw [hv] at h
              simp only [] at h
              obtain ⟨t, h1, h2⟩ := ihv _ _ _ hv
              obtain ⟨b, hb, hcs2, _⟩ := skipSpace_sound r2
              rw [h2] at hcs2
              obtain ⟨c, hc, hcs3, _⟩ := skipSpace_sound r3
              have hm := MemberText.mk hkb ha hb h1
              split at h
              · rename_i r' heq2
                simp only [Option.some.injEq, Prod.mk.injEq] at h
                obtain ⟨rfl, rfl⟩ := h
                rw [heq2] at hcs3
                exact ⟨_, .one hm hc, by rw [hcs1, hcs2, hcs3]; simp⟩
              · rename_i r' heq2
                cases hi : readMembers n (skipSpace r') with
                | none => rw [hi] at h; simp at h
                | some x =>
                  obtain ⟨ms', r4⟩ := x
                  rw [hi] at h
                  simp only [Option.map_some, Option.some.injEq, Prod.mk.injEq] at h
                  obtain ⟨rfl, rfl⟩ := h
                  obtain ⟨u, h3, h4⟩ := ihm _ _ _ hi
                  obtain ⟨d, hd, hcs4, _⟩ := skipSpace_sound r'
                  rw [h4] at hcs4
                  rw [heq2, hcs4] at hcs3
                  exact ⟨_, .more hm hc hd h3, by rw [hcs1, hcs2, hcs3]; simp⟩
              · cases h
          · cases h
      · cases h

/-! ## Writing -/

theorem hexChar_digit {n : Nat} (h : n < 16) : HexDigit (hexChar n) n := by
  have : ∀ m : Fin 16, (m.val < 10 ∧ (hexChar m.val).toNat = 48 + m.val) ∨ (10 ≤ m.val ∧ m.val < 16 ∧ ((hexChar m.val).toNat = 87 + m.val ∨ (hexChar m.val).toNat = 55 + m.val)) := by decide
  exact this ⟨n, h⟩

theorem escapeUnit_text {n : Nat} (h : n < 65536) : UnitText (escapeUnit n) n :=
  ⟨_, _, _, _, n / 4096 % 16, n / 256 % 16, n / 16 % 16, n % 16, rfl, hexChar_digit (by omega), hexChar_digit (by omega), hexChar_digit (by omega), hexChar_digit (by omega), by omega⟩

/-- What is written for one character is read as that character. -/
theorem escapeChar_body (c : Char) {t m : List Char} (h : StrBody t m) : StrBody (escapeChar c ++ t) (c :: m) := by
  unfold escapeChar
  split
  · subst c; exact .letter (by simp [letterEscapes]) h
  split
  · subst c; exact .letter (by simp [letterEscapes]) h
  split
  · subst c; exact .letter (by simp [letterEscapes]) h
  split
  · subst c; exact .letter (by simp [letterEscapes]) h
  split
  · subst c; exact .letter (by simp [letterEscapes]) h
  split
  · rename_i hc
    have hn : c.toNat < 0xD800 := by
      rcases hc with hc | rfl | rfl | rfl | hc | hc
      · omega
      · decide
      · decide
      · decide
      · omega
      · omega
    have := StrBody.unit (escapeUnit_text (n := c.toNat) (by omega)) (by unfold HighHalf; omega) (by unfold LowHalf; omega) h
    rwa [Char.ofNat_toNat] at this
  · rename_i h1 h2 _ _ _ hc
    exact .plain (by omega) h1 h2 h

theorem writeString_body : ∀ m : List Char, StrBody (m.flatMap escapeChar) m
  | [] => .nil
  | c :: m => by
    rw [List.flatMap_cons]
    exact escapeChar_body c (writeString_body m)

theorem digitChar {n : Nat} (h : n < 10) : (Char.ofNat (48 + n)).toNat = 48 + n := by
  have : ∀ m : Fin 10, (Char.ofNat (48 + m.val)).toNat = 48 + m.val := by decide
  exact this ⟨n, h⟩

theorem decimalOf_append : ∀ (cs : List Char) (d : Char), decimalOf (cs ++ [d]) = decimalOf cs * 10 + (d.toNat - 48)
  | [], d => by simp [decimalOf]
  | c :: cs, d => by
    rw [List.cons_append, decimalOf, decimalOf, decimalOf_append cs d]
    simp only [List.length_append, List.length_singleton, Nat.pow_succ, Nat.add_mul, Nat.mul_assoc]
    omega

theorem writeNat_ok (n : Nat) : Digits (writeNat n) ∧ decimalOf (writeNat n) = n ∧ (0 < n → (writeNat n).head? ≠ some '0') := by
  induction n using writeNat.induct with
  | case1 n h =>
    rw [writeNat, if_pos h]
    refine ⟨⟨by simp, ?_⟩, ?_, ?_⟩
    · intro c hc
      rw [List.mem_singleton] at hc
      rw [hc, digitChar h]
      omega
    · simp [decimalOf, digitChar h]
    · intro hp e
      have : Char.ofNat (48 + n) = '0' := by simpa using e
      have := congrArg Char.toNat this
      rw [digitChar h] at this
      have h0 : ('0' : Char).toNat = 48 := by decide
      omega
  | case2 n h ih =>
    obtain ⟨⟨h1, h2⟩, h3, h4⟩ := ih
    have hm : n % 10 < 10 := by omega
    rw [writeNat, if_neg h]
    refine ⟨⟨by simp, ?_⟩, ?_, ?_⟩
    · intro c hc
      rcases List.mem_append.1 hc with hc | hc
      · exact h2 c hc
      · rw [List.mem_singleton] at hc
        rw [hc, digitChar hm]
        omega
    · rw [decimalOf_append, h3, digitChar hm]
      omega
    · intro _
      cases hw : writeNat (n / 10) with
      | nil => exact absurd hw h1
      | cons x xs =>
        have := h4 (by omega)
        rw [hw] at this
        simpa using this

theorem writeNat_int (n : Nat) : IntText (writeNat n) := by
  cases n with
  | zero => left; rw [writeNat]; decide
  | succ n => right; exact ⟨(writeNat_ok _).1, (writeNat_ok _).2.2 (by omega)⟩

theorem writeInt_text (n : Int) : NumText (writeInt n) (.num n) := by
  unfold writeInt
  split
  · have := NumText.neg (writeNat_int n.natAbs) (by
      intro e
      have h2 := (writeNat_ok n.natAbs).2.1
      rw [e] at h2
      have : decimalOf ['0'] = 0 := by decide
      omega)
    rw [(writeNat_ok _).2.1] at this
    rwa [show (-(n.natAbs : Int)) = n by omega] at this
  · have := NumText.nat (writeNat_int n.natAbs)
    rw [(writeNat_ok _).2.1] at this
    rwa [show (n.natAbs : Int) = n by omega] at this

theorem writeString_member {k : String} {t : List Char} {j : Json} (h : ValText t j) : MemberText (writeString k ++ ':' :: t) (k, j) := by
  have := MemberText.mk (writeString_body k.toList) spaces_nil spaces_nil h
  rw [String.ofList_toList] at this
  simpa [writeString] using this

mutual
theorem write_val : ∀ j : Json, IntegersOnly j → ValText (writeJson j) j
  | .null, _ => .null
  | .bool true, _ => .true_
  | .bool false, _ => .false_
  | .num n, _ => .num (writeInt_text n)
  | .other, h => by cases h
  | .str s, _ => by
    have := ValText.str (writeString_body s.toList)
    rw [String.ofList_toList] at this
    exact this
  | .arr [], _ => .arr0 spaces_nil
  | .arr (j :: js), h => by
    have hj : ∀ x ∈ j :: js, IntegersOnly x := by cases h; assumption
    rw [writeJson, writeItems]
    exact .arr spaces_nil (write_items js (fun x hx => hj x (List.mem_cons_of_mem _ hx)) (write_val j (hj j (List.mem_cons_self ..))))
  | .obj [], _ => .obj0 spaces_nil
  | .obj ((k, j) :: ms), h => by
    have hj : ∀ x ∈ (k, j) :: ms, IntegersOnly x.2 := by cases h; assumption
    rw [writeJson, writeMembers, writeMember]
    exact .obj spaces_nil (write_members ms (fun x hx => hj x (List.mem_cons_of_mem _ hx)) (writeString_member (write_val j (hj (k, j) (List.mem_cons_self ..)))))
theorem write_items : ∀ js : List Json, (∀ j ∈ js, IntegersOnly j) → ∀ {t : List Char} {j : Json}, ValText t j → ItemsText (t ++ writeMoreItems js) (j :: js)
  | [], _, _, _, h => .one h spaces_nil
  | x :: xs, hx, _, _, h => by
    rw [writeMoreItems]
    exact ItemsText.more (a := []) (b := []) h spaces_nil spaces_nil (write_items xs (fun y hy => hx y (List.mem_cons_of_mem _ hy)) (write_val x (hx x (List.mem_cons_self ..))))
theorem write_members : ∀ ms : List (String × Json), (∀ m ∈ ms, IntegersOnly m.2) → ∀ {p : List Char} {m : String × Json}, MemberText p m → MembersText (p ++ writeMoreMembers ms) (m :: ms)
  | [], _, _, _, h => .one h spaces_nil
  | (k, x) :: xs, hx, _, _, h => by
    rw [writeMoreMembers, writeMember]
    exact MembersText.more (a := []) (b := []) h spaces_nil spaces_nil (write_members xs (fun y hy => hx y (List.mem_cons_of_mem _ hy)) (writeString_member (write_val x (hx (k, x) (List.mem_cons_self ..)))))
end

/-! ## No characters out of the way -/

theorem hexChar_big {n : Nat} (h : n < 16) : SafeChar (hexChar n) := by
  have : ∀ m : Fin 16, SafeChar (hexChar m.val) := by decide
  exact this ⟨n, h⟩

theorem digit_big {c : Char} (h : 48 ≤ c.toNat ∧ c.toNat ≤ 57) : SafeChar c := by
  refine ⟨by omega, ?_, ?_, ?_, by omega, by omega⟩ <;> (rintro rfl; revert h; decide)

theorem escapeChar_big (c : Char) : ∀ x ∈ escapeChar c, SafeChar x := by
  unfold escapeChar
  split
  · decide
  split
  · decide
  split
  · decide
  split
  · decide
  split
  · decide
  split
  · intro x hx
    simp only [escapeUnit, List.mem_cons, List.not_mem_nil, or_false] at hx
    rcases hx with rfl | rfl | rfl | rfl | rfl | rfl
    · decide
    · decide
    all_goals exact hexChar_big (by omega)
  · rename_i hc
    intro x hx
    rw [List.mem_singleton] at hx
    subst hx
    simp only [not_or] at hc
    exact ⟨by omega, hc.2.1, hc.2.2.1, hc.2.2.2.1, hc.2.2.2.2.1, hc.2.2.2.2.2⟩

theorem writeString_big (s : String) : ∀ x ∈ writeString s, SafeChar x := by
  intro x hx
  simp only [writeString, List.mem_cons, List.mem_append, List.mem_flatMap, List.not_mem_nil, or_false] at hx
  rcases hx with rfl | ⟨c, _, hc⟩ | rfl
  · decide
  · exact escapeChar_big c x hc
  · decide

theorem writeInt_big (n : Int) : ∀ x ∈ writeInt n, SafeChar x := by
  intro x hx
  have hd := (writeNat_ok n.natAbs).1.2
  unfold writeInt at hx
  split at hx
  · rcases List.mem_cons.1 hx with rfl | hx
    · decide
    · exact digit_big (hd x hx)
  · exact digit_big (hd x hx)

mutual
theorem write_big : ∀ j : Json, ∀ x ∈ writeJson j, SafeChar x
  | .null => by decide
  | .bool true => by decide
  | .bool false => by decide
  | .num n => writeInt_big n
  | .other => by intro x hx; cases hx
  | .str s => writeString_big s
  | .arr [] => by decide
  | .arr (j :: js) => by
    intro x hx
    simp only [writeJson, writeItems, List.mem_cons, List.mem_append, List.not_mem_nil, or_false] at hx
    rcases hx with rfl | (hx | hx) | rfl
    · decide
    · exact write_big j x hx
    · exact write_big_items js x hx
    · decide
  | .obj [] => by decide
  | .obj ((k, j) :: ms) => by
    intro x hx
    simp only [writeJson, writeMembers, writeMember, List.mem_cons, List.mem_append, List.not_mem_nil, or_false] at hx
    rcases hx with rfl | ((hx | rfl | hx) | hx) | rfl
    · decide
    · exact writeString_big k x hx
    · decide
    · exact write_big j x hx
    · exact write_big_members ms x hx
    · decide
theorem write_big_items : ∀ js : List Json, ∀ x ∈ writeMoreItems js, SafeChar x
  | [] => by intro x hx; cases hx
  | j :: js => by
    intro x hx
    simp only [writeMoreItems, List.mem_cons, List.mem_append] at hx
    rcases hx with rfl | hx | hx
    · decide
    · exact write_big j x hx
    · exact write_big_items js x hx
theorem write_big_members : ∀ ms : List (String × Json), ∀ x ∈ writeMoreMembers ms, SafeChar x
  | [] => by intro x hx; cases hx
  | (k, j) :: ms => by
    intro x hx
    simp only [writeMoreMembers, writeMember, List.mem_cons, List.mem_append] at hx
    rcases hx with rfl | (hx | rfl | hx) | hx
    · decide
    · exact writeString_big k x hx
    · decide
    · exact write_big j x hx
    · exact write_big_members ms x hx
end

end Verif.Proofs
