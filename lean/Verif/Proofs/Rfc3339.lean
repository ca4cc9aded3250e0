import Verif.Model.Rfc3339

/-!
# The text of a time is read back as the same time
-/
namespace Verif.Proofs
open Verif Verif.Model

theorem yearDays_pos (y : Nat) : 0 < yearDays y := by unfold yearDays; split <;> omega

theorem findYear_spec (fuel y n : Nat) (h : yearStart y + n < yearStart (y + fuel)) :
    yearStart (findYear fuel y n).1 + (findYear fuel y n).2 = yearStart y + n ∧ (findYear fuel y n).2 < yearDays (findYear fuel y n).1 ∧
      (findYear fuel y n).1 < y + fuel := by
  induction fuel generalizing y n with
  | zero => exact absurd h (by simp)
  | succ fuel ih =>
    unfold findYear
    split
    · rename_i hn
      exact ⟨rfl, hn, by simp⟩
    · rename_i hn
      have e : yearStart (y + 1) + (n - yearDays y) = yearStart y + n := by simp only [yearStart]; omega
      have := ih (y + 1) (n - yearDays y) (by rw [e, show y + 1 + fuel = y + (fuel + 1) by omega]; exact h)
      rw [e] at this
      exact ⟨this.1, this.2.1, by omega⟩

theorem findMonth_spec (y fuel m n : Nat) (hm : 1 ≤ m) (h : monthStart y (m - 1) + n < monthStart y (m - 1 + fuel)) :
    m ≤ (findMonth y fuel m n).1 ∧ (findMonth y fuel m n).1 < m + fuel ∧ 1 ≤ (findMonth y fuel m n).2 ∧
      (findMonth y fuel m n).2 ≤ monthDays y (findMonth y fuel m n).1 ∧
      monthStart y ((findMonth y fuel m n).1 - 1) + ((findMonth y fuel m n).2 - 1) = monthStart y (m - 1) + n := by
  induction fuel generalizing m n with
  | zero => exact absurd h (by simp)
  | succ fuel ih =>
    unfold findMonth
    split
    · rename_i hn
      exact ⟨Nat.le_refl _, by simp, by simp, Nat.succ_le_of_lt hn, by simp⟩
    · rename_i hn
      have e : monthStart y (m + 1 - 1) + (n - monthDays y m) = monthStart y (m - 1) + n := by
        obtain ⟨k, rfl⟩ : ∃ k, m = k + 1 := ⟨m - 1, by omega⟩
        simp only [Nat.add_sub_cancel, monthStart] at hn ⊢
        omega
      have := ih (m + 1) (n - monthDays y m) (by omega) (by rw [e, show m + 1 - 1 + fuel = m - 1 + (fuel + 1) by omega]; exact h)
      rw [e] at this
      exact ⟨by omega, by omega, this.2.2.1, this.2.2.2.1, this.2.2.2.2⟩

theorem monthStart_twelve (y : Nat) : monthStart y 12 = yearDays y := by
  simp only [monthStart, monthDays, yearDays]
  cases isLeap y <;> rfl

theorem yearStart_10000 : yearStart 10000 = 3652425 := by decide +kernel

/-- The date of a day has that number, and is a date. -/
theorem dateOf_spec {n : Nat} (h : n < 3652425) :
    dayNumber (dateOf n).1 (dateOf n).2.1 (dateOf n).2.2 = n ∧ (dateOf n).1 < 10000 ∧ 1 ≤ (dateOf n).2.1 ∧ (dateOf n).2.1 ≤ 12 ∧ 1 ≤ (dateOf n).2.2 ∧
      (dateOf n).2.2 ≤ monthDays (dateOf n).1 (dateOf n).2.1 := by
  obtain ⟨h1, h2, h3⟩ := findYear_spec 10000 0 n (by rw [Nat.zero_add, yearStart_10000]; simpa [yearStart] using h)
  obtain ⟨g1, g2, g3, g4, g5⟩ := findMonth_spec (findYear 10000 0 n).1 12 1 (findYear 10000 0 n).2 (Nat.le_refl _) (by
    rw [show 1 - 1 + 12 = 12 from rfl, monthStart_twelve]
    simpa [monthStart] using h2)
  simp only [dateOf, dayNumber]
  simp only [monthStart, Nat.sub_self, Nat.zero_add] at g5
  simp only [yearStart, Nat.zero_add] at h1
  refine ⟨by omega, by omega, g1, by omega, g3, g4⟩

theorem digitVal_digitChar {n : Nat} (h : n < 10) : digitVal (digitChar' n) = some n := by
  have : n = 0 ∨ n = 1 ∨ n = 2 ∨ n = 3 ∨ n = 4 ∨ n = 5 ∨ n = 6 ∨ n = 7 ∨ n = 8 ∨ n = 9 := by omega
  rcases this with rfl | rfl | rfl | rfl | rfl | rfl | rfl | rfl | rfl | rfl <;> rfl

theorem readDigits_append (w1 w2 acc : Nat) (cs : List Char) :
    readDigits (w1 + w2) acc cs = (readDigits w1 acc cs).bind fun p => readDigits w2 p.1 p.2 := by
  induction w1 generalizing acc cs with
  | zero => simp [readDigits]
  | succ w1 ih =>
    rw [show w1 + 1 + w2 = (w1 + w2) + 1 by omega]
    cases cs with
    | nil => rfl
    | cons c cs =>
      simp only [readDigits]
      cases digitVal c with
      | none => rfl
      | some v => simp [ih]

theorem readDigits_padded (w n acc : Nat) (rest : List Char) : readDigits w acc (padded w n ++ rest) = some (acc * 10 ^ w + n % 10 ^ w, rest) := by
  induction w generalizing n rest with
  | zero => simp [readDigits, padded, Nat.mod_one]
  | succ w ih =>
    rw [readDigits_append w 1, padded, List.append_assoc, ih]
    simp only [Option.bind_some, List.singleton_append, readDigits, digitVal_digitChar (Nat.mod_lt n (by decide : 0 < 10)), Option.some.injEq, Prod.mk.injEq, and_true]
    have : n % 10 ^ (w + 1) = 10 * (n / 10 % 10 ^ w) + n % 10 := by
      rw [Nat.pow_succ, Nat.mul_comm (10 ^ w) 10, Nat.mod_mul, Nat.add_comm]
    rw [this, Nat.pow_succ, Nat.mul_add, Nat.mul_comm (10 ^ w) 10]
    have : 10 * (acc * 10 ^ w) = acc * (10 * 10 ^ w) := by rw [Nat.mul_left_comm]
    omega

theorem padded_length (w n : Nat) : (padded w n).length = w := by
  induction w generalizing n with
  | zero => rfl
  | succ w ih => simp [padded, ih]

theorem padded_digits (w n : Nat) : ∀ c ∈ padded w n, ∃ v, v < 10 ∧ c = digitChar' v := by
  induction w generalizing n with
  | zero => simp [padded]
  | succ w ih =>
    intro c hc
    simp only [padded, List.mem_append, List.mem_singleton] at hc
    rcases hc with hc | rfl
    · exact ih _ c hc
    · exact ⟨n % 10, Nat.mod_lt _ (by decide), rfl⟩

/-- Reading digits one by one, or as nanoseconds. -/
theorem readNanos_digits (ds rest : List Char) : ∀ (w acc v : Nat), readDigits ds.length acc (ds ++ rest) = some (v, rest) → ds.length ≤ w →
    (∀ c, rest.head? = some c → digitVal c = none) → readNanos w acc (ds ++ rest) = (v * 10 ^ (w - ds.length), rest) := by
  induction ds with
  | nil =>
    intro w acc v h hw hr
    simp only [readDigits, List.length_nil, List.nil_append, Option.some.injEq, Prod.mk.injEq, and_true] at h
    subst h
    cases rest with
    | nil => simp [readNanos]
    | cons c cs =>
      have := hr c rfl
      simp only [List.nil_append, readNanos, this, List.length_nil, Nat.sub_zero]
  | cons d ds ih =>
    intro w acc v h hw hr
    obtain ⟨w', rfl⟩ : ∃ w', w = w' + 1 := ⟨w - 1, by simp at hw; omega⟩
    simp only [List.length_cons, List.cons_append, readDigits] at h
    cases hd : digitVal d with
    | none => rw [hd] at h; cases h
    | some x =>
      rw [hd] at h
      simp only [Option.bind_some] at h
      simp only [List.cons_append, readNanos, hd]
      rw [ih w' _ v h (by simpa using hw) hr]
      simp

theorem trimZeros_spec (cs : List Char) : ∃ k, cs = trimZeros cs ++ List.replicate k '0' := by
  unfold trimZeros
  have h1 : ∀ l : List Char, ∃ k, l = List.replicate k '0' ++ l.dropWhile (· == '0') := by
    intro l
    induction l with
    | nil => exact ⟨0, rfl⟩
    | cons c l ih =>
      obtain ⟨k, hk⟩ := ih
      by_cases hc : c = '0'
      · subst hc
        refine ⟨k + 1, ?_⟩
        rw [List.replicate_succ, List.cons_append]
        simp only [List.dropWhile_cons, beq_self_eq_true, if_true]
        rw [← hk]
      · refine ⟨0, ?_⟩
        have : (c == '0') = false := by simpa using hc
        simp [this]
  obtain ⟨k, hk⟩ := h1 cs.reverse
  refine ⟨k, ?_⟩
  have := congrArg List.reverse hk
  simpa using this

theorem readDigits_zeros (k acc : Nat) (rest : List Char) : readDigits k acc (List.replicate k '0' ++ rest) = some (acc * 10 ^ k, rest) := by
  induction k generalizing acc with
  | zero => simp [readDigits]
  | succ k ih =>
    simp only [List.replicate_succ, List.cons_append, readDigits, show digitVal '0' = some 0 from rfl, Option.bind_some, Nat.add_zero, ih, Option.some.injEq, Prod.mk.injEq, and_true]
    rw [Nat.pow_succ, Nat.mul_comm (10 ^ k) 10, Nat.mul_left_comm, Nat.mul_assoc]

theorem readDigits_all (ds : List Char) (h : ∀ c ∈ ds, (digitVal c).isSome = true) (acc : Nat) (rest : List Char) :
    ∃ v, readDigits ds.length acc (ds ++ rest) = some (v, rest) ∧ ∀ rest', readDigits ds.length acc (ds ++ rest') = some (v, rest') := by
  induction ds generalizing acc with
  | nil => exact ⟨acc, rfl, fun _ => rfl⟩
  | cons d ds ih =>
    obtain ⟨x, hx⟩ := Option.isSome_iff_exists.mp (h d List.mem_cons_self)
    obtain ⟨v, h1, h2⟩ := ih (fun c hc => h c (List.mem_cons_of_mem _ hc)) (10 * acc + x)
    exact ⟨v, by simp [readDigits, hx, h1], fun rest' => by simp [readDigits, hx, h2]⟩

/-- The fraction as written is read back. -/
theorem readFraction_written {n : Nat} (h : n < 10 ^ 9) (rest : List Char) (hr : ∀ c, rest.head? = some c → digitVal c = none ∧ c ≠ '.') :
    readFraction ((if n = 0 then [] else '.' :: trimZeros (padded 9 n)) ++ rest) = some (n, rest) := by
  split
  · rename_i h0
    subst h0
    cases rest with
    | nil => rfl
    | cons c cs =>
      have := (hr c rfl).2
      rw [List.nil_append]
      unfold readFraction
      split
      · rename_i heq; cases heq; exact absurd rfl this
      · rfl
  · rename_i h0
    obtain ⟨k, hk⟩ := trimZeros_spec (padded 9 n)
    have hall : ∀ c ∈ padded 9 n, (digitVal c).isSome = true := by
      intro c hc
      obtain ⟨v, hv, rfl⟩ := padded_digits 9 n c hc
      rw [digitVal_digitChar hv]; rfl
    have hallt : ∀ c ∈ trimZeros (padded 9 n), (digitVal c).isSome = true := fun c hc => hall c (by rw [hk]; exact List.mem_append_left _ hc)
    obtain ⟨v, _, hv⟩ := readDigits_all _ hallt 0 rest
    have hlen : (trimZeros (padded 9 n)).length + k = 9 := by
      have := congrArg List.length hk
      simp only [padded_length, List.length_append, List.length_replicate] at this
      omega
    have hval : v * 10 ^ k = n := by
      have h1 := readDigits_padded 9 n 0 []
      have h3 : readDigits ((trimZeros (padded 9 n)).length + k) 0 (padded 9 n ++ []) = some (v * 10 ^ k, []) := by
        rw [readDigits_append]
        have hk' : padded 9 n ++ [] = trimZeros (padded 9 n) ++ (List.replicate k '0' ++ []) := by rw [← List.append_assoc, ← hk]
        rw [hk', hv, Option.bind_some, readDigits_zeros]
      rw [hlen, h1] at h3
      simp only [Nat.zero_mul, Nat.zero_add, Nat.mod_eq_of_lt h, Option.some.injEq, Prod.mk.injEq, and_true] at h3
      exact h3.symm
    have hne : trimZeros (padded 9 n) ≠ [] := by
      intro he
      rw [he] at hv
      have : v = 0 := by simpa [readDigits] using (hv []).symm
      rw [this] at hval
      omega
    have hnan := readNanos_digits (trimZeros (padded 9 n)) rest 9 0 v (hv rest) (by omega) (fun c hc => (hr c hc).1)
    have e : 9 - (trimZeros (padded 9 n)).length = k := by omega
    rw [e, hval] at hnan
    cases ht : trimZeros (padded 9 n) with
    | nil => exact absurd ht hne
    | cons c cs =>
      rw [ht] at hnan hallt
      simp only [List.cons_append, readFraction, hallt c List.mem_cons_self, if_true] at hnan ⊢
      rw [hnan]

/-- The text written for a time is read back as that time. -/
theorem parse_format {t : GoTime} (hn : t.nsec < 1000000000) (h1 : -62167219200 ≤ t.sec) (h2 : t.sec < 253402300800) :
    ∃ s, formatTime t = some s ∧ parseTime s = some t := by
  have hs : (t.sec + epochShift).toNat < 315569520000 := by unfold epochShift; omega
  obtain ⟨d1, d2, d3, d4, d5, d6⟩ := dateOf_spec (n := (t.sec + epochShift).toNat / 86400) (by omega)
  have hmd : monthDays (dateOf ((t.sec + epochShift).toNat / 86400)).1 (dateOf ((t.sec + epochShift).toNat / 86400)).2.1 ≤ 31 := by
    unfold monthDays; split <;> split <;> omega
  refine ⟨_, by simp only [formatTime, if_pos (And.intro h1 h2)]; rfl, ?_⟩
  generalize hS : (t.sec + epochShift).toNat = S at *
  generalize hD : dateOf (S / 86400) = D at *
  obtain ⟨y, m, d⟩ := D
  simp only at d1 d2 d3 d4 d5 d6 hmd ⊢
  have hq : S % 86400 < 86400 := Nat.mod_lt _ (by decide)
  have r : ∀ (w n : Nat) (rest : List Char), n < 10 ^ w → readDigits w 0 (padded w n ++ rest) = some (n, rest) := by
    intro w n rest hlt
    rw [readDigits_padded, Nat.zero_mul, Nat.zero_add, Nat.mod_eq_of_lt hlt]
  have c : ∀ (x : Char) (cs : List Char), readChar x (x :: cs) = some cs := fun x cs => by simp [readChar]
  unfold parseTime
  simp only [String.toList_ofList]
  rw [r 4 y _ (by omega)]
  simp only [Option.bind_some, c]
  rw [r 2 m _ (by omega)]
  simp only [Option.bind_some, c]
  rw [r 2 d _ (by omega)]
  simp only [Option.bind_some, c]
  rw [r 2 _ _ (by omega)]
  simp only [Option.bind_some, c]
  rw [r 2 _ _ (by omega)]
  simp only [Option.bind_some, c]
  rw [r 2 _ _ (by omega)]
  simp only [Option.bind_some]
  rw [readFraction_written (by omega) ['Z'] (by intro c hc; cases hc; exact ⟨rfl, by decide⟩)]
  simp only [Option.bind_some, readZone]
  rw [if_pos ⟨d3, d4, d5, d6, by omega, by omega, by omega, trivial⟩, d1]
  have : ((S / 86400 * 86400 + S % 86400 / 3600 * 3600 + S % 86400 / 60 % 60 * 60 + S % 86400 % 60 : Nat) : Int) - epochShift - 0 = t.sec := by
    have : S / 86400 * 86400 + S % 86400 / 3600 * 3600 + S % 86400 / 60 % 60 * 60 + S % 86400 % 60 = S := by omega
    rw [this]
    unfold epochShift at hS ⊢
    omega
  rw [this]

end Verif.Proofs
