import Verif.Spec.Calendar
import Verif.Proofs.Rfc3339

/-!
# The calendar of `Verif/Model/Rfc3339.lean` is the Gregorian one
-/
namespace Verif.Proofs
open Verif Verif.Model Verif.Spec

theorem isLeap_iff (y : Nat) : isLeap y = true ↔ y % 4 = 0 ∧ (y % 100 ≠ 0 ∨ y % 400 = 0) := by
  simp [isLeap]

theorem yearStart_closed (y : Nat) : yearStart y + (y + 99) / 100 = 365 * y + (y + 3) / 4 + (y + 399) / 400 := by
  induction y with
  | zero => rfl
  | succ y ih =>
    simp only [yearStart, yearDays]
    by_cases h : isLeap y = true
    · rw [if_pos h]
      have := (isLeap_iff y).1 h
      omega
    · rw [if_neg h]
      have h' := h
      rw [isLeap_iff] at h'
      omega

/-- The quotients of the year before. -/
theorem prev_quotients (y : Nat) : ((y : Int) - 1) / 4 = ((y + 3) / 4 : Nat) - 1 ∧ ((y : Int) - 1) / 100 = ((y + 99) / 100 : Nat) - 1 ∧ ((y : Int) - 1) / 400 = ((y + 399) / 400 : Nat) - 1 := by
  omega

/-- The quotients of the year. -/
theorem year_quotients (y : Nat) :
    (y : Int) / 4 - y / 100 + y / 400 = ((y + 3) / 4 : Nat) - ((y + 99) / 100 : Nat) + ((y + 399) / 400 : Nat) - 1 + (if isLeap y = true then 1 else 0) := by
  by_cases h : isLeap y = true
  · rw [if_pos h]
    rw [isLeap_iff] at h
    omega
  · rw [if_neg h]
    rw [isLeap_iff] at h
    omega

/-- The days of the year before a month. -/
theorem monthStart_closed (y : Nat) {m : Nat} (h1 : 1 ≤ m) (h2 : m ≤ 12) :
    (monthStart y (m - 1) : Int) = if m ≤ 2 then 31 * ((m : Int) - 1) else (153 * ((m : Int) - 3) + 2) / 5 + 59 + (if isLeap y = true then 1 else 0) := by
  have hm : m = 1 ∨ m = 2 ∨ m = 3 ∨ m = 4 ∨ m = 5 ∨ m = 6 ∨ m = 7 ∨ m = 8 ∨ m = 9 ∨ m = 10 ∨ m = 11 ∨ m = 12 := by omega
  by_cases hl : isLeap y = true
  · rcases hm with rfl | rfl | rfl | rfl | rfl | rfl | rfl | rfl | rfl | rfl | rfl | rfl <;> simp [monthStart, monthDays, hl]
  · rcases hm with rfl | rfl | rfl | rfl | rfl | rfl | rfl | rfl | rfl | rfl | rfl | rfl <;> simp [monthStart, monthDays, hl]

/-- The number of a day is the number of days since 1970 and those before. -/
theorem dayNumber_civil {y m d : Nat} (h1 : 1 ≤ m) (h2 : m ≤ 12) (h3 : 1 ≤ d) : (dayNumber y m d : Int) = civilDays y m d + 719528 := by
  have hy := yearStart_closed y
  obtain ⟨p1, p2, p3⟩ := prev_quotients y
  have q := year_quotients y
  have hm := monthStart_closed y h1 h2
  unfold dayNumber civilDays
  by_cases h : m ≤ 2
  · have h' : (m : Int) ≤ 2 := by omega
    simp only [h, h', if_true] at hm ⊢
    have : (153 * ((m : Int) + 9) + 2) / 5 = 31 * (m - 1) + 306 := by omega
    rw [p1, p2, p3, this]
    clear p1 p2 p3 q this
    generalize (y + 99) / 100 = A at *
    generalize (y + 3) / 4 = B at *
    generalize (y + 399) / 400 = C at *
    generalize yearStart y = D at *
    generalize monthStart y (m - 1) = E at *
    omega
  · have h' : ¬ (m : Int) ≤ 2 := by omega
    simp only [h, h', if_false] at hm ⊢
    clear p1 p2 p3
    generalize (153 * ((m : Int) - 3) + 2) / 5 = F at *
    generalize (if isLeap y = true then (1 : Int) else 0) = L at *
    generalize (y + 99) / 100 = A at *
    generalize (y + 3) / 4 = B at *
    generalize (y + 399) / 400 = C at *
    generalize (y : Int) / 4 = G at *
    generalize (y : Int) / 100 = H at *
    generalize (y : Int) / 400 = I at *
    generalize yearStart y = D at *
    generalize monthStart y (m - 1) = E at *
    omega

theorem next_year (y : Nat) : yearStart (y + 1) = yearStart y + (monthStart y 11 + monthDays y 12) := by
  rw [yearStart, ← monthStart_twelve]
  rfl

/-- The days of a month. -/
theorem isDate_iff {y m d : Nat} : IsDate y m d ↔ 1 ≤ m ∧ m ≤ 12 ∧ 1 ≤ d ∧ d ≤ monthDays y m := by
  unfold IsDate
  have key : 1 ≤ m → m ≤ 12 → 1 ≤ d → (civilDays y m d < (if (m : Int) = 12 then civilDays (y + 1) 1 1 else civilDays y (m + 1) 1) ↔ d ≤ monthDays y m) := by
    intro h1 h2 h3
    have e := dayNumber_civil (y := y) h1 h2 h3
    by_cases hm : m = 12
    · subst hm
      rw [if_pos (show ((12 : Nat) : Int) = 12 from rfl)]
      have e2 := dayNumber_civil (y := y + 1) (m := 1) (d := 1) (by omega) (by omega) (by omega)
      have e3 := next_year y
      unfold dayNumber at e e2
      rw [show 12 - 1 = 11 from rfl] at e
      rw [show monthStart (y + 1) (1 - 1) = 0 from rfl] at e2
      rw [show ((y + 1 : Nat) : Int) = (y : Int) + 1 from rfl, show ((1 : Nat) : Int) = 1 from rfl] at e2
      generalize civilDays y (12 : Nat) d = A at *
      generalize civilDays (y + 1) 1 1 = B at *
      generalize monthStart y 11 = C at *
      generalize monthDays y 12 = D at *
      generalize yearStart (y + 1) = E at *
      generalize yearStart y = F at *
      omega
    · rw [if_neg (by omega)]
      have e2 := dayNumber_civil (y := y) (m := m + 1) (d := 1) (by omega) (by omega) (by omega)
      obtain ⟨k, rfl⟩ : ∃ k, m = k + 1 := ⟨m - 1, by omega⟩
      unfold dayNumber at e e2
      rw [show monthStart y (k + 1 + 1 - 1) = monthStart y k + monthDays y (k + 1) from rfl] at e2
      rw [show monthStart y (k + 1 - 1) = monthStart y k from rfl] at e
      rw [show ((k + 1 + 1 : Nat) : Int) = ((k + 1 : Nat) : Int) + 1 from rfl, show ((1 : Nat) : Int) = 1 from rfl] at e2
      generalize civilDays y (k + 1 : Nat) d = A at *
      generalize civilDays y ((k + 1 : Nat) + 1) 1 = B at *
      generalize monthStart y k = C at *
      generalize monthDays y (k + 1) = D at *
      generalize yearStart y = F at *
      omega
  constructor
  · rintro ⟨h1, h2, h3, h4⟩
    exact ⟨by omega, by omega, by omega, (key (by omega) (by omega) (by omega)).1 h4⟩
  · rintro ⟨h1, h2, h3, h4⟩
    exact ⟨by omega, by omega, by omega, (key h1 h2 h3).2 h4⟩

/-! ## Numbers -/

theorem digitVal_of {c : Char} (h : '0'.toNat ≤ c.toNat ∧ c.toNat ≤ '9'.toNat) : digitVal c = some (c.toNat - 48) := if_pos h

theorem readDigits_num {w : Nat} {cs : List Char} (h : IsNum w cs) (rest : List Char) : ∀ acc, readDigits w acc (cs ++ rest) = some (cs.foldl (fun a c => 10 * a + (c.toNat - 48)) acc, rest) := by
  obtain ⟨rfl, h⟩ := h
  induction cs with
  | nil => intro acc; rfl
  | cons c cs ih =>
    intro acc
    simp only [List.length_cons, List.cons_append, readDigits, digitVal_of (h c List.mem_cons_self), Option.bind_some, List.foldl_cons]
    exact ih (fun c hc => h c (List.mem_cons_of_mem _ hc)) _

theorem numVal_lt {w : Nat} {cs : List Char} (h : IsNum w cs) : numVal cs < 10 ^ w := by
  obtain ⟨rfl, h⟩ := h
  have key : ∀ (cs : List Char) (a : Nat), (∀ c ∈ cs, '0'.toNat ≤ c.toNat ∧ c.toNat ≤ '9'.toNat) →
      cs.foldl (fun a c => 10 * a + (c.toNat - 48)) a < (a + 1) * 10 ^ cs.length := by
    intro cs
    induction cs with
    | nil => intro a _; simp
    | cons c cs ih =>
      intro a h
      have h1 := ih (10 * a + (c.toNat - 48)) fun c hc => h c (List.mem_cons_of_mem _ hc)
      have h2 := (h c List.mem_cons_self).2
      have h3 : '9'.toNat = 57 := rfl
      simp only [List.foldl_cons, List.length_cons, Nat.pow_succ]
      refine Nat.lt_of_lt_of_le h1 ?_
      rw [Nat.mul_comm (10 ^ cs.length) 10, ← Nat.mul_assoc]
      exact Nat.mul_le_mul_right _ (by omega)
  have := key cs 0 h
  simpa [numVal] using this

theorem padded_num (w n : Nat) (h : n < 10 ^ w) : IsNum w (padded w n) ∧ numVal (padded w n) = n := by
  have h1 : IsNum w (padded w n) := by
    refine ⟨padded_length w n, fun c hc => ?_⟩
    obtain ⟨v, hv, rfl⟩ := padded_digits w n c hc
    have : v = 0 ∨ v = 1 ∨ v = 2 ∨ v = 3 ∨ v = 4 ∨ v = 5 ∨ v = 6 ∨ v = 7 ∨ v = 8 ∨ v = 9 := by omega
    rcases this with rfl | rfl | rfl | rfl | rfl | rfl | rfl | rfl | rfl | rfl <;> decide
  refine ⟨h1, ?_⟩
  have h2 := readDigits_num h1 [] 0
  rw [readDigits_padded, Nat.zero_mul, Nat.zero_add, Nat.mod_eq_of_lt h] at h2
  simp only [Option.some.injEq, Prod.mk.injEq, and_true] at h2
  exact h2.symm

/-! ## Fractions and zones -/

theorem readNanos_more (acc : Nat) (more rest : List Char) (h : ∀ c ∈ more, '0'.toNat ≤ c.toNat ∧ c.toNat ≤ '9'.toNat) (hr : ∀ c, rest.head? = some c → digitVal c = none) :
    readNanos 0 acc (more ++ rest) = (acc, rest) := by
  induction more with
  | nil =>
    cases rest with
    | nil => simp [readNanos]
    | cons c cs => simp [readNanos, hr c rfl]
  | cons c more ih =>
    simp only [List.cons_append, readNanos, digitVal_of (h c List.mem_cons_self)]
    exact ih fun c hc => h c (List.mem_cons_of_mem _ hc)

theorem readNanos_num (ds tail : List Char) : ∀ (w acc : Nat), (∀ c ∈ ds, '0'.toNat ≤ c.toNat ∧ c.toNat ≤ '9'.toNat) → ds.length ≤ w →
    readNanos w acc (ds ++ tail) = readNanos (w - ds.length) (ds.foldl (fun a c => 10 * a + (c.toNat - 48)) acc) tail := by
  induction ds with
  | nil => intro w acc _ _; rfl
  | cons d ds ih =>
    intro w acc h hw
    obtain ⟨w', rfl⟩ : ∃ w', w = w' + 1 := ⟨w - 1, by simp at hw; omega⟩
    simp only [List.cons_append, readNanos, digitVal_of (h d List.mem_cons_self), List.foldl_cons]
    rw [ih w' _ (fun c hc => h c (List.mem_cons_of_mem _ hc)) (by simpa using hw)]
    simp

theorem readFraction_text {frac : List Char} {ns : Nat} (h : FracText frac ns) (rest : List Char) (hr : ∀ c, rest.head? = some c → digitVal c = none ∧ c ≠ '.') :
    readFraction (frac ++ rest) = some (ns, rest) := by
  rcases h with ⟨rfl, rfl⟩ | ⟨ds, more, rfl, h1, h2, h3, h4, h5, rfl⟩
  · cases rest with
    | nil => rfl
    | cons c cs =>
      have := (hr c rfl).2
      rw [List.nil_append]
      unfold readFraction
      split
      · rename_i heq; cases heq; exact absurd rfl this
      · rfl
  · have key : readNanos 9 0 (ds ++ (more ++ rest)) = (numVal ds * 10 ^ (9 - ds.length), rest) := by
      rw [readNanos_num ds _ 9 0 h1.2 h4]
      by_cases hm : more = []
      · subst hm
        rw [List.nil_append]
        cases rest with
        | nil => simp [readNanos, numVal]
        | cons c cs => simp [readNanos, (hr c rfl).1, numVal]
      · rw [h5 hm, Nat.sub_self, readNanos_more _ _ _ h2.2 fun c hc => (hr c hc).1]
        simp [numVal]
    cases ds with
    | nil => exact absurd h3 (by simp)
    | cons c cs =>
      rw [show '.' :: (c :: cs ++ more) ++ rest = '.' :: c :: (cs ++ (more ++ rest)) by simp]
      rw [show c :: cs ++ (more ++ rest) = c :: (cs ++ (more ++ rest)) from rfl] at key
      simp only [readFraction, digitVal_of (h1.2 c List.mem_cons_self), Option.isSome_some, if_true, key]

theorem readZone_sign {c : Char} (hc : c = '+' ∨ c = '-') (cs : List Char) :
    readZone (c :: cs) = (readDigits 2 0 cs).bind fun (h, cs) => (readChar ':' cs).bind fun cs => (readDigits 2 0 cs).bind fun (m, cs) =>
        if h ≤ 23 ∧ m ≤ 59 then some ((if c = '+' then (1 : Int) else -1) * ((3600 * h + 60 * m : Nat) : Int), cs) else none := by
  rcases hc with rfl | rfl <;> rfl

theorem readZone_text {zone : List Char} {off : Int} (h : ZoneText zone off) : readZone zone = some (off, []) ∧ ∀ c, zone.head? = some c → digitVal c = none ∧ c ≠ '.' := by
  rcases h with ⟨rfl, rfl⟩ | ⟨h, m, h1, h2, h3, h4, h5⟩
  · refine ⟨rfl, fun c hc => ?_⟩
    cases hc
    exact ⟨rfl, by decide⟩
  · have e : ∀ rest, readDigits 2 0 (m ++ rest) = some (numVal m, rest) := fun rest => readDigits_num h2 rest 0
    have e' := e []
    rw [List.append_nil] at e'
    rcases h5 with ⟨rfl, rfl⟩ | ⟨rfl, rfl⟩
    · refine ⟨?_, fun c hc => ?_⟩
      · rw [readZone_sign (.inl rfl)]
        rw [show ∀ rest, readDigits 2 0 (h ++ rest) = some (numVal h, rest) from fun rest => readDigits_num h1 rest 0, Option.bind_some]
        simp only [readChar, if_true, Option.bind_some, e']
        rw [if_pos ⟨show numVal h ≤ 23 by omega, by omega⟩]
        show some (_, _) = some ((numVal h : Int) * 3600 + (numVal m : Int) * 60, _)
        rw [show (1 : Int) * ((3600 * numVal h + 60 * numVal m : Nat) : Int) = (numVal h : Int) * 3600 + (numVal m : Int) * 60 by omega]
      · cases hc; exact ⟨rfl, by decide⟩
    · refine ⟨?_, fun c hc => ?_⟩
      · rw [readZone_sign (.inr rfl)]
        rw [show ∀ rest, readDigits 2 0 (h ++ rest) = some (numVal h, rest) from fun rest => readDigits_num h1 rest 0, Option.bind_some]
        simp only [readChar, if_true, Option.bind_some, e']
        rw [if_pos ⟨show numVal h ≤ 23 by omega, by omega⟩]
        rw [if_neg (by decide)]
        show some (_, _) = some (-((numVal h : Int) * 3600 + (numVal m : Int) * 60), _)
        rw [show (-1 : Int) * ((3600 * numVal h + 60 * numVal m : Nat) : Int) = -((numVal h : Int) * 3600 + (numVal m : Int) * 60) by omega]
      · cases hc; exact ⟨rfl, by decide⟩

/-- Every RFC 3339 text is read as the instant it says. -/
theorem parse_text {cs frac zone : List Char} {t : GoTime} (h : TimeText cs frac zone t) : parseTime (String.ofList cs) = some t := by
  obtain ⟨Y, M, D, hh, mm, ss, off, rfl, hY, hM, hD, hh', hm', hs', hdate, a1, a2, a3, hf, hz, ht⟩ := h
  have hd := isDate_iff.1 hdate
  obtain ⟨z1, z2⟩ := readZone_text hz
  have r : ∀ {w : Nat} {cs : List Char} (rest : List Char), IsNum w cs → readDigits w 0 (cs ++ rest) = some (numVal cs, rest) := fun rest h => readDigits_num h rest 0
  have c : ∀ (x : Char) (cs : List Char), readChar x (x :: cs) = some cs := fun x cs => by simp [readChar]
  unfold parseTime
  simp only [String.toList_ofList]
  rw [r _ hY]
  simp only [Option.bind_some, c]
  rw [r _ hM]
  simp only [Option.bind_some, c]
  rw [r _ hD]
  simp only [Option.bind_some, c]
  rw [r _ hh']
  simp only [Option.bind_some, c]
  rw [r _ hm']
  simp only [Option.bind_some, c]
  rw [r _ hs']
  simp only [Option.bind_some]
  rw [readFraction_text hf zone z2]
  simp only [Option.bind_some, z1]
  rw [if_pos ⟨hd.1, hd.2.1, hd.2.2.1, hd.2.2.2, by omega, by omega, by omega, trivial⟩]
  have e := dayNumber_civil (y := numVal Y) hd.1 hd.2.1 hd.2.2.1
  have : ((dayNumber (numVal Y) (numVal M) (numVal D) * 86400 + numVal hh * 3600 + numVal mm * 60 + numVal ss : Nat) : Int) - epochShift - off = t.sec := by
    rw [ht]
    unfold epochShift
    generalize dayNumber (numVal Y) (numVal M) (numVal D) = N at *
    generalize civilDays (numVal Y) (numVal M) (numVal D) = K at *
    omega
  rw [this]

theorem numVal_zeros (cs : List Char) (k : Nat) : numVal (cs ++ List.replicate k '0') = numVal cs * 10 ^ k := by
  unfold numVal
  rw [List.foldl_append]
  generalize List.foldl (fun a c => 10 * a + (c.toNat - 48)) 0 cs = a
  induction k generalizing a with
  | zero => simp
  | succ k ih => rw [List.replicate_succ, List.foldl_cons, ih, show '0'.toNat - 48 = 0 from rfl, Nat.add_zero, Nat.pow_succ, Nat.mul_comm (10 ^ k) 10, Nat.mul_comm 10 a, Nat.mul_assoc]

theorem frac_written {n : Nat} (hn : n < 1000000000) (h0 : n ≠ 0) : FracText ('.' :: trimZeros (padded 9 n)) n := by
  right
  obtain ⟨k, hk⟩ := trimZeros_spec (padded 9 n)
  obtain ⟨n9, v9⟩ := padded_num 9 n (by omega)
  have hlen : (trimZeros (padded 9 n)).length + k = 9 := by
    have := congrArg List.length hk
    simp only [padded_length, List.length_append, List.length_replicate] at this
    omega
  have hnum : IsNum (trimZeros (padded 9 n)).length (trimZeros (padded 9 n)) := ⟨rfl, fun c hc => n9.2 c (by rw [hk]; exact List.mem_append_left _ hc)⟩
  have hval : numVal (trimZeros (padded 9 n)) * 10 ^ k = n := by
    rw [← numVal_zeros, ← hk, v9]
  refine ⟨_, [], by rw [List.append_nil], hnum, ⟨rfl, by simp⟩, ?_, by omega, fun h => absurd rfl h, by rw [show 9 - (trimZeros (padded 9 n)).length = k by omega, hval]⟩
  apply Nat.pos_of_ne_zero
  intro hz
  have : trimZeros (padded 9 n) = [] := List.eq_nil_of_length_eq_zero hz
  rw [this] at hval
  rw [show numVal [] = 0 from rfl, Nat.zero_mul] at hval
  omega

/-- What is written for a time is an RFC 3339 text for it, in UTC. -/
theorem format_text {t : GoTime} (hn : t.nsec < 1000000000) (h1 : -62167219200 ≤ t.sec) (h2 : t.sec < 253402300800) :
    ∃ cs frac, formatTime t = some (String.ofList cs) ∧ TimeText cs frac ['Z'] t ∧ frac.getLast? ≠ some '0' := by
  have hs : (t.sec + epochShift).toNat < 315569520000 := by unfold epochShift; omega
  obtain ⟨d1, d2, d3, d4, d5, d6⟩ := dateOf_spec (n := (t.sec + epochShift).toNat / 86400) (by omega)
  have hmd : monthDays (dateOf ((t.sec + epochShift).toNat / 86400)).1 (dateOf ((t.sec + epochShift).toNat / 86400)).2.1 ≤ 31 := by
    unfold monthDays; split <;> split <;> omega
  refine ⟨_, if t.nsec = 0 then [] else '.' :: trimZeros (padded 9 t.nsec), by simp only [formatTime, if_pos (And.intro h1 h2)]; rfl, ?_⟩
  generalize hS : (t.sec + epochShift).toNat = S at *
  generalize hD : dateOf (S / 86400) = D at *
  obtain ⟨y, m, d⟩ := D
  simp only at d1 d2 d3 d4 d5 d6 hmd ⊢
  have hq : S % 86400 < 86400 := Nat.mod_lt _ (by decide)
  obtain ⟨ny, vy⟩ := padded_num 4 y (by omega)
  obtain ⟨nm, vm⟩ := padded_num 2 m (by omega)
  obtain ⟨nd, vd⟩ := padded_num 2 d (by omega)
  obtain ⟨nh, vh⟩ := padded_num 2 (S % 86400 / 3600) (by omega)
  obtain ⟨nn, vn⟩ := padded_num 2 (S % 86400 / 60 % 60) (by omega)
  obtain ⟨ns, vs⟩ := padded_num 2 (S % 86400 % 60) (by omega)
  refine ⟨⟨_, _, _, _, _, _, 0, rfl, ny, nm, nd, nh, nn, ns, ?_, by omega, by omega, by omega, ?_, .inl ⟨rfl, rfl⟩, ?_⟩, ?_⟩
  · rw [vy, vm, vd]
    exact isDate_iff.2 ⟨d3, d4, d5, d6⟩
  · split
    · rename_i h0; exact .inl ⟨rfl, h0⟩
    · rename_i h0
      exact frac_written (by omega) h0
  · rw [vy, vm, vd, vh, vn, vs]
    have e := dayNumber_civil (y := y) d3 d4 d5
    rw [d1] at e
    have : (S : Int) = t.sec + epochShift := by unfold epochShift at hS ⊢; omega
    unfold epochShift at this
    omega
  · split
    · simp
    · rename_i h0
      intro hl
      unfold trimZeros at hl
      cases hd : (padded 9 t.nsec).reverse.dropWhile (· == '0') with
      | nil => rw [hd] at hl; simp at hl
      | cons c cs =>
        rw [hd] at hl
        have h3 := List.head?_dropWhile_not (· == '0') (padded 9 t.nsec).reverse
        rw [hd] at h3
        simp only [List.reverse_cons, List.head?_cons] at hl h3
        rw [← List.cons_append, List.getLast?_concat] at hl
        obtain rfl := Option.some.inj hl
        exact absurd h3 (by simp)

end Verif.Proofs
