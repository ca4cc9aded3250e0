import Verif.Model.Json

/-!
# JSON text (RFC 8259), written down without the reader and the writer of the model
-/
namespace Verif.Spec
open Verif Verif.Model

/-- White space (section 2). -/
def Spaces (cs : List Char) : Prop := ∀ c ∈ cs, c = ' ' ∨ c = '\t' ∨ c = '\n' ∨ c = '\r'

/-- A hexadecimal digit, of either case, and its value. -/
def HexDigit (c : Char) (n : Nat) : Prop := (n < 10 ∧ c.toNat = 48 + n) ∨ (10 ≤ n ∧ n < 16 ∧ (c.toNat = 87 + n ∨ c.toNat = 55 + n))

/-- `\uXXXX` and the number it stands for. -/
def UnitText (u : List Char) (n : Nat) : Prop :=
  ∃ a b c d x y z w, u = ['\\', 'u', a, b, c, d] ∧ HexDigit a x ∧ HexDigit b y ∧ HexDigit c z ∧ HexDigit d w ∧ n = x * 4096 + y * 256 + z * 16 + w

/-- First and second halves of pairs (UTF-16). -/
def HighHalf (n : Nat) : Prop := 0xD800 ≤ n ∧ n ≤ 0xDBFF
def LowHalf (n : Nat) : Prop := 0xDC00 ≤ n ∧ n ≤ 0xDFFF

/-- The escapes of one letter (section 7). -/
def letterEscapes : List (Char × Char) :=
  [('"', '"'), ('\\', '\\'), ('/', '/'), ('b', '\x08'), ('f', '\x0c'), ('n', '\n'), ('r', '\r'), ('t', '\t')]

/-- The text between the quotes of a string, and the string (section 7); a half that is not in a pair stands for U+FFFD, as `encoding/json` documents. -/
inductive StrBody : List Char → List Char → Prop where
  | nil : StrBody [] []
  | plain {c : Char} {t m : List Char} : 32 ≤ c.toNat → c ≠ '"' → c ≠ '\\' → StrBody t m → StrBody (c :: t) (c :: m)
  | letter {e c : Char} {t m : List Char} : (e, c) ∈ letterEscapes → StrBody t m → StrBody ('\\' :: e :: t) (c :: m)
  | unit {u t m : List Char} {n : Nat} : UnitText u n → ¬ HighHalf n → ¬ LowHalf n → StrBody t m → StrBody (u ++ t) (Char.ofNat n :: m)
  | pair {u v t m : List Char} {n k : Nat} : UnitText u n → UnitText v k → HighHalf n → LowHalf k → StrBody t m →
      StrBody (u ++ (v ++ t)) (Char.ofNat (0x10000 + (n - 0xD800) * 0x400 + (k - 0xDC00)) :: m)
  | half {u t m : List Char} {n : Nat} : UnitText u n → HighHalf n ∨ LowHalf n → (HighHalf n → ∀ v k t', UnitText v k → LowHalf k → t ≠ v ++ t') → StrBody t m →
      StrBody (u ++ t) ('�' :: m)

/-- Decimal digits. -/
def Digits (cs : List Char) : Prop := cs ≠ [] ∧ ∀ c ∈ cs, 48 ≤ c.toNat ∧ c.toNat ≤ 57

/-- Section 6, `int` without its sign. -/
def IntText (cs : List Char) : Prop := cs = ['0'] ∨ (Digits cs ∧ cs.head? ≠ some '0')

/-- Section 6, `frac`, which may be missing. -/
def FractionText (cs : List Char) : Prop := cs = [] ∨ ∃ ds, Digits ds ∧ cs = '.' :: ds

/-- Section 6, `exp`, which may be missing. -/
def ExpText (cs : List Char) : Prop := cs = [] ∨ ∃ x sgn ds, (x = 'e' ∨ x = 'E') ∧ (sgn = [] ∨ sgn = ['+'] ∨ sgn = ['-']) ∧ Digits ds ∧ cs = x :: (sgn ++ ds)

/-- The value of decimal digits. -/
def decimalOf : List Char → Nat
  | [] => 0
  | c :: cs => (c.toNat - 48) * 10 ^ cs.length + decimalOf cs

/-- A number (section 6); integers, other than `-0`, have a value here. -/
inductive NumText : List Char → Json → Prop where
  | nat {ds : List Char} : IntText ds → NumText ds (.num (decimalOf ds))
  | neg {ds : List Char} : IntText ds → ds ≠ ['0'] → NumText ('-' :: ds) (.num (-(decimalOf ds : Int)))
  | other {sgn ds f e : List Char} : sgn = [] ∨ sgn = ['-'] → IntText ds → FractionText f → ExpText e → f ≠ [] ∨ e ≠ [] ∨ (sgn = ['-'] ∧ ds = ['0']) →
      NumText (sgn ++ (ds ++ (f ++ e))) .other

mutual
/-- A value (section 3), without white space around it. -/
inductive ValText : List Char → Json → Prop where
  | null : ValText ['n', 'u', 'l', 'l'] .null
  | true_ : ValText ['t', 'r', 'u', 'e'] (.bool true)
  | false_ : ValText ['f', 'a', 'l', 's', 'e'] (.bool false)
  | num {t : List Char} {j : Json} : NumText t j → ValText t j
  | str {t m : List Char} : StrBody t m → ValText ('"' :: (t ++ ['"'])) (.str (String.ofList m))
  | arr0 {a : List Char} : Spaces a → ValText ('[' :: (a ++ [']'])) (.arr [])
  | arr {a u : List Char} {js : List Json} : Spaces a → ItemsText u js → ValText ('[' :: (a ++ (u ++ [']']))) (.arr js)
  | obj0 {a : List Char} : Spaces a → ValText ('{' :: (a ++ ['}'])) (.obj [])
  | obj {a u : List Char} {ms : List (String × Json)} : Spaces a → MembersText u ms → ValText ('{' :: (a ++ (u ++ ['}']))) (.obj ms)
/-- Values with commas between them (section 5). -/
inductive ItemsText : List Char → List Json → Prop where
  | one {t a : List Char} {j : Json} : ValText t j → Spaces a → ItemsText (t ++ a) [j]
  | more {t a b u : List Char} {j : Json} {js : List Json} : ValText t j → Spaces a → Spaces b → ItemsText u js → ItemsText (t ++ (a ++ ',' :: (b ++ u))) (j :: js)
/-- Members with commas between them (section 4). -/
inductive MembersText : List Char → List (String × Json) → Prop where
  | one {p a : List Char} {m : String × Json} : MemberText p m → Spaces a → MembersText (p ++ a) [m]
  | more {p a b u : List Char} {m : String × Json} {ms : List (String × Json)} : MemberText p m → Spaces a → Spaces b → MembersText u ms →
      MembersText (p ++ (a ++ ',' :: (b ++ u))) (m :: ms)
/-- A name and a value (section 4). -/
inductive MemberText : List Char → String × Json → Prop where
  | mk {k m a b t : List Char} {j : Json} : StrBody k m → Spaces a → Spaces b → ValText t j → MemberText ('"' :: (k ++ '"' :: (a ++ ':' :: (b ++ t)))) (String.ofList m, j)
end

/-- A JSON text (section 2). -/
def JsonDoc (cs : List Char) (j : Json) : Prop := ∃ a t b, Spaces a ∧ ValText t j ∧ Spaces b ∧ cs = a ++ (t ++ b)

/-- The value has no numbers that are not integers. -/
inductive IntegersOnly : Json → Prop where
  | null : IntegersOnly .null
  | bool (b : Bool) : IntegersOnly (.bool b)
  | num (n : Int) : IntegersOnly (.num n)
  | str (s : String) : IntegersOnly (.str s)
  | arr {l : List Json} : (∀ j ∈ l, IntegersOnly j) → IntegersOnly (.arr l)
  | obj {ms : List (String × Json)} : (∀ m ∈ ms, IntegersOnly m.2) → IntegersOnly (.obj ms)

/-- Neither a control character, nor one that means something in HTML or ends a line in JavaScript. -/
def SafeChar (c : Char) : Prop := 32 ≤ c.toNat ∧ c ≠ '<' ∧ c ≠ '>' ∧ c ≠ '&' ∧ c.toNat ≠ 0x2028 ∧ c.toNat ≠ 0x2029

instance (c : Char) : Decidable (SafeChar c) := by unfold SafeChar; infer_instance

/-- A number could go on with this character. -/
def GoesOn (c : Char) : Prop := (48 ≤ c.toNat ∧ c.toNat ≤ 57) ∨ c = '.' ∨ c = 'e' ∨ c = 'E'

/-- The lines of a text: what ends with a newline, without it. -/
def IsLines : List Char → List (List Char) → Prop
  | cs, [] => cs = []
  | cs, l :: ls => '\n' ∉ l ∧ ∃ r, cs = l ++ '\n' :: r ∧ IsLines r ls

end Verif.Spec
