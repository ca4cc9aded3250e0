import Verif.Model.Encoding

/-!
# What a struct tag says

The conventional format of a tag, from the documentation of the `reflect` package: "a concatenation of optionally
space-separated key:"value" pairs.  Each key is a non-empty string consisting of non-control characters other than
space, quote, and colon.  Each value is quoted using U+0022 '"' characters and Go string literal syntax."
-/
namespace Verif.Spec
open Verif Verif.Model

/-- A key. -/
def TagKey (k : List Char) : Prop :=
  k ≠ [] ∧ ∀ c ∈ k, ' ' < c ∧ c ≠ ':' ∧ c ≠ '"' ∧ c ≠ Char.ofNat 127

/-- The text between two quotes: every quote in it comes after a backslash, which takes the next character with it. -/
inductive Quoted : List Char → Prop
  | nil : Quoted []
  | plain {c : Char} {cs : List Char} : c ≠ '"' → c ≠ '\\' → Quoted cs → Quoted (c :: cs)
  | escaped {c : Char} {cs : List Char} : Quoted cs → Quoted ('\\' :: c :: cs)

/-- `TagPairs ps t`: the text `t` is the pairs `ps` in the conventional format. -/
inductive TagPairs : List (List Char × List Char) → List Char → Prop
  | nil : TagPairs [] []
  | pair {n : Nat} {k v rest : List Char} {ps : List (List Char × List Char)} : TagKey k → Quoted v →
      TagPairs ps rest → TagPairs ((k, v) :: ps) (List.replicate n ' ' ++ (k ++ (':' :: '"' :: (v ++ ('"' :: rest)))))

/-- A text without quotes, backslashes and newlines between its quotes stands for itself. -/
def PlainValue (v : List Char) : Prop := '"' ∉ v ∧ '\\' ∉ v ∧ '\n' ∉ v

/-- What a tag gives a key: the value of the first pair with this key. -/
def GivesKey (key : List Char) (ps : List (List Char × List Char)) (v : List Char) : Prop :=
  ∃ before after, ps = before ++ (key, v) :: after ∧ ∀ p ∈ before, p.1 ≠ key

end Verif.Spec
