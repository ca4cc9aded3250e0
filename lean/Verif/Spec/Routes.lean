import Verif.Model.Routes

/-!
# Paths and who should answer them
-/
namespace Verif.Spec
open Verif.Model

/-- A name between two slashes of a clean path. -/
def GoodName (s : List Char) : Prop := s ≠ [] ∧ s ≠ ['.'] ∧ s ≠ ['.', '.'] ∧ '/' ∉ s

/-- `/`, `/a/`, `/a/b/` … -/
def dirPath (names : List (List Char)) : UrlPath := '/' :: names.flatMap (fun s => s ++ ['/'])

/-- A path in its shortest form: `/`, `/a/b/` or `/a/b`. -/
def CleanUrl (p : UrlPath) : Prop := ∃ names, (∀ s ∈ names, GoodName s) ∧ (p = dirPath names ∨ (names ≠ [] ∧ p ++ ['/'] = dirPath names))

/-- What a client that follows one redirect gets to. -/
def LeadsTo {H : Type} (mux : Mux H) (p : UrlPath) (h : H) : Prop :=
  mux.route p = .handler h ∨ ∃ q, mux.route p = .redirect q ∧ mux.route q = .handler h

/-- Below the directory `d`, or `d` itself. -/
def Below (d p : UrlPath) : Prop := ∃ rest, p = d ++ rest

end Verif.Spec
