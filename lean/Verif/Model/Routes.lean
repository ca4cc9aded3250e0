import Verif.Model.Fixture

/-!
# Which handler answers a path (`/repo/cmd/vanflow-tool/serve.go:51-109`, `/repo/cmd/vanflow-tool/fixture.go:34-36`)

The patterns the two commands register, and the matching of `net/http.ServeMux` for a module that says `go 1.21` (go.mod:3): `Handle`, `appendSorted`, `match`, `Handler`,
`redirectToPathSlash`, `cleanPath` of net/http/server.go and `path.Clean`, transcribed from their documentation and source as remembered (they are not in `/repo`).

Simplifications: paths are lists of characters; there are no patterns with a host, so hosts are left out; a CONNECT request and the request URI `*` are left out; the query is left out.
-/
namespace Verif.Model
open Verif

abbrev UrlPath := List Char

/-- The parts of a path between slashes: `a/b` has two, `/a/` has three. -/
def pathParts : UrlPath → List (List Char)
  | [] => [[]]
  | c :: p => if c = '/' then [] :: pathParts p else
    match pathParts p with
    | s :: ss => (c :: s) :: ss
    | [] => [[c]]

/-- `path.Clean` of a rooted path, by parts: empty parts and `.` vanish, `..` takes the part before with it (there is none at the root).  `acc` holds the parts so far, last first. -/
def cleanParts : List (List Char) → List (List Char) → List (List Char)
  | acc, [] => acc.reverse
  | acc, s :: ss =>
    if s = [] ∨ s = ['.'] then cleanParts acc ss
    else if s = ['.', '.'] then cleanParts acc.tail ss
    else cleanParts (s :: acc) ss

/-- A rooted path of the parts, with a slash at its end if `dir`. -/
def renderPath (parts : List (List Char)) (dir : Bool) : UrlPath :=
  match parts with
  | [] => ['/']
  | _ => parts.flatMap (fun s => '/' :: s) ++ (if dir then ['/'] else [])

/-- `cleanPath`: rooted, cleaned, and the slash at the end kept. -/
def cleanPath (p : UrlPath) : UrlPath := renderPath (cleanParts [] (pathParts p)) (p.getLast? = some '/')

/-- `ServeMux`: the patterns with their handlers (`m`) and those that end in a slash, longest first (`es`). -/
structure Mux (H : Type) where
  m : GMap UrlPath H := []
  es : List (UrlPath × H) := []

/-- `appendSorted`: before the first shorter pattern. -/
def appendSorted {H : Type} : List (UrlPath × H) → UrlPath × H → List (UrlPath × H)
  | [], e => [e]
  | x :: es, e => if x.1.length < e.1.length then e :: x :: es else x :: appendSorted es e

/-- `mux.Handle`: panics on an empty pattern and on one registered before. -/
def Mux.handle {H : Type} (mux : Mux H) (pattern : UrlPath) (h : H) : Res (Mux H) :=
  if pattern = [] then .panic "http: invalid pattern"
  else if (mux.m.get? pattern).isSome then .panic "http: multiple registrations"
  else .ok { m := mux.m.set pattern h, es := if pattern.getLast? = some '/' then appendSorted mux.es (pattern, h) else mux.es }

def Mux.handleAll {H : Type} (mux : Mux H) : List (UrlPath × H) → Res (Mux H)
  | [] => .ok mux
  | (p, h) :: ps => match mux.handle p h with
    | .ok mux' => mux'.handleAll ps
    | .err e => .err e
    | .panic s => .panic s

/-- `mux.match`: the pattern itself, else the first of the sorted ones that is a prefix. -/
def Mux.find {H : Type} (mux : Mux H) (path : UrlPath) : Option H :=
  match mux.m.get? path with
  | some h => some h
  | none => (mux.es.find? (fun e => e.1.isPrefixOf path)).map (·.2)

/-- `redirectToPathSlash`: the path is not a pattern, with a slash it is one, and it has no slash at its end. -/
def Mux.wantsSlash {H : Type} (mux : Mux H) (path : UrlPath) : Bool :=
  (mux.m.get? path).isNone && path ≠ [] && (mux.m.get? (path ++ ['/'])).isSome && path.getLast? ≠ some '/'

/-- What the mux does with a request. -/
inductive Routed (H : Type) where
  | handler (h : H)
  /-- 301 -/
  | redirect (to : UrlPath)
  | notFound
deriving DecidableEq, Repr

/-- `mux.Handler`. -/
def Mux.route {H : Type} (mux : Mux H) (path : UrlPath) : Routed H :=
  if mux.wantsSlash (cleanPath path) then .redirect (cleanPath path ++ ['/'])
  else if cleanPath path ≠ path then .redirect (cleanPath path)
  else match mux.find path with
    | some h => .handler h
    | none => .notFound

/-! ## The record server -/

inductive ServeHandler where
  /-- serve.go:56-75 -/
  | root
  /-- serve.go:78-90 -/
  | sources
  /-- serve.go:98-108 -/
  | records (type : String)
deriving DecidableEq, Repr

/-- serve.go:96: `"/" + record.GetTypeMeta().String() + "/"` -/
def typePath (t : String) : UrlPath := "/flow/v1/".toList ++ t.toList ++ ['/']

/-- serve.go:56, 78, 92-109: the patterns in the order of their registration. -/
def servePatterns (flows logs : Bool) : List (UrlPath × ServeHandler) :=
  [("/".toList, .root), ("/sources/".toList, .sources)] ++ (getRecordTypes flows logs).map (fun t => (typePath t, .records t))

def serveMux (flows logs : Bool) : Res (Mux ServeHandler) := Mux.handleAll {} (servePatterns flows logs)

/-- serve.go:51-54, 97: what "/" answers in `Refs`. -/
def serveRefs (flows logs : Bool) : List UrlPath := ["/".toList, "/sources/".toList] ++ (getRecordTypes flows logs).map typePath

/-! ## The fixture server -/

inductive FixtureHandler where
  | fixture | flows
deriving DecidableEq, Repr

/-- fixture.go:35-36 -/
def fixturePatterns : List (UrlPath × FixtureHandler) := [("/".toList, .fixture), ("/flows".toList, .flows)]

def fixtureMux : Res (Mux FixtureHandler) := Mux.handleAll {} fixturePatterns

end Verif.Model
