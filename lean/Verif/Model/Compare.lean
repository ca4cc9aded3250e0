import Verif.Model.Manager
import Verif.Basic.Amqp

/-!
# Comparing attribute sets with Go's `!=` (`/repo/store/patcher.go:39-48`, `/repo/eventsource/manager.go:117-132`)

`Verif.Model.mergeLoop` and `Verif.Model.diffLoop` compare attributes as values.  Go compares two `interface{}` by their dynamic types, and panics if these are the same type and that type is not
comparable (Go specification, "Comparison operators").  Scalars are comparable; what a type's own `EncodeRecordAttribute` (encoding/encoder.go:29-31) returns may be of any type.  Here the attributes have
dynamic values with their types, and the loops are modelled with Go's operator.

Simplification: structs, arrays and interfaces, which are comparable or not depending on what they contain, are left out.
-/
namespace Verif.Model
open Verif

/-- A non-nil value in an `interface{}`. -/
inductive DynV where
  /-- of a comparable type; `ty` is `""` for the predeclared scalar types -/
  | cmp (ty : String) (content : Any)
  /-- of a slice or map type: `[]byte`, `[]any`, `map[any]any`, … -/
  | ref (ty : String) (content : WVal)

/-- An attribute set with such values. -/
abbrev DynAttrs := GMap Any DynV

/-- `a != b` -/
def goNe : DynV → DynV → Res Bool
  | .cmp t c, .cmp t' c' => .ok (decide (t ≠ t' ∨ c ≠ c'))
  | .ref t _, .ref t' _ => if t = t' then .panic "comparing uncomparable type" else .ok true
  | _, _ => .ok true

/-- store/patcher.go:39-46; the flag is `changed`. -/
def mergeLoopGo : DynAttrs → DynAttrs → Bool → Res (Bool × DynAttrs)
  | [], curr, changed => .ok (changed, curr)
  | (nK, nV) :: rest, curr, changed =>
    match curr.get? nK with
    | none => mergeLoopGo rest (curr.set nK nV) true
    | some cV => (goNe cV nV).bind fun ne => if ne then mergeLoopGo rest (curr.set nK nV) true else mergeLoopGo rest curr changed

/-- eventsource/manager.go:115-132; `delta` and `isDiff` so far. -/
def diffLoopGo (prev : DynAttrs) : DynAttrs → DynAttrs → Bool → Res (DynAttrs × Bool)
  | [], delta, isDiff => .ok (delta, isDiff)
  | (k, v) :: rest, delta, isDiff =>
    match prev.get? k with
    | none => diffLoopGo prev rest (delta.set k v) true
    | some pv => (goNe v pv).bind fun ne =>
      if ne then diffLoopGo prev rest (delta.set k v) true
      else if isIdentifying k then diffLoopGo prev rest (delta.set k v) isDiff
      else diffLoopGo prev rest delta isDiff

/-- Scalars as dynamic values. -/
def scalars (a : Attrs) : DynAttrs := a.map fun p => (p.1, .cmp "" p.2)

/-- A type of records given by how it is encoded (`encoding.Encode`, encoding/encoder.go:36-59) and decoded (`encoding.Decode`, encoding/decoder.go:22-47), with attributes of any type. -/
structure DynRec (R : Type) where
  key : R → String
  encode : R → Res DynAttrs
  decode : DynAttrs → Res R

/-- A store of such records, without what Accumulate does not look at: the records by key. -/
abbrev DynStore (R : Type) := GMap String R

/-- store/cache.go:78-94, store/internal/cache.go:40-66 and store/patcher.go:19-54: Accumulate, with the comparison of Go.  A failed decode panics (store/patcher.go:52). -/
def accumulateGo {R : Type} (ty : DynRec R) (s : DynStore R) (r : R) : DynStore R × Res Unit :=
  match s.get? (ty.key r) with
  | none => (s.set (ty.key r) r, .ok ())
  | some old =>
    match (ty.encode old).bind fun a => (ty.encode r).bind fun b => mergeLoopGo b a false with
    | .ok (false, _) => (s, .ok ())
    | .ok (true, merged) =>
      match ty.decode merged with
      | .ok x => (s.set (ty.key r) x, .ok ())
      | _ => (s, .panic "interface conversion: interface is nil, not vanflow.Record")
    | .err e => (s, .err e)
    | .panic m => (s, .panic m)

/-- eventsource/manager.go:101-142: diffRecord of an update with a previous record, with the comparison of Go. -/
def diffRecordGo {R : Type} (ty : DynRec R) (prev curr : R) : Res (Option R) :=
  match ty.encode prev with
  | .panic m => .panic m
  | .err _ => .ok none
  | .ok p =>
    match ty.encode curr with
    | .panic m => .panic m
    | .err _ => .ok none
    | .ok n =>
      match diffLoopGo p n [] false with
      | .panic m => .panic m
      | .err _ => .ok none
      | .ok (_, false) => .ok none
      | .ok (delta, true) =>
        match ty.decode delta with
        | .panic m => .panic m
        | .err _ => .ok none
        | .ok r => .ok (some r)

end Verif.Model
