import Verif.Spec.Manager
import Verif.Spec.Dispatch
import Verif.Props.Accumulate

/-!
# Specification for the whole way of a record: source, manager, messages, collector

`Src` is a manager together with the program that feeds it, seen from one record (kind `tm`, identity `id`): the versions the program has made of
that record, and how many of them it has published.
-/
namespace Verif.Spec
open Verif Verif.Model Verif.Props

/-- The value of attribute `k` in the encoding of the record; none if it has none (or cannot be encoded). -/
def attrOf (r : GoRec GoTime) (k : Any) : Option Any :=
  match vanOps.encode r with
  | .ok a => a.get? k
  | _ => none

/-- The value of attribute `k` in the last of the records that has one; `x` if none has. -/
def latestFrom (x : Option Any) (rs : List (GoRec GoTime)) (k : Any) : Option Any := rs.foldl (fun x r => (attrOf r k).or x) x

/-- The value of attribute `k` in the last of the versions that has one. -/
def latest (rs : List (GoRec GoTime)) (k : Any) : Option Any := latestFrom none rs k

/-- The record is of kind `tm` and has identity `id`. -/
def Mine (id : String) (tm : TypeMeta) (r : GoRec GoTime) : Prop := vanIdentity r = .ok id ∧ vanTypeMeta r = .ok tm

instance (id : String) (tm : TypeMeta) (r : GoRec GoTime) : Decidable (Mine id tm r) := instDecidableAnd

/-- The updates to be published for successive versions: each with the version before it. -/
def chainFrom (prev : GoRec GoTime) : List (GoRec GoTime) → List RecordUpdate
  | [] => []
  | v :: vs => { prev := prev, curr := v } :: chainFrom v vs

/-- The first version is published without a previous one. -/
def chain (vs : List (GoRec GoTime)) : List RecordUpdate := chainFrom .nil vs

/-- The store lists the entry. -/
def Listed (c : Cache (GoRec GoTime)) (e : Entry (GoRec GoTime)) : Prop := ∃ res, c.list none 0 = .ok res ∧ e ∈ res.entries

/-- The stores of the manager hold good records, and nothing of our record but its version `last`. -/
def StoresHold (n : Nat) (id : String) (tm : TypeMeta) (last : Option (GoRec GoTime)) (st : Stores (GoRec GoTime)) : Prop :=
  ∀ i < n, ∀ e, Listed (st i) e → GoodRecord vanRegistry e.record ∧ (Mine id tm e.record → last = some e.record)

structure Src where
  mgr : Mgr
  versions : List (GoRec GoTime) := []
  pub : Nat := 0

/-- What the program and the manager do.  The program stores a new version (or makes one that no store has) before it publishes it, and publishes
the versions in order; of other records it publishes and stores what it likes. -/
inductive Src.Step (cfg : MgrConfig) (id : String) (tm : TypeMeta) : Src → Option MgrEv → Src → Prop where
  | write {s : Src} {i : Nat} {op : Op (GoRec GoTime)} {m : Mgr} {r : GoRec GoTime} : Mgr.Step cfg s.mgr (.storeOp i op) m →
      OfKind id tm r → (vanOps.encode r).isOk → StoresHold cfg.numStores id tm (some r) m.stores →
      Src.Step cfg id tm s (some (.storeOp i op)) { s with mgr := m, versions := s.versions ++ [r] }
  | mint {s : Src} {r : GoRec GoTime} : OfKind id tm r → (vanOps.encode r).isOk → StoresHold cfg.numStores id tm (some r) s.mgr.stores →
      Src.Step cfg id tm s none { s with versions := s.versions ++ [r] }
  | storeOther {s : Src} {i : Nat} {op : Op (GoRec GoTime)} {m : Mgr} : Mgr.Step cfg s.mgr (.storeOp i op) m →
      StoresHold cfg.numStores id tm s.versions.getLast? m.stores → Src.Step cfg id tm s (some (.storeOp i op)) { s with mgr := m }
  | publish {s : Src} {u : RecordUpdate} {m : Mgr} : (chain s.versions)[s.pub]? = some u → Mgr.Step cfg s.mgr (.publish u) m →
      Src.Step cfg id tm s (some (.publish u)) { s with mgr := m, pub := s.pub + 1 }
  | publishOther {s : Src} {u : RecordUpdate} {m : Mgr} : GoodRecord vanRegistry u.curr → ¬ Mine id tm u.curr →
      Mgr.Step cfg s.mgr (.publish u) m → Src.Step cfg id tm s (some (.publish u)) { s with mgr := m }
  | mgr {s : Src} {ev : MgrEv} {m : Mgr} : (∀ u, ev ≠ .publish u) → (∀ i op, ev ≠ .storeOp i op) → Mgr.Step cfg s.mgr ev m →
      Src.Step cfg id tm s (some ev) { s with mgr := m }

/-- A run, with the events of the manager. -/
inductive Src.Run (cfg : MgrConfig) (id : String) (tm : TypeMeta) : Src → List MgrEv → Src → Prop where
  | nil {s : Src} : Src.Run cfg id tm s [] s
  | snoc {s s' s'' : Src} {evs : List MgrEv} {ev : Option MgrEv} : Src.Run cfg id tm s evs s' → Src.Step cfg id tm s' ev s'' →
      Src.Run cfg id tm s (evs ++ ev.toList) s''

/-- A new manager, and no version of our record yet. -/
def Src.Start (cfg : MgrConfig) (id : String) (tm : TypeMeta) (s : Src) : Prop :=
  Fresh s.mgr ∧ s.versions = [] ∧ s.pub = 0 ∧ StoresHold cfg.numStores id tm none s.mgr.stores

/-- All versions are published and the manager has nothing left to do. -/
def Src.Drained (s : Src) : Prop :=
  s.pub = s.versions.length ∧ s.mgr.pc = .idle ∧ s.mgr.changeQueue = [] ∧ s.mgr.sendQueue = []

/-- No message was lost on the side of the manager. -/
def Lossless (evs : List MgrEv) : Prop := ∀ rs, MgrEv.skipped rs ∉ evs ∧ MgrEv.sendFailed rs ∉ evs ∧ MgrEv.sendPanicked rs ∉ evs

/-- The messages sent, in order. -/
def sentMsgs (evs : List MgrEv) : List Msg := evs.filterMap fun ev => match ev with | .sent _ m => some m | _ => none

/-- A collector: each message is decoded and, if it is a record message, given to the dispatcher (eventsource/client.go:109-130 with
`OnRecord(dispatcher.Dispatch)` as in cmd/vanflow-tool/serve.go:143-145); `clock n i` is the time at which record `i` of message `n` is
accumulated.  The result is the stores, and the panic that ended it, if any. -/
def collect (w : RegWorld) (d : Dispatcher) (clock : Nat → Nat → GoTime) : Nat → List Msg → Stores (GoRec GoTime) →
    Stores (GoRec GoTime) × Option String
  | _, [], s => (s, none)
  | n, m :: ms, s =>
    match decodeMsg vanRegistry (some m) with
    | .ok (.record rm) =>
      match w.dispatch vanOps d (rm.records.zipIdx.map fun p => (p.1, clock n p.2)) s with
      | (s', none) => collect w d clock (n + 1) ms s'
      | (s', some p) => (s', some p)
    | .panic p => (s, some p)
    | _ => collect w d clock (n + 1) ms s

end Verif.Spec
