import Verif.Spec.Locks

/-!
# A lock discipline, checked on programs, and what it implies
-/
namespace Verif.Proofs
open Verif.Model Verif.Spec

/-- The lock of a variable. -/
def guardOf : Cell → Option Mutex
  | .sess c | .gen c | .hasNext c | .errorHandlers c => some (.container c)
  | .closed l | .currGen l | .curr l | .rcvGen l | .rcv l | .sndGen l | .snd l => some (.link l)
  | .cleanup k | .heartbeatHandlers k | .recordHandlers k => some (.client k)
  | .known d => some (.discovery d)
  | .items m | .indicies m => some (.syncMap m)
  | .topics r => some (.router r)
  | .receivers u | .update u => some (.multicast u)
  | .encodings | .decodings => some .encoding
  | .status f | .managers f | .flowsProcessed f => some (.fixture f)
  | .backOff _ | .reg _ | .cancel _ | .src _ | .err _ => none

/-- Accesses that need no lock. -/
def looseAt : Cell → Bool → Bool
  | .currGen _, w => !w
  | .backOff _, _ | .reg _, _ | .cancel _, _ | .src _, _ | .err _, _ => true
  | _, _ => false

/-- Locks are taken in the order of their rank. -/
def rankOf : Mutex → Nat
  | .fixture _ => 0
  | _ => 1

abbrev Held := List (Mutex × LMode)

def holdsFor (h : Held) (x : Cell) (w : Bool) : Bool :=
  match guardOf x with
  | none => false
  | some l => h.any (fun p => p.1 = l && (!w || p.2 = .exclusive))

def chkAct (h : Held) : LAct → Option Held
  | .acquire l m => if h.all (fun p => rankOf p.1 < rankOf l) then some ((l, m) :: h) else none
  | .release l => if h.any (fun p => p.1 = l) then some (h.filter (fun p => p.1 ≠ l)) else none
  | .read x => if looseAt x false || holdsFor h x false then some h else none
  | .write x => if looseAt x true || holdsFor h x true then some h else none
  | .other => some h

def chkActs (h : Held) : List LAct → Option Held
  | [] => some h
  | a :: t => match chkAct h a with
    | some h' => chkActs h' t
    | none => none

def chk (h : Held) : LProg → Option Held
  | .acts as => chkActs h as
  | .seq p q => match chk h p with
    | some h' => chk h' q
    | none => none
  | .alt p q => if chk h p = chk h q then chk h p else none
  | .star p => if chk h p = some h then some h else none

theorem chkActs_append (h : Held) (t u : List LAct) : chkActs h (t ++ u) = (chkActs h t).bind (fun h' => chkActs h' u) := by
  induction t generalizing h with
  | nil => rfl
  | cons a t ih => simp only [List.cons_append, chkActs]; cases chkAct h a <;> simp [ih]

theorem chk_sound {p : LProg} {t : List LAct} (ht : p.Tr t) : ∀ {h h' : Held}, chk h p = some h' → chkActs h t = some h' := by
  induction ht with
  | acts => intro h h' hc; exact hc
  | seq _ _ ih1 ih2 =>
    intro h h' hc
    simp only [chk] at hc
    split at hc
    · next h1 e => rw [chkActs_append, ih1 e]; exact ih2 hc
    · cases hc
  | altL _ ih =>
    intro h h' hc; simp only [chk] at hc
    split at hc
    · exact ih hc
    · cases hc
  | altR _ ih =>
    intro h h' hc; simp only [chk] at hc
    split at hc
    · next e => exact ih (e ▸ hc)
    · cases hc
  | starNil =>
    intro h h' hc; simp only [chk] at hc
    split at hc
    · exact hc
    · cases hc
  | starCons _ _ ih1 ih2 =>
    intro h h' hc
    have hc' := hc
    simp only [chk] at hc
    split at hc
    · next e =>
      rw [chkActs_append, ih1 e]; exact ih2 hc'
    · cases hc

/-! ## The calls obey it -/

theorem chk_index (f m : Nat) : chk [(.fixture f, .exclusive)] (mapIndexLk m) = some [(.fixture f, .exclusive)] := by
  simp [chk, chkActs, chkAct, holdsFor, guardOf, looseAt, rankOf, mapIndexLk]

theorem chk_serveStores (f : Nat) (ms : List Nat) :
    chk [(.fixture f, .exclusive)] (ms.foldr (fun m p => LProg.seq (mapIndexLk m) (LProg.seq (.acts [.other]) p)) .skip) = some [(.fixture f, .exclusive)] := by
  induction ms with
  | nil => rfl
  | cons m ms ih =>
    simp only [List.foldr_cons, chk, chk_index, chkActs, chkAct]
    exact ih

theorem chk_call (c : Call) : chk [] c.prog = some [] := by
  cases c
  case serveFlows f ms =>
    simp [Call.prog, serveFlowsLk, chk, chkActs, chkAct, holdsFor, guardOf, looseAt, rankOf, chk_serveStores]
  case containerRun c b h =>
    cases h <;>
    simp [Call.prog, containerRunLk, attemptLk, notifyLk, publishSessionLk, ErrHandler.prog, chk, chkActs, chkAct, holdsFor, guardOf, looseAt, rankOf]
  all_goals
    simp [Call.prog, onSessionErrorLk, awaitNextSessionLk, newLinkLk, awaitSessionLk, handleErrorLk, getReceiverLk, getSenderLk, withReceiverLk, withSenderLk, nextLk, acceptLk,
      sendLk, closeLinkLk, clientStartLk, onHeartbeatLk, onRecordLk, getHandlersLk, listenLk, clientCloseLk, discoveryGetLk, discoveryAddLk, discoveryForgetLk, discoveryListLk,
      discoveryObserveLk, discoveryLastSeenLk, unindexLk, reindexLk, mapPatchLk, mapDeleteLk, mapGetLk, mapReplaceLk, mapListLk, mapIndexValuesLk, mapIndexLk, routerGetLk,
      multicastSendLk, multicastSubscribeLk, registerLk, encodeLk, decodeLk, fixtureRunLk, serveFixtureLk, fakeFlowLk, registerStoreLk, newDispatcherLk, commandEndLk, forwardLk,
      captureEndLk, chk, chkActs, chkAct, holdsFor, guardOf, looseAt, rankOf]

theorem runs_ok {cs : List Call} {t : List LAct} (h : Runs cs t) : chkActs [] t = some [] := by
  induction h with
  | nil => rfl
  | cons ht _ ih => rw [chkActs_append, chk_sound ht (chk_call _)]; exact ih

/-! ## What the calls may do -/

/-- the actions of a body -/
def progHas (a : LAct) : LProg → Prop
  | .acts as => a ∈ as
  | .seq p q | .alt p q => progHas a p ∨ progHas a q
  | .star p => progHas a p

theorem tr_some (p : LProg) : ∃ t, p.Tr t := by
  induction p with
  | acts as => exact ⟨_, .acts⟩
  | seq p q ih1 ih2 => obtain ⟨t, h⟩ := ih1; obtain ⟨u, h'⟩ := ih2; exact ⟨_, .seq h h'⟩
  | alt p q ih1 _ => obtain ⟨t, h⟩ := ih1; exact ⟨_, .altL h⟩
  | star p _ => exact ⟨_, .starNil⟩

theorem has_tr {a : LAct} (p : LProg) : progHas a p ↔ ∃ t, p.Tr t ∧ a ∈ t := by
  constructor
  · intro h
    induction p with
    | acts as => exact ⟨_, .acts, h⟩
    | seq p q ih1 ih2 =>
      obtain ⟨t0, h0⟩ := tr_some p
      obtain ⟨u0, h1⟩ := tr_some q
      rcases h with h | h
      · obtain ⟨t, ht, hm⟩ := ih1 h; exact ⟨_, .seq ht h1, List.mem_append_left _ hm⟩
      · obtain ⟨t, ht, hm⟩ := ih2 h; exact ⟨_, .seq h0 ht, List.mem_append_right _ hm⟩
    | alt p q ih1 ih2 =>
      rcases h with h | h
      · obtain ⟨t, ht, hm⟩ := ih1 h; exact ⟨_, .altL ht, hm⟩
      · obtain ⟨t, ht, hm⟩ := ih2 h; exact ⟨_, .altR ht, hm⟩
    | star p ih => obtain ⟨t, ht, hm⟩ := ih h; exact ⟨_, .starCons ht .starNil, List.mem_append_left _ hm⟩
  · rintro ⟨t, ht, hm⟩
    induction ht with
    | acts => exact hm
    | seq _ _ ih1 ih2 =>
      rcases List.mem_append.mp hm with h | h
      · exact .inl (ih1 h)
      · exact .inr (ih2 h)
    | altL _ ih => exact .inl (ih hm)
    | altR _ ih => exact .inr (ih hm)
    | starNil => cases hm
    | starCons _ _ ih1 ih2 =>
      rcases List.mem_append.mp hm with h | h
      · exact ih1 h
      · exact ih2 h

theorem has_serveStores (a : LAct) (ms : List Nat) :
    progHas a (ms.foldr (fun m p => LProg.seq (mapIndexLk m) (LProg.seq (.acts [.other]) p)) .skip) ↔ ∃ m ∈ ms, progHas a (mapIndexLk m) ∨ a = .other := by
  induction ms with
  | nil => simp [progHas]
  | cons m ms ih => simp only [List.foldr_cons, progHas, ih]; simp [or_assoc]

/-- each piece of the body writes the two variables equally often -/
def progEven (x y : Cell) : LProg → Prop
  | .acts as => writesIn as x = writesIn as y
  | .seq p q | .alt p q => progEven x y p ∧ progEven x y q
  | .star p => progEven x y p

theorem writesIn_append (t u : List LAct) (x : Cell) : writesIn (t ++ u) x = writesIn t x + writesIn u x := by simp [writesIn]

theorem even_tr {x y : Cell} {p : LProg} {t : List LAct} (ht : p.Tr t) (h : progEven x y p) : writesIn t x = writesIn t y := by
  induction ht with
  | acts => exact h
  | seq _ _ ih1 ih2 => rw [writesIn_append, writesIn_append, ih1 h.1, ih2 h.2]
  | altL _ ih => exact ih h.1
  | altR _ ih => exact ih h.2
  | starNil => rfl
  | starCons _ _ ih1 ih2 => rw [writesIn_append, writesIn_append, ih1 h, ih2 h]

theorem even_serveStores (x y : Cell) (ms : List Nat) :
    progEven x y (ms.foldr (fun m p => LProg.seq (mapIndexLk m) (LProg.seq (.acts [.other]) p)) .skip) := by
  induction ms with
  | nil => simp [progEven, writesIn]
  | cons m ms ih =>
    simp only [List.foldr_cons]
    refine ⟨?_, ?_, ih⟩
    · simp [mapIndexLk, progEven, writesIn]
    · simp [progEven, writesIn]

/-! ## Goroutines together -/

structure LkInv (ths : List LThread) : Prop where
  ok : ∀ (i : Nat) (th : LThread), ths[i]? = some th → chkActs th.held th.todo = some []
  excl : ∀ (i j : Nat) (th th' : LThread), i ≠ j → ths[i]? = some th → ths[j]? = some th' → ∀ p ∈ th.held, ∀ q ∈ th'.held, p.1 = q.1 → p.2 = .shared ∧ q.2 = .shared

theorem chkAct_after {h h' : Held} {a : LAct} (hc : chkAct h a = some h') : h' = a.after h := by
  cases a <;> simp only [chkAct] at hc <;> first | (split at hc <;> simp_all [LAct.after]) | (simp_all [LAct.after])

theorem lk_begun {gs : List (List Call × List LAct)} (hf : Follows gs) : LkInv (begun gs) := by
  refine ⟨?_, ?_⟩
  · intro i th hi
    simp only [begun, List.getElem?_map, Option.map_eq_some_iff] at hi
    obtain ⟨g, hg, rfl⟩ := hi
    exact runs_ok (hf g (List.mem_of_getElem? hg))
  · intro i j th th' _ hi _ p hp
    simp only [begun, List.getElem?_map, Option.map_eq_some_iff] at hi
    obtain ⟨g, hg, rfl⟩ := hi
    cases hp

theorem lk_step {ths ths' : List LThread} (hs : LStep ths ths') (hi : LkInv ths) : LkInv ths' := by
  cases hs with
  | @step i held a todo hget hfree =>
    have hok := hi.ok i _ hget
    simp only [chkActs] at hok
    split at hok
    case h_2 => cases hok
    case h_1 h' hc =>
      have hh := chkAct_after hc
      subst hh
      have hlt : i < ths.length := (List.getElem?_eq_some_iff.mp hget).1
      -- the new locks of thread i do not conflict with those of others
      have key : ∀ (j : Nat) (th' : LThread), i ≠ j → ths[j]? = some th' → ∀ p ∈ a.after held, ∀ q ∈ th'.held, p.1 = q.1 → p.2 = .shared ∧ q.2 = .shared := by
        intro j th' hij hj p hp q hq hpq
        cases a with
        | acquire l m =>
          simp only [LAct.after, List.mem_cons] at hp
          cases hp with
          | inl e =>
            subst e
            have := hfree th' (List.mem_of_getElem? hj) q hq hpq.symm
            exact this
          | inr hp => exact hi.excl i j _ _ hij hget hj p hp q hq hpq
        | release l =>
          simp only [LAct.after] at hp
          exact hi.excl i j _ _ hij hget hj p ((List.mem_filter.mp hp).1) q hq hpq
        | read _ => exact hi.excl i j _ _ hij hget hj p hp q hq hpq
        | write _ => exact hi.excl i j _ _ hij hget hj p hp q hq hpq
        | other => exact hi.excl i j _ _ hij hget hj p hp q hq hpq
      refine ⟨?_, ?_⟩
      · intro k th hk
        rw [List.getElem?_set] at hk
        split at hk
        · simp only [Option.some.injEq] at hk; subst hk; exact hok
        · exact hi.ok k th hk
      · intro k j th th' hkj hk hj p hp q hq hpq
        rw [List.getElem?_set] at hk hj
        split at hk
        · next e =>
          subst e
          simp only [Option.some.injEq] at hk
          subst hk
          rw [if_neg hkj] at hj
          exact key j th' hkj hj p hp q hq hpq
        · next hne =>
          split at hj
          · next e =>
            subst e
            simp only [Option.some.injEq] at hj
            subst hj
            have := key k th hne hk q hq p hp hpq.symm
            exact ⟨this.2, this.1⟩
          · exact hi.excl k j _ _ hkj hk hj p hp q hq hpq

theorem lk_reach {ths ths' : List LThread} (hr : LReach ths ths') (hi : LkInv ths) : LkInv ths' := by
  induction hr with
  | refl => exact hi
  | step _ hs ih => exact lk_step hs ih

/-- What a goroutine about to touch a variable has. -/
theorem lk_access {h : Held} {a : LAct} {t : List LAct} {x : Cell} (hok : chkActs h (a :: t) = some []) (ht : TouchesCell a x) :
    ∃ w, (w = true ↔ a = .write x) ∧ (looseAt x w = true ∨ ∃ l, guardOf x = some l ∧ ∃ p ∈ h, p.1 = l ∧ (w = true → p.2 = .exclusive)) := by
  simp only [chkActs] at hok
  split at hok
  case h_2 => cases hok
  case h_1 h' hc =>
    have aux : ∀ w, (looseAt x w || holdsFor h x w) = true →
        (looseAt x w = true ∨ ∃ l, guardOf x = some l ∧ ∃ p ∈ h, p.1 = l ∧ (w = true → p.2 = .exclusive)) := by
      intro w hw
      rw [Bool.or_eq_true] at hw
      refine hw.imp id ?_
      intro hw
      simp only [holdsFor] at hw
      split at hw
      · cases hw
      · next l e =>
        refine ⟨l, e, ?_⟩
        rw [List.any_eq_true] at hw
        obtain ⟨p, hp, hw⟩ := hw
        simp only [Bool.and_eq_true, decide_eq_true_eq, Bool.or_eq_true, Bool.not_eq_true'] at hw
        refine ⟨p, hp, hw.1, ?_⟩
        intro e; rw [e] at hw; simpa using hw.2
    rcases ht with rfl | rfl
    · simp only [chkAct] at hc
      split at hc
      · next hw => exact ⟨false, by simp, aux _ hw⟩
      · cases hc
    · simp only [chkAct] at hc
      split at hc
      · next hw => exact ⟨true, by simp, aux _ hw⟩
      · cases hc

/-- In a race one of the accesses needs no lock. -/
theorem race_loose {ths : List LThread} (hi : LkInv ths) {x : Cell} (hr : Race ths x) :
    looseAt x true = true ∨ looseAt x false = true := by
  obtain ⟨i, j, h1, h2, a, b, ti, tj, hij, hgi, hgj, ha, hb, hw⟩ := hr
  obtain ⟨w, hwa, h⟩ := lk_access (hi.ok i _ hgi) ha
  obtain ⟨w', hwb, h'⟩ := lk_access (hi.ok j _ hgj) hb
  have fin : ∀ w, looseAt x w = true → looseAt x true = true ∨ looseAt x false = true := by intro w; cases w <;> simp_all
  rcases h with h | ⟨l, hl, p, hp, hpl, hpe⟩
  · exact fin _ h
  · rcases h' with h' | ⟨l', hl', q, hq, hql, hqe⟩
    · exact fin _ h'
    · rw [hl] at hl'; cases hl'
      have := hi.excl i j _ _ hij hgi hgj p hp q hq (hpl.trans hql.symm)
      rcases hw with e | e
      · rw [hpe (hwa.mpr e)] at this; cases this.1
      · rw [hqe (hwb.mpr e)] at this; cases this.2

/-! ## Which variables a goroutine touches -/

def actsIn : LProg → List LAct
  | .acts as => as
  | .seq p q => actsIn p ++ actsIn q
  | .alt p q => actsIn p ++ actsIn q
  | .star p => actsIn p

theorem tr_acts {p : LProg} {t : List LAct} (ht : p.Tr t) : ∀ a ∈ t, a ∈ actsIn p := by
  induction ht with
  | acts => intro a h; exact h
  | seq _ _ ih1 ih2 => intro a h; simp only [List.mem_append] at h; simp only [actsIn, List.mem_append]; exact h.imp (ih1 a) (ih2 a)
  | altL _ ih => intro a h; simp only [actsIn, List.mem_append]; exact .inl (ih a h)
  | altR _ ih => intro a h; simp only [actsIn, List.mem_append]; exact .inr (ih a h)
  | starNil => intro a h; cases h
  | starCons _ _ ih1 ih2 => intro a h; simp only [List.mem_append] at h; exact h.elim (ih1 a) (ih2 a)

/-- A variable some access of which needs no lock. -/
def Loose (x : Cell) : Prop := looseAt x true = true ∨ looseAt x false = true

/-- `bare` names every such variable of a list of actions. -/
def Covers (ys : List (Cell × Bool)) (as : List LAct) : Prop :=
  ∀ a ∈ as, ∀ x, Loose x → (a = .write x → (x, true) ∈ ys) ∧ (a = .read x → ∃ w, (x, w) ∈ ys)

theorem covers_append {ys} {as bs : List LAct} (h1 : Covers ys as) (h2 : Covers ys bs) : Covers ys (as ++ bs) := by
  intro a ha; rw [List.mem_append] at ha; exact ha.elim (h1 a) (h2 a)

theorem covers_iff (ys : List (Cell × Bool)) (as : List LAct) :
    Covers ys as ↔ ∀ a ∈ as, match a with
      | .write x => Loose x → (x, true) ∈ ys
      | .read x => Loose x → ∃ w, (x, w) ∈ ys
      | _ => True := by
  constructor
  · intro h a ha
    cases a with
    | write x => intro hl; exact (h _ ha x hl).1 rfl
    | read x => intro hl; exact (h _ ha x hl).2 rfl
    | _ => trivial
  · intro h a ha x hl
    constructor
    · rintro rfl; exact h _ ha hl
    · rintro rfl; exact h _ ha hl

theorem covers_stores (ys) (ms : List Nat) :
    Covers ys (actsIn (ms.foldr (fun m p => LProg.seq (mapIndexLk m) (LProg.seq (.acts [.other]) p)) .skip)) := by
  induction ms with
  | nil => intro a ha; cases ha
  | cons m ms ih =>
    simp only [List.foldr_cons, actsIn]
    refine covers_append ?_ (covers_append ?_ ih)
    · simp [covers_iff, mapIndexLk, actsIn, Loose, looseAt]
    · simp [covers_iff]

theorem covers_call (c : Call) : Covers (bare c) (actsIn c.prog) := by
  cases c
  case serveFlows f ms =>
    simp only [Call.prog, serveFlowsLk, actsIn]
    refine covers_append ?_ (covers_append (covers_stores _ _) ?_)
    all_goals simp [covers_iff, Loose, looseAt, bare]
  case containerRun c b h =>
    cases h <;>
    simp [covers_iff, Call.prog, containerRunLk, attemptLk, notifyLk, publishSessionLk, ErrHandler.prog, actsIn, Loose, looseAt, bare, handlerBare]
  all_goals
    simp [covers_iff, Call.prog, onSessionErrorLk, awaitNextSessionLk, newLinkLk, awaitSessionLk, handleErrorLk, getReceiverLk, getSenderLk, withReceiverLk, withSenderLk, nextLk,
      acceptLk, sendLk, closeLinkLk, clientStartLk, onHeartbeatLk, onRecordLk, getHandlersLk, listenLk, clientCloseLk, discoveryGetLk, discoveryAddLk, discoveryForgetLk,
      discoveryListLk, discoveryObserveLk, discoveryLastSeenLk, unindexLk, reindexLk, mapPatchLk, mapDeleteLk, mapGetLk, mapReplaceLk, mapListLk, mapIndexValuesLk, mapIndexLk,
      routerGetLk, multicastSendLk, multicastSubscribeLk, registerLk, encodeLk, decodeLk, fixtureRunLk, serveFixtureLk, fakeFlowLk, registerStoreLk, newDispatcherLk, commandEndLk,
      forwardLk, captureEndLk, actsIn, Loose, looseAt, bare]

theorem runs_covers {cs : List Call} {t : List LAct} (h : Runs cs t) : ∀ a ∈ t, ∀ x, Loose x →
    (a = .write x → ∃ c ∈ cs, (x, true) ∈ bare c) ∧ (a = .read x → ∃ c ∈ cs, ∃ w, (x, w) ∈ bare c) := by
  induction h with
  | nil => intro a ha; cases ha
  | @cons c cs t u ht _ ih =>
    intro a ha x hl
    rw [List.mem_append] at ha
    rcases ha with ha | ha
    · have := covers_call c a (tr_acts ht a ha) x hl
      exact ⟨fun e => ⟨c, by simp, this.1 e⟩, fun e => ⟨c, by simp, this.2 e⟩⟩
    · have := ih a ha x hl
      refine ⟨fun e => ?_, fun e => ?_⟩
      · obtain ⟨c', h1, h2⟩ := this.1 e; exact ⟨c', by simp [h1], h2⟩
      · obtain ⟨c', h1, h2⟩ := this.2 e; exact ⟨c', by simp [h1], h2⟩

/-- What is still to be done was to be done at the start. -/
theorem todo_suffix {ths ths' : List LThread} (hr : LReach ths ths') : ∀ (i : Nat) (th' : LThread), ths'[i]? = some th' → ∃ th, ths[i]? = some th ∧ ∀ a ∈ th'.todo, a ∈ th.todo := by
  induction hr with
  | refl => intro i th h; exact ⟨th, h, fun _ h => h⟩
  | step _ hs ih =>
    cases hs with
    | @step k held a todo hget _ =>
      intro i th' h
      rw [List.getElem?_set] at h
      split at h
      · next e =>
        subst e
        split at h
        · cases h
          obtain ⟨th, h1, h2⟩ := ih _ _ hget
          exact ⟨th, h1, fun b hb => h2 b (by simp [hb])⟩
        · cases h
      · exact ih _ _ h

/-! ## Progress -/

theorem rank_le (l : Mutex) : rankOf l ≤ 1 := by cases l <;> simp [rankOf]

theorem chkActs_acquire {h : Held} {l m t r} (hok : chkActs h (.acquire l m :: t) = some r) : ∀ p ∈ h, rankOf p.1 < rankOf l := by
  simp only [chkActs] at hok
  split at hok
  case h_2 => cases hok
  case h_1 h' hc =>
    simp only [chkAct] at hc
    split at hc
    · next hall => simpa using hall
    · cases hc

/-- Whoever holds a lock leads to a goroutine that can go on. -/
theorem lk_holder {ths : List LThread} (hi : LkInv ths) : ∀ (n : Nat) (i : Nat) (th : LThread) (p : Mutex × LMode), ths[i]? = some th → p ∈ th.held → 1 - rankOf p.1 ≤ n →
    ∃ (j : Nat) (h : Held) (a : LAct) (t : List LAct), ths[j]? = some ⟨h, a :: t⟩ ∧ FreeStrict ths a := by
  intro n
  induction n with
  | zero =>
    intro i th p hget hp hn
    obtain ⟨held, todo⟩ := th
    have hok := hi.ok i _ hget
    cases todo with
    | nil => simp only [chkActs, Option.some.injEq] at hok; rw [hok] at hp; cases hp
    | cons a t =>
      refine ⟨i, held, a, t, hget, ?_⟩
      cases a with
      | acquire l m =>
        have := chkActs_acquire hok p hp
        have := rank_le l
        omega
      | _ => exact ⟨trivial, by intro l e; cases e⟩
  | succ n ih =>
    intro i th p hget hp hn
    obtain ⟨held, todo⟩ := th
    have hok := hi.ok i _ hget
    cases todo with
    | nil => simp only [chkActs, Option.some.injEq] at hok; rw [hok] at hp; cases hp
    | cons a t =>
      cases a with
      | acquire l m =>
        have hlt := chkActs_acquire hok p hp
        have hl := rank_le l
        -- whoever holds l is nearer
        have near : ∀ (k : Nat) (th' : LThread) (q : Mutex × LMode), ths[k]? = some th' → q ∈ th'.held → q.1 = l →
            ∃ (j : Nat) (h : Held) (a : LAct) (t : List LAct), ths[j]? = some ⟨h, a :: t⟩ ∧ FreeStrict ths a := by
          intro k th' q hk hq e
          refine ih k th' q hk hq ?_
          rw [e]; omega
        by_cases hheld : ∃ th' ∈ ths, ∃ q ∈ th'.held, q.1 = l
        · obtain ⟨th', hmem, q, hq, e⟩ := hheld
          obtain ⟨k, hk⟩ := List.getElem?_of_mem hmem
          exact near k th' q hk hq e
        · have hfree : ∀ m, (LAct.acquire l m).free ths := fun m th' hmem q hq e => absurd ⟨th', hmem, q, hq, e⟩ hheld
          by_cases hw : ∃ th' ∈ ths, ∃ t', th'.todo = .acquire l .exclusive :: t'
          · obtain ⟨th', hmem, t', e⟩ := hw
            obtain ⟨k, hk⟩ := List.getElem?_of_mem hmem
            obtain ⟨h', td'⟩ := th'
            simp only at e; subst e
            exact ⟨k, h', _, t', hk, hfree _, by intro l' e; cases e⟩
          · refine ⟨i, held, _, t, hget, hfree _, ?_⟩
            intro l' e th' hmem t' ht
            cases e
            exact hw ⟨th', hmem, t', ht⟩
      | _ => exact ⟨i, held, _, t, hget, trivial, by intro l e; cases e⟩

theorem lk_progress {ths : List LThread} (hi : LkInv ths) {i : Nat} {h : Held} {a : LAct} {t : List LAct} (hget : ths[i]? = some ⟨h, a :: t⟩) :
    ∃ (j : Nat) (h : Held) (a : LAct) (t : List LAct), ths[j]? = some ⟨h, a :: t⟩ ∧ FreeStrict ths a := by
  cases a with
  | acquire l m =>
    by_cases hheld : ∃ th' ∈ ths, ∃ q ∈ th'.held, q.1 = l
    · obtain ⟨th', hmem, q, hq, e⟩ := hheld
      obtain ⟨k, hk⟩ := List.getElem?_of_mem hmem
      exact lk_holder hi _ k th' q hk hq (Nat.le_refl _)
    · have hfree : ∀ m, (LAct.acquire l m).free ths := fun m th' hmem q hq e => absurd ⟨th', hmem, q, hq, e⟩ hheld
      by_cases hw : ∃ th' ∈ ths, ∃ t', th'.todo = .acquire l .exclusive :: t'
      · obtain ⟨th', hmem, t', e⟩ := hw
        obtain ⟨k, hk⟩ := List.getElem?_of_mem hmem
        obtain ⟨h', td'⟩ := th'
        simp only at e; subst e
        exact ⟨k, h', _, t', hk, hfree _, by intro l' e; cases e⟩
      · refine ⟨i, h, _, t, hget, hfree _, ?_⟩
        intro l' e th' hmem t' ht
        cases e
        exact hw ⟨th', hmem, t', ht⟩
  | _ => exact ⟨i, h, _, t, hget, trivial, by intro l e; cases e⟩

/-! ## Balance -/

def heldCount (l : Mutex) (h : Held) : Int := if h.any (fun p => p.1 = l) then 1 else 0

theorem heldCount_act {h h' : Held} {a : LAct} (hc : chkAct h a = some h') (l : Mutex) : heldCount l h' = heldCount l h + balance l [a] := by
  cases a with
  | acquire l' m =>
    simp only [chkAct] at hc
    split at hc
    · next hall =>
      cases hc
      simp only [List.all_eq_true, decide_eq_true_eq] at hall
      by_cases e : l' = l
      · subst e
        have : h.any (fun p => decide (p.1 = l')) = false := by
          rw [List.any_eq_false]
          intro p hp e
          simp only [decide_eq_true_eq] at e
          have := hall p hp
          rw [e] at this; omega
        simp [heldCount, balance, this]
      · have : ((l', m) :: h).any (fun p => decide (p.1 = l)) = h.any (fun p => decide (p.1 = l)) := by
          rw [List.any_cons, decide_eq_false e, Bool.false_or]
        simp only [heldCount, this, balance, if_neg e]; simp
    · cases hc
  | release l' =>
    simp only [chkAct] at hc
    split at hc
    · next hany =>
      cases hc
      by_cases e : l' = l
      · subst e
        simp only [List.any_eq_true, decide_eq_true_eq] at hany
        obtain ⟨p, hp, e⟩ := hany
        have h1 : h.any (fun p => decide (p.1 = l')) = true := by rw [List.any_eq_true]; exact ⟨p, hp, by simp [e]⟩
        have h2 : (h.filter (fun p => p.1 ≠ l')).any (fun p => decide (p.1 = l')) = false := by
          rw [List.any_eq_false]
          intro q hq e
          simp [List.mem_filter] at hq e
          exact hq.2 e
        simp only [heldCount, balance, h1, h2, if_true]; simp
      · have : (h.filter (fun p => p.1 ≠ l')).any (fun p => decide (p.1 = l)) = h.any (fun p => decide (p.1 = l)) := by
          rw [Bool.eq_iff_iff, List.any_eq_true, List.any_eq_true]
          constructor
          · rintro ⟨q, hq, e⟩; exact ⟨q, (List.mem_filter.mp hq).1, e⟩
          · rintro ⟨q, hq, e'⟩
            refine ⟨q, ?_, e'⟩
            simp only [decide_eq_true_eq] at e'
            simp only [List.mem_filter]
            exact ⟨hq, by simp [e', Ne.symm e]⟩
        simp only [heldCount, this, balance, e, if_false]; simp
    · cases hc
  | read x => simp only [chkAct] at hc; split at hc <;> simp_all [balance]
  | write x => simp only [chkAct] at hc; split at hc <;> simp_all [balance]
  | other => simp only [chkAct] at hc; simp_all [balance]

theorem balance_cons (l : Mutex) (a : LAct) (t : List LAct) : balance l (a :: t) = balance l [a] + balance l t := by
  cases a <;> simp [balance]

theorem balance_ok {h h' : Held} {t : List LAct} (hc : chkActs h t = some h') (l : Mutex) : heldCount l h' = heldCount l h + balance l t := by
  induction t generalizing h with
  | nil => simp only [chkActs, Option.some.injEq] at hc; subst hc; simp [balance]
  | cons a t ih =>
    simp only [chkActs] at hc
    split at hc
    · next h1 e => rw [ih hc, heldCount_act e, balance_cons l a t]; omega
    · cases hc

theorem chkActs_prefix {h h' : Held} {t u : List LAct} (hc : chkActs h (t ++ u) = some h') : ∃ h1, chkActs h t = some h1 := by
  rw [chkActs_append] at hc
  cases h1 : chkActs h t with
  | none => rw [h1] at hc; cases hc
  | some h1 => exact ⟨_, rfl⟩

end Verif.Proofs
