import Verif.Model.Starts

/-!
# C124: a container started again
-/
namespace Verif.Props
open Verif Verif.Model

/-- The generation session `x` was published with. -/
def SCtr.genOf (s : SCtr) (x : Nat) : Option Nat := s.sessions[x]?.map Sess.gen

theorem genOf_teardown (s : SCtr) (p : Option Nat) (x : Nat) : SCtr.genOf (s.teardown p) x = SCtr.genOf s x := by
  cases p with
  | none => rfl
  | some y =>
    unfold SCtr.genOf SCtr.teardown
    rw [List.getElem?_modify]
    cases s.sessions[x]? <;> simp
    split <;> rfl

theorem length_teardown (s : SCtr) (p : Option Nat) : (s.teardown p).sessions.length = s.sessions.length := by
  cases p with
  | none => rfl
  | some y => simp [SCtr.teardown]

theorem teardown_rest (s : SCtr) (p : Option Nat) : (s.teardown p).gen = s.gen ∧ (s.teardown p).sess = s.sess ∧ (s.teardown p).starts = s.starts ∧
    (s.teardown p).errs = s.errs ∧ (s.teardown p).links = s.links := by
  cases p <;> exact ⟨rfl, rfl, rfl, rfl, rfl⟩

/-- What is so however `Start` is called. -/
structure StartsOK (s : SCtr) : Prop where
  pos : ∀ x g, SCtr.genOf s x = some g → 0 < g
  none_ : s.sess = none → s.gen = 0 ∧ s.sessions = []
  sess : ∀ x, s.sess = some x → x + 1 = s.sessions.length ∧ SCtr.genOf s x = some s.gen
  err : ∀ g x, (g, x) ∈ s.errs → SCtr.genOf s x = some g
  last : ∀ (l : Nat) (k : SLnk), s.links[l]? = some k → (k.last = none ∧ k.currGen = 0 ∧ k.curr = none) ∨ (∃ x, k.last = some x ∧ SCtr.genOf s x = some k.currGen ∧ (k.curr = none ∨ k.curr = some x))
  calling : ∀ (l : Nat) (k : SLnk), s.links[l]? = some k → k.pc = .calling → k.curr.isSome = true
  awaiting : ∀ (l : Nat) (k : SLnk), s.links[l]? = some k → k.pc = .awaiting → k.curr = none

theorem genOf_lt {s : SCtr} {x g : Nat} (h : SCtr.genOf s x = some g) : x < s.sessions.length := by
  unfold SCtr.genOf at h
  cases hx : s.sessions[x]? with
  | none => rw [hx] at h; cases h
  | some k => exact (List.getElem?_eq_some_iff.1 hx).1

theorem startsOK_step {P : StartPolicy} {s s' : SCtr} {ev : SEv} (h : StartsOK s) (hs : SCtr.Step P s ev s') : StartsOK s' := by
  -- a link changes, the sessions do not
  have link : ∀ {s1 : SCtr} {l : Nat} {k k' : SLnk}, s1.sess = s.sess → s1.gen = s.gen → s1.sessions = s.sessions → s1.links = s.links →
      (∀ g x, (g, x) ∈ s1.errs → SCtr.genOf s x = some g) → s.links[l]? = some k →
      ((k'.last = none ∧ k'.currGen = 0 ∧ k'.curr = none) ∨ (∃ x, k'.last = some x ∧ SCtr.genOf s x = some k'.currGen ∧ (k'.curr = none ∨ k'.curr = some x))) →
      (k'.pc = .calling → k'.curr.isSome = true) → (k'.pc = .awaiting → k'.curr = none) → StartsOK (s1.setLink l k') := by
    intro s1 l k k' e1 e2 e3 e4 herr hl h1 h2 h3
    have hg : ∀ x, SCtr.genOf (s1.setLink l k') x = SCtr.genOf s x := fun x => by simp [SCtr.genOf, SCtr.setLink, e3]
    have hget : ∀ l' k'', (s1.setLink l k').links[l']? = some k'' → (l' = l ∧ k'' = k') ∨ s.links[l']? = some k'' := by
      intro l' k'' hh
      replace hh : (s1.links.set l k')[l']? = some k'' := hh
      rw [e4, List.getElem?_set] at hh
      split at hh
      · subst_vars
        split at hh
        · exact .inl ⟨rfl, (Option.some.inj hh).symm⟩
        · cases hh
      · exact .inr hh
    refine ⟨?_, ?_, ?_, ?_, ?_, ?_, ?_⟩
    · intro x g hx; rw [hg] at hx; exact h.pos x g hx
    · intro hh; exact ⟨e2.trans (h.none_ (e1.symm.trans hh)).1, e3.trans (h.none_ (e1.symm.trans hh)).2⟩
    · intro x hx
      obtain ⟨a, b⟩ := h.sess x (e1.symm.trans hx)
      refine ⟨a.trans (by rw [← e3]; rfl), ?_⟩
      rw [hg, b]; exact congrArg some e2.symm
    · intro g x hx; rw [hg]; exact herr g x hx
    · intro l' k'' hh
      rcases hget _ _ hh with ⟨rfl, rfl⟩ | hh
      · rcases h1 with h1 | ⟨x, a, b, c⟩
        · exact .inl h1
        · exact .inr ⟨x, a, (hg x).trans b, c⟩
      · rcases h.last _ _ hh with h1 | ⟨x, a, b, c⟩
        · exact .inl h1
        · exact .inr ⟨x, a, (hg x).trans b, c⟩
    · intro l' k'' hh hp
      rcases hget _ _ hh with ⟨rfl, rfl⟩ | hh
      · exact h2 hp
      · exact h.calling _ _ hh hp
    · intro l' k'' hh hp
      rcases hget _ _ hh with ⟨rfl, rfl⟩ | hh
      · exact h3 hp
      · exact h.awaiting _ _ hh hp
  -- the sessions keep their generations, the links do not change
  have keep : ∀ {s1 : SCtr}, s1.sess = s.sess → s1.gen = s.gen → s1.links = s.links → s1.sessions.length = s.sessions.length → (∀ x, SCtr.genOf s1 x = SCtr.genOf s x) →
      (∀ g x, (g, x) ∈ s1.errs → (g, x) ∈ s.errs) → StartsOK s1 := by
    intro s1 e1 e2 e3 e4 e5 e6
    refine ⟨?_, ?_, ?_, ?_, ?_, ?_, ?_⟩
    · intro x g hx; rw [e5] at hx; exact h.pos x g hx
    · intro hh
      obtain ⟨a, b⟩ := h.none_ (e1.symm.trans hh)
      exact ⟨e2.trans a, List.length_eq_zero_iff.1 (by rw [e4, b]; rfl)⟩
    · intro x hx
      obtain ⟨a, b⟩ := h.sess x (e1.symm.trans hx)
      exact ⟨a.trans e4.symm, by rw [e5, b, e2]⟩
    · intro g x hx; rw [e5]; exact h.err g x (e6 g x hx)
    · intro l k hl
      rw [e3] at hl
      rcases h.last l k hl with h1 | ⟨x, a, b, c⟩
      · exact .inl h1
      · exact .inr ⟨x, a, (e5 x).trans b, c⟩
    · intro l k hl; rw [e3] at hl; exact h.calling l k hl
    · intro l k hl; rw [e3] at hl; exact h.awaiting l k hl
  cases hs with
  | start h1 h2 => exact keep rfl rfl rfl rfl (fun _ => rfl) (fun _ _ => id)
  | dialFail h1 h2 => exact h
  | @restart i x t y rest h1 h2 h3 => exact keep rfl rfl rfl rfl (fun _ => rfl) (fun g z hz => by rw [h3]; exact List.mem_cons_of_mem _ hz)
  | @dropped i x g t y rest h1 h2 h3 h4 => exact keep rfl rfl rfl rfl (fun _ => rfl) (fun g z hz => by rw [h3]; exact List.mem_cons_of_mem _ hz)
  | @ended i t h1 h2 =>
    obtain ⟨a, b, c, d, e⟩ := teardown_rest s t.prev
    exact keep (s1 := (s.teardown t.prev).setStart i _) b a e (length_teardown s _) (genOf_teardown s _) (fun g x hx => by rw [← d]; exact hx)
  | @publish i t h1 h2 =>
    obtain ⟨a, b, c, d, e⟩ := teardown_rest ({ s with sessions := s.sessions ++ [{ gen := t.generation + 1 }], gen := t.generation + 1, sess := some s.sessions.length } : SCtr) t.prev
    have hg : ∀ {g : Starter} x, SCtr.genOf ((({ s with sessions := s.sessions ++ [{ gen := t.generation + 1 }], gen := t.generation + 1, sess := some s.sessions.length } : SCtr).teardown t.prev).setStart i g) x =
        if x = s.sessions.length then some (t.generation + 1) else SCtr.genOf s x := by
      intro g x
      refine (genOf_teardown _ t.prev x).trans ?_
      show ((s.sessions ++ [_])[x]?).map Sess.gen = _
      split
      · subst_vars; simp
      · rcases Nat.lt_or_ge x s.sessions.length with hlt | hge
        · rw [List.getElem?_append_left hlt]; rfl
        · rw [List.getElem?_eq_none (by simp; omega)]
          simp [SCtr.genOf, List.getElem?_eq_none hge]
    have old : ∀ {g : Starter} {x n : Nat}, SCtr.genOf s x = some n →
        SCtr.genOf ((({ s with sessions := s.sessions ++ [{ gen := t.generation + 1 }], gen := t.generation + 1, sess := some s.sessions.length } : SCtr).teardown t.prev).setStart i g) x = some n := by
      intro g x n hx
      rw [hg, if_neg (Nat.ne_of_lt (genOf_lt hx)), hx]
    refine ⟨?_, ?_, ?_, ?_, ?_, ?_, ?_⟩
    · intro x n hx
      rw [hg] at hx
      split at hx
      · obtain rfl := Option.some.inj hx; omega
      · exact h.pos x n hx
    · intro hh
      rw [show (SCtr.setStart _ _ _).sess = _ from b] at hh
      cases hh
    · intro x hx
      rw [show (SCtr.setStart _ _ _).sess = _ from b] at hx
      obtain rfl := Option.some.inj hx
      refine ⟨?_, ?_⟩
      · exact ((length_teardown _ t.prev).trans (by simp)).symm
      · rw [hg, if_pos rfl]; exact congrArg some a.symm
    · intro n x hx
      exact old (h.err n x (by rw [show (SCtr.setStart _ _ _).errs = _ from d] at hx; exact hx))
    · intro l k hl
      replace hl : s.links[l]? = some k := by rw [show (SCtr.setStart _ _ _).links = _ from e] at hl; exact hl
      rcases h.last l k hl with h1 | ⟨x, p, q, r⟩
      · exact .inl h1
      · exact .inr ⟨x, p, old q, r⟩
    · intro l k hl
      exact h.calling l k (by rw [show (SCtr.setStart _ _ _).links = _ from e] at hl; exact hl)
    · intro l k hl
      exact h.awaiting l k (by rw [show (SCtr.setStart _ _ _).links = _ from e] at hl; exact hl)
  | newLink =>
    have hget : ∀ {l : Nat} {k : SLnk}, (s.links ++ [({ curr := s.sess, currGen := s.gen, last := s.sess } : SLnk)])[l]? = some k →
        s.links[l]? = some k ∨ k = { curr := s.sess, currGen := s.gen, last := s.sess } := by
      intro l k hl
      rcases Nat.lt_or_ge l s.links.length with hlt | hge
      · rw [List.getElem?_append_left hlt] at hl; exact .inl hl
      · rw [List.getElem?_append_right hge] at hl
        cases hd : l - s.links.length with
        | zero => rw [hd] at hl; exact .inr (Option.some.inj hl).symm
        | succ n => rw [hd] at hl; cases hl
    refine ⟨h.pos, h.none_, h.sess, h.err, ?_, ?_, ?_⟩
    · intro l k hl
      rcases hget hl with hl | rfl
      · exact h.last l k hl
      · cases hx : s.sess with
        | none => exact .inl ⟨rfl, (h.none_ hx).1, rfl⟩
        | some x => exact .inr ⟨x, rfl, (h.sess x hx).2, .inr rfl⟩
    · intro l k hl hp
      rcases hget hl with hl | rfl
      · exact h.calling l k hl hp
      · cases hp
    · intro l k hl hp
      rcases hget hl with hl | rfl
      · exact h.awaiting l k hl hp
      · cases hp
  | @callHas l k x h1 h2 h3 => exact link rfl rfl rfl rfl h.err h1 (h.last l k h1) (fun _ => by simp [h3]) (by simp)
  | @callWait l k h1 h2 h3 => exact link rfl rfl rfl rfl h.err h1 (h.last l k h1) (by simp) (fun _ => h3)
  | @got l x k h1 h2 h3 h4 => exact link rfl rfl rfl rfl h.err h1 (.inr ⟨x, rfl, (h.sess x h4).2, .inr rfl⟩) (fun _ => rfl) (by simp)
  | @cancelled l k h1 h2 => exact link rfl rfl rfl rfl h.err h1 (h.last l k h1) (by simp) (by simp)
  | @ok l k h1 h2 => exact link rfl rfl rfl rfl h.err h1 (h.last l k h1) (by simp) (by simp)
  | @fail l x k h1 h2 h3 h4 =>
    have hx : k.last = some x ∧ SCtr.genOf s x = some k.currGen := by
      rcases h.last l k h1 with ⟨_, _, hc⟩ | ⟨y, a, b, c⟩
      · rw [h3] at hc; cases hc
      · rcases c with c | c
        · rw [h3] at c; cases c
        · rw [h3] at c
          obtain rfl := Option.some.inj c
          exact ⟨a, b⟩
    refine link (s1 := { s with errs := s.errs ++ [(k.currGen, x)] }) rfl rfl rfl rfl ?_ h1 (.inr ⟨x, hx.1, hx.2, .inl rfl⟩) (by simp) (by simp)
    intro g z hz
    rcases List.mem_append.1 hz with hz | hz
    · exact h.err g z hz
    · simp only [List.mem_singleton, Prod.mk.injEq] at hz
      obtain ⟨rfl, rfl⟩ := hz
      exact hx.2

theorem startsOK_run {P : StartPolicy} {s : SCtr} {evs : List SEv} (h : SCtr.Run P {} evs s) : StartsOK s := by
  generalize hs0 : ({} : SCtr) = s0 at h
  induction h with
  | nil =>
    subst hs0
    exact ⟨by intro x g h; simp [SCtr.genOf] at h, fun _ => ⟨rfl, rfl⟩, (by intro x h; cases h), (by intro g x h; cases h), (by intro l k h; simp at h), (by intro l k h; simp at h), (by intro l k h; simp at h)⟩
  | snoc hr hs ih => subst hs0; exact startsOK_step ih hs

/-- **C124.** However often `Start` is called: what a link gets when it waits is the session that was published last, and not the one it had before. -/
theorem C124_fresh {P : StartPolicy} {s s' : SCtr} {evs : List SEv} (h : SCtr.Run P {} evs s) {l x : Nat} {k : SLnk} (hk : s.links[l]? = some k)
    (hs : SCtr.Step P s (.got l x) s') : x + 1 = s.sessions.length ∧ k.last ≠ some x := by
  have hI := startsOK_run h
  cases hs with
  | got h1 h2 h3 h4 =>
    rw [hk] at h1
    obtain rfl := Option.some.inj h1
    refine ⟨(hI.sess x h4).1, fun hl => ?_⟩
    rcases hI.last l k hk with ⟨a, _⟩ | ⟨y, a, b, _⟩
    · rw [hl] at a; cases a
    · rw [hl] at a
      obtain rfl := Option.some.inj a
      rw [(hI.sess x h4).2] at b
      exact h3 (Option.some.inj b)

/-- `Start` is called once. -/
def startedOnce : StartPolicy := ⟨false, false⟩

/-- With one `Start`, the generation of a session is its number. -/
structure OnceOK (s : SCtr) : Prop where
  starts : s.starts.length ≤ 1
  none_ : s.starts = [] → s.sessions = []
  gens : ∀ x, x < s.sessions.length → SCtr.genOf s x = some (x + 1)
  gen : ∀ (i : Nat) (t : Starter), s.starts[i]? = some t → t.generation = s.sessions.length
  serving : ∀ (i : Nat) (t : Starter) (y : Nat), s.starts[i]? = some t → t.pc = .serving y → y + 1 = s.sessions.length

theorem onceOK_step {s s' : SCtr} {ev : SEv} (h : OnceOK s) (hs : SCtr.Step startedOnce s ev s') : OnceOK s' := by
  have keep : ∀ {s1 : SCtr}, s1.starts = s.starts → s1.sessions = s.sessions → OnceOK s1 := by
    intro s1 e1 e2
    exact ⟨e1 ▸ h.starts, fun hh => e2.trans (h.none_ (e1.symm.trans hh)), fun x hx => by
      rw [show SCtr.genOf s1 x = SCtr.genOf s x by simp [SCtr.genOf, e2]]; exact h.gens x (e2 ▸ hx), fun i t hi => e2 ▸ h.gen i t (e1 ▸ hi), fun i t y hi hy => e2 ▸ h.serving i t y (e1 ▸ hi) hy⟩
  have one : ∀ {i j : Nat} {t u : Starter}, s.starts[i]? = some t → s.starts[j]? = some u → i = j := by
    intro i j t u h1 h2
    have := (List.getElem?_eq_some_iff.1 h1).1
    have := (List.getElem?_eq_some_iff.1 h2).1
    have := h.starts
    omega
  have set : ∀ {s1 : SCtr} {i : Nat} {t t' : Starter} {n : Nat}, s1.starts = s.starts → s.starts[i]? = some t → s1.sessions.length = n → (∀ x, x < n → SCtr.genOf s1 x = some (x + 1)) →
      t'.generation = n → (∀ y, t'.pc = .serving y → y + 1 = n) → OnceOK (s1.setStart i t') := by
    intro s1 i t t' n e1 hi e2 hg hn hy
    have hget : ∀ {j : Nat} {u : Starter}, (s1.setStart i t').starts[j]? = some u → u = t' := by
      intro j u hj
      replace hj : (s1.starts.set i t')[j]? = some u := hj
      rw [e1, List.getElem?_set] at hj
      split at hj
      · subst_vars
        split at hj
        · exact (Option.some.inj hj).symm
        · cases hj
      · have := one hi hj; contradiction
    refine ⟨?_, ?_, ?_, ?_, ?_⟩
    · show (s1.starts.set i t').length ≤ 1
      rw [List.length_set, e1]; exact h.starts
    · intro hh
      replace hh : s1.starts.set i t' = [] := hh
      have := congrArg List.length hh
      rw [List.length_set, e1] at this
      rw [List.length_eq_zero_iff.1 this] at hi
      cases hi
    · intro x hx; exact hg x (by rw [← e2]; exact hx)
    · intro j u hj
      obtain rfl := hget hj
      exact hn.trans e2.symm
    · intro j u y hj hp
      obtain rfl := hget hj
      exact (hy y hp).trans e2.symm
  cases hs with
  | start h1 h2 =>
    have he := h1 rfl
    have hse := h.none_ he
    refine ⟨by rw [he]; simp, (by intro hh; rw [he] at hh; cases hh), (fun x hx => absurd hx (by rw [hse]; simp)), ?_, ?_⟩
    · intro i t hi
      replace hi : (s.starts ++ [({} : Starter)])[i]? = some t := hi
      rw [he] at hi
      cases i with
      | zero => cases hi; exact (congrArg List.length hse).symm
      | succ n => cases hi
    · intro i t y hi hp
      replace hi : (s.starts ++ [({} : Starter)])[i]? = some t := hi
      rw [he] at hi
      cases i with
      | zero => cases hi; cases hp
      | succ n => cases hi
  | dialFail h1 h2 => exact h
  | @restart i x t y rest h1 h2 h3 => exact set (s1 := { s with errs := rest }) rfl h1 rfl h.gens (h.gen i t h1) (by simp)
  | dropped h1 h2 h3 h4 => exact keep rfl rfl
  | @ended i t h1 h2 =>
    refine set (teardown_rest s t.prev).2.2.1 h1 (length_teardown s t.prev) ?_ (h.gen i t h1) (by simp)
    intro x hx; rw [genOf_teardown]; exact h.gens x hx
  | @publish i t h1 h2 =>
    have hgt := h.gen i t h1
    refine set (n := s.sessions.length + 1) (teardown_rest _ t.prev).2.2.1 h1 ((length_teardown _ t.prev).trans (by simp)) ?_ (by simp [hgt]) (by simp)
    intro x hx
    rw [genOf_teardown]
    show ((s.sessions ++ [_])[x]?).map Sess.gen = _
    rcases Nat.lt_or_ge x s.sessions.length with hlt | hge
    · rw [List.getElem?_append_left hlt]; exact h.gens x hlt
    · obtain rfl : x = s.sessions.length := by omega
      simp [hgt]
  | _ => exact keep rfl rfl

theorem onceOK_run {s : SCtr} {evs : List SEv} (h : SCtr.Run startedOnce {} evs s) : OnceOK s := by
  generalize hs0 : ({} : SCtr) = s0 at h
  induction h with
  | nil => subst hs0; exact ⟨by simp, fun _ => rfl, by simp, by simp, by simp⟩
  | snoc hr hs ih => subst hs0; exact onceOK_step ih hs

/-- **C124** (partial: `Start` is called once).  A link that waits gets on as soon as there is a session other than the one it had. -/
theorem C124_proceeds_partial {s : SCtr} {evs : List SEv} (h : SCtr.Run startedOnce {} evs s) {l x : Nat} {k : SLnk} (hk : s.links[l]? = some k) (hp : k.pc = .awaiting)
    (hx : s.sess = some x) (hne : k.last ≠ some x) : ∃ s', SCtr.Step startedOnce s (.got l x) s' := by
  have hI := startsOK_run h
  have hO := onceOK_run h
  obtain ⟨a, b⟩ := hI.sess x hx
  refine ⟨_, .got hk hp ?_ hx⟩
  intro hg
  rw [hO.gens x (by omega)] at b
  replace b := Option.some.inj b
  rcases hI.last l k hk with ⟨_, c, _⟩ | ⟨y, c, d, _⟩
  · omega
  · have hy := hO.gens y (genOf_lt d)
    rw [d] at hy
    replace hy := Option.some.inj hy
    exact hne (by rw [c, show y = x by omega])

/-- **C124** (partial: `Start` is called once).  A session is given up for its own errors, and they are not ignored. -/
theorem C124_blame_partial {s s' : SCtr} {evs : List SEv} (h : SCtr.Run startedOnce {} evs s) {i x y : Nat} {t : Starter} (hi : s.starts[i]? = some t)
    (hy : t.pc = .serving y) : (SCtr.Step startedOnce s (.restart i x) s' → x = y) ∧ (SCtr.Step startedOnce s (.dropped i x) s' → x ≠ y) := by
  have hI := startsOK_run h
  have hO := onceOK_run h
  have hyl := hO.serving i t y hi hy
  have hgt := hO.gen i t hi
  constructor
  · intro hs
    cases hs with
    | restart h1 h2 h3 =>
      rw [hi] at h1
      obtain rfl := Option.some.inj h1
      have hg := hI.err _ x (by rw [h3]; exact List.mem_cons_self)
      have := hO.gens x (genOf_lt hg)
      rw [hg] at this
      have := Option.some.inj this
      omega
  · intro hs
    cases hs with
    | dropped h1 h2 h3 h4 =>
      rw [hi] at h1
      obtain rfl := Option.some.inj h1
      rintro rfl
      have hg := hI.err _ x (by rw [h3]; exact List.mem_cons_self)
      have := hO.gens x (genOf_lt hg)
      rw [hg] at this
      have := Option.some.inj this
      omega

/-- The two are about something: a session is lost, given up for, and replaced. -/
example : ∃ evs s, SCtr.Run startedOnce {} evs s ∧ SEv.restart 0 0 ∈ evs ∧ SEv.got 0 1 ∈ evs := by
  have r := (SCtr.Run.nil (P := startedOnce) (s := {})).snoc (.start (fun _ => rfl) (by simp))
  have r := r.snoc (.publish (i := 0) rfl rfl)
  have r := r.snoc .newLink
  have r := r.snoc (.callHas (l := 0) rfl rfl rfl)
  have r := r.snoc (.fail (l := 0) rfl rfl rfl (by decide))
  have r := r.snoc (.restart (i := 0) rfl rfl rfl)
  have r := r.snoc (.callWait (l := 0) rfl rfl rfl)
  have r := r.snoc (.publish (i := 0) rfl rfl)
  have r := r.snoc (.got (l := 0) (x := 1) rfl rfl (by decide) rfl)
  exact ⟨_, _, r, by decide, by decide⟩

/-- Every open session is the last one of a call of `Start` that has not ended. -/
def OpenOK (s : SCtr) : Prop := ∀ (x : Nat) (k : Sess), s.sessions[x]? = some k → k.open_ = true → ∃ (i : Nat) (t : Starter), s.starts[i]? = some t ∧ t.pc ≠ .ended ∧ t.prev = some x

theorem get_teardown {s : SCtr} {p : Option Nat} {x : Nat} {k : Sess} (h : (s.teardown p).sessions[x]? = some k) (ho : k.open_ = true) : s.sessions[x]? = some k ∧ p ≠ some x := by
  cases p with
  | none => exact ⟨h, by simp⟩
  | some y =>
    replace h : (s.sessions.modify y fun k => { k with open_ := false })[x]? = some k := h
    rw [List.getElem?_modify] at h
    cases hx : s.sessions[x]? with
    | none => rw [hx] at h; cases h
    | some k0 =>
      rw [hx] at h
      by_cases e : y = x
      · simp [e] at h
        subst h
        cases ho
      · simp [e] at h
        subst h
        exact ⟨rfl, by simpa using e⟩

theorem openOK_step {P : StartPolicy} {s s' : SCtr} {ev : SEv} (h : OpenOK s) (hs : SCtr.Step P s ev s') : OpenOK s' := by
  have set : ∀ {s1 : SCtr} {i : Nat} {t t' : Starter}, s1.starts = s.starts → s.starts[i]? = some t →
      (∀ (x : Nat) (k : Sess), s1.sessions[x]? = some k → k.open_ = true → (s.sessions[x]? = some k ∧ (t.prev = some x → t'.pc ≠ .ended ∧ t'.prev = some x)) ∨ (t'.pc ≠ .ended ∧ t'.prev = some x)) →
      OpenOK (s1.setStart i t') := by
    intro s1 i t t' e1 hi hh x k hx ho
    have here : (s1.setStart i t').starts[i]? = some t' := by
      show (s1.starts.set i t')[i]? = _
      rw [e1, List.getElem?_set, if_pos rfl, if_pos (List.getElem?_eq_some_iff.1 hi).1]
    rcases hh x k hx ho with ⟨a, b⟩ | ⟨a, b⟩
    · obtain ⟨j, u, p, q, r⟩ := h x k a ho
      by_cases hj : i = j
      · subst hj
        rw [hi] at p
        obtain rfl := Option.some.inj p
        exact ⟨i, t', here, b r⟩
      · refine ⟨j, u, ?_, q, r⟩
        show (s1.starts.set i t')[j]? = _
        rw [e1, List.getElem?_set, if_neg hj]; exact p
    · exact ⟨i, t', here, a, b⟩
  cases hs with
  | start h1 h2 =>
    intro x k hx ho
    obtain ⟨i, t, a, b, c⟩ := h x k hx ho
    exact ⟨i, t, (List.getElem?_append_left (List.getElem?_eq_some_iff.1 a).1).trans a, b, c⟩
  | @restart i x t y rest h1 h2 h3 => exact set (s1 := { s with errs := rest }) rfl h1 fun x k hx ho => .inl ⟨hx, fun hp => ⟨by simp, hp⟩⟩
  | @ended i t h1 h2 =>
    refine set (teardown_rest s t.prev).2.2.1 h1 fun x k hx ho => ?_
    obtain ⟨a, b⟩ := get_teardown hx ho
    exact .inl ⟨a, fun hp => absurd hp b⟩
  | @publish i t h1 h2 =>
    refine set (teardown_rest _ t.prev).2.2.1 h1 fun x k hx ho => ?_
    obtain ⟨a, b⟩ := get_teardown hx ho
    replace a : (s.sessions ++ [_])[x]? = some k := a
    rcases Nat.lt_or_ge x s.sessions.length with hlt | hge
    · rw [List.getElem?_append_left hlt] at a
      exact .inl ⟨a, fun hp => absurd hp b⟩
    · have := (List.getElem?_eq_some_iff.1 a).1
      simp at this
      obtain rfl : x = s.sessions.length := by omega
      exact .inr ⟨by simp, rfl⟩
  | _ => exact h

theorem openOK_run {P : StartPolicy} {s : SCtr} {evs : List SEv} (h : SCtr.Run P {} evs s) : OpenOK s := by
  generalize hs0 : ({} : SCtr) = s0 at h
  induction h with
  | nil => subst hs0; intro x k hx; simp at hx
  | snoc hr hs ih => subst hs0; exact openOK_step ih hs

/-- **C124.** When `Start` is called again after the container has ended only, there is at most one open session, and it belongs to the call that runs: an ended call leaves none. -/
theorem C124_one_session {P : StartPolicy} (hP : P.together = false) {s : SCtr} {evs : List SEv} (h : SCtr.Run P {} evs s) {x y : Nat} {k k' : Sess} (hx : s.sessions[x]? = some k)
    (hy : s.sessions[y]? = some k') (hxo : k.open_ = true) (hyo : k'.open_ = true) : x = y := by
  have key : ∀ (i j : Nat) (t u : Starter), s.starts[i]? = some t → s.starts[j]? = some u → t.pc ≠ .ended → u.pc ≠ .ended → i = j := by
    clear hx hy
    generalize hs0 : ({} : SCtr) = s0 at h
    induction h with
    | nil => subst hs0; intro i j t u h1; simp at h1
    | @snoc s1 s2 evs ev hr hs ih =>
      subst hs0
      have set : ∀ {s3 : SCtr} {i0 : Nat} {t0 t' : Starter}, s3.starts = s1.starts → s1.starts[i0]? = some t0 → (t'.pc ≠ .ended → t0.pc ≠ .ended) →
          ∀ (i j : Nat) (t u : Starter), (s3.setStart i0 t').starts[i]? = some t → (s3.setStart i0 t').starts[j]? = some u → t.pc ≠ .ended → u.pc ≠ .ended → i = j := by
        intro s3 i0 t0 t' e1 h0 hp
        have hget : ∀ {i : Nat} {t : Starter}, (s3.setStart i0 t').starts[i]? = some t → t.pc ≠ .ended → ∃ t1, s1.starts[i]? = some t1 ∧ t1.pc ≠ .ended := by
          intro i t hi hn
          replace hi : (s3.starts.set i0 t')[i]? = some t := hi
          rw [e1, List.getElem?_set] at hi
          split at hi
          · subst_vars
            split at hi
            · obtain rfl := Option.some.inj hi
              exact ⟨t0, h0, hp hn⟩
            · cases hi
          · exact ⟨t, hi, hn⟩
        intro i j t u hi hj ht hu
        obtain ⟨t1, a, b⟩ := hget hi ht
        obtain ⟨u1, c, d⟩ := hget hj hu
        exact ih i j t1 u1 a c b d
      cases hs with
      | start h1 h2 =>
        have hend := h2 hP
        have hget : ∀ {i : Nat} {t : Starter}, (s1.starts ++ [({} : Starter)])[i]? = some t → t.pc ≠ .ended → i = s1.starts.length := by
          intro i t hi hn
          rcases Nat.lt_or_ge i s1.starts.length with hlt | hge
          · rw [List.getElem?_append_left hlt] at hi
            exact absurd (hend t (List.mem_of_getElem? hi)) hn
          · have := (List.getElem?_eq_some_iff.1 hi).1
            simp at this
            omega
        intro i j t u hi hj ht hu
        rw [hget hi ht, hget hj hu]
      | @restart i x t y rest h1 h2 h3 => exact set (s3 := { s1 with errs := rest }) rfl h1 (fun _ => by rw [h2]; simp)
      | @ended i t h1 h2 => exact set (teardown_rest s1 t.prev).2.2.1 h1 (fun h => absurd rfl h)
      | @publish i t h1 h2 => exact set (teardown_rest _ t.prev).2.2.1 h1 (fun _ => by rw [h2]; simp)
      | _ => exact ih
  obtain ⟨i, t, a, b, c⟩ := openOK_run h x k hx hxo
  obtain ⟨j, u, d, e, f⟩ := openOK_run h y k' hy hyo
  have hij := key i j t u a d b e
  subst hij
  rw [a] at d
  obtain rfl := Option.some.inj d
  rw [c] at f
  exact Option.some.inj f

/-- Without another session a link whose generation is the container's goes on waiting. -/
theorem starts_waits {P : StartPolicy} {s s' : SCtr} {evs : List SEv} (h : SCtr.Run P s evs s') {l : Nat} {k : SLnk} (hk : s.links[l]? = some k) (hp : k.pc ≠ .calling)
    (hc : k.curr = none) (hg : k.currGen = s.gen) (hn : ∀ i x, SEv.publish i x ∉ evs) :
    (∃ k', s'.links[l]? = some k' ∧ k'.pc ≠ .calling ∧ k'.curr = none ∧ k'.currGen = s'.gen) ∧ ∀ x, SEv.got l x ∉ evs := by
  induction h with
  | nil => exact ⟨⟨k, hk, hp, hc, hg⟩, by simp⟩
  | @snoc s1 s2 evs ev hr hs ih =>
    obtain ⟨⟨k1, a, b, c, d⟩, e⟩ := ih (fun i x hm => hn i x (List.mem_append_left _ hm))
    have same : s2.links = s1.links → s2.gen = s1.gen → (∀ x, ev ≠ .got l x) →
        (∃ k', s2.links[l]? = some k' ∧ k'.pc ≠ .calling ∧ k'.curr = none ∧ k'.currGen = s2.gen) ∧ ∀ x, SEv.got l x ∉ evs ++ [ev] := by
      intro h1 h2 h3
      refine ⟨⟨k1, by rw [h1]; exact a, b, c, d.trans h2.symm⟩, fun x hm => ?_⟩
      rcases List.mem_append.1 hm with hm | hm
      · exact e x hm
      · exact h3 x (List.mem_singleton.1 hm).symm
    have link : ∀ {l' : Nat} {k0 k2 : SLnk}, s1.links[l']? = some k0 → s2.links = s1.links.set l' k2 → s2.gen = s1.gen → (l' = l → k2.pc ≠ .calling ∧ k2.curr = none ∧ k2.currGen = k1.currGen) →
        (∀ x, ev ≠ .got l x) → (∃ k', s2.links[l]? = some k' ∧ k'.pc ≠ .calling ∧ k'.curr = none ∧ k'.currGen = s2.gen) ∧ ∀ x, SEv.got l x ∉ evs ++ [ev] := by
      intro l' k0 k2 h0 h1 h2 h3 h4
      refine ⟨?_, fun x hm => ?_⟩
      · rw [h1, List.getElem?_set]
        split
        · subst_vars
          rw [if_pos (List.getElem?_eq_some_iff.1 a).1]
          obtain ⟨p, q, r⟩ := h3 rfl
          exact ⟨k2, rfl, p, q, by rw [r, d, h2]⟩
        · exact ⟨k1, a, b, c, d.trans h2.symm⟩
      · rcases List.mem_append.1 hm with hm | hm
        · exact e x hm
        · exact h4 x (List.mem_singleton.1 hm).symm
    cases hs with
    | publish h1 h2 => exact absurd (List.mem_append_right evs (List.mem_singleton.2 rfl)) (hn _ _)
    | start h1 h2 => exact same rfl rfl (by simp)
    | dialFail h1 h2 => exact same rfl rfl (by simp)
    | restart h1 h2 h3 => exact same rfl rfl (by simp)
    | dropped h1 h2 h3 h4 => exact same rfl rfl (by simp)
    | @ended i t h1 h2 => exact same (teardown_rest s1 t.prev).2.2.2.2 (teardown_rest s1 t.prev).1 (by simp)
    | newLink =>
      refine ⟨⟨k1, ?_, b, c, d⟩, fun x hm => ?_⟩
      · show (s1.links ++ [_])[l]? = some k1
        rw [List.getElem?_append_left (List.getElem?_eq_some_iff.1 a).1]; exact a
      · rcases List.mem_append.1 hm with hm | hm
        · exact e x hm
        · simp at hm
    | callHas h1 h2 h3 =>
      refine link h1 rfl rfl ?_ (by simp)
      rintro rfl
      rw [a] at h1
      obtain rfl := Option.some.inj h1
      rw [c] at h3; cases h3
    | callWait h1 h2 h3 =>
      refine link h1 rfl rfl ?_ (by simp)
      rintro rfl
      rw [a] at h1
      obtain rfl := Option.some.inj h1
      exact ⟨by simp, c, rfl⟩
    | @got l' x k0 h1 h2 h3 h4 =>
      have hl : l' ≠ l := by
        rintro rfl
        rw [a] at h1
        obtain rfl := Option.some.inj h1
        exact h3 d.symm
      exact link h1 rfl rfl (fun h => absurd h hl) (by intro y hy; cases hy; exact hl rfl)
    | cancelled h1 h2 =>
      refine link h1 rfl rfl ?_ (by simp)
      rintro rfl
      rw [a] at h1
      obtain rfl := Option.some.inj h1
      exact ⟨by simp, c, rfl⟩
    | ok h1 h2 =>
      refine link h1 rfl rfl ?_ (by simp)
      rintro rfl
      rw [a] at h1
      obtain rfl := Option.some.inj h1
      exact absurd h2 b
    | fail h1 h2 h3 h4 =>
      refine link h1 rfl rfl ?_ (by simp)
      rintro rfl
      rw [a] at h1
      obtain rfl := Option.some.inj h1
      exact absurd h2 b

/-- `Start` is called again when the container has ended. -/
def startedAgain : StartPolicy := ⟨true, false⟩

/-- **C124 (counterexample).** A container ends and is started again: its session is open, but the generation is 1 as before, so a link that lost the first session is not
given the second; it waits until there is a third. -/
theorem C124_counterexample_stuck : ∃ evs s, SCtr.Run startedAgain {} evs s ∧ s.sess = some 1 ∧ s.sessions = [⟨1, false⟩, ⟨1, true⟩] ∧ (s.starts.map Starter.pc) = [.ended, .serving 1] ∧
    s.links = [{ curr := none, currGen := 1, last := some 0, pc := .awaiting }] ∧ s.errs = [] ∧
    ∀ evs' s', SCtr.Run startedAgain s evs' s' → (∀ i x, SEv.publish i x ∉ evs') → ∀ x, SEv.got 0 x ∉ evs' := by
  have r := (SCtr.Run.nil (P := startedAgain) (s := {})).snoc (.start (by simp [startedAgain]) (by simp))
  have r := r.snoc (.publish (i := 0) rfl rfl)
  have r := r.snoc .newLink
  have r := r.snoc (.callHas (l := 0) rfl rfl rfl)
  have r := r.snoc (.fail (l := 0) rfl rfl rfl (by decide))
  have r := r.snoc (.restart (i := 0) rfl rfl rfl)
  have r := r.snoc (.callWait (l := 0) rfl rfl rfl)
  have r := r.snoc (.ended (i := 0) rfl (by decide))
  have r := r.snoc (.start (by simp [startedAgain]) (by decide))
  have r := r.snoc (.publish (i := 1) rfl rfl)
  exact ⟨_, _, r, rfl, by decide, by decide, by decide, rfl, fun evs' s' h hn => (starts_waits h (l := 0) rfl (by decide) rfl rfl hn).2⟩

/-- **C124 (counterexample).** The other way round: an error of a session of the first `Start` makes the second give up its session, which nobody has used yet. -/
theorem C124_counterexample_blamed : ∃ evs s s', SCtr.Run startedAgain {} evs s ∧ s.starts[1]?.map Starter.pc = some (.serving 1) ∧ SCtr.Step startedAgain s (.restart 1 0) s' ∧
    (∀ l, SEv.fail l 1 ∉ evs) := by
  have r := (SCtr.Run.nil (P := startedAgain) (s := {})).snoc (.start (by simp [startedAgain]) (by simp))
  have r := r.snoc (.publish (i := 0) rfl rfl)
  have r := r.snoc .newLink
  have r := r.snoc (.callHas (l := 0) rfl rfl rfl)
  have r := r.snoc (.ended (i := 0) rfl (by decide))
  have r := r.snoc (.fail (l := 0) rfl rfl rfl (by decide))
  have r := r.snoc (.start (by simp [startedAgain]) (by decide))
  have r := r.snoc (.publish (i := 1) rfl rfl)
  exact ⟨_, _, _, r, rfl, .restart rfl rfl rfl, by simp⟩

/-- `Start` is called at any time. -/
def startedAnyhow : StartPolicy := ⟨true, true⟩

/-- **C124 (counterexample).** Two goroutines of `Start` at once read each other's errors: the error of the session of one is ignored by the other, and the link that
reported it waits although both serve. -/
theorem C124_counterexample_together : ∃ evs s, SCtr.Run startedAnyhow {} evs s ∧ SEv.fail 0 2 ∈ evs ∧ SEv.dropped 1 2 ∈ evs ∧ (s.starts.map Starter.pc) = [.serving 2, .serving 1] ∧
    s.errs = [] ∧ s.links.map SLnk.pc = [.awaiting] ∧
    ∀ evs' s', SCtr.Run startedAnyhow s evs' s' → (∀ i x, SEv.publish i x ∉ evs') → ∀ x, SEv.got 0 x ∉ evs' := by
  have r := (SCtr.Run.nil (P := startedAnyhow) (s := {})).snoc (.start (by simp [startedAnyhow]) (by simp))
  have r := r.snoc (.start (by simp [startedAnyhow]) (by simp [startedAnyhow]))
  have r := r.snoc (.publish (i := 0) rfl rfl)
  have r := r.snoc .newLink
  have r := r.snoc (.callHas (l := 0) rfl rfl rfl)
  have r := r.snoc (.fail (l := 0) rfl rfl rfl (by decide))
  have r := r.snoc (.restart (i := 0) rfl rfl rfl)
  have r := r.snoc (.publish (i := 1) rfl rfl)
  have r := r.snoc (.publish (i := 0) rfl rfl)
  have r := r.snoc (.callWait (l := 0) rfl rfl rfl)
  have r := r.snoc (.got (l := 0) (x := 2) rfl rfl (by decide) rfl)
  have r := r.snoc (.fail (l := 0) rfl rfl rfl (by decide))
  have r := r.snoc (.dropped (i := 1) rfl rfl rfl (by decide))
  have r := r.snoc (.callWait (l := 0) rfl rfl rfl)
  exact ⟨_, _, r, by decide, by decide, by decide, rfl, by decide, fun evs' s' h hn => (starts_waits h (l := 0) rfl (by decide) rfl rfl hn).2⟩

/-- A caller that waits can give up, and then can call again; a goroutine that dials can fail to and tries again, or can end. -/
theorem C124_can_fail {P : StartPolicy} {s : SCtr} :
    (∀ (l : Nat) (k : SLnk), s.links[l]? = some k → k.pc = .awaiting → ∃ s', SCtr.Step P s (.cancelled l) s' ∧ s'.links[l]? = some { k with pc := .idle } ∧ s'.sess = s.sess) ∧
    (∀ (i : Nat) (t : Starter), s.starts[i]? = some t → t.pc = .dialing → SCtr.Step P s (.dialFail i) s) ∧
    (∀ (i : Nat) (t : Starter), s.starts[i]? = some t → t.pc ≠ .ended → ∃ s', SCtr.Step P s (.ended i) s') := by
  refine ⟨?_, ?_, ?_⟩
  · intro l k hk hp
    refine ⟨_, .cancelled hk hp, ?_, rfl⟩
    obtain ⟨hl, _⟩ := List.getElem?_eq_some_iff.mp hk
    simp [SCtr.setLink, hl]
  · intro i t hi hp
    exact .dialFail hi hp
  · intro i t hi hp
    exact ⟨_, .ended hi hp⟩

/-- **C124 (the channel of errors).** It never holds more than its capacity: a link whose call fails with the channel full waits. -/
theorem C124_queue {P : StartPolicy} {s : SCtr} {evs : List SEv} (h : SCtr.Run P {} evs s) : s.errs.length ≤ 32 := by
  induction h with
  | nil => simp
  | snoc _ hs ih =>
    have := ih
    cases hs with
    | fail hl hp hc hn => simp only [SCtr.setLink, List.length_append, List.length_cons, List.length_nil]; simp only [sessionErrorsCap] at hn; omega
    | restart _ _ he => rw [he] at this; simp only [SCtr.setStart]; simp only [List.length_cons] at this; omega
    | dropped _ _ he => rw [he] at this; simp only [List.length_cons] at this; simp only; omega
    | publish _ _ => simpa [SCtr.setStart, (teardown_rest _ _).2.2.2.1] using this
    | ended _ _ => simpa [SCtr.setStart, (teardown_rest _ _).2.2.2.1] using this
    | _ => simpa [SCtr.setLink] using this

end Verif.Props
