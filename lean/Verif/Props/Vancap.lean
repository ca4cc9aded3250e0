import Verif.Spec.Vancap

/-!
# C64, C74, C75: the capture tool
-/
namespace Verif.Props
open Verif Verif.Model Verif.Spec

/-- C64 is false: host names starting with one of the letters of "https" lose them. -/
theorem C64_counterexample : hostIP "https://shop.example:6443" = "op.example:6443" ∧
    withoutScheme "https://shop.example:6443".toList = "shop.example:6443".toList := by decide +kernel

/-- The characters removed. -/
def cutChar (c : Char) : Bool := "htps:/".toList.contains c

theorem dropWhile_append_all {p : Char → Bool} : ∀ (a b : List Char), (∀ c ∈ a, p c = true) → (a ++ b).dropWhile p = b.dropWhile p
  | [], _, _ => rfl
  | x :: a, b, h => by
    rw [List.cons_append, List.dropWhile_cons, if_pos (h x (by simp))]
    exact dropWhile_append_all a b (fun c hc => h c (by simp [hc]))

/-- A host, after an optional http or https scheme. -/
theorem hostIP_eq (host : String) : (hostIP host).toList = (withoutScheme host.toList).dropWhile cutChar := by
  unfold hostIP trimLeft
  rw [String.toList_ofList]
  show host.toList.dropWhile cutChar = _
  unfold withoutScheme
  split
  · rename_i h
    obtain ⟨t, ht⟩ := List.isPrefixOf_iff_prefix.1 h
    rw [← ht]
    rw [dropWhile_append_all _ _ (by decide)]
    rfl
  · split
    · rename_i h
      obtain ⟨t, ht⟩ := List.isPrefixOf_iff_prefix.1 h
      rw [← ht]
      rw [dropWhile_append_all _ _ (by decide)]
      rfl
    · rfl

/-- C64 holds exactly for hosts that are empty or do not begin with one of the characters h, t, p, s, colon and slash, in particular for IP addresses.
Missing for C64: the other hosts (false, `C64_counterexample`). -/
theorem C64_host_partial (host : String) :
    (hostIP host).toList = withoutScheme host.toList ↔
      ∀ c ∈ (withoutScheme host.toList).head?, c ≠ 'h' ∧ c ≠ 't' ∧ c ≠ 'p' ∧ c ≠ 's' ∧ c ≠ ':' ∧ c ≠ '/' := by
  rw [hostIP_eq]
  have hcut : ∀ c, cutChar c = true ↔ (c = 'h' ∨ c = 't' ∨ c = 'p' ∨ c = 's' ∨ c = ':' ∨ c = '/') := by
    intro c
    have : "htps:/".toList = ['h', 't', 'p', 's', ':', '/'] := by decide
    simp [cutChar, this]
  generalize withoutScheme host.toList = l
  cases l with
  | nil => simp
  | cons x xs =>
    rw [List.dropWhile_cons]
    constructor
    · intro h c hc
      simp only [List.head?_cons, Option.mem_some_iff] at hc
      subst hc
      split at h
      · exfalso
        have := (List.dropWhile_sublist (l := xs) cutChar).length_le
        rw [h] at this
        simp at this
        omega
      · rename_i hx
        rw [hcut] at hx
        simp only [not_or] at hx
        exact hx
    · intro h
      have := h x (by simp)
      rw [if_neg]
      rw [hcut]
      simp only [not_or]
      exact this

example : hostIP "https://10.0.0.1:6443" = "10.0.0.1:6443" ∧ hostIP "https://api.example:6443" = "api.example:6443" := by decide +kernel

/-! ## C74: nothing is left behind -/

theorem leftBehind_append : ∀ a b, leftBehind (a ++ b) = leftBehind a + leftBehind b
  | [], b => by simp [leftBehind]
  | .created :: a, b => by simp only [List.cons_append, leftBehind, leftBehind_append a b]; omega
  | .deleted :: a, b => by simp only [List.cons_append, leftBehind, leftBehind_append a b]; omega
  | .truncated :: a, b => by simp only [List.cons_append, leftBehind, leftBehind_append a b]
  | .wrote _ :: a, b => by simp only [List.cons_append, leftBehind, leftBehind_append a b]

theorem capture_effects (e : VancapEnv) : .created ∉ (vancapCapture e).2 ∧ .deleted ∉ (vancapCapture e).2 ∧ leftBehind (vancapCapture e).2 = 0 := by
  unfold vancapCapture
  repeat' split
  all_goals simp [leftBehind]

/-- C74: however a run ends, also by a panic, a deployment it created is deleted, once, as the last thing it does; and it
deletes nothing it did not create. -/
theorem C74_cleanup (e : VancapEnv) :
    leftBehind (vancapRun e).2 = 0 ∧
    (.created ∈ (vancapRun e).2 → (vancapRun e).2.getLast? = some .deleted) ∧
    (.created ∉ (vancapRun e).2 → (vancapRun e).2 = []) := by
  obtain ⟨h1, h2, h3⟩ := capture_effects e
  unfold vancapRun
  repeat' split
  · simp [leftBehind]
  · simp [leftBehind]
  · refine ⟨?_, ?_, ?_⟩
    · simp only [List.cons_append, leftBehind, leftBehind_append, h3]
      decide
    · intro _
      simp [List.getLast?_cons]
    · intro h
      simp at h

/-- An undisturbed run. -/
def exVancap : VancapEnv :=
  { routerFound := true, createOk := true, pods := some ["vanflow-server-1"], waited := true, roundTripperOk := true, forwarderOk := true
    forward := .ready, fileOk := true, response := some (200, "[]"), copyFails := none }

example : vancapRun exVancap = (.ok (), [.created, .truncated, .wrote "[]", .deleted]) := rfl

/-- A run can panic: waiting for the deployment gave up and there is no pod.  (The deployment is still deleted.) -/
theorem C74_no_pod : vancapRun { exVancap with pods := some [] } = (.panic "index out of range", [.created, .deleted]) := rfl

/-- The run gets as far as the port forward. -/
def Reaches (e : VancapEnv) : Prop :=
  e.routerFound = true ∧ e.createOk = true ∧ (∃ p ps, e.pods = some (p :: ps)) ∧ e.waited = true ∧ e.roundTripperOk = true ∧ e.forwarderOk = true

/-- C74, how a run ends: it panics exactly if there is no pod; it says it was interrupted exactly if the wait for the pod or the port forward was given up; it
succeeds exactly if every call it makes does; and in all other cases it returns an error. -/
theorem C74_outcome (e : VancapEnv) :
    ((∃ m, (vancapRun e).1 = .panic m) ↔ e.routerFound = true ∧ e.createOk = true ∧ e.pods = some []) ∧
    ((vancapRun e).1 = .err "vancap interrupted" ↔
      (e.routerFound = true ∧ e.createOk = true ∧ (∃ p ps, e.pods = some (p :: ps)) ∧ e.waited = false) ∨ (Reaches e ∧ e.forward = .cancelled)) ∧
    ((vancapRun e).1 = .err "vancap port forward error" ↔ Reaches e ∧ e.forward = .failed) ∧
    ((vancapRun e).1 = .ok () ↔ Reaches e ∧ e.forward = .ready ∧ e.fileOk = true ∧ e.response ≠ none ∧ e.copyFails = none) := by
  unfold vancapRun vancapCapture Reaches
  repeat' split
  all_goals simp_all

/-! ## C75: the capture file -/

/-- C75, the part that holds: after success the file holds exactly the body of the answer.  Missing: that the answer was a success
(`C75_error_captured`), and that a failed run leaves an old file alone (`C75_failed_truncates`). -/
theorem C75_file_partial (e : VancapEnv) (old : String) (h : (vancapRun e).1 = .ok ()) :
    ∃ status body, e.response = some (status, body) ∧ fileAfter old (vancapRun e).2 = body := by
  unfold vancapRun at h ⊢
  repeat' split at h
  · cases h
  · cases h
  · rename_i h1 h2
    simp only [h1, h2, if_false, Bool.false_eq_true]
    unfold vancapCapture at h ⊢
    repeat' split at h
    all_goals try cases h
    rename_i h3 h4 h5 _ h6 h7 _ _ _ h8 h9
    simp only [*, Bool.false_eq_true, if_false]
    refine ⟨_, _, rfl, ?_⟩
    simp [fileAfter]

/-- An error answer of the server is stored as the capture, and the run reports success. -/
theorem C75_error_captured : vancapRun { exVancap with response := some (500, "oops") } =
    (.ok (), [.created, .truncated, .wrote "oops", .deleted]) := rfl

/-- A failed run empties an existing output file. -/
theorem C75_failed_truncates : ∃ e, (vancapRun e).1 ≠ .ok () ∧ fileAfter "old capture" (vancapRun e).2 = "" :=
  ⟨{ exVancap with response := none }, by simp [vancapRun, vancapCapture, exVancap], rfl⟩

end Verif.Props
