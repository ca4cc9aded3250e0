import Verif.Basic.Res

/-!
# Go errors and contexts, as far as the concurrent parts use them
-/
namespace Verif.Model

/-- Go `error` values other than nil: the two context errors, the sentinels of the packages, anything else, and `fmt.Errorf("…%w", e)`. -/
inductive GoErr where
  /-- `context.Canceled` -/
  | canceled
  /-- `context.DeadlineExceeded` -/
  | deadline
  /-- session/container.go:291 `errLinkClosed` -/
  | linkClosed
  /-- eventsource/manager.go:328 `errSendTimeoutExceeded` -/
  | sendTimeout
  /-- any error that is none of the others, for example of the AMQP library -/
  | other (msg : String)
  /-- an error that wraps another one -/
  | wrap (msg : String) (e : GoErr)
deriving DecidableEq, Repr

/-- `errors.Is(err, target)` for non-nil errors. -/
def GoErr.is : GoErr → GoErr → Bool
  | .wrap m e, target => decide (GoErr.wrap m e = target) || e.is target
  | e, target => decide (e = target)

/-- `errors.Is(err, target)` in general: `if err == nil || target == nil { return err == target }`. -/
def errorsIs : Option GoErr → Option GoErr → Bool
  | some e, some t => e.is t
  | none, none => true
  | _, _ => false

/-- The errors a context can end with. -/
def GoErr.IsCtx (e : GoErr) : Prop := e = .canceled ∨ e = .deadline

instance (e : GoErr) : Decidable e.IsCtx := inferInstanceAs (Decidable (_ ∨ _))

/-- How a callee that is given a context may end: from the present `Err()` of that context to the result (nil for success). -/
abbrev Callee := Option GoErr → Option GoErr → Prop

end Verif.Model
