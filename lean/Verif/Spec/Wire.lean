import Verif.Model.Messages
import Verif.Spec.Amqp

/-!
# A message on its way

What the order of iteration over a Go map can change about a message, and what routers on the way may add to it.
-/
namespace Verif.Spec
open Verif Verif.Model

/-- The same elements of a record message, the maps iterated in another order. -/
def SameElems : List Elem → List Elem → Prop
  | [], [] => True
  | .map (some a) :: es, .map (some b) :: fs => a.Perm b ∧ SameElems es fs
  | _, _ => False

/-- The same body, the maps iterated in another order. -/
def SameBody : MsgValue → MsgValue → Prop
  | .nil, .nil => True
  | .list es, .list fs => SameElems es fs
  | _, _ => False

/-- The same message, each map iterated in some order. -/
def SameEntries (m m' : Msg) : Prop := m.props = m'.props ∧ m.appProps.Perm m'.appProps ∧ SameBody m.value m'.value

/-- Sections a router may add or change: header, delivery annotations, message annotations, footer (AMQP 1.0, part 3, 3.2.1–3.2.3
and 3.2.9). -/
def RoutersOwn (l : List (UInt64 × WVal)) : Prop := ∀ p ∈ l, p.1 = 0x70 ∨ p.1 = 0x71 ∨ p.1 = 0x72 ∨ p.1 = 0x78

/-- `bs'` carries what `bs` carries: the same sections with the same values, in whatever forms of the standard, and possibly
sections of the routers before and after them. -/
def Carries (bs bs' : List UInt8) : Prop :=
  ∃ secs pre post, SectionsEnc secs bs ∧ RoutersOwn pre ∧ RoutersOwn post ∧ SectionsEnc (pre ++ secs ++ post) bs'

end Verif.Spec
