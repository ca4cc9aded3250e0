import Verif.Model.Alive
import Verif.Spec.Keepalive
import Verif.Spec.Watch

/-!
# Specification vocabulary for a source and its watch
-/
namespace Verif.Spec
open Verif Verif.Model

/-- The goroutine of the source starts at time `t`; the watch has been created (its goroutine starts later). -/
def aliveStart (t : Int) : Alive := { ka := kaStart t, w := watchStart t }

/-- What the watch did and saw. -/
def watchEvents (evs : List AlEv) : List WEv := evs.filterMap fun ev => match ev with | .watch e => some e | .time => some .time | _ => none

/-- The longest time between two heartbeats: the interval, a late tick, and three sends (the one that is going on when the ticker fires, and two beacons that the select prefers). -/
def longestGap (kc : KaConfig) (d : Delays) : Int := kc.heartbeatEvery + d.tick + 3 * d.send

end Verif.Spec
