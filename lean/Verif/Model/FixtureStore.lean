import Verif.Model.Store

/-!
# The store of `vanflow-tool` (`/repo/cmd/vanflow-tool/serve.go`)
-/
namespace Verif.Model
open Verif

/-- cmd/vanflow-tool/serve.go:206-208 `keyByTypeAndID`. -/
def keyByTypeAndID {R : Type} (ops : RecOps R) : KeyFunc R := fun e =>
  (ops.identity e.record).map fun id => e.typeMeta.str ++ "/" ++ id

/-- cmd/vanflow-tool/serve.go:205-220 `newFixtureStore`: its configuration. -/
def fixtureConfig {R : Type} (ops : RecOps R) : CacheConfig R :=
  { key := some (keyByTypeAndID ops)
    indexers := some [("ByType", fun e => [e.typeMeta.str]), ("BySource", fun e => [e.md.source.str])] }

end Verif.Model
