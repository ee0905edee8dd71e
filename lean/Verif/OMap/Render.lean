import Verif.OMap.Model
import Verif.Yaml

/-! YAML form of a generated map. -/

namespace Verif.OMap

/-- `ToYAML` (AnyMap.go:131-157), which `MarshalYAML` (AnyMap.go:114-116) returns unchanged.
`kn`/`vn` are what `xyml.MapAppend` makes of keys and values; they are taken not to fail
(`MapAppend` and `SequenceAppend` on fresh nodes of the right kind). -/
def toYAML {K V : Type} (kn : K → Node) (vn : V → Node) (s : Impl K V) : Node :=
  if s.outOrder then
    .seq omapTag (s.ordered.map fun e => .map [(kn e.1, vn e.2)])
  else
    .map (s.ordered.map fun e => (kn e.1, vn e.2))

end Verif.OMap
