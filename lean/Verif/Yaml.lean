/-!
# YAML trees

Model of `gopkg.in/yaml.v3` nodes as far as the library looks at them.
-/

namespace Verif

/-- `yaml.Node`: kind, tag, value, content (used throughout /repo/v0/internal/raml, e.g.
fn-sorting-hat-type.go:26-58).  Simplifications: tags are in short form (`!!str`, `!include`);
mappings always have an even number of children, paired up, and the tag of a mapping is not
kept; aliases, anchors, styles, comments and positions are left out. -/
inductive Node where
  | scalar (tag val : String)
  | seq (tag : String) (items : List Node)
  | map (ps : List (Node × Node))
deriving Repr, Inhabited

/-- `node.Value`: the text of a scalar, `""` for other kinds (yaml.v3 leaves it empty), read at
e.g. util-str-map.go:20, APISpec.go:391. -/
def Node.value : Node → String
  | .scalar _ v => v
  | _ => ""

/-- `xyml.IsString`: a scalar tagged `!!str` (APISpec.go:373, fn-sorting-hat-type.go:27). -/
def Node.isStr : Node → Bool
  | .scalar t _ => t == "!!str"
  | _ => false

/-- A `!!str` scalar, the node `xyml.ToYamlNode` makes from a Go string (DataType.go:58). -/
def Node.str (s : String) : Node := .scalar "!!str" s

/-- Tag of an ordered map (`xyml.NewOrderedMapNode`, AnyMap.go:133). -/
def omapTag : String := "!!omap"

/-- Tag of a plain sequence, as `xyml.ToYamlNode` gives a Go slice. -/
def seqTag : String := "!!seq"

end Verif
