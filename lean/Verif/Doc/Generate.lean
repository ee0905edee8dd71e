import Verif.Doc.DataType

/-!
# The code generators

`v0/tools/gen` holds three programs that write Go files from templates: the interfaces of documents
(`doc`), the examples (`example`) and the data types (`type`).  They are modelled on a disk, with
everything outside them a parameter: which files can be created and closed, whether the templates
can be parsed, and what executing a template writes and whether that works.

Simplifications: the templates are not modelled as text; only the choices in them by which the
conversions of values differ between kinds are (`ExampleRow.read`, `TypeRow.readEnum`).  Each path
is asked for once in a run, so an answer per path covers answers that change with time.
-/

namespace Verif.Doc.Gen

/-- The files. -/
abbrev Disk := String → Option String

/-- `os.Create` on a file that can be created, or writing all of it. -/
def Disk.put (D : Disk) (p t : String) : Disk := fun q => if q = p then some t else D q

/-- What the system answers to `os.Create` and `Close`. -/
structure Sys where
  create : String → Bool
  close : String → Bool

/-- A parsed set of templates: what executing it for a row writes, and whether that works; `parsed`
is whether `template.Must` accepts it. -/
structure Templates (ρ : Type) where
  parsed : Bool
  exec : ρ → String × Bool

/-- `extTypeProps` (tools/gen/type/main.go:78-89). -/
structure TypeRow where
  name : String
  type : String
  time : String
  defType : String := ""
  defTypeName : String := ""
  defIsOpt : Bool := false
  enumType : String := ""
  base : Bool := false
deriving DecidableEq, Repr

/-- `types` (tools/gen/type/main.go:34-52). -/
def typeTable (now : String) : List TypeRow :=
  [{ name := "Include", type := "include", time := now, base := true },
   { name := "Nil", type := "nil", time := now, base := true },
   { name := "Any", type := "any", time := now, defType := "interface{}", defTypeName := "Untyped",
     enumType := "interface{}", defIsOpt := true },
   { name := "Array", type := "array", time := now, defType := "[]interface{}",
     defTypeName := "[]interface{}", enumType := "interface{}" },
   { name := "Bool", type := "bool", time := now, defType := "bool", defTypeName := "Bool",
     enumType := "bool", defIsOpt := true },
   { name := "Custom", type := "custom", time := now, defType := "interface{}",
     defTypeName := "Untyped", enumType := "interface{}", defIsOpt := true },
   { name := "DateOnly", type := "date-only", time := now, defType := "string",
     defTypeName := "String", enumType := "string", defIsOpt := true },
   { name := "TimeOnly", type := "time-only", time := now, defType := "string",
     defTypeName := "String", enumType := "string", defIsOpt := true },
   { name := "DatetimeOnly", type := "datetime-only", time := now, defType := "string",
     defTypeName := "String", enumType := "string", defIsOpt := true },
   { name := "Datetime", type := "datetime", time := now, defType := "string",
     defTypeName := "String", enumType := "string", defIsOpt := true },
   { name := "File", type := "file", time := now, defType := "interface{}",
     defTypeName := "Untyped", enumType := "interface{}", defIsOpt := true },
   { name := "Integer", type := "integer", time := now, defType := "int64", defTypeName := "Int64",
     enumType := "int64", defIsOpt := true },
   { name := "Number", type := "number", time := now, defType := "float64",
     defTypeName := "Float64", enumType := "float64", defIsOpt := true },
   { name := "Object", type := "object", time := now, defType := "interface{}",
     defTypeName := "Untyped", enumType := "interface{}", defIsOpt := true },
   { name := "String", type := "string", time := now, defType := "string", defTypeName := "String",
     enumType := "string", defIsOpt := true },
   { name := "Union", type := "union", time := now, defType := "interface{}",
     defTypeName := "Untyped", enumType := "interface{}", defIsOpt := true }]

/-- The file of the interface (tools/gen/type/main.go:11, :59). -/
def TypeRow.iPath (r : TypeRow) : String := "v0/pkg/raml/x-gen-type-" ++ r.type ++ ".go"

/-- The file of the implementation (tools/gen/type/main.go:12, :61). -/
def TypeRow.mPath (r : TypeRow) : String := "v0/internal/raml/x-gen-type-" ++ r.type ++ ".go"

/-- `exampleProps` (tools/gen/example/main.go:61-67). -/
structure ExampleRow where
  name : String
  type : String
  eType : String
  time : String
  useOption : Bool
deriving DecidableEq, Repr

/-- `types` (tools/gen/example/main.go:21-36). -/
def exampleTable (now : String) : List ExampleRow :=
  [⟨"Any", "interface{}", "Untyped", now, true⟩,
   ⟨"Array", "[]interface{}", "[]interface{}", now, false⟩,
   ⟨"Bool", "bool", "Bool", now, true⟩,
   ⟨"Custom", "interface{}", "Untyped", now, true⟩,
   ⟨"DateOnly", "string", "String", now, true⟩,
   ⟨"TimeOnly", "string", "String", now, true⟩,
   ⟨"DatetimeOnly", "string", "String", now, true⟩,
   ⟨"Datetime", "string", "String", now, true⟩,
   ⟨"File", "interface{}", "Untyped", now, true⟩,
   ⟨"Integer", "int64", "Int64", now, true⟩,
   ⟨"Number", "float64", "Float64", now, true⟩,
   ⟨"Object", "interface{}", "Untyped", now, true⟩,
   ⟨"String", "string", "String", now, true⟩,
   ⟨"Union", "interface{}", "Untyped", now, true⟩]

/-- `strings.ToLower` on the names of the table, which are ASCII
(tools/gen/example/main.go:42). -/
def lower (s : String) : String := String.ofList (s.toList.map Char.toLower)

/-- The file of the interface (tools/gen/example/main.go:14, :44). -/
def ExampleRow.iPath (r : ExampleRow) : String := "v0/pkg/raml/x-gen-ex-" ++ lower r.name ++ ".go"

/-- The file of the implementation (tools/gen/example/main.go:15, :46). -/
def ExampleRow.mPath (r : ExampleRow) : String :=
  "v0/internal/raml/x-gen-ex-" ++ lower r.name ++ ".go"

/-- One turn of the loops in tools/gen/type/main.go:59-67 and tools/gen/example/main.go:44-50: both
files are created before either template is executed.  What `Close` returns is not looked at. -/
def pair {ρ : Type} (S : Sys) (iT mT : Templates ρ) (iP mP : ρ → String) (r : ρ) (D : Disk) :
    Disk × Bool :=
  if !S.create (iP r) then (D, false)
  else if !S.create (mP r) then (D.put (iP r) "", false)
  else if !(iT.exec r).2 then (((D.put (iP r) "").put (mP r) "").put (iP r) (iT.exec r).1, false)
  else ((((D.put (iP r) "").put (mP r) "").put (iP r) (iT.exec r).1).put (mP r) (mT.exec r).1,
    (mT.exec r).2)

/-- The loops (tools/gen/type/main.go:58-69, tools/gen/example/main.go:41-52): a failed `check`
panics. -/
def pairs {ρ : Type} (S : Sys) (iT mT : Templates ρ) (iP mP : ρ → String) :
    List ρ → Disk → Disk × Bool
  | [], D => (D, true)
  | r :: rs, D =>
    if (pair S iT mT iP mP r D).2 then pairs S iT mT iP mP rs (pair S iT mT iP mP r D).1
    else pair S iT mT iP mP r D

/-- The generator of data types (tools/gen/type/main.go:54-70); the result says whether it ends
normally. -/
def types (S : Sys) (iT mT : Templates TypeRow) (now : String) (D : Disk) : Disk × Bool :=
  if iT.parsed && mT.parsed then pairs S iT mT TypeRow.iPath TypeRow.mPath (typeTable now) D
  else (D, false)

/-- The generator of examples (tools/gen/example/main.go:38-53). -/
def examples (S : Sys) (iT mT : Templates ExampleRow) (now : String) (D : Disk) : Disk × Bool :=
  if iT.parsed && mT.parsed then
    pairs S iT mT ExampleRow.iPath ExampleRow.mPath (exampleTable now) D
  else (D, false)

/-- `docFiles` (tools/gen/doc/main.go:16-23): template file, name of the template, interface. -/
def docTable : List (String × String × String) :=
  [("api-i.tpl", "api-interface", "APISpec"),
   ("documentation-i.tpl", "documentation-interface", "Documentation"),
   ("library-i.tpl", "library-interface", "Library"),
   ("method-i.tpl", "method-interface", "Method"),
   ("overlay-i.tpl", "overlay-interface", "Overlay"),
   ("response-i.tpl", "response-interface", "Response")]

/-- The file of an interface (tools/gen/doc/main.go:13, :36). -/
def docPath (r : String × String × String) : String := "v0/pkg/raml/" ++ r.2.2 ++ ".go"

/-- The loop of the generator of documents (tools/gen/doc/main.go:35-40). -/
def docLoop (S : Sys) (T : Templates (String × String × String)) :
    List (String × String × String) → Disk → Disk × Bool
  | [], D => (D, true)
  | r :: rs, D =>
    if !S.create (docPath r) then (D, false)
    else if !(T.exec r).2 || !S.close (docPath r) then
      ((D.put (docPath r) "").put (docPath r) (T.exec r).1, false)
    else docLoop S T rs ((D.put (docPath r) "").put (docPath r) (T.exec r).1)

/-- The generator of documents (tools/gen/doc/main.go:25-41). -/
def docs (S : Sys) (T : Templates (String × String × String)) (D : Disk) : Disk × Bool :=
  if T.parsed then docLoop S T docTable D else (D, false)

/-! ### The choices in the templates -/

/-- What the `assignVal` that the template writes for a row reads (gen/example-m.tpl:197-233). -/
def ExampleRow.read (X : Xyml) (r : ExampleRow) (v : Node) : Res Val :=
  if r.type = "string" then (asString v).map .str
  else if r.type = "bool" then (asBool X v).map .bool
  else if r.type = "int64" then (asInt X v).map .int
  else if r.type = "float64" then (asFlt X v).map .flt
  else if r.type = "[]interface{}" then
    match v with
    | .seq _ ns => .ok (.list ns)
    | _ => .err .notSeq
  else .ok (.node v)

/-- An element of `enum` as the template writes it for a row (gen/type-m/extended.tpl:282-303). -/
def TypeRow.readEnum (X : Xyml) (r : TypeRow) (v : Node) : Res Val :=
  if r.defTypeName = "Bool" then (asBool X v).map .bool
  else if r.defTypeName = "Int64" then (asInt X v).map .int
  else if r.defTypeName = "Float64" then (asFlt X v).map .flt
  else if r.defTypeName = "String" then
    match X.toStr v with
    | some s => .ok (.str s)
    | none => .err .notText
  else .ok (.node v)

end Verif.Doc.Gen
