import Verif.Doc.Api

/-! # The example program -/

namespace Verif.Doc

/-- `main` of the example program (v0/cmd/example/main.go:9-21, `check` at :23-27): fetch a
document, parse it, write it to standard output; every error becomes a panic.  `body` is what
the request gives (`none` when it fails), `dec` reads YAML text into a tree (`none` when there
is no document in it, or no YAML), `enc` and `w` are as in `APISpec.writeRAML`.  The result says
whether the program ends normally, and the state of standard output.  Simplification: reading the
response is one step. -/
def exampleMain {σ : Type} (X : Xyml) (dec : String → Option Node)
    (enc : String → Node → List String) (w : Writer σ) (body : Option String) (s : σ) : Bool × σ :=
  match body with
  | none => (false, s)
  | some text =>
    match dec text with
    | none => (false, s)
    | some n =>
      match parseApi X n with
      | .ok a => a.writeRAML X enc w s
      | _ => (false, s)

end Verif.Doc
