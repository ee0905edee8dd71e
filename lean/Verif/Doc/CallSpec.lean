import Verif.Doc.EditSpec

/-!
# Histories of calls

Vocabulary of C105: which part of an object a call is about, and which calls do not look at what
the part was before.
-/

namespace Verif.Doc.Spec
open Verif Verif.Doc

/-- A history of calls on an object; `none` if one of them does not exist. -/
def run {S O : Type} (act : S → O → Option S) : S → List O → Option S
  | s, [] => some s
  | s, o :: os => (act s o).bind fun s' => run act s' os

/-- The calls of a history about a part. -/
def about {O : Type} (part : O → String) (k : String) (os : List O) : List O :=
  os.filter fun o => part o = k

/-- A history without the calls that a later call on the same part makes pointless. -/
def effective {O : Type} (part : O → String) (sets : O → Bool) : List O → List O
  | [] => []
  | o :: os =>
    if os.any (fun q => sets q && part q == part o) then effective part sets os
    else o :: effective part sets os

/-- The part of a data type that a call is about. -/
def typePart (op : TypeOp) : String :=
  match op with
  | .setAnnotations _ | .unsetAnnotations | .editAnnotations _ => "annotations"
  | .setExtraFacets _ | .unsetExtraFacets | .editExtra _ => "extra facets"
  | op => (opKey op).getD ""

/-- The call is a setter or an unsetter, and not a change of the live map. -/
def typeSets : TypeOp → Bool
  | .editExamples _ | .editAnnotations _ | .editFacets _ | .editExtra _ | .editProperties _ => false
  | _ => true

/-- The part of an example. -/
def examplePart : ExampleOp → String
  | .setDisplayName _ | .unsetDisplayName => "displayName"
  | .setDescription _ | .unsetDescription => "description"
  | .setAnnotations _ | .unsetAnnotations | .editAnnotations _ => "annotations"
  | .setValue _ | .unsetValue => "value"
  | .setStrict _ => "strict"
  | .editExtra _ => "extra facets"

/-- Setters and unsetters of an example. -/
def exampleSets : ExampleOp → Bool
  | .editAnnotations _ | .editExtra _ => false
  | _ => true

/-- The part of XML settings; every call is a setter or an unsetter. -/
def xmlPart : XMLOp → String
  | .setIsAttribute _ | .unsetIsAttribute => "attribute"
  | .setIsWrapped _ | .unsetIsWrapped => "wrapped"
  | .setName _ | .unsetName => "name"
  | .setNamespace _ | .unsetNamespace => "namespace"
  | .setPrefix _ | .unsetPrefix => "prefix"

/-- The part of a documentation entry. -/
def docPart : DocOp → String
  | .setTitle _ => "title"
  | .setContent _ => "content"
  | .editExtra _ => "extra facets"

/-- Setters of a documentation entry. -/
def docSets : DocOp → Bool
  | .editExtra _ => false
  | _ => true

/-- The part of an API document. -/
def apiPart (c : ApiCall) : String :=
  match c with
  | .set (.setAnnotations _) | .set .unsetAnnotations | .annotations _ => "annotations"
  | .resources _ => "resources"
  | .extra _ => "extra facets"
  | c => (apiOpKey c).getD ""

/-- Setters and unsetters of an API document. -/
def apiSets : ApiCall → Bool
  | .set _ => true
  | _ => false

/-- The part of a library. -/
def libPart (c : LibCall) : String :=
  match c with
  | .set (.setAnnotations _) | .set .unsetAnnotations | .annotations _ => "annotations"
  | .extra _ => "extra facets"
  | c => (libOpKey c).getD ""

/-- Setters and unsetters of a library. -/
def libSets : LibCall → Bool
  | .set _ => true
  | _ => false

end Verif.Doc.Spec
