import Verif.Doc.SpellSpec

/-! Vocabulary of C109: entries that a later one replaces. -/

namespace Verif.Doc.Spec
open Verif Verif.Doc

/-- The second type definition is the first without some entries that a later one replaces. -/
inductive Trimmed : Node → Node → Prop where
  | refl (n) : Trimmed n n
  | trans {n m l} : Trimmed n m → Trimmed m l → Trimmed n l
  /-- An entry that is given again later.  The first entry that gives the type counts for the
  kind, and the entries of some facets are added up. -/
  | entry {pre mid post k v w} : k.value ∉ ["enum", "examples", "facets", "properties"] →
      (GivesType k → ∃ r ∈ pre, GivesType r.1) →
      Trimmed (.map (pre ++ (k, v) :: (mid ++ (k, w) :: post)))
        (.map (pre ++ (mid ++ (k, w) :: post)))
  /-- One of several examples, whose name is given again. -/
  | examples {pre post kd k qs mid rs n v w} :
      kindOf (pre ++ (k, .map (qs ++ (n, v) :: (mid ++ (n, w) :: rs))) :: post) = some kd →
      isBasic kd = false → k.value = "examples" →
      Trimmed (.map (pre ++ (k, .map (qs ++ (n, v) :: (mid ++ (n, w) :: rs))) :: post))
        (.map (pre ++ (k, .map (qs ++ (mid ++ (n, w) :: rs))) :: post))
  /-- A property of an object, whose name is given again. -/
  | properties {pre post k qs mid rs n v w} :
      kindOf (pre ++ (k, .map (qs ++ (n, v) :: (mid ++ (n, w) :: rs))) :: post) = some .object →
      k.value = "properties" →
      Trimmed (.map (pre ++ (k, .map (qs ++ (n, v) :: (mid ++ (n, w) :: rs))) :: post))
        (.map (pre ++ (k, .map (qs ++ (mid ++ (n, w) :: rs))) :: post))
  /-- A facet declaration, whose name is given again. -/
  | facets {pre post kd k qs mid rs n v w} :
      kindOf (pre ++ (k, .map (qs ++ (n, v) :: (mid ++ (n, w) :: rs))) :: post) = some kd →
      isBasic kd = false → k.value = "facets" →
      Trimmed (.map (pre ++ (k, .map (qs ++ (n, v) :: (mid ++ (n, w) :: rs))) :: post))
        (.map (pre ++ (k, .map (qs ++ (mid ++ (n, w) :: rs))) :: post))
  /-- Inside the items of an array. -/
  | items {pre post k v w} : kindOf (pre ++ (k, v) :: post) = some .array → k.value = "items" →
      Trimmed v w →
      Trimmed (.map (pre ++ (k, v) :: post)) (.map (pre ++ (k, w) :: post))
  /-- Inside a property of an object. -/
  | property {pre post k qs rs n v w} :
      kindOf (pre ++ (k, .map (qs ++ (n, v) :: rs)) :: post) = some .object →
      k.value = "properties" → Trimmed v w →
      Trimmed (.map (pre ++ (k, .map (qs ++ (n, v) :: rs)) :: post))
        (.map (pre ++ (k, .map (qs ++ (n, w) :: rs)) :: post))
  /-- Inside a type of a facet declaration. -/
  | facet {pre post kd k gs hs g qs rs n v w} :
      kindOf (pre ++ (k, .map (gs ++ (g, .map (qs ++ (n, v) :: rs)) :: hs)) :: post) = some kd →
      isBasic kd = false → k.value = "facets" → Trimmed v w →
      Trimmed (.map (pre ++ (k, .map (gs ++ (g, .map (qs ++ (n, v) :: rs)) :: hs)) :: post))
        (.map (pre ++ (k, .map (gs ++ (g, .map (qs ++ (n, w) :: rs)) :: hs)) :: post))

/-- The parts of an API document whose entries are added up, besides media types. -/
def apiAdding : List String :=
  ["documentation", "uses", "securitySchemes", "baseUriParameters", "traits", "annotationTypes",
    "resourceTypes", "types", "schemas"]

/-- The second API document is the first without some entries that a later one replaces. -/
inductive ApiTrimmed : Node → Node → Prop where
  | refl (n) : ApiTrimmed n n
  | trans {n m l} : ApiTrimmed n m → ApiTrimmed m l → ApiTrimmed n l
  /-- An entry that is given again later; of media types a list replaces, a string is added. -/
  | entry {pre mid post k v w} :
      (k.isStr = true → k.value ∉ apiAdding ∧ (k.value = "mediaType" → w.isStr = false)) →
      ApiTrimmed (.map (pre ++ (k, v) :: (mid ++ (k, w) :: post)))
        (.map (pre ++ (mid ++ (k, w) :: post)))
  /-- An entry of one of the dictionaries, whose name is given again. -/
  | name {pre post s qs mid rs n v w} : s ∈ apiAdding → s ≠ "documentation" →
      ApiTrimmed (.map (pre ++ (.str s, .map (qs ++ (n, v) :: (mid ++ (n, w) :: rs))) :: post))
        (.map (pre ++ (.str s, .map (qs ++ (mid ++ (n, w) :: rs))) :: post))
  /-- Inside a type. -/
  | type {pre post s qs rs n v w} : s = "types" ∨ s = "schemas" → Trimmed v w →
      ApiTrimmed (.map (pre ++ (.str s, .map (qs ++ (n, v) :: rs)) :: post))
        (.map (pre ++ (.str s, .map (qs ++ (n, w) :: rs)) :: post))

/-- The parts of a library whose entries are added up. -/
def libAdding : List String :=
  ["annotationTypes", "resourceTypes", "types", "schemas", "traits", "uses", "securitySchemes"]

/-- The second library is the first without some entries that a later one replaces. -/
inductive LibTrimmed : Node → Node → Prop where
  | refl (n) : LibTrimmed n n
  | trans {n m l} : LibTrimmed n m → LibTrimmed m l → LibTrimmed n l
  /-- An entry that is given again later. -/
  | entry {pre mid post k v w} : k.value ∉ libAdding →
      LibTrimmed (.map (pre ++ (k, v) :: (mid ++ (k, w) :: post)))
        (.map (pre ++ (mid ++ (k, w) :: post)))
  /-- An entry of one of the dictionaries, whose name is given again. -/
  | name {pre post k qs mid rs n v w} : k.value ∈ libAdding →
      LibTrimmed (.map (pre ++ (k, .map (qs ++ (n, v) :: (mid ++ (n, w) :: rs))) :: post))
        (.map (pre ++ (k, .map (qs ++ (mid ++ (n, w) :: rs))) :: post))
  /-- Inside a type. -/
  | type {pre post k qs rs n v w} : k.value = "types" ∨ k.value = "schemas" → Trimmed v w →
      LibTrimmed (.map (pre ++ (k, .map (qs ++ (n, v) :: rs)) :: post))
        (.map (pre ++ (k, .map (qs ++ (n, w) :: rs)) :: post))

end Verif.Doc.Spec
