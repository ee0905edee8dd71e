import Verif.Doc.ApiSpec

/-! Vocabulary of C108: different spellings of the same definition. -/

namespace Verif.Doc.Spec
open Verif Verif.Doc

/-- The type that is meant when none is given. -/
def impliedName (ps : List (Node × Node)) : String :=
  if ∃ p ∈ ps, p.1.value = "properties" then "object"
  else if ∃ p ∈ ps, p.1.value = "items" then "array"
  else "string"

/-- The two keys that give the type of a definition. -/
def GivesType (k : Node) : Prop := k.value = "type" ∨ k.value = "schema"

/-- Two nodes are spellings of the same type definition. -/
inductive Respelled : Node → Node → Prop where
  | refl (n) : Respelled n n
  | symm {n m} : Respelled n m → Respelled m n
  | trans {n m l} : Respelled n m → Respelled m l → Respelled n l
  /-- The name of a type alone, or as the one entry of a mapping. -/
  | short (s) : Respelled (.str s) (.map [(.str "type", .str s)])
  /-- The type left out, or given first. -/
  | implied {ps} : (∀ p ∈ ps, ¬ GivesType p.1) →
      Respelled (.map ps) (.map ((.str "type", .str (impliedName ps)) :: ps))
  /-- `type` or `schema`. -/
  | typeKey {pre post k k' v} : GivesType k → GivesType k' →
      Respelled (.map (pre ++ (k, v) :: post)) (.map (pre ++ (k', v) :: post))
  /-- The tag of a key that is no annotation. -/
  | keyTag {pre post k k' v} : k.value = k'.value → k.value ≠ "" →
      k.value.toList.head? ≠ some '(' →
      Respelled (.map (pre ++ (k, v) :: post)) (.map (pre ++ (k', v) :: post))
  /-- The value of the example alone, or in an expanded example. -/
  | example {pre post kd k v} : kindOf (pre ++ (k, v) :: post) = some kd → isBasic kd = false →
      k.value = "example" → (∀ qs, v ≠ .map qs) →
      Respelled (.map (pre ++ (k, v) :: post))
        (.map (pre ++ (k, .map [(.str "value", v)]) :: post))
  /-- The same in one of several examples. -/
  | examples {pre post kd k qs rs n v} :
      kindOf (pre ++ (k, .map (qs ++ (n, v) :: rs)) :: post) = some kd → isBasic kd = false →
      k.value = "examples" → (∀ qs, v ≠ .map qs) →
      Respelled (.map (pre ++ (k, .map (qs ++ (n, v) :: rs)) :: post))
        (.map (pre ++ (k, .map (qs ++ (n, .map [(.str "value", v)]) :: rs)) :: post))
  /-- The items of an array, respelled. -/
  | items {pre post k v w} : kindOf (pre ++ (k, v) :: post) = some .array → k.value = "items" →
      Respelled v w →
      Respelled (.map (pre ++ (k, v) :: post)) (.map (pre ++ (k, w) :: post))
  /-- A property of an object, respelled. -/
  | property {pre post k qs rs n v w} :
      kindOf (pre ++ (k, .map (qs ++ (n, v) :: rs)) :: post) = some .object →
      k.value = "properties" → Respelled v w →
      Respelled (.map (pre ++ (k, .map (qs ++ (n, v) :: rs)) :: post))
        (.map (pre ++ (k, .map (qs ++ (n, w) :: rs)) :: post))
  /-- A definition in a facet declaration, respelled. -/
  | facet {pre post kd k gs hs g qs rs n v w} :
      kindOf (pre ++ (k, .map (gs ++ (g, .map (qs ++ (n, v) :: rs)) :: hs)) :: post) = some kd →
      isBasic kd = false → k.value = "facets" → Respelled v w →
      Respelled (.map (pre ++ (k, .map (gs ++ (g, .map (qs ++ (n, v) :: rs)) :: hs)) :: post))
        (.map (pre ++ (k, .map (gs ++ (g, .map (qs ++ (n, w) :: rs)) :: hs)) :: post))

/-- Two nodes are spellings of the same API document. -/
inductive ApiRespelled : Node → Node → Prop where
  | refl (n) : ApiRespelled n n
  | symm {n m} : ApiRespelled n m → ApiRespelled m n
  | trans {n m l} : ApiRespelled n m → ApiRespelled m l → ApiRespelled n l
  /-- `types` or `schemas`. -/
  | typesKey {pre post v} : ApiRespelled (.map (pre ++ (.str "schemas", v) :: post))
      (.map (pre ++ (.str "types", v) :: post))
  /-- A type, respelled. -/
  | type {pre post qs rs n v w s} : s = "types" ∨ s = "schemas" → Respelled v w →
      ApiRespelled (.map (pre ++ (.str s, .map (qs ++ (n, v) :: rs)) :: post))
        (.map (pre ++ (.str s, .map (qs ++ (n, w) :: rs)) :: post))
  /-- The types in one mapping or in two. -/
  | types {pre post qs rs} :
      ApiRespelled (.map (pre ++ (.str "types", .map qs) :: (.str "types", .map rs) :: post))
        (.map (pre ++ (.str "types", .map (qs ++ rs)) :: post))
  /-- A media type alone, or as the one item of a list, if it comes first. -/
  | mediaType {pre post s t} : (∀ p ∈ pre, p.1.value ≠ "mediaType") →
      ApiRespelled (.map (pre ++ (.str "mediaType", .str s) :: post))
        (.map (pre ++ (.str "mediaType", .seq t [.str s]) :: post))

/-- Two nodes are spellings of the same library. -/
inductive LibRespelled : Node → Node → Prop where
  | refl (n) : LibRespelled n n
  | symm {n m} : LibRespelled n m → LibRespelled m n
  | trans {n m l} : LibRespelled n m → LibRespelled m l → LibRespelled n l
  /-- `types` or `schemas`, with any tag. -/
  | typesKey {pre post k k' v} : k.value = "types" ∨ k.value = "schemas" →
      k'.value = "types" ∨ k'.value = "schemas" →
      LibRespelled (.map (pre ++ (k, v) :: post)) (.map (pre ++ (k', v) :: post))
  /-- A type, respelled. -/
  | type {pre post k qs rs n v w} : k.value = "types" ∨ k.value = "schemas" → Respelled v w →
      LibRespelled (.map (pre ++ (k, .map (qs ++ (n, v) :: rs)) :: post))
        (.map (pre ++ (k, .map (qs ++ (n, w) :: rs)) :: post))
  /-- The types in one mapping or in two. -/
  | types {pre post qs rs} :
      LibRespelled (.map (pre ++ (.str "types", .map qs) :: (.str "types", .map rs) :: post))
        (.map (pre ++ (.str "types", .map (qs ++ rs)) :: post))

end Verif.Doc.Spec
