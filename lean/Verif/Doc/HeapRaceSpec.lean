import Verif.Doc.HeapThreadsSpec

/-!
# Vocabulary: the objects of a program
-/

namespace Verif.Doc

/-- The objects that the variables hold, and everything in them. -/
def Heap.Owns (H : Heap) (rs : List (Option Root)) (o : Obj) : Prop :=
  ∃ i r, held rs i = some r ∧ H.Reaches r.obj o

end Verif.Doc
