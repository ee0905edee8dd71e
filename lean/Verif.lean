import Verif.Props.Accept
import Verif.Props.ApiParse
import Verif.Props.ApiRoundTrip
import Verif.Props.ApiWritten
import Verif.Props.Builder
import Verif.Props.BuilderApi
import Verif.Props.BuilderRoundTrip
import Verif.Props.BuilderUnset
import Verif.Props.Calls
import Verif.Props.CollectionKeys
import Verif.Props.Command
import Verif.Props.Contents
import Verif.Props.Crashes
import Verif.Props.Depth
import Verif.Props.EditLocal
import Verif.Props.Entrywise
import Verif.Props.Errors
import Verif.Props.Exact
import Verif.Props.FacetValues
import Verif.Props.FixedPoint
import Verif.Props.Formats
import Verif.Props.Generate
import Verif.Props.Graph
import Verif.Props.Leaves
import Verif.Props.LibWritten
import Verif.Props.Library
import Verif.Props.Load
import Verif.Props.LoadFailed
import Verif.Props.MapMemory
import Verif.Props.MapRender
import Verif.Props.Maps
import Verif.Props.Names
import Verif.Props.NamesWrite
import Verif.Props.Nested
import Verif.Props.NoPanic
import Verif.Props.Origin
import Verif.Props.Overridden
import Verif.Props.OwnMap
import Verif.Props.ParsedDoc
import Verif.Props.Programs
import Verif.Props.Races
import Verif.Props.ReadLocal
import Verif.Props.Readable
import Verif.Props.Reload
import Verif.Props.Rename
import Verif.Props.Reorder
import Verif.Props.Reread
import Verif.Props.SameText
import Verif.Props.Sessions
import Verif.Props.Setters
import Verif.Props.Sharing
import Verif.Props.Sizes
import Verif.Props.Slices
import Verif.Props.Spelling
import Verif.Props.Survive
import Verif.Props.SurviveDoc
import Verif.Props.Threads
import Verif.Props.TypeFacets
import Verif.Props.TypeKinds
import Verif.Props.TypeLoad
import Verif.Props.TypeLoadFailed
import Verif.Props.TypeMarshal
import Verif.Props.TypeObjLoad
import Verif.Props.TypeOrder
import Verif.Props.TypeParts
import Verif.Props.TypeRoundTrip
import Verif.Props.TypeValues
import Verif.Props.TypeWrite
import Verif.Props.WriteDepth
import Verif.Props.WriteLoss
import Verif.Props.WriteOrder
import Verif.Props.WriteSizes
import Verif.Audit
