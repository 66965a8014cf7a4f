import Verif.Axioms
import Verif.Data.AdjData
import Verif.Data.AdjMesh
import Verif.Data.AnimBufferLaws
import Verif.Data.AnimBuffers
import Verif.Data.AnimData
import Verif.Data.AnimDataLaws
import Verif.Data.AnimTrackLaws
import Verif.Data.AnimV12
import Verif.Data.BitLaws
import Verif.Data.BitUtils
import Verif.Data.Bounding
import Verif.Data.Compare
import Verif.Data.CompareLaws
import Verif.Data.CompareSpec
import Verif.Data.Compression
import Verif.Data.CompressionLaws
import Verif.Data.DataFiles
import Verif.Data.DataRoom
import Verif.Data.DataStreams
import Verif.Data.Glam
import Verif.Data.HlpbData
import Verif.Data.MatlData
import Verif.Data.MeshData
import Verif.Data.MeshDataLaws
import Verif.Data.MeshExData
import Verif.Data.MeshExDataLaws
import Verif.Data.MeshRiggingLaws
import Verif.Data.MeshRoundTrip
import Verif.Data.MeshVersionLaws
import Verif.Data.ModlData
import Verif.Data.Reader
import Verif.Data.ShdrData
import Verif.Data.SkelData
import Verif.Data.SkelDataLaws
import Verif.Data.Spheres
import Verif.Data.Text
import Verif.Data.TextLaws
import Verif.Data.VectorData
import Verif.Data.VectorDataLaws
import Verif.Data.Word32
import Verif.Derive.Attributes
import Verif.Derive.Edit
import Verif.Derive.EditFacts
import Verif.Derive.EditLaws
import Verif.Derive.Formats
import Verif.Derive.FormatsPort
import Verif.Derive.FormatsSame
import Verif.Derive.Items
import Verif.Derive.Laws
import Verif.Derive.Model
import Verif.Derive.Platform
import Verif.Derive.Port
import Verif.Derive.Same
import Verif.Derive.Spec
import Verif.Float.BoxLaws
import Verif.Float.CompressLaws
import Verif.Float.ConvLaws
import Verif.Float.DotLaws
import Verif.Float.ExactDot
import Verif.Float.Ieee
import Verif.Float.Lattice
import Verif.Float.Laws
import Verif.Float.Middles
import Verif.Float.Nearest
import Verif.Float.RangeLaws
import Verif.Float.SqrtLaws
import Verif.Float.TrackLaws
import Verif.Float.ValueSpec
import Verif.Float.Values
import Verif.Float.VertexLaws
import Verif.Formats.Adj
import Verif.Formats.Anim
import Verif.Formats.Cut
import Verif.Formats.Extent
import Verif.Formats.Hlpb
import Verif.Formats.Matl
import Verif.Formats.Mesh
import Verif.Formats.MeshEx
import Verif.Formats.Modl
import Verif.Formats.Move
import Verif.Formats.Nlst
import Verif.Formats.Nrpd
import Verif.Formats.Nufx
import Verif.Formats.Shdr
import Verif.Formats.Skel
import Verif.Formats.Ssbh
import Verif.Formats.VectorOps
import Verif.Formats.Vectors
import Verif.Image.Adj
import Verif.Image.AdjLaws
import Verif.Image.Files
import Verif.Image.FormatLaws
import Verif.Image.Formats
import Verif.Image.Laws
import Verif.Image.MeshEx
import Verif.Image.MeshExLaws
import Verif.Image.Nice
import Verif.Image.NiceFormats
import Verif.Image.Sizes
import Verif.Image.Spec
import Verif.Json.Core
import Verif.Json.DataFormats
import Verif.Json.DataLaws
import Verif.Json.DataOrder
import Verif.Json.DataShapes
import Verif.Json.DataShapesSame
import Verif.Json.DataTool
import Verif.Json.Edit
import Verif.Json.EditData
import Verif.Json.Finite
import Verif.Json.FormatLaws
import Verif.Json.FormatOrder
import Verif.Json.Formats
import Verif.Json.FormatsSmall
import Verif.Json.Grammar
import Verif.Json.GrammarLaws
import Verif.Json.GrammarNumber
import Verif.Json.GrammarString
import Verif.Json.Kept
import Verif.Json.Laws
import Verif.Json.NumberAccuracy
import Verif.Json.NumberError
import Verif.Json.NumberExtremes
import Verif.Json.NumberLaws
import Verif.Json.NumberMiddle
import Verif.Json.NumberSpec
import Verif.Json.Numbers
import Verif.Json.Order
import Verif.Json.Shape
import Verif.Json.ShapeEdit
import Verif.Json.ShapeLaws
import Verif.Json.ShapeStable
import Verif.Json.Shapes
import Verif.Json.ShapesSame
import Verif.Json.Shortest
import Verif.Json.Small
import Verif.Json.Spec
import Verif.Json.Text
import Verif.Json.TextDeep
import Verif.Json.TextFloat
import Verif.Json.TextLaws
import Verif.Json.TextNumber
import Verif.Json.TextPrefix
import Verif.Json.TextSpec
import Verif.Json.Tool
import Verif.Layout.Files
import Verif.Layout.FormatLaws
import Verif.Layout.Formats
import Verif.Layout.Laws
import Verif.Layout.Spec
import Verif.Lib.Classes
import Verif.Lib.Codecs
import Verif.Lib.Core
import Verif.Lib.Cut
import Verif.Lib.EnumNames
import Verif.Lib.Extend
import Verif.Lib.File
import Verif.Lib.FileLaws
import Verif.Lib.LawProofs
import Verif.Lib.Laws
import Verif.Lib.Move
import Verif.Lib.Near
import Verif.Lib.Plain
import Verif.Lib.ReadBounds
import Verif.Lib.Render
import Verif.Lib.StreamLaws
import Verif.Props.AdjData
import Verif.Props.AdjFiles
import Verif.Props.AnimBits
import Verif.Props.AnimEdits
import Verif.Props.AnimFiles
import Verif.Props.AnimLayout
import Verif.Props.AnimPanics
import Verif.Props.AnimTracks
import Verif.Props.AnimV12
import Verif.Props.Anywhere
import Verif.Props.Attributes
import Verif.Props.Bounding
import Verif.Props.Compare
import Verif.Props.Concurrent
import Verif.Props.Conversions
import Verif.Props.CutText
import Verif.Props.DataEdits
import Verif.Props.DataFiles
import Verif.Props.DataRoom
import Verif.Props.DataStreams
import Verif.Props.Derive
import Verif.Props.Disk
import Verif.Props.Documents
import Verif.Props.Drift
import Verif.Props.Edits
import Verif.Props.EnumNames
import Verif.Props.EqualFiles
import Verif.Props.FileLayout
import Verif.Props.Files
import Verif.Props.FloatText
import Verif.Props.Floats
import Verif.Props.Image
import Verif.Props.Independent
import Verif.Props.Interrupted
import Verif.Props.Json
import Verif.Props.JsonData
import Verif.Props.JsonEdit
import Verif.Props.JsonField
import Verif.Props.JsonGrammar
import Verif.Props.JsonParts
import Verif.Props.JsonPipeline
import Verif.Props.JsonText
import Verif.Props.Limits
import Verif.Props.MaterialEdits
import Verif.Props.MatlResave
import Verif.Props.MeshData
import Verif.Props.MeshEditLaws
import Verif.Props.MeshEdits
import Verif.Props.MeshExData
import Verif.Props.MeshFields
import Verif.Props.MeshKept
import Verif.Props.MeshLayout
import Verif.Props.MeshParts
import Verif.Props.Narrow
import Verif.Props.NumberAccuracy
import Verif.Props.OpenAnim
import Verif.Props.OpenedSize
import Verif.Props.PlainDataEdits
import Verif.Props.PlainEdits
import Verif.Props.PlainFiles
import Verif.Props.PlainStreamLaws
import Verif.Props.PlainStreams
import Verif.Props.Platforms
import Verif.Props.Pointers
import Verif.Props.Precision
import Verif.Props.Programs
import Verif.Props.Renumber
import Verif.Props.Resave
import Verif.Props.Room
import Verif.Props.RoomLaws
import Verif.Props.Rotations
import Verif.Props.SameFile
import Verif.Props.SavedEqual
import Verif.Props.SavedFields
import Verif.Props.Sharing
import Verif.Props.ShdrLayout
import Verif.Props.Shown
import Verif.Props.Shrink
import Verif.Props.SkelData
import Verif.Props.Spheres
import Verif.Props.Streams
import Verif.Props.Truncated
import Verif.Props.Unchanged
import Verif.Props.Vectors
import Verif.Props.Versions
import Verif.Props.WorldTransforms
import Verif.Tools.Disk
import Verif.Tools.Steps
import Verif.Tools.Test
