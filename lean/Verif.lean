import Verif.Model.Basic
import Verif.Model.VersionDb
import Verif.Model.GF
import Verif.Model.Decode
import Verif.Spec.RS
import Verif.Spec.Format
import Verif.Spec.Iso
import Verif.Proofs.Loops
import Verif.Proofs.GFField
import Verif.Proofs.PolyOps
import Verif.Proofs.BM
import Verif.Proofs.Locator
import Verif.Proofs.RSBlock
import Verif.Proofs.RSCorrect
import Verif.Proofs.Format
import Verif.Proofs.Reserved
import Verif.Proofs.Capacity
import Verif.Proofs.Path
import Verif.Props.Tables
import Verif.Spec.Blocks
import Verif.Proofs.Bits
import Verif.Proofs.ReadData
import Verif.Proofs.VersionTable
import Verif.Proofs.Codestream
import Verif.Props.ReedSolomon
import Verif.Props.Format
import Verif.Props.RawData
import Verif.Props.Codestream
import Verif.Model.Lib
import Verif.Spec.Segments
import Verif.Proofs.Trace
import Verif.Proofs.Payload
import Verif.Proofs.Decode
import Verif.Proofs.SimpleGrid
import Verif.Props.Payload
import Verif.Props.Decode
import Verif.Props.UnitTests
import Verif.Spec.Symbol
import Verif.Proofs.EndToEnd
import Verif.Props.EndToEnd
import Verif.Props.Clean
import Verif.Props.Grey
import Verif.Model.Prepare
import Verif.Model.Float
import Verif.Model.Geometry
import Verif.Model.Detect
import Verif.Model.Identify
import Verif.Spec.Image
import Verif.Spec.Regions
import Verif.Proofs.Flood
import Verif.Proofs.FloodLoop
import Verif.Proofs.Regions
import Verif.Proofs.RegionCache
import Verif.Proofs.History
import Verif.Proofs.Images
import Verif.Props.Regions
import Verif.Spec.Binarise
import Verif.Proofs.Prepare
import Verif.Proofs.Bitmap
import Verif.Props.Prepare
import Verif.Spec.Exact
import Verif.Spec.Geometry
import Verif.Proofs.Bresenham
import Verif.Proofs.Perspective
import Verif.Proofs.Intersect
import Verif.Props.Geometry
import Verif.Spec.FloatLaws
import Verif.Spec.Grouping
import Verif.Proofs.Partial
import Verif.Proofs.Timing
import Verif.Proofs.Grouping
import Verif.Proofs.Neighbors
import Verif.Proofs.Jiggle
import Verif.Proofs.JiggleExact
import Verif.Props.Identify
import Verif.Spec.Spiral
import Verif.Proofs.Spiral
import Verif.Props.Alignment
import Verif.Spec.Corners
import Verif.Spec.Finder
import Verif.Proofs.Corners
import Verif.Proofs.Scanner
import Verif.Proofs.Finder
import Verif.Props.Detect
import Verif.Spec.Patterns
import Verif.Spec.Samples
import Verif.Proofs.Fitness
import Verif.Proofs.Cells
import Verif.Proofs.Squares
import Verif.Proofs.Affine
import Verif.Proofs.Drawn
import Verif.Spec.Render
import Verif.Proofs.Frame
import Verif.Proofs.Framed
import Verif.Proofs.FramedGroup
import Verif.Proofs.FramedLocate
import Verif.Proofs.FramedMeasure
import Verif.Proofs.FramedFit
import Verif.Proofs.FramedAlign
import Verif.Proofs.FramedDetect
import Verif.Proofs.FramedAll
import Verif.Proofs.Blank
import Verif.Proofs.Drawing
import Verif.Proofs.Rows
import Verif.Proofs.Dark
import Verif.Props.Fitness
import Verif.Proofs.Modules
import Verif.Proofs.Mistake
import Verif.Proofs.Windows
import Verif.Props.Matrix
import Verif.Model.Binary64
import Verif.Spec.Rounding
import Verif.Proofs.Binary64
import Verif.Model.Double
import Verif.Proofs.Double
import Verif.Proofs.Rounded
import Verif.Proofs.CreateRounded
import Verif.Proofs.AffineRounded
import Verif.Proofs.NeighborsRounded
import Verif.Proofs.CentresRounded
import Verif.Props.Rounding
import Verif.Spec.Ranking
import Verif.Proofs.Halting
import Verif.Props.Pipeline
import Verif.Props.Mirrored
import Verif.Spec.Several
import Verif.Proofs.SeveralAxes
import Verif.Proofs.SeveralCaps
import Verif.Proofs.SeveralRank
import Verif.Proofs.SeveralDetect
import Verif.Proofs.SeveralSheet
import Verif.Props.Several
import Verif.Proofs.SeveralRow
import Verif.Model.Output
import Verif.Props.Output
import Verif.Spec.Dotted
import Verif.Proofs.BlankRegions
import Verif.Proofs.Dotted
import Verif.Proofs.DottedSheet
import Verif.Props.Dotted
import Verif.Props.Turning
import Verif.Props.Hazards
import Verif.Props.NoGrid
import Verif.Spec.Source
import Verif.Proofs.InnerRounded
import Verif.Props.Source
import Verif.Spec.Buffers
import Verif.Proofs.Simulation
import Verif.Proofs.Packed
import Verif.Props.Buffers
import Verif.Run
import Verif.Proofs.BoxAlign
import Verif.Proofs.BoxAll
import Verif.Proofs.BoxDetect
import Verif.Proofs.BoxFit
import Verif.Proofs.BoxFrame
import Verif.Proofs.BoxGrid
import Verif.Proofs.BoxGroup
import Verif.Proofs.BoxLocate
import Verif.Proofs.BoxMeasure
import Verif.Proofs.BoxScan
import Verif.Proofs.Boxed
import Verif.Proofs.Boxes
import Verif.Proofs.Rects
import Verif.Proofs.Resize
import Verif.Props.Stretch
import Verif.Spec.Stretch
import Verif.Spec.Contrast
import Verif.Proofs.Contrast
import Verif.Props.Contrast
import Verif.Spec.Nearest
import Verif.Proofs.Nearest
import Verif.Props.Nearest
import Verif.Spec.Payload
import Verif.Proofs.Meaning
import Verif.Props.Meaning
import Verif.Spec.Astray
import Verif.Proofs.Astray
import Verif.Props.Astray
import Verif.Proofs.AstrayTight
import Verif.Props.AstrayTight
import Verif.Spec.Again
import Verif.Proofs.Again
import Verif.Props.Again
import Verif.Proofs.JiggleRounded
import Verif.Props.Refine
import Verif.Proofs.Horizon
import Verif.Proofs.HorizonCells
import Verif.Props.Horizon
import Verif.Props.Bounds
