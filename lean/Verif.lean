import Verif.Model.QRCode
import Verif.Spec.Reader
import Verif.Proof.PrefillSpec
import Verif.Props.Options
import Verif.Props.Text
import Verif.Props.Version
import Verif.Props.Total
import Verif.Props.Symbol
import Verif.Props.Mask
import Verif.Props.Penalty
import Verif.Props.Codec
import Verif.Props.Tables
import Verif.Props.Search
import Verif.Props.MatrixApi
import Verif.Props.Align
import Verif.Props.ReedSolomon
import Verif.Props.Conc
import Verif.Props.Heap
import Verif.Props.HeapSlices
import Verif.Props.Save
import Verif.Props.FileWriter
import Verif.Props.Compressed
import Verif.Props.Files
import Verif.Props.Terminal
import Verif.Props.Standard
import Verif.Props.Color
import Verif.Props.Gradient
import Verif.Props.ImageOptions
import Verif.Props.Cli
import Verif.Props.Wasm
import Verif.Props.Shapes
import Verif.Props.ShapeJoins
import Verif.Props.Imgkit
import Verif.Props.Debug
import Verif.Props.Damage
import Verif.Props.Scan
import Verif.Props.DamageLimit
import Verif.Props.Programs
import Verif.Props.ScanWriters
import Verif.Props.ScanShapes
import Verif.Props.Mixed
import Verif.Props.Shared
import Verif.Props.Fd
import Verif.Props.Reference
import Verif.Props.MaskChoice
import Verif.Props.ScanGradient
import Verif.Props.ScanShapesLogo
import Verif.Props.ScanHalftone
import Verif.Props.Apart
import Verif.Props.ScanPixels
import Verif.Props.ScanHalftonePixels
import Verif.Props.ScanCustom
import Verif.Props.ProgramsPixels
import Verif.Props.SharedCold
import Verif.Props.Ascii
import Verif.Props.Examples
import Verif.Props.Issues
import Verif.Props.Quiet
import Verif.Props.Sizes
import Verif.Props.LogoSize
import Verif.Props.Draw64
import Verif.Props.Compressed64
import Verif.Props.Special64
import Verif.Props.Alias
import Verif.Props.Fma
import Verif.Props.DrawArch
import Verif.Props.CompressedArch
import Verif.Props.Painters
import Verif.Props.Turn
import Verif.Props.Photo
import Verif.Props.CompressedAny
import Verif.Props.Negative
import Verif.Props.Shapes64
import Verif.Props.Machine
import Verif.Props.Grey
import Verif.Props.GreyShapes
import Verif.Props.TurnDamage
import Verif.Instances.Base
import Verif.Instances.Core
import Verif.Instances.Writers
import Verif.Instances.Images
import Verif.Instances.Shapes
import Verif.Instances.Scans
import Verif.Instances.Programs
import Verif.Instances.Photo
import Verif.Instances.Platforms
import Verif.Instances.Grey
import Verif.Instances.TurnDamage
import Verif.Instances.PhotoDamage
import Verif.Instances.UnitTests
