import Verif.Lemmas.Again
import Verif.Lemmas.Blocks
import Verif.Lemmas.Bounding
import Verif.Lemmas.Cell
import Verif.Lemmas.CellText
import Verif.Lemmas.CellWriters
import Verif.Lemmas.Converted
import Verif.Lemmas.ConvertibleFile
import Verif.Lemmas.DataCards
import Verif.Lemmas.Dedupe
import Verif.Lemmas.Describe
import Verif.Lemmas.Exact
import Verif.Lemmas.Explode
import Verif.Lemmas.Faces
import Verif.Lemmas.Flatten
import Verif.Lemmas.FlattenCell
import Verif.Lemmas.FlattenDeck
import Verif.Lemmas.Fluka
import Verif.Lemmas.FlukaCell
import Verif.Lemmas.FlukaFile
import Verif.Lemmas.FlukaNames
import Verif.Lemmas.FormatE
import Verif.Lemmas.FormatF
import Verif.Lemmas.Formatter
import Verif.Lemmas.Fractions
import Verif.Lemmas.Indifferent
import Verif.Lemmas.InputFile
import Verif.Lemmas.Keywords
import Verif.Lemmas.Lines
import Verif.Lemmas.Macrobody
import Verif.Lemmas.Matched
import Verif.Lemmas.Material
import Verif.Lemmas.MaterialText
import Verif.Lemmas.McnpCell
import Verif.Lemmas.McnpCellBack
import Verif.Lemmas.McnpCellLines
import Verif.Lemmas.McnpCellLower
import Verif.Lemmas.McnpFile
import Verif.Lemmas.Merge
import Verif.Lemmas.Message
import Verif.Lemmas.Missing
import Verif.Lemmas.MixedIO
import Verif.Lemmas.Nested
import Verif.Lemmas.Nots
import Verif.Lemmas.Num
import Verif.Lemmas.OtherCells
import Verif.Lemmas.OutputText
import Verif.Lemmas.Outputs
import Verif.Lemmas.Outside
import Verif.Lemmas.ParamGroups
import Verif.Lemmas.ParamList
import Verif.Lemmas.Params
import Verif.Lemmas.PhitsFile
import Verif.Lemmas.Processed
import Verif.Lemmas.ProcessedSurfaces
import Verif.Lemmas.Processing
import Verif.Lemmas.Py
import Verif.Lemmas.Real
import Verif.Lemmas.Region
import Verif.Lemmas.Rename
import Verif.Lemmas.Reorder
import Verif.Lemmas.Reorganise
import Verif.Lemmas.SameSubstance
import Verif.Lemmas.Scone
import Verif.Lemmas.SconeFile
import Verif.Lemmas.SconeText
import Verif.Lemmas.Sense
import Verif.Lemmas.SerpentMaterials
import Verif.Lemmas.Solid
import Verif.Lemmas.Spaced
import Verif.Lemmas.SplitParts
import Verif.Lemmas.Substance
import Verif.Lemmas.Success
import Verif.Lemmas.Surface
import Verif.Lemmas.SurfaceCard
import Verif.Lemmas.SurfaceText
import Verif.Lemmas.Transform
import Verif.Lemmas.Update
import Verif.Lemmas.Whole
import Verif.Lemmas.WholeDeck
import Verif.Lemmas.WholeFluka
import Verif.Lemmas.WholeScone
import Verif.Lemmas.Words
import Verif.Lemmas.WrapLines
import Verif.Lemmas.Xml
import Verif.Model.Blocks
import Verif.Model.Bounding
import Verif.Model.Cell
import Verif.Model.CellWriters
import Verif.Model.DataCards
import Verif.Model.Dedupe
import Verif.Model.Fluka
import Verif.Model.Formatter
import Verif.Model.Macrobody
import Verif.Model.Material
import Verif.Model.MaterialData
import Verif.Model.MaterialWriters
import Verif.Model.Nots
import Verif.Model.Num
import Verif.Model.OpenMCInput
import Verif.Model.OpenMCMaterial
import Verif.Model.Outputs
import Verif.Model.Particle
import Verif.Model.Process
import Verif.Model.Py
import Verif.Model.Scone
import Verif.Model.SerpentRun
import Verif.Model.Surface
import Verif.Model.SurfaceCard
import Verif.Model.SurfaceWriters
import Verif.Model.Transform
import Verif.Model.Xml
import Verif.Props.Again
import Verif.Props.AgainSample
import Verif.Props.Blocks
import Verif.Props.Boundary
import Verif.Props.Case
import Verif.Props.Cells
import Verif.Props.Comments
import Verif.Props.Complement
import Verif.Props.Converted
import Verif.Props.ConvertedMaterials
import Verif.Props.ConvertedSample
import Verif.Props.DataCards
import Verif.Props.Dedupe
import Verif.Props.Entries
import Verif.Props.Flatten
import Verif.Props.FlukaCellText
import Verif.Props.FlukaFile
import Verif.Props.FlukaImportances
import Verif.Props.FlukaMaterials
import Verif.Props.FlukaSurfaceText
import Verif.Props.Fractions
import Verif.Props.FromText
import Verif.Props.Importances
import Verif.Props.Indifferent
import Verif.Props.IndifferentSample
import Verif.Props.InputFile
import Verif.Props.Macrobody
import Verif.Props.MatchedSample
import Verif.Props.MaterialCards
import Verif.Props.Materials
import Verif.Props.McnpCellBack
import Verif.Props.McnpCellText
import Verif.Props.McnpFileBack
import Verif.Props.McnpMaterialText
import Verif.Props.Message
import Verif.Props.Missing
import Verif.Props.Motions
import Verif.Props.Moved
import Verif.Props.Nested
import Verif.Props.NestedFile
import Verif.Props.NestedSample
import Verif.Props.Nuclides
import Verif.Props.Numbers
import Verif.Props.OpenMCNames
import Verif.Props.OpenMCUniverses
import Verif.Props.OpenmcFile
import Verif.Props.OtherCards
import Verif.Props.OtherCellText
import Verif.Props.OtherMaterials
import Verif.Props.Outputs
import Verif.Props.Outside
import Verif.Props.OutsideCases
import Verif.Props.Parameters
import Verif.Props.Particles
import Verif.Props.PhitsFile
import Verif.Props.PhitsImportances
import Verif.Props.Processed
import Verif.Props.Processing
import Verif.Props.Renumbered
import Verif.Props.Reordered
import Verif.Props.Reorganise
import Verif.Props.Reproducible
import Verif.Props.Rewritten
import Verif.Props.RoundTrip
import Verif.Props.SameCell
import Verif.Props.SameImportances
import Verif.Props.SameSurface
import Verif.Props.SconeFile
import Verif.Props.SconeSurfaceText
import Verif.Props.SconeUniverses
import Verif.Props.SerpentFile
import Verif.Props.SerpentMaterials
import Verif.Props.SerpentRun
import Verif.Props.Success
import Verif.Props.Supported
import Verif.Props.SupportedDeck
import Verif.Props.SurfaceCards
import Verif.Props.SurfaceText
import Verif.Props.Surfaces
import Verif.Props.TransformCards
import Verif.Props.TransformEntries
import Verif.Props.UnusedMotion
import Verif.Props.Whole
import Verif.Props.Wrapping
import Verif.Spec.Again
import Verif.Spec.Blocks
import Verif.Spec.Box
import Verif.Spec.Case
import Verif.Spec.Cell
import Verif.Spec.CellBack
import Verif.Spec.Codes
import Verif.Spec.Complement
import Verif.Spec.Converted
import Verif.Spec.ConvertedMaterials
import Verif.Spec.ConvertibleFile
import Verif.Spec.DataCards
import Verif.Spec.Dedupe
import Verif.Spec.Elements
import Verif.Spec.Entries
import Verif.Spec.Exact
import Verif.Spec.Fluka
import Verif.Spec.FlukaFile
import Verif.Spec.Fractions
import Verif.Spec.Geometry
import Verif.Spec.Indifferent
import Verif.Spec.InputFile
import Verif.Spec.Macrobody
import Verif.Spec.Material
import Verif.Spec.MaterialText
import Verif.Spec.Message
import Verif.Spec.Missing
import Verif.Spec.Mnemonic
import Verif.Spec.Motions
import Verif.Spec.Nested
import Verif.Spec.NestedFile
import Verif.Spec.OpenmcFile
import Verif.Spec.OtherCards
import Verif.Spec.OtherMaterials
import Verif.Spec.Outputs
import Verif.Spec.Outside
import Verif.Spec.Parameters
import Verif.Spec.PhitsFile
import Verif.Spec.Processing
import Verif.Spec.Real
import Verif.Spec.Region
import Verif.Spec.Renumbered
import Verif.Spec.Reordered
import Verif.Spec.Reproducible
import Verif.Spec.SameCell
import Verif.Spec.SameImportances
import Verif.Spec.SameModel
import Verif.Spec.SameSurface
import Verif.Spec.Sample
import Verif.Spec.SconeFile
import Verif.Spec.SerpentFile
import Verif.Spec.SerpentMaterials
import Verif.Spec.SerpentRun
import Verif.Spec.Substance
import Verif.Spec.Supported
import Verif.Spec.SurfaceCodes
import Verif.Spec.Text
import Verif.Spec.Transform
import Verif.Spec.Universes
import Verif.Spec.Whole
import Verif.Spec.Xml
