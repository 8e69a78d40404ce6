import Verif.D1S.Props
import Verif.WW.VectorsProps
import Verif.WW.RatiosProps
import Verif.WW.StateProps
import Verif.WW.ParserProps
import Verif.WW.Tight
import Verif.Inp.MergeProps
import Verif.Inp.RenumberProps
import Verif.Inp.MaterialProps
import Verif.Inp.ReadingProps
import Verif.Mat.Names
import Verif.Mat.MixProps
import Verif.Mat.Tight
import Verif.Out.RssaGrid
import Verif.Out.MctalErrors
import Verif.Out.MctalEnd
import Verif.Out.MeshtalGridProps
import Verif.Out.MeshtalRead
import Verif.Out.MeshtalTight
import Verif.Out.MeshtalCuvProps
import Verif.Out.MeshinfoProps
import Verif.Out.FispactProps
import Verif.Out.FispactTight
import Verif.Out.OutpStats
import Verif.Out.OutpTableMore
import Verif.Out.OutpTight
import Verif.Inp.Tight
import Verif.Inp.CellUnionProps
import Verif.Inp.EliteProps
import Verif.D1S.InputProps
import Verif.D1S.Tight
import Verif.Inp.TallySummary
import Verif.Inp.WriteProps
import Verif.Mat.TextRound
import Verif.Inp.ReadingTight
import Verif.Out.PathwaysGet
import Verif.Inp.XsdirProps
import Verif.Inp.AceProps
import Verif.Inp.AceGroups
import Verif.Inp.EgroupsLog
import Verif.Out.CuvErrorProps
import Verif.D1S.InputTight
import Verif.Inp.CellTight
import Verif.Inp.EliteTight
import Verif.Inp.TallyTight
import Verif.Out.EeoutClaims
import Verif.Out.EeoutExample
import Verif.WW.CliExact
import Verif.WW.CliTight
import Verif.WW.GvrProps
import Verif.WW.MeshgridsProps
import Verif.Out.EeoutTight
import Verif.Out.PlotterCuts
import Verif.Inp.EgroupsProps
import Verif.Mat.LibraryProps
import Verif.Out.FmeshWriteMore
import Verif.Out.FmeshTransform
import Verif.Inp.LibManagerEx
import Verif.Inp.EliteWholeEx
import Verif.Out.MeshFileEx
import Verif.Out.ExportTight
import Verif.Mat.InfoBuild
import Verif.Mat.Deck
import Verif.Inp.LibTight
import Verif.Inp.EliteRefused
import Verif.Out.LpDebug
import Verif.Out.FispactFrame
import Verif.WW.Info
import Verif.Inp.Retrieve
import Verif.Inp.Comments
import Verif.Inp.Unicode
import Verif.Mat.InfoList
import Verif.Out.MeshFileRefused
import Verif.D1S.Workflow
import Verif.WW.File
import Verif.Inp.Assemble
import Verif.Inp.RenumberTrs
import Verif.Out.OutpTableRefused
import Verif.WW.InfoRefused
import Verif.Out.RssaInfo
import Verif.D1S.Translated
import Verif.Inp.Fills
import Verif.Mat.Xml
import Verif.Inp.EliteTrans
import Verif.Inp.ExtractFrom
import Verif.Out.EeoutRefused
import Verif.WW.GvrFile
import Verif.Mat.XmlRead
import Verif.Mat.NamesRefused
import Verif.Base.Decimal
import Verif.WW.Numbers
import Verif.Mat.Numbers
import Verif.Inp.DensityNumbers
import Verif.D1S.Numbers
import Verif.Inp.TallyNumbers
import Verif.Base.Fortran
import Verif.Out.FortranNumbers
import Verif.WW.LongNumbers
import Verif.WW.CliFiles
import Verif.WW.CliFilesProps
import Verif.Out.MeshExport
import Verif.Out.MeshExportProps
import Verif.Base.Cut
import Verif.WW.Cut
import Verif.WW.CutProps
import Verif.D1S.Cut
import Verif.Out.MeshExportMore
import Verif.Base.Crash
import Verif.D1S.Save
import Verif.WW.Save
import Verif.Inp.AceMaterial
import Verif.WW.VectorsEq
import Verif.Out.RssaCut
import Verif.Out.MctalCut
import Verif.Base.Binary64
import Verif.Base.DecimalDouble
import Verif.WW.Doubles
import Verif.WW.Floats
import Verif.WW.CliSession
import Verif.Mat.WrittenAgain
import Verif.Inp.DensityFloats
import Verif.Out.MeshFileCut
import Verif.WW.ParserErrors
import Verif.Out.SourceCut
import Verif.Out.CuvFileCut
import Verif.Out.PlotterStl
import Verif.Out.MeshtalOneD
import Verif.Inp.NamesTight
import Verif.Out.WordsTight
import Verif.Out.AtlasSave
import Verif.D1S.Printing
import Verif.Out.FmeshAttrs
import Verif.Base.Binary32
import Verif.Out.GridSingle
import Verif.Out.AtlasPage
import Verif.WW.MeshgridsSingle
import Verif.WW.CellsDrawn
import Verif.Out.MeshCells
import Verif.Out.OutpCut
import Verif.Inp.XsdirCut
import Verif.Out.FispactCut
import Verif.Out.OutpTableCut
import Verif.Out.EeoutCut
import Verif.Out.MeshinfoCut
import Verif.Mat.ConvertAll
