import Verif.Props.FormatTable
import Verif.Props.Records
import Verif.Props.Rocks
import Verif.Props.Opts
import Verif.Props.Selec
import Verif.Props.Hist
import Verif.Props.Gener
import Verif.Props.MeshBlocks
import Verif.Props.RowOrder
import Verif.Props.File
import Verif.Props.Check
import Verif.Props.Json
import Verif.Props.Labels
import Verif.Props.Output
import Verif.Props.Csv
import Verif.Props.OutType
import Verif.Props.Layout
import Verif.Props.LayoutMore
import Verif.Props.Reblock
import Verif.Props.FlacTough
import Verif.Props.VoxelizeFlat
import Verif.Props.Merge
import Verif.Props.Cli
import Verif.Props.Registry
import Verif.Props.FileFormats
import Verif.Props.Mesh
import Verif.Props.Grid
import Verif.Props.Connections
import Verif.Props.Extrude
import Verif.Props.Duplicates
import Verif.Props.Curves
import Verif.Props.Petrasim
import Verif.Props.Tecplot
import Verif.Props.Geometry
import Verif.Props.MeshWrite
import Verif.Props.Listing
import Verif.Props.Avsucd
import Verif.Props.TecplotMesh
import Verif.Props.Flac3d
import Verif.Props.Flac3dBin
import Verif.Props.History
import Verif.Props.Save
import Verif.Props.Voxelize
import Verif.Props.Extract
import Verif.Props.Meshio
import Verif.Props.Series
import Verif.Props.Interpolate
import Verif.Props.ReadOutput
import Verif.Props.Pyvista
import Verif.Props.Export
import Verif.Props.CurveObjects
import Verif.Props.MeshObject
import Verif.Props.MeshTough
import Verif.Props.GridConn
import Verif.Props.CylTough
import Verif.Props.Solid
import Verif.Props.Tools
import Verif.Props.Refuse
import Verif.Props.Cut
import Verif.Props.Early
import Verif.Props.EarlyMesh
import Verif.Props.ExtrudeGrid
import Verif.Props.RefuseTools
import Verif.Props.RefuseMisc
import Verif.Props.Again
import Verif.Props.Checked
import Verif.Props.ExtractMesh
import Verif.Props.MeshAgain
import Verif.Props.CliFiles
import Verif.Props.Loaded
import Verif.Props.OutAgain
import Verif.Props.Resave
import Verif.Props.ResaveFlac
import Verif.Props.Convert
import Verif.Props.ConvertFlac
import Verif.Props.MeshioSets
import Verif.Props.AgainFlac
import Verif.Props.ResaveRange
import Verif.Props.TecTough
import Verif.Props.RangeEnds
import Verif.Props.Moved
import Verif.Props.Renumber
import Verif.Props.Reorder
import Verif.Props.OtherSide
import Verif.Props.Spun
