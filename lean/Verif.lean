import Verif.Props.Groups
import Verif.Props.Remap
import Verif.Props.MeshMerge
import Verif.Props.Mismatch
import Verif.Props.Resolution
import Verif.Props.Surface
import Verif.Props.VolumeS
import Verif.Props.MergeS
import Verif.Props.Ids
import Verif.Props.Extrude
import Verif.Props.ExtrudeGeom
import Verif.Props.Stack
import Verif.Props.MeshExtrude
import Verif.Props.Interpolate
import Verif.Props.Geometry
import Verif.Props.Lines
import Verif.Props.CellOps
import Verif.Props.Centers
import Verif.Props.Fuse
import Verif.Props.Rdp
import Verif.Props.Reconstruct
import Verif.Props.Average
import Verif.Props.Rings
import Verif.Props.Offset
import Verif.Props.Picking
import Verif.Props.Intersect
import Verif.Props.Voronoi
import Verif.Model.Shapes
import Verif.Props.Shapes
import Verif.Props.Curves
import Verif.Model.Polygon
import Verif.Props.Polygon
import Verif.Model.VoronoiItems
import Verif.Props.VoronoiItems
import Verif.Model.Generate
import Verif.Props.Generate
import Verif.Props.StackMesh
import Verif.Props.StackBase
import Verif.Model.AddPlane
import Verif.Props.AddPlane
import Verif.Props.StackHidden
import Verif.Model.GenerateU
import Verif.Props.MergeU
import Verif.Props.GenerateU
import Verif.Props.StackU
import Verif.Model.StackT
import Verif.Model.Cast
import Verif.Props.StackT
import Verif.Props.Transition
import Verif.Model.VoronoiMesh
import Verif.Props.VoronoiMesh
import Verif.Props.VoronoiBoundary
import Verif.Model.VoronoiInputs
import Verif.Props.VoronoiInputs
import Verif.Model.Wrappers
import Verif.Props.SurfaceData
import Verif.Props.Crossing
import Verif.Model.Examples
import Verif.Props.Conform
import Verif.Props.Examples
import Verif.Props.Resample
import Verif.Props.StackScalarU
import Verif.Props.Translate
import Verif.Props.StackExact
import Verif.Props.LayerIds
import Verif.Props.Profile
import Verif.Props.Compose
import Verif.Props.Anticline
import Verif.Model.Well
import Verif.Props.Well
import Verif.Props.Turning
import Verif.Props.RightSide
import Verif.Model.Well3d
import Verif.Props.Well3d
import Verif.Props.Tiling
import Verif.Props.Prisms
import Verif.Props.Columns
import Verif.Props.Neighbours
import Verif.Props.GridNeighbours
import Verif.Props.Hexes
import Verif.Props.Rejected
import Verif.Props.Carried
import Verif.Props.Terrain
import Verif.Props.Areas
import Verif.Lemmas.Volume
import Verif.Props.Volumes
import Verif.Props.Tubes
import Verif.Props.Cover
import Verif.Props.Quads
import Verif.Props.Frames
import Verif.Props.Outline
import Verif.Model.Halves
import Verif.Props.Halves
import Verif.Props.Strip
import Verif.Props.WellAreas
import Verif.Props.WellCover
import Verif.Props.WellTiles
import Verif.Props.WellSolid
import Verif.Props.WellVolumes
