import Verif.Props.Math
import Verif.Props.Mesh
import Verif.Props.Box
import Verif.Props.Shape
import Verif.Props.Containment
import Verif.Props.Composite
import Verif.Props.Octree
import Verif.Props.HeightMap
import Verif.Props.HeightMapSolid
import Verif.Props.HeightMapContains
import Verif.Props.Serialization
import Verif.Props.LaserRangeFinder
import Verif.Props.LaserRangeFinderMesh
import Verif.Props.DepthCamera
import Verif.Props.DepthCameraRender
import Verif.Props.Shapes
import Verif.Props.Import
import Verif.Props.Export
import Verif.Props.Conversions
import Verif.Props.Ownership
import Verif.Props.Single
import Verif.Props.Special
import Verif.Props.Rounded
import Verif.Props.RoundedShape
import Verif.Props.Tools
import Verif.Props.Chains
import Verif.Props.Solids
import Verif.Props.Scan
import Verif.Props.Joint
import Verif.Props.Radius
import Verif.Props.ScanPoints
import Verif.Props.Scene
import Verif.Props.SingleComposite
import Verif.Props.Frame
import Verif.Props.RoundedCamera
import Verif.Props.Volume
import Verif.Props.Empty
import Verif.Props.Streams
import Verif.Props.Hull
import Verif.Props.Parts
import Verif.Props.NanComposite
import Verif.Props.SingleHeightMap
import Verif.Props.RoundedRaster
import Verif.Props.Again
import Verif.Props.RoundedOctree
import Verif.Props.RoundedLaser
import Verif.Props.RoundedBox
import Verif.Props.TestPrograms
import Verif.Props.TestPictures
import Verif.Props.RoundedSphere
import Verif.Props.RoundedComposite
import Verif.Props.RoundedQuaternion
import Verif.Props.RoundedAngles
import Verif.Props.RoundedCompositeRay
import Verif.Props.RoundedMesh
import Verif.Props.RoundedShapes
import Verif.Props.RoundedPlane
import Verif.Props.RoundedNormalize
import Verif.Props.RoundedImport
import Verif.Props.RoundedHeightMap
import Verif.Props.RoundedOctreeQueries
import Verif.Props.RoundedOctreeOutside
import Verif.Props.RoundedOctreeSame
import Verif.Props.RoundedOctreeAsked
import Verif.Props.RoundedOctreeRay
import Verif.Tests.Box
import Verif.Tests.Shape
import Verif.Tests.LaserRangeFinder
