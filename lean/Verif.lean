import Verif.Basics.Props
import Verif.Loop.Props
import Verif.Group.Props
import Verif.Group.PropsCellDat
import Verif.Group.PropsHistory
import Verif.Group.ModelProduct
import Verif.Group.SpecProduct
import Verif.Group.LemmasProduct
import Verif.Group.PropsProduct
import Verif.Group.LemmasProductAdd
import Verif.Group.PropsProductAdd
import Verif.Containers.Props
import Verif.Containers.PropsTree
import Verif.Containers.PropsSerial
import Verif.Containers.PropsMHC
import Verif.Containers.PropsRng
import Verif.Mesh.Props
import Verif.Mesh.PropsMap
import Verif.Mesh.PropsCart
import Verif.Mesh.PropsMapper
import Verif.Mesh.ExamplesCart
import Verif.Mesh.PropsFace
import Verif.Mesh.PropsGrid
import Verif.Mesh.PropsBox
import Verif.Mesh.PropsOverlay
import Verif.Mesh.PropsMapError
import Verif.Sub.Props
import Verif.Sub.PropsVersion
import Verif.Comm.PropsSet
import Verif.Comm.PropsExchange
import Verif.Comm.PropsEdges
import Verif.Move.PropsIdentify
import Verif.Move.PropsPack
import Verif.Move.PropsGlobal
import Verif.Move.PropsLocal
import Verif.Move.Examples
import Verif.Pair.ModelHost
import Verif.Pair.SpecHost
import Verif.Pair.PropsHost
import Verif.Pair.ModelLoop
import Verif.Pair.SpecLoop
import Verif.Pair.LemmasLoop
import Verif.Pair.PropsLoop
import Verif.Pair.PropsBlock
import Verif.Pair.ModelSimple
import Verif.Pair.SpecSimple
import Verif.Pair.LemmasPush
import Verif.Pair.LemmasSet
import Verif.Pair.PropsSimple
import Verif.Dsmc.ModelPartition
import Verif.Dsmc.SpecPartition
import Verif.Dsmc.LemmasPartition
import Verif.Dsmc.PropsPartition
import Verif.Dsmc.ModelNoRep
import Verif.Dsmc.SpecNoRep
import Verif.Dsmc.LemmasNoRep
import Verif.Dsmc.LemmasNoRep2
import Verif.Dsmc.PropsNoRep
import Verif.Dsmc.ModelNtc
import Verif.Dsmc.SpecNtc
import Verif.Dsmc.LemmasNtc
import Verif.Dsmc.LemmasNtc2
import Verif.Dsmc.LemmasNtc3
import Verif.Dsmc.PropsNtc
import Verif.Algo.ModelUnseen
import Verif.Algo.SpecUnseen
import Verif.Algo.PropsUnseen
import Verif.Algo.PropsReduce
import Verif.Boundary.Model
import Verif.Boundary.Spec
import Verif.Boundary.LemmasRows
import Verif.Boundary.LemmasTraj
import Verif.Boundary.Props
import Verif.Boundary.ModelAdvection
import Verif.Boundary.SpecAdvection
import Verif.Boundary.PropsAdvection
import Verif.Algo.ModelReduce
import Verif.Algo.SpecReduce
import Verif.Containers.ModelCellReduce
import Verif.Containers.SpecCellReduce
import Verif.Containers.LemmasCellReduce
import Verif.Containers.PropsCellReduce
import Verif.Boundary.ModelExchange
import Verif.Boundary.SpecExchange
import Verif.Boundary.LemmasExchange
import Verif.Boundary.LemmasExchange2
import Verif.Boundary.LemmasExchange3
import Verif.Boundary.LemmasExchange4
import Verif.Boundary.LemmasExchange5
import Verif.Boundary.LemmasExchange6
import Verif.Boundary.PropsExchange
import Verif.Boundary.ModelWall
import Verif.Boundary.SpecWall
import Verif.Boundary.LemmasWall
import Verif.Boundary.LemmasWallExit
import Verif.Boundary.PropsWall
import Verif.Boundary.ModelWallPost
import Verif.Boundary.SpecWallPost
import Verif.Boundary.LemmasWallElement
import Verif.Boundary.LemmasWallPost
import Verif.Boundary.PropsWallPost
import Verif.Boundary.PropsWallCases
import Verif.Boundary.PropsWallMissing
import Verif.Boundary.ModelSurface
import Verif.Boundary.SpecSurface
import Verif.Boundary.LemmasSurface
import Verif.Boundary.LemmasSurface2
import Verif.Boundary.LemmasSurface3
import Verif.Boundary.PropsSurface
import Verif.Boundary.PropsSurfaceCases
import Verif.Boundary.ModelHits
import Verif.Boundary.SpecHits
import Verif.Boundary.LemmasHits
import Verif.Boundary.LemmasHits2
import Verif.Boundary.LemmasHits3
import Verif.Boundary.PropsHits
import Verif.Boundary.PropsHitsCases
import Verif.Boundary.PropsSurfaceUnknown
import Verif.Hybrid.Model
import Verif.Hybrid.Spec
import Verif.Hybrid.LemmasMesh
import Verif.Hybrid.LemmasView
import Verif.Hybrid.LemmasMap
import Verif.Hybrid.LemmasMoved
import Verif.Hybrid.LemmasHybrid
import Verif.Hybrid.Props
import Verif.Hybrid.LemmasCell
import Verif.Hybrid.PropsCell
import Verif.Hybrid.Examples
import Verif.Containers.ModelArray
import Verif.Containers.SpecArray
import Verif.Containers.LemmasArray
import Verif.Containers.PropsArray
import Verif.Containers.PropsLocalArray
import Verif.Containers.PropsArrayExamples
import Verif.Group.ModelGet
import Verif.Group.SpecGet
import Verif.Group.LemmasGet
import Verif.Group.LemmasGet2
import Verif.Group.LemmasSpec
import Verif.Group.PropsGet
import Verif.Group.PropsSet
import Verif.Group.ExamplesGet
import Verif.Io.Props
import Verif.Io.Examples
import Verif.Sub.ModelCache
import Verif.Sub.SpecCache
import Verif.Sub.LemmasCache
import Verif.Sub.PropsCache
import Verif.Dsmc.ModelAllToAll
import Verif.Dsmc.SpecAllToAll
import Verif.Dsmc.LemmasAllToAll
import Verif.Dsmc.PropsAllToAll
import Verif.Pair.ModelCheck
import Verif.Pair.SpecCheck
import Verif.Pair.LemmasCheck
import Verif.Pair.LemmasOccupancy
import Verif.Pair.PropsCheck
import Verif.Dsmc.PropsNtcCheck
import Verif.Group.ModelTemp
import Verif.Group.SpecTemp
import Verif.Group.LemmasTemp
import Verif.Group.PropsTemp
import Verif.Points.Model
import Verif.Points.Spec
import Verif.Points.LemmasHeld
import Verif.Points.LemmasHeld2
import Verif.Points.LemmasExch
import Verif.Points.LemmasGet
import Verif.Points.LemmasAdd
import Verif.Points.Props
import Verif.Points.ModelDof
import Verif.Points.SpecDof
import Verif.Points.PropsDof
import Verif.Algo.ModelCellwise
import Verif.Algo.SpecCellwise
import Verif.Algo.PropsCellwise
import Verif.Petsc.PropsHalo
import Verif.Petsc.PropsMapper
import Verif.Mesh.PropsCoord
import Verif.Petsc.PropsCoupler
import Verif.Petsc.PropsEdges
import Verif.Petsc.PropsProject
import Verif.Petsc.PropsBary
import Verif.Petsc.PropsInterface
import Verif.Petsc.PropsLabel
import Verif.Petsc.PropsHost
import Verif.Petsc.PropsSample
import Verif.Containers.PropsCas
import Verif.Algo.PropsInverse
import Verif.Group.PropsPtrMap
import Verif.Io.PropsVtk
import Verif.Mesh.ModelMeshVtk
import Verif.Mesh.SpecMeshVtk
import Verif.Mesh.LemmasMeshVtk
import Verif.Mesh.PropsMeshVtk
import Verif.Mesh.ModelPlot
import Verif.Mesh.SpecPlot
import Verif.Mesh.LemmasPlot
import Verif.Mesh.LemmasPlot2
import Verif.Mesh.PropsPlot
import Verif.Loop.PropsLocalMem
import Verif.Petsc.PropsValidate
import Verif.Containers.PropsND
import Verif.Petsc.PropsCells
import Verif.Basics.PropsLimits
import Verif.Containers.PropsResMap
import Verif.Basics.PropsError
import Verif.Containers.PropsTupleRng
import Verif.Basics.PropsProfile
import Verif.Mesh.PropsUniform
import Verif.Basics.PropsParams
import Verif.Comm.PropsPair
import Verif.Mesh.PropsStart
import Verif.Sub.PropsCellInfo
import Verif.Audit
