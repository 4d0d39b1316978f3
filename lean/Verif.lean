import Verif.Basic
import Verif.ElemByElem
import Verif.ElemByElemLemmas
import Verif.Props.ElemByElem
import Verif.DebugReg
import Verif.DebugRegLemmas
import Verif.Props.DebugReg
import Verif.Monitor
import Verif.MonitorLemmas
import Verif.Props.MonitorIndex
import Verif.Props.MonitorOutput
import Verif.Particles
import Verif.ParticlesLemmas
import Verif.Props.Particles
import Verif.Track
import Verif.Props.Track
import Verif.Props.TrackEbe
import Verif.Props.TrackParallel
import Verif.Props.MonitorMore
import Verif.Elements
import Verif.ElementObjects
import Verif.ElementObjectsLemmas
import Verif.ElementsReal
import Verif.Nan
import Verif.Props.Apertures
import Verif.Props.Elements
import Verif.Props.ElementObjects
import Verif.Canon
import Verif.Props.Symplectic
import Verif.Props.SymplecticLattice
import Verif.Props.RfMultipole
import Verif.Props.TrackElements
import Verif.Props.LatticeMap
import Verif.Align
import Verif.MemPool
import Verif.Props.Align
import Verif.Props.MemPool
import Verif.ArrayObj
import Verif.Props.ArrayObj
import Verif.Assign
import Verif.Props.Assign
import Verif.NodeId
import Verif.Props.NodeId
import Verif.KernelConfig
import Verif.Props.KernelConfig
import Verif.BufferStore
import Verif.Props.BufferStore
import Verif.Interpol
import Verif.InterpolLemmas
import Verif.InterpolReal
import Verif.Props.Interpol
import Verif.TricubStmts
import Verif.Tricub
import Verif.TricubLemmas
import Verif.TricubReal
import Verif.TricubTrack
import Verif.Props.Tricub
import Verif.Buffer.Mem
import Verif.Buffer.Modify
import Verif.Buffer.Managed
import Verif.Buffer.Remap
import Verif.Buffer.Generic
import Verif.Buffer.Layout
import Verif.Buffer.InitLemmas
import Verif.Buffer.ReserveLemmas
import Verif.Buffer.FrameLemmas
import Verif.Buffer.RemapLemmas
import Verif.Buffer.ApplyLemmas
import Verif.Buffer.StoreLemmas
import Verif.Buffer.ClearLemmas
import Verif.Buffer.RemapFail
import Verif.Buffer.GrowLemmas
import Verif.Buffer.AddLemmas
import Verif.Buffer.NewLemmas
import Verif.Buffer.File
import Verif.Buffer.FileLemmas
import Verif.Buffer.Objects
import Verif.Buffer.Witness
import Verif.Props.Buffer
import Verif.Props.BufferMove
import Verif.Buffer.DataLemmas
import Verif.Props.BufferFile
import Verif.BeamFields
import Verif.BeamFieldsReal
import Verif.Boost
import Verif.Lift
import Verif.BoostSymplectic
import Verif.SigmaMatrix
import Verif.Props.Boost
import Verif.Props.SigmaMatrix
import Verif.Faddeeva
import Verif.FaddeevaInt
import Verif.GaussField
import Verif.GaussModel
import Verif.GaussGrad
import Verif.GaussUnified
import Verif.GaussRound
import Verif.Props.GaussField
import Verif.KickMap
import Verif.SliceForm
import Verif.GaussDiff
import Verif.SliceModel
import Verif.SliceSymplectic
import Verif.BeamBeamMap
import Verif.Props.BeamBeam
import Verif.RayIntegral
import Verif.CerrfLoops
import Verif.CerrfFar
import Verif.CerrfSeries
import Verif.CerrfCut
import Verif.CerrfCheck
import Verif.CerrfNear
import Verif.Props.Cerrf
import Verif.Props.Switches
import Verif.QGauss
import Verif.QGaussModel
import Verif.QGaussReal
import Verif.Props.QGauss
import Verif.PowInt
import Verif.Props.PowInt
import Verif.FieldKick
import Verif.Props.FieldKicks
import Verif.BeamLine
import Verif.BeamLineLemmas
import Verif.Props.BeamLine
import Verif.BeamObjects
import Verif.BeamObjectsLemmas
import Verif.Props.LineDensityObject
import Verif.Props.BeamObjectCopy
import Verif.Buffer.RemapAny
import Verif.Props.RemapChecks
import Verif.Buffer.Str
import Verif.Buffer.StrLemmas
import Verif.Props.StringObject
import Verif.Buffer.ApplyGarbage
import Verif.Props.AddrOffset
import Verif.Output
import Verif.OutputLemmas
import Verif.Props.Output
import Verif.TrackJob
import Verif.TrackJobLemmas
import Verif.Props.TrackJob
import Verif.ParticleSets
import Verif.ParticleSetsLemmas
import Verif.Props.ParticleSets
import Verif.ParticlesAddr
import Verif.ParticlesAddrLemmas
import Verif.Props.ParticlesAddr
import Verif.JobTrack
import Verif.JobTrackLemmas
import Verif.TrackDebugLemmas
import Verif.WorkItems
import Verif.Props.JobTrack
import Verif.Props.TrackDebug
import Verif.Props.WorkItems
import Verif.NodeController
import Verif.NodeControllerLemmas
import Verif.Props.NodeController
import Verif.TrackOpt
import Verif.TrackOptLemmas
import Verif.Props.TrackOpt
import Verif.Argument
import Verif.ArgumentLemmas
import Verif.Props.Argument
import Verif.KernelList
import Verif.KernelListLemmas
import Verif.Props.KernelList
import Verif.Compare
import Verif.CompareLemmas
import Verif.Props.Compare
import Verif.CompareParticles
import Verif.CompareParticlesLemmas
import Verif.Props.CompareParticles
import Verif.CompareElements
import Verif.CompareElementsLemmas
import Verif.Props.CompareElements
import Verif.AssignList
import Verif.AssignListLemmas
import Verif.Props.AssignList
import Verif.StoredBuffers
import Verif.StoredBuffersLemmas
import Verif.Props.StoredBuffers
import Verif.JobCopy
import Verif.JobCopyLemmas
import Verif.JobCopyAssign
import Verif.Props.JobCopy
import Verif.OldJob
import Verif.Props.OldJob
import Verif.ClContext
import Verif.ClContextLemmas
import Verif.Props.ClContext
import Verif.Props.ClContextSelect
import Verif.ClRun
import Verif.Props.ClRun
import Verif.NodeInfo
import Verif.NodeInfoLemmas
import Verif.Props.NodeInfo
import Verif.Props.NodeInfoPrint
import Verif.ClNodes
import Verif.ClNodesLemmas
import Verif.Props.ClNodesList
import Verif.Props.ClNodes
import Verif.Props.ClNodesPrint
import Verif.ClArgument
import Verif.ClArgumentLemmas
import Verif.Props.ClArgument
import Verif.Props.ClArgumentMore
import Verif.Props.ClArgumentRaw
import Verif.Props.ClArgumentFail
import Verif.ClTrack
import Verif.ClTrackLemmas
import Verif.ClTrackCalls
import Verif.Props.ClTrackAssign
import Verif.Props.ClTrack
import Verif.Props.ClTrackMore
import Verif.Props.ClTrackAll
import Verif.ClTrackNew
import Verif.ClTrackNewLemmas
import Verif.ClTrackStock
import Verif.Props.ClTrackNew
import Verif.Props.ClTrackMade
import Verif.Props.ClTrackFail
import Verif.Props.ClTrackSelect
import Verif.Props.ClTrackToggle
import Verif.ClJob
import Verif.ClJobLemmas
import Verif.Props.ClJob
import Verif.Props.ClJobPrepare
import Verif.Props.ClJobReset
import Verif.Props.ClJobOutput
import Verif.Props.ClTrackKernels
import Verif.ClJobIo
import Verif.ClJobIoLemmas
import Verif.Props.ClJobIo
import Verif.Props.ClJobIoMore
import Verif.ClJobAddr
import Verif.Props.ClJobAddr
import Verif.Props.ClJobNoNode
import Verif.StrObj
import Verif.Props.StrObj
import Verif.Props.StrObjMore
import Verif.CudaGrid
import Verif.Props.CudaGrid
import Verif.Props.CudaGridMore
import Verif.CudaLaunch
import Verif.Props.CudaLaunch
import Verif.Props.CudaLaunchMore
import Verif.CudaInit
import Verif.CudaInitLemmas
import Verif.Props.CudaInit
import Verif.Props.CudaInitMore
import Verif.Props.CudaLaunchTight
import Verif.CudaStore
import Verif.CudaStoreLemmas
import Verif.Props.CudaStore
import Verif.CudaRemap
import Verif.Props.CudaRemap
import Verif.ElementAt
import Verif.Props.ElementAt
