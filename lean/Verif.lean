import Verif.Lib.Dist
import Verif.Lib.Exchange
import Verif.Lib.Mpi
import Verif.Lib.NdArray
import Verif.Lib.Np
import Verif.Lib.Overlay
import Verif.Lib.Scatter
import Verif.Model.Alltoallv
import Verif.Model.BinaryMapping
import Verif.Model.BincountOrder
import Verif.Model.CPeano
import Verif.Model.CollectiveIO
import Verif.Model.DtreesTable
import Verif.Model.EagleFilename
import Verif.Model.Errchk
import Verif.Model.FetchElements
import Verif.Model.FileCache
import Verif.Model.FilePresence
import Verif.Model.FindSplittingPoints
import Verif.Model.Formats
import Verif.Model.FormatsPlain
import Verif.Model.FortranPrograms
import Verif.Model.FortranReaders
import Verif.Model.FortranSort
import Verif.Model.GadgetSnapshot
import Verif.Model.GroupCatalogue
import Verif.Model.GroupCoords
import Verif.Model.GroupIndex
import Verif.Model.GroupLib
import Verif.Model.GroupSnapshot
import Verif.Model.HashDirs
import Verif.Model.HashSnapshot
import Verif.Model.Hdf5Data
import Verif.Model.Hdf5Files
import Verif.Model.Hdf5Instances
import Verif.Model.Hdf5Lib
import Verif.Model.Hdf5Lists
import Verif.Model.Hdf5Parts
import Verif.Model.Hdf5TestPrograms
import Verif.Model.IdlReaders
import Verif.Model.IdlTables
import Verif.Model.IndexTrees
import Verif.Model.MakeDtreesTable
import Verif.Model.MassFunction
import Verif.Model.Match
import Verif.Model.MatchNan
import Verif.Model.MergerTree
import Verif.Model.MpiUtil
import Verif.Model.Mr7Scripts
import Verif.Model.MultiFile
import Verif.Model.MultiFileInit
import Verif.Model.MultiFileRead
import Verif.Model.MultiFileWrite
import Verif.Model.ParallelHdf5Tests
import Verif.Model.ParallelMatch
import Verif.Model.ParallelSort
import Verif.Model.ParallelUnique
import Verif.Model.PartialFormatter
import Verif.Model.Peano
import Verif.Model.Profiles
import Verif.Model.PythonPrograms
import Verif.Model.Ranges
import Verif.Model.ReadBinary
import Verif.Model.ReadMulti
import Verif.Model.ReadParticles
import Verif.Model.ReadRegion
import Verif.Model.ReduceElements
import Verif.Model.Repartition
import Verif.Model.RoundedCentre
import Verif.Model.RoundedKeys
import Verif.Model.RoundedRegion
import Verif.Model.RoundedSphere
import Verif.Model.RoundedSplit
import Verif.Model.SanityChecks
import Verif.Model.ShowGroup
import Verif.Model.SimWrappers
import Verif.Model.SnapshotPaths
import Verif.Model.SnapshotPrograms
import Verif.Model.SortNan
import Verif.Model.SortTests
import Verif.Model.Spectrum
import Verif.Model.SphericalRegion
import Verif.Model.Strided
import Verif.Model.SubhaloCatalogue
import Verif.Model.SubstituteFileNr
import Verif.Model.SwiftUnits
import Verif.Model.SwiftWrapper
import Verif.Model.TreeMass
import Verif.Model.UniqueNan
import Verif.Model.UtilTests
import Verif.Model.Velociraptor
import Verif.Model.WeightedMedian
import Verif.Model.WrappedText
import Verif.Model.WriteHdf5
import Verif.Proofs.Alltoallv
import Verif.Proofs.AlltoallvAsync
import Verif.Proofs.AlltoallvFlat
import Verif.Proofs.BinaryMapping
import Verif.Proofs.Bincount
import Verif.Proofs.CPeano
import Verif.Proofs.CollectiveIO
import Verif.Proofs.CoordAll
import Verif.Proofs.CoordCells
import Verif.Proofs.CoordLoops
import Verif.Proofs.CoordMatch
import Verif.Proofs.Double
import Verif.Proofs.DtreesTable
import Verif.Proofs.EagleFilename
import Verif.Proofs.FetchElements
import Verif.Proofs.FetchInvalid
import Verif.Proofs.FilePresence
import Verif.Proofs.FindSplittingPoints
import Verif.Proofs.FloatBits
import Verif.Proofs.Formats
import Verif.Proofs.FormatsPlain
import Verif.Proofs.FormatsTree
import Verif.Proofs.FortranPrograms
import Verif.Proofs.FortranReaders
import Verif.Proofs.FortranRegion
import Verif.Proofs.FortranSort
import Verif.Proofs.FspLog
import Verif.Proofs.GadgetSnapshot
import Verif.Proofs.GroupCatalogue
import Verif.Proofs.GroupCoords
import Verif.Proofs.GroupIndex
import Verif.Proofs.GroupLib
import Verif.Proofs.GroupSnapshot
import Verif.Proofs.GroupTabs
import Verif.Proofs.HashCells
import Verif.Proofs.HashDirs
import Verif.Proofs.HashSnapshot
import Verif.Proofs.HashStore
import Verif.Proofs.HashTab
import Verif.Proofs.Hdf5Data
import Verif.Proofs.Hdf5Files
import Verif.Proofs.Hdf5Groups
import Verif.Proofs.Hdf5Instances
import Verif.Proofs.Hdf5Parts
import Verif.Proofs.Hdf5Persist
import Verif.Proofs.Hdf5Table
import Verif.Proofs.Hdf5TestPrograms
import Verif.Proofs.Hdf5Write
import Verif.Proofs.IdlPotential
import Verif.Proofs.IdlReaders
import Verif.Proofs.IdlSnapshots
import Verif.Proofs.IdlTrees
import Verif.Proofs.IndexTrees
import Verif.Proofs.IndexTreesRanges
import Verif.Proofs.MakeDtreesTable
import Verif.Proofs.Match
import Verif.Proofs.MatchNan
import Verif.Proofs.MergerTree
import Verif.Proofs.MpiUtil
import Verif.Proofs.MultiFile
import Verif.Proofs.MultiFileRead
import Verif.Proofs.MultiFileWrite
import Verif.Proofs.MultiFileWriteAll
import Verif.Proofs.MxxlField
import Verif.Proofs.ParallelHdf5Tests
import Verif.Proofs.ParallelMatch
import Verif.Proofs.ParallelSort
import Verif.Proofs.ParallelUnique
import Verif.Proofs.PartialFormatter
import Verif.Proofs.Peano
import Verif.Proofs.PeanoBlocks
import Verif.Proofs.PeanoLoop
import Verif.Proofs.Profiles
import Verif.Proofs.PythonPrograms
import Verif.Proofs.Ranges
import Verif.Proofs.ReadBinary
import Verif.Proofs.ReadBinaryAttrs
import Verif.Proofs.ReadBinaryNames
import Verif.Proofs.ReadParticles
import Verif.Proofs.ReadRegion
import Verif.Proofs.ReduceElements
import Verif.Proofs.ReduceOrder
import Verif.Proofs.Repartition
import Verif.Proofs.RoundedLog
import Verif.Proofs.RoundedMedian
import Verif.Proofs.RoundedSplit
import Verif.Proofs.SanityChecks
import Verif.Proofs.SimWrappers
import Verif.Proofs.SnapCheck
import Verif.Proofs.SnapshotPrograms
import Verif.Proofs.SnapshotProgramsHdf5
import Verif.Proofs.SortNan
import Verif.Proofs.SortTests
import Verif.Proofs.Spectrum
import Verif.Proofs.SphericalRegion
import Verif.Proofs.Strided
import Verif.Proofs.SubstituteFileNr
import Verif.Proofs.SumRanges
import Verif.Proofs.SwiftWrapper
import Verif.Proofs.TreeMass
import Verif.Proofs.UtilTests
import Verif.Proofs.Velociraptor
import Verif.Proofs.WeightedMedian
import Verif.Proofs.WrappedText
import Verif.Proofs.WriteHdf5
import Verif.Props.Alltoallv
import Verif.Props.BinaryMapping
import Verif.Props.CPeano
import Verif.Props.CollectiveIO
import Verif.Props.Decode
import Verif.Props.DtreesTable
import Verif.Props.EagleFilename
import Verif.Props.Errchk
import Verif.Props.FetchElements
import Verif.Props.FileCache
import Verif.Props.FilePresence
import Verif.Props.FilePresenceCases
import Verif.Props.FindSplittingPoints
import Verif.Props.Formats
import Verif.Props.FormatsCases
import Verif.Props.FormatsPlain
import Verif.Props.FormatsPlainCases
import Verif.Props.FortranPrograms
import Verif.Props.FortranReaders
import Verif.Props.FortranRecord
import Verif.Props.FortranRegion
import Verif.Props.FortranSort
import Verif.Props.GadgetSnapshot
import Verif.Props.GroupCatalogue
import Verif.Props.GroupCatalogueCases
import Verif.Props.GroupCoords
import Verif.Props.GroupIndex
import Verif.Props.GroupLib
import Verif.Props.GroupSnapshot
import Verif.Props.HashDirs
import Verif.Props.HashSnapshot
import Verif.Props.Hdf5Files
import Verif.Props.Hdf5Groups
import Verif.Props.Hdf5Instances
import Verif.Props.Hdf5Lists
import Verif.Props.Hdf5Parts
import Verif.Props.Hdf5Persist
import Verif.Props.Hdf5Read
import Verif.Props.Hdf5TestPrograms
import Verif.Props.Hdf5Write
import Verif.Props.IdlReaders
import Verif.Props.IdlTables
import Verif.Props.IndexTrees
import Verif.Props.MainProgenitor
import Verif.Props.MakeDtreesTable
import Verif.Props.MakeDtreesTableCases
import Verif.Props.MassFunction
import Verif.Props.Match
import Verif.Props.MatchNan
import Verif.Props.MergerTree
import Verif.Props.MpiUtil
import Verif.Props.Mr7Scripts
import Verif.Props.MultiFile
import Verif.Props.MultiFileInit
import Verif.Props.MultiFileRead
import Verif.Props.MultiFileWriteAll
import Verif.Props.ParallelHdf5Tests
import Verif.Props.ParallelMatch
import Verif.Props.ParallelSort
import Verif.Props.ParallelUnique
import Verif.Props.PartialFormatter
import Verif.Props.Peano
import Verif.Props.Profiles
import Verif.Props.PythonPrograms
import Verif.Props.Ranges
import Verif.Props.ReadBinary
import Verif.Props.ReadBinaryAttrs
import Verif.Props.ReadBinaryNames
import Verif.Props.ReadMulti
import Verif.Props.ReadParticles
import Verif.Props.ReadRegion
import Verif.Props.ReduceElements
import Verif.Props.ReduceOrder
import Verif.Props.Repartition
import Verif.Props.RoundedCentre
import Verif.Props.RoundedKeys
import Verif.Props.RoundedRegion
import Verif.Props.RoundedSphere
import Verif.Props.RoundedSplit
import Verif.Props.SanityChecks
import Verif.Props.ShowGroup
import Verif.Props.SimWrappers
import Verif.Props.SnapshotPaths
import Verif.Props.SnapshotPrograms
import Verif.Props.SnapshotProgramsHdf5
import Verif.Props.SortNan
import Verif.Props.SortTests
import Verif.Props.SortTests2
import Verif.Props.Spectrum
import Verif.Props.SphericalRegion
import Verif.Props.Strided
import Verif.Props.SubhaloCatalogue
import Verif.Props.SubstituteFileNr
import Verif.Props.SubstituteFileNrCases
import Verif.Props.SwiftUnits
import Verif.Props.SwiftWrapper
import Verif.Props.TreeMass
import Verif.Props.UniqueNan
import Verif.Props.UtilTests
import Verif.Props.Velociraptor
import Verif.Props.WeightedMedian
import Verif.Props.WrappedText
import Verif.Props.WriteBinary
import Verif.Props.WriteHdf5
import Verif.Spec.BinaryMapping
import Verif.Spec.Double
import Verif.Spec.DtreesTable
import Verif.Spec.EagleFilename
import Verif.Spec.FetchElements
import Verif.Spec.FilePresence
import Verif.Spec.FloatBits
import Verif.Spec.FormatLayouts
import Verif.Spec.Formats
import Verif.Spec.FormatsPlain
import Verif.Spec.FortranPrograms
import Verif.Spec.FortranReaders
import Verif.Spec.FortranSort
import Verif.Spec.GadgetSnapshot
import Verif.Spec.GatherArray
import Verif.Spec.GroupCatalogue
import Verif.Spec.GroupCoords
import Verif.Spec.GroupIndex
import Verif.Spec.GroupLib
import Verif.Spec.GroupSnapshot
import Verif.Spec.HashDirs
import Verif.Spec.HashSnapshot
import Verif.Spec.Hdf5Data
import Verif.Spec.Hdf5Files
import Verif.Spec.Hdf5Instances
import Verif.Spec.Hdf5Parts
import Verif.Spec.Hdf5Persist
import Verif.Spec.Hdf5TestPrograms
import Verif.Spec.IdlReaders
import Verif.Spec.IdlTables
import Verif.Spec.IndexTrees
import Verif.Spec.MakeDtreesTable
import Verif.Spec.MassFunction
import Verif.Spec.MergerTree
import Verif.Spec.MultiFile
import Verif.Spec.MultiFileRead
import Verif.Spec.MultiFileWrite
import Verif.Spec.PartialFormatter
import Verif.Spec.Profiles
import Verif.Spec.PythonPrograms
import Verif.Spec.Ranges
import Verif.Spec.ReadBinary
import Verif.Spec.ReadParticles
import Verif.Spec.ReadRegion
import Verif.Spec.SanityChecks
import Verif.Spec.ShowGroup
import Verif.Spec.SimWrappers
import Verif.Spec.SnapshotPrograms
import Verif.Spec.SnapshotProgramsHdf5
import Verif.Spec.Spectrum
import Verif.Spec.SphericalRegion
import Verif.Spec.Strided
import Verif.Spec.SubhaloCatalogue
import Verif.Spec.SubstituteFileNr
import Verif.Spec.SwiftUnits
import Verif.Spec.SwiftWrapper
import Verif.Spec.TreeMass
import Verif.Spec.UtilTests
import Verif.Spec.Velociraptor
import Verif.Spec.WeightedMedian
import Verif.Spec.WrappedText
import Verif.Spec.WriteHdf5
