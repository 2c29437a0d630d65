import Verif.Lemmas.Accumulates
import Verif.Lemmas.Act
import Verif.Lemmas.AllData
import Verif.Lemmas.Archive
import Verif.Lemmas.BackendArrays
import Verif.Lemmas.BackendInstances
import Verif.Lemmas.BackendLabels
import Verif.Lemmas.BackendMerge
import Verif.Lemmas.BackendSizes
import Verif.Lemmas.BackendTensor
import Verif.Lemmas.Blocks
import Verif.Lemmas.Broadcast
import Verif.Lemmas.BroadcastOutcome
import Verif.Lemmas.CHeap
import Verif.Lemmas.CLabels
import Verif.Lemmas.CMemory
import Verif.Lemmas.CResults
import Verif.Lemmas.Callbacks
import Verif.Lemmas.Calls
import Verif.Lemmas.CallsBlocks
import Verif.Lemmas.CallsModify
import Verif.Lemmas.CallsTensors
import Verif.Lemmas.Components
import Verif.Lemmas.ComponentsData
import Verif.Lemmas.ComponentsOutcome
import Verif.Lemmas.ComponentsRearranged
import Verif.Lemmas.Concrete
import Verif.Lemmas.Damaged
import Verif.Lemmas.DataLifetimes
import Verif.Lemmas.Declarations
import Verif.Lemmas.FirstAppearances
import Verif.Lemmas.Flags
import Verif.Lemmas.Groups
import Verif.Lemmas.Handles
import Verif.Lemmas.HashOrder
import Verif.Lemmas.Interrupted
import Verif.Lemmas.KeysToProperties
import Verif.Lemmas.KeysToSamples
import Verif.Lemmas.Labels
import Verif.Lemmas.LabelsMemory
import Verif.Lemmas.Layout
import Verif.Lemmas.Lifetimes
import Verif.Lemmas.LifetimesCalls
import Verif.Lemmas.Load
import Verif.Lemmas.LoadRequires
import Verif.Lemmas.Loaded
import Verif.Lemmas.MergeBlock
import Verif.Lemmas.MergeGradients
import Verif.Lemmas.MergeOutcome
import Verif.Lemmas.MergeRows
import Verif.Lemmas.MergeSamples
import Verif.Lemmas.MergeSpec
import Verif.Lemmas.MergeTensor
import Verif.Lemmas.MergedBlock
import Verif.Lemmas.Mixed
import Verif.Lemmas.MoveOutcome
import Verif.Lemmas.Moved
import Verif.Lemmas.MovedBoth
import Verif.Lemmas.MovedBothOutcome
import Verif.Lemmas.MovedBothSame
import Verif.Lemmas.MovedComponents
import Verif.Lemmas.MovedFits
import Verif.Lemmas.MovedOutcome
import Verif.Lemmas.MovedProperties
import Verif.Lemmas.MovedPropertiesOrder
import Verif.Lemmas.MovedPropertiesOutcome
import Verif.Lemmas.MovedPropertiesTwice
import Verif.Lemmas.MovedTwice
import Verif.Lemmas.NamesMemory
import Verif.Lemmas.NdArray
import Verif.Lemmas.NoPanic
import Verif.Lemmas.Npy
import Verif.Lemmas.NpyFiles
import Verif.Lemmas.NpyValues
import Verif.Lemmas.Numpy
import Verif.Lemmas.NumpyCompat
import Verif.Lemmas.NumpyIo
import Verif.Lemmas.NumpyLayout
import Verif.Lemmas.NumpyLoad
import Verif.Lemmas.NumpySave
import Verif.Lemmas.NumpyTypes
import Verif.Lemmas.NumpyView
import Verif.Lemmas.OriginThreads
import Verif.Lemmas.Ownership
import Verif.Lemmas.PartOrder
import Verif.Lemmas.Paths
import Verif.Lemmas.Pieces
import Verif.Lemmas.Provenance
import Verif.Lemmas.PyCalls
import Verif.Lemmas.PyChanges
import Verif.Lemmas.PyGrows
import Verif.Lemmas.PyIndexing
import Verif.Lemmas.PyLabels
import Verif.Lemmas.PyLibrary
import Verif.Lemmas.PyLiteral
import Verif.Lemmas.PyMoves
import Verif.Lemmas.PyObjects
import Verif.Lemmas.PyOrigins
import Verif.Lemmas.PyPrint
import Verif.Lemmas.PyStatements
import Verif.Lemmas.PyStatus
import Verif.Lemmas.PyViews
import Verif.Lemmas.Res
import Verif.Lemmas.Rows
import Verif.Lemmas.RustArrays
import Verif.Lemmas.SameCallbacks
import Verif.Lemmas.SaveData
import Verif.Lemmas.SaveOutcome
import Verif.Lemmas.Sources
import Verif.Lemmas.Streams
import Verif.Lemmas.Strided
import Verif.Lemmas.SubArrays
import Verif.Lemmas.Tensor
import Verif.Lemmas.Writer
import Verif.Model.Access
import Verif.Model.Act
import Verif.Model.Archive
import Verif.Model.Blocks
import Verif.Model.BuildScript
import Verif.Model.Bytes
import Verif.Model.CBlocks
import Verif.Model.CBuffers
import Verif.Model.CHeap
import Verif.Model.CLabels
import Verif.Model.CMakeBuild
import Verif.Model.CMemory
import Verif.Model.COrigins
import Verif.Model.CRustArray
import Verif.Model.CSlices
import Verif.Model.CStatus
import Verif.Model.Data
import Verif.Model.Declarations
import Verif.Model.DeclarationsOfEquistore
import Verif.Model.Files
import Verif.Model.FindPackage
import Verif.Model.Iter
import Verif.Model.Iterators
import Verif.Model.KeysToProperties
import Verif.Model.KeysToSamples
import Verif.Model.LabelValue
import Verif.Model.Labels
import Verif.Model.LabelsMemory
import Verif.Model.LabelsPrint
import Verif.Model.Mixed
import Verif.Model.NamesMemory
import Verif.Model.NoSerialization
import Verif.Model.Npy
import Verif.Model.NpyHeader
import Verif.Model.Numpy
import Verif.Model.NumpyIo
import Verif.Model.NumpyTypes
import Verif.Model.NumpyView
import Verif.Model.OriginThreads
import Verif.Model.PanicHook
import Verif.Model.PyArrays
import Verif.Model.PyBlock
import Verif.Model.PyFiles
import Verif.Model.PyFragment
import Verif.Model.PyLabels
import Verif.Model.PyLibrary
import Verif.Model.PyLinks
import Verif.Model.PyLiteral
import Verif.Model.PyMove
import Verif.Model.PyObjects
import Verif.Model.PyOrigins
import Verif.Model.PyPointers
import Verif.Model.PyPrint
import Verif.Model.PyPrintBlock
import Verif.Model.PySelection
import Verif.Model.PyStatus
import Verif.Model.PyTensor
import Verif.Model.PyViews
import Verif.Model.PyWrapper
import Verif.Model.Res
import Verif.Model.RustArrays
import Verif.Model.RustCallbacks
import Verif.Model.Strided
import Verif.Model.Tensor
import Verif.Model.Torch
import Verif.Model.Version
import Verif.Props.Access
import Verif.Props.Archive
import Verif.Props.Backend
import Verif.Props.BackendSizes
import Verif.Props.Blocks
import Verif.Props.Broadcast
import Verif.Props.BuildScript
import Verif.Props.CBlocks
import Verif.Props.CBuffers
import Verif.Props.CLabels
import Verif.Props.CMakeBuild
import Verif.Props.COrigins
import Verif.Props.CResults
import Verif.Props.CRustArray
import Verif.Props.CSlices
import Verif.Props.CStatus
import Verif.Props.Callbacks
import Verif.Props.Components
import Verif.Props.ComponentsExact
import Verif.Props.Damaged
import Verif.Props.DataLifetimes
import Verif.Props.Declarations
import Verif.Props.Files
import Verif.Props.FindPackage
import Verif.Props.Iterators
import Verif.Props.KeysToProperties
import Verif.Props.KeysToSamples
import Verif.Props.LabelValue
import Verif.Props.Labels
import Verif.Props.LabelsMemory
import Verif.Props.LabelsPrint
import Verif.Props.Layout
import Verif.Props.Lifetimes
import Verif.Props.Loaded
import Verif.Props.Mixed
import Verif.Props.MovedBoth
import Verif.Props.MovedComponents
import Verif.Props.MovedProperties
import Verif.Props.MovedTwice
import Verif.Props.NamesMemory
import Verif.Props.NoSerialization
import Verif.Props.Npy
import Verif.Props.NumpyIo
import Verif.Props.NumpyTypes
import Verif.Props.NumpyView
import Verif.Props.OriginThreads
import Verif.Props.Origins
import Verif.Props.Outcome
import Verif.Props.OutcomeSizes
import Verif.Props.Ownership
import Verif.Props.PanicHook
import Verif.Props.PyArrays
import Verif.Props.PyBlock
import Verif.Props.PyFiles
import Verif.Props.PyIndexing
import Verif.Props.PyLabels
import Verif.Props.PyLibrary
import Verif.Props.PyLibraryInstalled
import Verif.Props.PyLinks
import Verif.Props.PyMove
import Verif.Props.PyOrigins
import Verif.Props.PyPointers
import Verif.Props.PyPositions
import Verif.Props.PyPrint
import Verif.Props.PyPrintBlock
import Verif.Props.PySelection
import Verif.Props.PyStatus
import Verif.Props.PyTensor
import Verif.Props.PyViews
import Verif.Props.PyWrapper
import Verif.Props.Python
import Verif.Props.Reachable
import Verif.Props.ReadOnly
import Verif.Props.ReleaseGradients
import Verif.Props.RustArrays
import Verif.Props.RustCallbacks
import Verif.Props.Tensor
import Verif.Props.Torch
import Verif.Props.Version
import Verif.Spec.Access
import Verif.Spec.Archive
import Verif.Spec.Backend
import Verif.Spec.Blocks
import Verif.Spec.BuildScript
import Verif.Spec.CApi
import Verif.Spec.CMakeBuild
import Verif.Spec.CResults
import Verif.Spec.CRustArray
import Verif.Spec.CSlices
import Verif.Spec.Callbacks
import Verif.Spec.Components
import Verif.Spec.ComponentsExact
import Verif.Spec.Damaged
import Verif.Spec.DataLifetimes
import Verif.Spec.Declarations
import Verif.Spec.Files
import Verif.Spec.FindPackage
import Verif.Spec.History
import Verif.Spec.Io
import Verif.Spec.Iterators
import Verif.Spec.LabelValue
import Verif.Spec.Labels
import Verif.Spec.LabelsMemory
import Verif.Spec.LabelsPrint
import Verif.Spec.Layout
import Verif.Spec.Lifetimes
import Verif.Spec.Loaded
import Verif.Spec.LongHeader
import Verif.Spec.Merge
import Verif.Spec.Mixed
import Verif.Spec.Moved
import Verif.Spec.MovedBoth
import Verif.Spec.MovedProperties
import Verif.Spec.NamesMemory
import Verif.Spec.NumpyIo
import Verif.Spec.NumpyTypes
import Verif.Spec.NumpyView
import Verif.Spec.OriginThreads
import Verif.Spec.Outcome
import Verif.Spec.Ownership
import Verif.Spec.PanicHook
import Verif.Spec.PyArrays
import Verif.Spec.PyBlock
import Verif.Spec.PyFiles
import Verif.Spec.PyIndexing
import Verif.Spec.PyLabels
import Verif.Spec.PyLibrary
import Verif.Spec.PyMove
import Verif.Spec.PyOrigins
import Verif.Spec.PyPrint
import Verif.Spec.PyPrintBlock
import Verif.Spec.PySelection
import Verif.Spec.PyStatus
import Verif.Spec.PyTensor
import Verif.Spec.PyViews
import Verif.Spec.PyWrapper
import Verif.Spec.Python
import Verif.Spec.ReadOnly
import Verif.Spec.RustArrays
import Verif.Spec.RustCallbacks
import Verif.Spec.Tensor
import Verif.Spec.Torch
import Verif.Spec.Version
