import Verif.Model.Element
import Verif.Model.Hash
import Verif.Model.Fs
import Verif.Model.Store
import Verif.Model.LevelCache
import Verif.Model.Merkle
import Verif.Model.MmapStore
import Verif.Model.DiskStore
import Verif.Model.VecStore
import Verif.Model.Proof
import Verif.Model.Res
import Verif.Model.Sizing
import Verif.Spec.Sizes
import Verif.Spec.Tree
import Verif.Lemmas.Bytes
import Verif.Lemmas.M
import Verif.Lemmas.RunSteps
import Verif.Lemmas.Tree
import Verif.Lemmas.StoreLaws
import Verif.Lemmas.FileStore
import Verif.Lemmas.DiskBuild
import Verif.Lemmas.Populate
import Verif.Lemmas.Construct
import Verif.Lemmas.Constructors
import Verif.Lemmas.Reject
import Verif.Lemmas.Iterators
import Verif.Lemmas.LevelCacheTree
import Verif.Lemmas.ArityOne
import Verif.Spec.Source
import Verif.Lemmas.Sources
import Verif.Spec.Ideal
import Verif.Lemmas.Res
import Verif.Lemmas.Sizing
import Verif.Spec.Proof
import Verif.Lemmas.Proof
import Verif.Spec.ProofTranscript
import Verif.Lemmas.ProofSound
import Verif.Lemmas.ProofCompound
import Verif.Spec.Toy
import Verif.Props.Sizing
import Verif.Props.ProofSound
import Verif.Props.Construct
import Verif.Spec.Honest
import Verif.Lemmas.ProofGen
import Verif.Lemmas.Compound
import Verif.Spec.Compound
import Verif.Props.ProofComplete
import Verif.Props.Compound
import Verif.Spec.Array
import Verif.Lemmas.StoreArray
import Verif.Lemmas.RangeReads
import Verif.Lemmas.TreeSlice
import Verif.Props.Stores
import Verif.Props.TreeSlice
import Verif.Spec.Compaction
import Verif.Lemmas.Compact
import Verif.Lemmas.Compacted
import Verif.Props.Compact
import Verif.Lemmas.LevelView
import Verif.Lemmas.LevelWrites
import Verif.Lemmas.Replica
import Verif.Props.LevelCache
import Verif.Lemmas.CachedProof
import Verif.Spec.CachedProof
import Verif.Lemmas.CachedTrees
import Verif.Props.CachedProof
import Verif.Lemmas.CacheSize
import Verif.Props.Consistency
import Verif.Lemmas.CachedInv
import Verif.Props.CachedAltered
import Verif.Spec.Reopen
import Verif.Spec.Files
import Verif.Lemmas.Reopen
import Verif.Lemmas.Paths
import Verif.Lemmas.Confined
import Verif.Lemmas.Interrupted
import Verif.Props.Reopen
import Verif.Props.Files
import Verif.Props.Interrupted
import Verif.Spec.Crash
import Verif.Lemmas.Crash
import Verif.Props.CompactCrash
import Verif.Model.ParIter
import Verif.Spec.Deque
import Verif.Lemmas.ParIter
import Verif.Props.ParIter
import Verif.Model.Hashable
import Verif.Spec.Encoding
import Verif.Spec.Digest
import Verif.Lemmas.Encoding
import Verif.Lemmas.Digest
import Verif.Lemmas.HasherState
import Verif.Props.Digest
import Verif.Props.HasherState
import Verif.Props.Encoding
import Verif.Model.Sizing64
import Verif.Lemmas.Sizing64
import Verif.Props.Sizing64
import Verif.Props.TreeSliceCache
import Verif.Spec.Parts
import Verif.Lemmas.Parts
import Verif.Lemmas.PartsBuild
import Verif.Props.Parts
import Verif.Props.Lifecycle
import Verif.Props.ProofTotal
import Verif.Tests.Sha256
import Verif.Tests.Common
import Verif.Tests.Arities
import Verif.Tests.Constructors
import Verif.Tests.LevelCache
import Verif.Tests.Legacy
import Verif.Props.FloatRows
import Verif.Spec.Shape
import Verif.Spec.Walk
import Verif.Lemmas.Shape
import Verif.Lemmas.Walk
import Verif.Props.RootBinding
import Verif.Lemmas.DataTree
import Verif.Spec.DataTree
import Verif.Props.DataBinding
import Verif.Spec.ProofEdit
import Verif.Lemmas.ProofEdit
import Verif.Props.ProofEdit
import Verif.Props.ProofInTree
import Verif.Lemmas.Heights
import Verif.Props.Heights
import Verif.Props.Deref
import Verif.Spec.Runs
import Verif.Lemmas.LevelRuns
import Verif.Props.LevelRuns
import Verif.Props.FromStore
import Verif.Props.FromBytes
import Verif.Props.RefusedReads
import Verif.Props.LevelWrites
import Verif.Lemmas.LevelFresh
import Verif.Lemmas.LevelProof
import Verif.Props.LevelProof
import Verif.Props.LevelFresh
import Verif.Spec.Archive
import Verif.Lemmas.Archive
import Verif.Props.Archive
import Verif.Model.TreeStore
import Verif.Props.TreeStore
import Verif.Model.Offsets64
import Verif.Lemmas.Offsets64
import Verif.Props.Offsets64
import Verif.Spec.MayFail
import Verif.Lemmas.MayFail
import Verif.Lemmas.Faulty
import Verif.Props.MayFail
import Verif.Model.Flaky
import Verif.Spec.Torn
import Verif.Lemmas.Flaky
import Verif.Lemmas.FlakyOk
import Verif.Lemmas.FlakyLayers
import Verif.Lemmas.FlakyQuiet
import Verif.Model.FlakyMmap
import Verif.Lemmas.FlakyMmap
import Verif.Props.Flaky
import Verif.Props.FlakyMmap
import Verif.Props.FailedCompact
import Verif.Lemmas.FailedBuild
import Verif.Props.FailedBuild
import Verif.Props.Reported
import Verif.Model.Build64
import Verif.Spec.Build64
import Verif.Lemmas.Build64
import Verif.Lemmas.Construct64
import Verif.Lemmas.Stores64
import Verif.Lemmas.Source64
import Verif.Props.Build64
import Verif.Props.Unsupported
import Verif.Model.Cached64
import Verif.Lemmas.Cached64
import Verif.Lemmas.Compound64
import Verif.Lemmas.CompoundBuild64
import Verif.Props.Cached64
import Verif.Props.Compound64
import Verif.Model.Racy
import Verif.Lemmas.Racy
import Verif.Lemmas.RacyBuild
import Verif.Props.Racy
import Verif.Lemmas.Stale
import Verif.Props.Stale
import Verif.Model.Unlink
import Verif.Lemmas.Steady
import Verif.Lemmas.Unlink
import Verif.Props.Unlink
import Verif.Spec.WholeTrees
import Verif.Lemmas.WholeTrees
import Verif.Props.WholeTrees
import Verif.Spec.Locality
import Verif.Lemmas.Locality
import Verif.Lemmas.Loaded
import Verif.Props.Locality
import Verif.Spec.Update
import Verif.Lemmas.Update
import Verif.Props.Update
import Verif.Props.UpdateCompound
import Verif.Lemmas.UpdateCompound
import Verif.Model.Proof64
import Verif.Spec.Proof64
import Verif.Lemmas.Proof64
import Verif.Props.Proof64
import Verif.Lemmas.CachedPath
import Verif.Props.CachedV1
import Verif.Props.WriteCompacted
import Verif.Props.FromBytesCache
import Verif.Props.PartsCache
import Verif.Spec.Replica
import Verif.Lemmas.ReplicaOpen
import Verif.Props.ReplicaOpen
import Verif.Model.Debug
import Verif.Props.Debug
import Verif.Spec.Hashed
import Verif.Lemmas.OwnProof
import Verif.Props.OwnProof
import Verif.Props.Loaded
import Verif.Lemmas.Ends
import Verif.Props.Ends
