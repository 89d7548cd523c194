import Verif.Model.Poseidon
import Verif.Model.Gmimc
import Verif.Model.Neptune
import Verif.Model.Merkle
import Verif.Theorems.Poseidon2
import Verif.Theorems.Utils
import Verif.Theorems.Poseidon
import Verif.Theorems.Gmimc
import Verif.Theorems.Neptune
import Verif.Theorems.Overflow
import Verif.Theorems.Merkle
import Verif.Theorems.Fields
import Verif.Theorems.Compress
import Verif.Theorems.Invertible
import Verif.Theorems.FieldParams
import Verif.Theorems.Poseidon2Instances
import Verif.Theorems.PoseidonInstances
import Verif.Theorems.NeptuneNew
import Verif.Theorems.PoseidonBranch
import Verif.Theorems.Poseidon2Branch
import Verif.Theorems.NeptuneBranch
import Verif.Theorems.ShippedOther
import Verif.Theorems.Poseidon2Subspace
import Verif.Theorems.Activity
import Verif.Theorems.ScriptOutput
import Verif.Theorems.RoundNumbers
import Verif.Theorems.ScriptPrint
import Verif.Theorems.ScriptEquiv
import Verif.Theorems.SelfTests
import Verif.Theorems.ScriptAny
import Verif.Tests.Kats
import Verif.Theorems.PoseidonScript
import Verif.Theorems.Trail
import Verif.Theorems.RoundFormulas
import Verif.Theorems.MerklePath
import Verif.Theorems.MerkleBinding
import Verif.Theorems.Statics
import Verif.Theorems.StaticsFresh
import Verif.Theorems.Process
import Verif.Theorems.GmimcTrail
import Verif.Theorems.NeptuneTrail
import Verif.Theorems.Malformed
import Verif.Theorems.R1CS
import Verif.Theorems.Degree
import Verif.Theorems.DegreeExact
import Verif.Theorems.ScriptText
import Verif.Theorems.NeptuneCount
import Verif.Theorems.PoseidonRagged
import Verif.Theorems.Client
import Verif.Theorems.NeptuneWide
import Verif.Theorems.NeptuneDegree
import Verif.Theorems.World
import Verif.Theorems.ScriptSmall
import Verif.Theorems.ScriptListing
import Verif.Theorems.Universal
import Verif.Theorems.LastRound
import Verif.Theorems.NeptuneLast
import Verif.Theorems.Uniform
import Verif.Theorems.CompressCount
import Verif.Theorems.TwoProcesses
import Verif.Theorems.EquivRagged
import Verif.Theorems.SparseLayers
import Verif.Spec.MerkleAppend
import Verif.Theorems.MerkleAppend
import Verif.Theorems.Balanced
import Verif.Spec.Lines
import Verif.Proofs.Lines
import Verif.Theorems.Lines
import Verif.Spec.Directions
import Verif.Proofs.Directions
import Verif.Theorems.Directions
import Verif.Model.Net
import Verif.Proofs.Net
import Verif.Theorems.Net
import Verif.Spec.Agreement
import Verif.Proofs.Agreement
import Verif.Theorems.Agreement
