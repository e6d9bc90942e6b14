import Verif.Model.Arith
import Verif.Model.Binary
import Verif.Model.Blake2b
import Verif.Model.Careful
import Verif.Model.Codec
import Verif.Model.Consensus
import Verif.Model.Conversion
import Verif.Model.Debug
import Verif.Model.Declarations
import Verif.Model.Derive
import Verif.Model.Ed25519
import Verif.Model.English
import Verif.Model.Formats
import Verif.Model.Hashing
import Verif.Model.Helpers
import Verif.Model.Interrupt
import Verif.Model.Json
import Verif.Model.JsonText
import Verif.Model.JsonValue
import Verif.Model.JsonWidth
import Verif.Model.Memory
import Verif.Model.Mended
import Verif.Model.Merkle
import Verif.Model.Network
import Verif.Model.Number
import Verif.Model.Policy
import Verif.Model.Prim
import Verif.Model.Reader
import Verif.Model.Resolution
import Verif.Model.Rfc3339
import Verif.Model.Rhp
import Verif.Model.Serde
import Verif.Model.Sha2
import Verif.Model.Signing
import Verif.Model.Streaming
import Verif.Model.Tax
import Verif.Model.Text
import Verif.Model.Types
import Verif.Model.V2
import Verif.Model.Width
import Verif.Model.Writer
import Verif.Spec.Accept
import Verif.Spec.Arith
import Verif.Spec.Base64
import Verif.Spec.Binary
import Verif.Spec.Blake2b
import Verif.Spec.Bytes
import Verif.Spec.Careful
import Verif.Spec.Codec
import Verif.Spec.Consensus
import Verif.Spec.Cover
import Verif.Spec.Curve
import Verif.Spec.Debug
import Verif.Spec.Derive
import Verif.Spec.Document
import Verif.Spec.Fits
import Verif.Spec.Formats
import Verif.Spec.Hashing
import Verif.Spec.Heap
import Verif.Spec.Helpers
import Verif.Spec.Interrupt
import Verif.Spec.Json
import Verif.Spec.JsonText
import Verif.Spec.Layout
import Verif.Spec.Memory
import Verif.Spec.Mended
import Verif.Spec.Merkle
import Verif.Spec.Network
import Verif.Spec.Number
import Verif.Spec.Origin
import Verif.Spec.Policy
import Verif.Spec.Reader
import Verif.Spec.Repaired
import Verif.Spec.Rfc3339
import Verif.Spec.Rhp
import Verif.Spec.Serde
import Verif.Spec.Sha2
import Verif.Spec.Signing
import Verif.Spec.Spelling
import Verif.Spec.Standards
import Verif.Spec.Stream
import Verif.Spec.Supply
import Verif.Spec.Text
import Verif.Spec.Width
import Verif.Spec.Writer
import Verif.Lemmas.Accept
import Verif.Lemmas.Arith
import Verif.Lemmas.Back
import Verif.Lemmas.Base64
import Verif.Lemmas.Blake2b
import Verif.Lemmas.Blake2bSpec
import Verif.Lemmas.Bound
import Verif.Lemmas.Bytes
import Verif.Lemmas.Careful
import Verif.Lemmas.Closed
import Verif.Lemmas.Codec
import Verif.Lemmas.Complete
import Verif.Lemmas.Consensus
import Verif.Lemmas.Cover
import Verif.Lemmas.CoverIndex
import Verif.Lemmas.Declarations
import Verif.Lemmas.Delim
import Verif.Lemmas.Derive
import Verif.Lemmas.Document
import Verif.Lemmas.Ed25519
import Verif.Lemmas.Edwards
import Verif.Lemmas.English
import Verif.Lemmas.EnglishHash
import Verif.Lemmas.Exact
import Verif.Lemmas.Flat
import Verif.Lemmas.Formats
import Verif.Lemmas.Hashing
import Verif.Lemmas.Heap
import Verif.Lemmas.Json
import Verif.Lemmas.JsonText
import Verif.Lemmas.JsonWidth
import Verif.Lemmas.Layout
import Verif.Lemmas.Memory
import Verif.Lemmas.Mended
import Verif.Lemmas.Merkle
import Verif.Lemmas.Number
import Verif.Lemmas.Panic
import Verif.Lemmas.Policy
import Verif.Lemmas.Prim
import Verif.Lemmas.Prime
import Verif.Lemmas.Reader
import Verif.Lemmas.Reads
import Verif.Lemmas.Resolution
import Verif.Lemmas.Rfc3339
import Verif.Lemmas.Rhp
import Verif.Lemmas.Separation
import Verif.Lemmas.Serde
import Verif.Lemmas.Sha2
import Verif.Lemmas.Signing
import Verif.Lemmas.Skip
import Verif.Lemmas.Sound
import Verif.Lemmas.Spec
import Verif.Lemmas.Spelling
import Verif.Lemmas.Stream
import Verif.Lemmas.Text
import Verif.Lemmas.Types
import Verif.Lemmas.V2
import Verif.Lemmas.Width
import Verif.Lemmas.Wire
import Verif.Lemmas.Writer
import Verif.Props.Accept
import Verif.Props.Amount
import Verif.Props.Binary
import Verif.Props.Blake2b
import Verif.Props.Builtin
import Verif.Props.Careful
import Verif.Props.Codec
import Verif.Props.Consensus
import Verif.Props.Containers
import Verif.Props.Conversion
import Verif.Props.Cover
import Verif.Props.Currency
import Verif.Props.Debug
import Verif.Props.Derive
import Verif.Props.Document
import Verif.Props.Ed25519
import Verif.Props.Formats
import Verif.Props.Hashing
import Verif.Props.Helpers
import Verif.Props.Interrupt
import Verif.Props.JsonText
import Verif.Props.JsonWidth
import Verif.Props.Layout
import Verif.Props.Memory
import Verif.Props.Mended
import Verif.Props.Merkle
import Verif.Props.Network
import Verif.Props.Number
import Verif.Props.Origin
import Verif.Props.Policy
import Verif.Props.Reader
import Verif.Props.Repaired
import Verif.Props.Rfc3339
import Verif.Props.Rhp
import Verif.Props.Samples
import Verif.Props.Separation
import Verif.Props.Serde
import Verif.Props.Sha2
import Verif.Props.Signing
import Verif.Props.Spelling
import Verif.Props.Standards
import Verif.Props.Stream
import Verif.Props.Supply
import Verif.Props.Tax
import Verif.Props.Text
import Verif.Props.Width
import Verif.Props.Writer
import Verif.Vectors.Basic
import Verif.Vectors.Hashes
import Verif.Vectors.InputSigHash
import Verif.Vectors.Numbers
import Verif.Vectors.Policy
import Verif.Vectors.Seeds
import Verif.Vectors.Signatures
import Verif.Vectors.Texts
import Verif.Vectors.V1
import Verif.Vectors.V2
