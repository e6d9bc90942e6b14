import Verif.Vectors.Basic

/-!
# Vectors of spend policies
-/

namespace Verif.Vector

/-! ### `test_policy_encoding` (sia/src/types/spendpolicy.rs) -/

example : agrees .v2 (Serde.policy env) (.obj [("type", .str "above"), ("policy", .nat 100)])
    (bytes 10 [0x01016400000000000000]) = true := by decide +kernel

example : agrees .v2 (Serde.policy env) (.obj [("type", .str "after"), ("policy", .nat 100)])
    (bytes 10 [0x01026400000000000000]) = true := by decide +kernel

example : agrees .v2 (Serde.policy env) (.obj [("type", .str "pk"), ("policy", .str "ed25519:0101010101010101010101010101010101010101010101010101010101010101")])
    (bytes 34 [0x0103010101010101010101010101010101010101010101010101010101010101, 0x0101]) = true := by decide +kernel

example : agrees .v2 (Serde.policy env) (.obj [("type", .str "h"), ("policy", .str "0000000000000000000000000000000000000000000000000000000000000000")])
    (bytes 34 [0x0104000000000000000000000000000000000000000000000000000000000000, 0x0000]) = true := by decide +kernel

example : agrees .v2 (Serde.policy env) (.obj [("type", .str "thresh"), ("policy", .obj [("n", .nat 2), ("of", .arr [.obj [("policy", .str "ed25519:0000000000000000000000000000000000000000000000000000000000000000"), ("type", .str "pk")], .obj [("policy", .nat 100), ("type", .str "above")]])])])
    (bytes 46 [0x0105020203000000000000000000000000000000000000000000000000000000, 0x0000000000016400000000000000]) = true := by decide +kernel

example : agrees .v2 (Serde.policy env) (.obj [("type", .str "thresh"), ("policy", .obj [("n", .nat 2), ("of", .arr [.obj [("policy", .str "ed25519:0000000000000000000000000000000000000000000000000000000000000000"), ("type", .str "pk")], .obj [("policy", .nat 100), ("type", .str "above")], .obj [("policy", .obj [("n", .nat 2), ("of", .arr [.obj [("policy", .str "ed25519:0000000000000000000000000000000000000000000000000000000000000000"), ("type", .str "pk")], .obj [("policy", .nat 100), ("type", .str "after")]])]), ("type", .str "thresh")], .obj [("policy", .str "ed25519:0000000000000000000000000000000000000000000000000000000000000000"), ("type", .str "pk")]])])])
    (bytes 124 [0x0105020403000000000000000000000000000000000000000000000000000000, 0x0000000000016400000000000000050202030000000000000000000000000000, 0x0000000000000000000000000000000000000264000000000000000300000000, 0x00000000000000000000000000000000000000000000000000000000]) = true := by decide +kernel

example : agrees .v2 (Serde.policy env) (.obj [("type", .str "uc"), ("policy", .obj [("timelock", .nat 100), ("publicKeys", .arr [.str "ed25519:0000000000000000000000000000000000000000000000000000000000000000", .str "ed25519:0101010101010101010101010101010101010101010101010101010101010101"]), ("signaturesRequired", .nat 2)])])
    (bytes 138 [0x0107640000000000000002000000000000006564323535313900000000000000, 0x0000200000000000000000000000000000000000000000000000000000000000, 0x0000000000000000000065643235353139000000000000000000200000000000, 0x0000010101010101010101010101010101010101010101010101010101010101, 0x01010200000000000000]) = true := by decide +kernel

/-! ### `test_satisfied_policy_encoding` (sia/src/types/spendpolicy.rs) -/

example : agrees .v2 (Serde.satisfiedPolicy env) (.obj [("policy", .obj [("type", .str "pk"), ("policy", .str "ed25519:3b6a27bcceb6a42d62a3a8d02a6f0d73653215771de243a63ac048a18b59da29")]), ("signatures", .arr [.str "867c405977a52caf455221d49ea6242584221ab7f6b1a3e5a7e515d1f4027852e641330366fbd93950e5d15d7153c288a7d96462db912235129725bf13b2a30c"])])
    (bytes 114 [0x01033b6a27bcceb6a42d62a3a8d02a6f0d73653215771de243a63ac048a18b59, 0xda290100000000000000867c405977a52caf455221d49ea6242584221ab7f6b1, 0xa3e5a7e515d1f4027852e641330366fbd93950e5d15d7153c288a7d96462db91, 0x2235129725bf13b2a30c0000000000000000]) = true := by decide +kernel

example : agrees .v2 (Serde.satisfiedPolicy env) (.obj [("policy", .obj [("type", .str "thresh"), ("policy", .obj [("n", .nat 1), ("of", .arr [.obj [("policy", .str "ed25519:3b6a27bcceb6a42d62a3a8d02a6f0d73653215771de243a63ac048a18b59da29"), ("type", .str "pk")], .obj [("policy", .str "0e5751c026e543b2e8ab2eb06099daa1d1e5df47778f7787faab45cdf12fe3a8"), ("type", .str "h")]])])]), ("signatures", .arr [.str "867c405977a52caf455221d49ea6242584221ab7f6b1a3e5a7e515d1f4027852e641330366fbd93950e5d15d7153c288a7d96462db912235129725bf13b2a30c"]), ("preimages", .arr [.str "0102030000000000000000000000000000000000000000000000000000000000"])])
    (bytes 182 [0x01050102033b6a27bcceb6a42d62a3a8d02a6f0d73653215771de243a63ac048, 0xa18b59da29040e5751c026e543b2e8ab2eb06099daa1d1e5df47778f7787faab, 0x45cdf12fe3a80100000000000000867c405977a52caf455221d49ea624258422, 0x1ab7f6b1a3e5a7e515d1f4027852e641330366fbd93950e5d15d7153c288a7d9, 0x6462db912235129725bf13b2a30c010000000000000001020300000000000000, 0x00000000000000000000000000000000000000000000]) = true := by decide +kernel

example : agrees .v2 (Serde.satisfiedPolicy env) (.obj [("policy", .obj [("type", .str "h"), ("policy", .str "0e5751c026e543b2e8ab2eb06099daa1d1e5df47778f7787faab45cdf12fe3a8")]), ("preimages", .arr [.str "0405060000000000000000000000000000000000000000000000000000000000"])])
    (bytes 82 [0x01040e5751c026e543b2e8ab2eb06099daa1d1e5df47778f7787faab45cdf12f, 0xe3a8000000000000000001000000000000000405060000000000000000000000, 0x000000000000000000000000000000000000]) = true := by decide +kernel

example : agrees .v2 (Serde.satisfiedPolicy env) (.obj [("policy", .obj [("type", .str "pk"), ("policy", .str "ed25519:3b6a27bcceb6a42d62a3a8d02a6f0d73653215771de243a63ac048a18b59da29")])])
    (bytes 50 [0x01033b6a27bcceb6a42d62a3a8d02a6f0d73653215771de243a63ac048a18b59, 0xda2900000000000000000000000000000000]) = true := by decide +kernel

example : agrees .v2 (Serde.satisfiedPolicy env) (.obj [("policy", .obj [("type", .str "h"), ("policy", .str "0e5751c026e543b2e8ab2eb06099daa1d1e5df47778f7787faab45cdf12fe3a8")])])
    (bytes 50 [0x01040e5751c026e543b2e8ab2eb06099daa1d1e5df47778f7787faab45cdf12f, 0xe3a800000000000000000000000000000000]) = true := by decide +kernel

end Verif.Vector
