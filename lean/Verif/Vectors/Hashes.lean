import Verif.Vectors.Basic

/-!
# Vectors of identifiers and v1 signature hashes
-/

namespace Verif.Vector

/-! ### `test_transaction_derive` (sia/src/types/common.rs) -/

/-- The transaction of `test_transaction_derive`, `test_transaction_whole_sig_hash` and `test_transaction_partial_sig_hash`.
Its document is the one of `test_serialize_transaction`, which is read as these bytes (Verif/Vectors/V1.lean). -/
def txn : Res V1.Transaction := (dec .v1 lim (bytes 1205 [0x0100000000000000750d22eff727689d1d8d1c83e513a30bb68ee7f9125a4daf, 0xc882459e34c2069d000000000000000001000000000000006564323535313900, 0x00000000000000002000000000000000800ed6c2760e3e4ba1ff00128585c8cf, 0x8fed2e3dc1e3da1eb92d49f405bd63608c8111f5cbe69a570100000000000000, 0x0e000000000000002be69f532be55cd4697c87000000480a064b5fca13002a7f, 0xe575845154bbf0b3af4cc4f147cbed387d43cce3568a01000000000000000000, 0x0000000000000000000000000000000000000000000000000000000000000000, 0x000000000000ea125bc7e4fe3892453df5c634ff678100000000000000000100, 0x0000000000000e000000000000005f545e24bc638098ba76be000000944524ff, 0xf2c49c401e748db37cfda7569fa6df35b704fe716394f2ac3f40ce8701000000, 0x000000000e0000000000000079becb8684da8f5198dafd0000001df67838262d, 0x7109ffcd9018f183b1eb33f05659a274b89ea6b52ff3617d34a7000000000000, 0x00000000000000000000000000000000000000000000000000007c6b04146e05, 0x06860100000000000000e4e26d93771d3bbb3d9dd306105d77cfb3a6254d1cc3, 0x495903af6e013442c63c00000000000000000100000000000000656432353531, 0x390000000000000000002000000000000000e6b9cde4eb058f8ecbb083d99779, 0xcb0f6d518d5386f019af6ead09fa52de85677219baa54926de02d9aec0109586, 0x0b93000000000000000000000000000000000000000000000000000000000000, 0x00000000000000000000d58882248f845a3c7211557866ed75c2010000000000, 0x00000e000000000000007818db5664f130fd08a70e000000543bc0eda69f728d, 0x0a0fbce08e5bfc5ed7b961300e0af226949e135f7d12e32f0100000000000000, 0x0e000000000000002b677fe9d9b27794cd88b50000007b7f9aee981fe0d93bb3, 0xf49c6233cf847ebdd39d7dc5253f7fc330df2167073b00000000000000000000, 0x000000000000000000000000000000000000000000000100000000000000c0b9, 0xe98c9e03a2740c75d673871c1ee91f36d1bb329ff3ddbf1dfa8c6e1a64ebb78f, 0xa521dc62d9ced82bc3b61e0aa5a5c221d6cca5db63d94c9879543fb98c0a9710, 0x94a89cd4408487ae32902248d321b545f9a051729aa0bb1725b848e3d4530100, 0x000000000000fe08c0a061475e7e5dec19e717cf98792fa7b555d0b5d3540a05, 0xdb09f59ab8de0000000000000000000000000000000001000000000000000e00, 0x0000000000000be35b0b076a36b5d2bfd3000000010000000000000020000000, 0x00000000dac873207114258c2e347cfa73f80fcfe6931166514e90d399e997f7, 0x26002a56010000000000000006d1fca03c5ddd9b09116db1b97c5451f7dc792b, 0x05362969f83e3e8dc1007f465cd81a99d4257e54d8dc548fc70bf41b01000000, 0x0000000000000000000000000000000000000000000000000000000000000000, 0x0000000000000000000000000000000000000000000000000000000000000000, 0x000000000000000000000000004000000000000000d9734428666b97d46131ad, 0x89986b2f726a90580217feec6d3302e73c8e9524f717aae6faa9822ea004e162, 0x9f4d03069d93ed461ba0970baea0e2b3a3158b8d48])).bind fun p => .ok p.1

example : (txn.check fun t => (t.id Blake2b.hash).1 == chunk 32 0x71a10d363f4af09c3fbce499b725067b0b19afe2bc9a8236704e85256f3244a6) = true := by decide +kernel

example : (txn.check fun t => (t.siacoinOutputId Blake2b.hash 678569214627704587).1 == chunk 32 0xea315efdd5914c54e8082d0de90b5afa9d4b92103d60661ec86b2a095413d836) = true := by decide +kernel

example : (txn.check fun t => (t.siafundOutputId Blake2b.hash 8940170890223196046).1 == chunk 32 0xa8190ea7b4d41e08f45f27653b882faf8ff9fd57bb098d7022f105ef142279ec) = true := by decide +kernel

example : (txn.check fun t => (t.fileContractId Blake2b.hash 3470616158951613631).1 == chunk 32 0xff7102bb111a64c7ff8a3cd68dbc962a03a8943065c3852a359662c8935fa979) = true := by decide +kernel

/-! ### `test_transaction_id_v2_derive` (sia/src/types/common.rs) -/

example : ((Ids.v2SiacoinOutputId Blake2b.hash (id 0x168ecf3133ae713c26f90fe1790fb7536f12cc2a492985627856b77c6ad99070) 3543556734851495409).1 == chunk 32 0xf74e0d8eae89ec820184c9bacfcad0181c781c02020f8a3fcbc82fd4ebf2fcf0) = true := by decide +kernel

example : ((Ids.v2SiafundOutputId Blake2b.hash (id 0x168ecf3133ae713c26f90fe1790fb7536f12cc2a492985627856b77c6ad99070) 4957302981402025980).1 == chunk 32 0xf7d9ad77bfe9a102ef9590f97024f3aa8f54877d10447c128b52d5ca18cca983) = true := by decide +kernel

example : ((Ids.v2FileContractId Blake2b.hash (id 0x168ecf3133ae713c26f90fe1790fb7536f12cc2a492985627856b77c6ad99070) 5375460735837768427).1 == chunk 32 0xc67764bc06df3dd933e0d4e93c6f7cbe5b56670d1baae156b578d417f08e65cf) = true := by decide +kernel

/-! ### `test_block_id_derive` (sia/src/types/common.rs) -/

example : ((Ids.foundationOutputId Blake2b.hash (id 0xc56d879b07b27fab3bdd06b833dbd1ad7eb167058851f543a517308b634a80a1)).1 == chunk 32 0x159e2c4159a112ea9a70242d541a26f49fce41b6126f9105eab9b68dba4cfafb) = true := by decide +kernel

example : ((Ids.minerOutputId Blake2b.hash (id 0xc56d879b07b27fab3bdd06b833dbd1ad7eb167058851f543a517308b634a80a1) 3072616177397065894).1 == chunk 32 0x69e68779991392663d808276e6661d94628632354e258d8ab6724de1d9ca6208) = true := by decide +kernel

/-! ### `test_siafund_output_id_derive` (sia/src/types/common.rs) -/

example : ((Ids.claimOutputId Blake2b.hash (id 0x58ea19fd87ae5e10f928035e1021c3d9ee091fb3c0bbd5a1a6af41eea12e0f85)).1 == chunk 32 0x8eec57722c2ac040e34322ba77cb6b488ac8081f856d93bea1bf1bef42aeaabb) = true := by decide +kernel

example : ((Ids.v2ClaimOutputId Blake2b.hash (id 0x58ea19fd87ae5e10f928035e1021c3d9ee091fb3c0bbd5a1a6af41eea12e0f85)).1 == chunk 32 0xb949006c65c70b5973da46cc783981d701dd854316e7efb1947c0b5f2fdc8db4) = true := by decide +kernel

/-! ### `test_transaction_id` (sia/src/types/v1.rs) -/

example : ((V1.Transaction.id Blake2b.hash ⟨[], [], [], [], [], [], [], [], [], []⟩).1 == chunk 32 0xb3633a1370a72002ae2a956d21e8d481c3a69e146633470cf625ecd83fdeaa24) = true := by decide +kernel

/-! ### `test_transaction_whole_sig_hash` (sia/src/types/v1.rs) -/

example : (txn.check fun t => (t.wholeSigHash Blake2b.hash (chain 1 10 100) (id 0x59c36e89224f681c1a843c3f30e12c77823d17581d4061724ec6d61555c49095) 0 0).1 == chunk 32 0xf93b095e09f8c860ba8638737ba5f4c81a311af1a840c6b18635009e4d90574e) = true := by decide +kernel

example : (txn.check fun t => (t.wholeSigHash Blake2b.hash (chain 1 10 100) (id 0x59c36e89224f681c1a843c3f30e12c77823d17581d4061724ec6d61555c49095) 1493934879227647507 467251739279473577).1 == chunk 32 0x7aea4ec52e1f7de90261c4448a928081d4be6015252e482ec9c1cfa01663d768) = true := by decide +kernel

/-! ### `test_transaction_partial_sig_hash` (sia/src/types/v1.rs) -/

example : (txn.check fun t => (t.partialSigHash Blake2b.hash (chain 1 10 100) ⟨false, [0], [0], [0], [0], [0], [], [], [0], [0], [0]⟩).check fun h => h.1 == chunk 32 0x5a9a69acb9211dc952b7458754e9fdf7f86fef419c03e8054f992d95c14ebf63) = true := by decide +kernel

example : (txn.check fun t => (t.partialSigHash Blake2b.hash (chain 1 10 100) ⟨false, [], [0], [0], [0], [0], [], [], [0], [0], [0]⟩).check fun h => h.1 == chunk 32 0x81c3e106089f1c86f3402c3bbc0d572d49eafe559961b18344102de4ee1abd94) = true := by decide +kernel

example : (txn.check fun t => (t.partialSigHash Blake2b.hash (chain 1 10 100) ⟨false, [0], [], [0], [0], [0], [], [], [0], [0], [0]⟩).check fun h => h.1 == chunk 32 0x78d8dca99a5a775e5223867af702bf6304326784c4e7f3fd431043504a7f7a98) = true := by decide +kernel

example : (txn.check fun t => (t.partialSigHash Blake2b.hash (chain 1 10 100) ⟨false, [0], [0], [0], [0], [0], [], [], [0], [], [0]⟩).check fun h => h.1 == chunk 32 0x79efc21fbdbf9536fe90b49b4858d5e2945a6bcb28f82b49b189d793f22f150b) = true := by decide +kernel

example : (txn.check fun t => (t.partialSigHash Blake2b.hash (chain 1 10 100) ⟨false, [], [], [], [0], [], [], [], [], [], []⟩).check fun h => h.1 == chunk 32 0x22d26fe3e660d58a26a7da864357c1930c3c24393dd5712d851e0c1c0a0706c2) = true := by decide +kernel

/-! ### `test_standard_unlockhash` (sia/src/types/v1.rs) -/

example : ((UnlockConditions.standard (id 0xad08d551ab7116b8c2285de81ffa528ef3679f9e242c3f551b560a60ab9763db)).address Blake2b.hash).check (fun a => (a.1 ++ (Blake2b.hash a.1).1.take 6) == chunk 38 0x80f637df83a93a6916d1b5c8bdbb061f967fb9fe8fe51ef4d97eeec73c6bfc394771e4a04f42) = true := by decide +kernel

example : ((UnlockConditions.standard (id 0x18ac9c05b0c5e7c62859812b943572429cda178aa3df92697569b8984c603b4c)).address Blake2b.hash).check (fun a => (a.1 ++ (Blake2b.hash a.1).1.take 6) == chunk 38 0x99a27a168bdde2e9c59bc967f6c662e3db0b2cf13da26ddae26004fa19c61d3db017dca7d0d3) = true := by decide +kernel

example : ((UnlockConditions.standard (id 0x2b36cc860796f2e8a1990b437f46a4b905840e6ba41ba5f68fe2b8ebe23626af)).address Blake2b.hash).check (fun a => (a.1 ++ (Blake2b.hash a.1).1.take 6) == chunk 38 0x128151658b256d0185f3f91504758349a96e73c1a68a39c7ff7bf9d0e416997c964d773858ce) = true := by decide +kernel

example : ((UnlockConditions.standard (id 0xa3e3c2f3493a079d3dfe69681bf878c59337e3d1c79d17a34e3da81f062bbe21)).address Blake2b.hash).check (fun a => (a.1 ++ (Blake2b.hash a.1).1.take 6) == chunk 38 0x1f47d453cfd7369bce4034d3ab461feb2a4d073bf59c959225993d00e38d71a8fea7c57cd3f1) = true := by decide +kernel

example : ((UnlockConditions.standard (id 0xa03d3b27db7e143cb8b39a1eb9234bffad59d6f50adf4f0ee916afd510a939a0)).address Blake2b.hash).check (fun a => (a.1 ++ (Blake2b.hash a.1).1.take 6) == chunk 38 0xe03c56f8d95894cea875711e2f909c68c07dd37142a8253813ad09abceb2b6e5dd89992c9638) = true := by decide +kernel

example : ((UnlockConditions.standard (id 0x52e4438ca9b6eb2d33953f97255e410130d55749432094fe9963f4fc65167ce5)).address Blake2b.hash).check (fun a => (a.1 ++ (Blake2b.hash a.1).1.take 6) == chunk 38 0x68b6dd2e50f12e2deef2efd6b7baa660d87950ea16c5a8402a6db5873e062bcdd5246940b44e) = true := by decide +kernel

end Verif.Vector
