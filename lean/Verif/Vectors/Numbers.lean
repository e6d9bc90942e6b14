import Verif.Vectors.Basic

/-!
# Vectors of states, currencies and taxes
-/

namespace Verif.Vector

/-! ### `test_serialize_state` (sia/src/consensus.rs) -/

example : agreesState (.obj [("index", .obj [("height", .nat 0), ("id", .str "0000000000000000000000000000000000000000000000000000000000000000")]), ("prevTimestamps", .arr [.str "1970-01-01T00:00:00Z", .str "1970-01-01T00:00:00Z", .str "1970-01-01T00:00:00Z", .str "1970-01-01T00:00:00Z", .str "1970-01-01T00:00:00Z", .str "1970-01-01T00:00:00Z", .str "1970-01-01T00:00:00Z", .str "1970-01-01T00:00:00Z", .str "1970-01-01T00:00:00Z", .str "1970-01-01T00:00:00Z", .str "1970-01-01T00:00:00Z"]), ("depth", .str "0000000000000000000000000000000000000000000000000000000000000000"), ("childTarget", .str "0000000000000000000000000000000000000000000000000000000000000000"), ("siafundPool", .str "0"), ("oakTime", .nat 0), ("oakTarget", .str "0000000000000000000000000000000000000000000000000000000000000000"), ("foundationPrimaryAddress", .str "000000000000000000000000000000000000000000000000000000000000000089eb0d6a8a69"), ("foundationFailsafeAddress", .str "000000000000000000000000000000000000000000000000000000000000000089eb0d6a8a69"), ("totalWork", .str "0"), ("difficulty", .str "0"), ("oakWork", .str "0"), ("elements", .obj [("numLeaves", .nat 0), ("trees", .arr [])]), ("attestations", .nat 0)])
    (bytes 344 [0x0000000000000000000000000000000000000000000000000000000000000000, 0x0000000000000000000000000000000000000000000000000000000000000000, 0x0000000000000000000000000000000000000000000000000000000000000000, 0x0000000000000000000000000000000000000000000000000000000000000000, 0x0000000000000000000000000000000000000000000000000000000000000000, 0x0000000000000000000000000000000000000000000000000000000000000000, 0x0000000000000000000000000000000000000000000000000000000000000000, 0x0000000000000000000000000000000000000000000000000000000000000000, 0x0000000000000000000000000000000000000000000000000000000000000000, 0x0000000000000000000000000000000000000000000000000000000000000000, 0x000000000000000000000000000000000000000000000000]) = true := by decide +kernel

example : agreesState (.obj [("index", .obj [("height", .nat 16173070238323073115), ("id", .str "54b6800181215b654a2b64e8a0f39da6d5ad20f4e6eda87d50d36e93efd9cdb9")]), ("prevTimestamps", .arr [.str "2167-03-19T00:08:40Z", .str "1971-03-30T15:40:44Z", .str "2226-11-13T03:51:30Z", .str "2013-09-10T22:07:20Z", .str "2230-05-19T03:13:07Z", .str "1983-10-28T03:37:21Z", .str "2068-03-31T17:25:10Z", .str "2159-06-30T01:46:49Z", .str "2089-05-03T06:45:50Z", .str "2073-02-27T08:01:11Z", .str "2005-07-10T18:50:37Z"]), ("depth", .str "fb66f6dd0517bd80a57c6fc1dd186eeb25a5f7dc550adc94a996731734f4a478"), ("childTarget", .str "188d65bc61f7398757be167c70139bc79e2f387551bd0338b81f3938850033c2"), ("siafundPool", .str "184937863921143879963732603265618430015"), ("oakTime", .nat 5097318764767379519), ("oakTarget", .str "5e7e960e017d5772f3341bd8d80fc797de245c760a3f9e84f4da66f9e0ee95aa"), ("foundationPrimaryAddress", .str "95ae9eb00188ade3367e57e5bdc522a16e95a8d28e1b940d2d128273aa7a833001a060dec431"), ("foundationFailsafeAddress", .str "cfb49736296ae52965fd7d66d55720eeadfc2be586db65699050bce175c56056d3fbc1803e15"), ("totalWork", .str "74729819229046869798018345563024899883189146032533830356652983039509219541660"), ("difficulty", .str "65194889020289389878379369533805235500859175566680960159551424936807420310662"), ("oakWork", .str "57256974569838769713335634640292932580615837804690422146878608831130432685755"), ("elements", .obj [("numLeaves", .nat 4899977171010125798), ("trees", .arr [.str "78a9fabda865dafcaf474d48bdb1272595513cf92290917392ff58ca8bea591a", .str "e6a5ea278d90592e0518fbf2e83f41507486fe57e8e4ffbe152f13250df696bf", .str "2488cae3f7046f8b04aec217a09358db22d8ae36f883d1ccae9382edca79c54e", .str "e498f1adbe88c58bc9dabf487437b8d191a78fbb3d8cfe19a4c1759ae232b4f4", .str "96130e35228422970057745ef4b92d285434c25187c44110922554d0ae040678", .str "44f29b39d6e4f509d5d41834db4fd6a831ccca33bb46185a5ad01f2789581337", .str "75f0b42f9d291c4ff4e57f403893e0ca18fdc64f0723e0f29b6aeed834db1ac2", .str "4ce129d69c69971497c556d9eeec0de8c1dd9cc4b0750be9fffd9ec3226ce7a3", .str "f3321bf48aed89100db44b3080f3f350d10b6de213527b19ad57bdd1cd47576a", .str "724c8bf4c8459625190ae18b2fc1d9353d2d3b34c80d4d4fbcd48258c9a11c97", .str "062b2371de9dfad15931a1e72c46afe492ad697447680ea43300ed516bcc2742", .str "b23ca0a83b0367755e2c53c1f7ed9e6d372c220ae0f344082cf5d52c40287893", .str "9b1b446dd599fd5dab08e83738b92651d8aaa7be072db313d237c68ce1094ea1", .str "a03c962c184055ccbf7a42c9a13a0d4c38125535a830832a6fff3029d6deada3", .str "df5d9e1e3a220d2429f9064adecb86ecae916619c93e17d237b5972692e558fd", .str "2d6315b7a91d62bd31e4738259f56f58075bd14ee2f1e2625738f506a7564176", .str "26b1d48ab8c3f0707bd5afdf4a3ef757abc9b6a0be75b8a3cecbcd5994473a72", .str "f897c92aca8d6ef46a41a3a50aff0527bd09be029355d28c2360ec9cb309b1ae", .str "f80ff7cbcad8c465278a59588a3a0d000cc3130e96fb56d257229c1a50d93125", .str "7a84f42433ecd9352e2ffd8bdc8556c87ec93697cf4c4873d4ab51d2b85c44c1", .str "00c03e0af90a26d0a4bb4b243f99b2d361de2412d82f357f6224eceb2f19c142", .str "e0a8f77abd726e928580656d7ab49dc276603e936e04b9caf53a2a27338e3cd1", .str "e376ebd2f0c93013cf6c856fb76e7b60e64a300a9a4b839844074cac4da42b8d", .str "5fcc77f29cfdb51aac9fff250e1ee7607457ce5a280e946150931d793272593a", .str "ad34b2dce6a7136584c5ffea74c66e5613593dddac9eb666ff6a6aef42386968", .str "3d1afa6b931fea014211bb6b08d9508389dd0a9c47a25670ca110bcc8ce8ead1", .str "df427b938f6ef07cd67da1ab11ad8fb4e6b0a97c03325c1fc8b1c3b0c4b8f7f4", .str "8c3d435fdb6ee44e26155c116a86f4dc2b54b05becb08777a63e1d1ad7c3cbc2", .str "11671f5bd2856de1b4925ee0b82f9cda6179db132c9930431d26f0ccdbb8a822", .str "19dcd3ac59669e10420b36d4e588206ae123a0c8ae64b20e1ede697efc556291", .str "65542a8b2c1bca8d78d6517357853c1d54f6b53f04a8327f28ae2d5d022c5597"])]), ("attestations", .nat 4796228701811883082)])
    (bytes 1416 [0x5b60b072b14972e054b6800181215b654a2b64e8a0f39da6d5ad20f4e6eda87d, 0x50d36e93efd9cdb9086ff17201000000fc13560200000000420d26e301000000, 0x18982f5200000000c378c1e901000000f146ff1900000000f6f6ccb800000000, 0x89116d64010000009eb377e000000000c79509c200000000fd6dd14200000000, 0xfb66f6dd0517bd80a57c6fc1dd186eeb25a5f7dc550adc94a996731734f4a478, 0x188d65bc61f7398757be167c70139bc79e2f387551bd0338b81f3938850033c2, 0x3f48064ca312d68970452ce1abbc218b3f80e4e86850bd465e7e960e017d5772, 0xf3341bd8d80fc797de245c760a3f9e84f4da66f9e0ee95aa95ae9eb00188ade3, 0x367e57e5bdc522a16e95a8d28e1b940d2d128273aa7a8330cfb49736296ae529, 0x65fd7d66d55720eeadfc2be586db65699050bce175c56056a537942b3dcc3fb3, 0x64ca2cdd33416f2ad78e92cd50081c59c5c9f67c9a64829c9022ffe17973176b, 0x934cf5ab04186591c97b2b86f290de9dace84dac6fe2b4867e964c967126699e, 0x34e7e3114292eca3140a6f0a94e76e39c047b064bfdbc6bbe6ff949d46370044, 0x78a9fabda865dafcaf474d48bdb1272595513cf92290917392ff58ca8bea591a, 0xe6a5ea278d90592e0518fbf2e83f41507486fe57e8e4ffbe152f13250df696bf, 0x2488cae3f7046f8b04aec217a09358db22d8ae36f883d1ccae9382edca79c54e, 0xe498f1adbe88c58bc9dabf487437b8d191a78fbb3d8cfe19a4c1759ae232b4f4, 0x96130e35228422970057745ef4b92d285434c25187c44110922554d0ae040678, 0x44f29b39d6e4f509d5d41834db4fd6a831ccca33bb46185a5ad01f2789581337, 0x75f0b42f9d291c4ff4e57f403893e0ca18fdc64f0723e0f29b6aeed834db1ac2, 0x4ce129d69c69971497c556d9eeec0de8c1dd9cc4b0750be9fffd9ec3226ce7a3, 0xf3321bf48aed89100db44b3080f3f350d10b6de213527b19ad57bdd1cd47576a, 0x724c8bf4c8459625190ae18b2fc1d9353d2d3b34c80d4d4fbcd48258c9a11c97, 0x062b2371de9dfad15931a1e72c46afe492ad697447680ea43300ed516bcc2742, 0xb23ca0a83b0367755e2c53c1f7ed9e6d372c220ae0f344082cf5d52c40287893, 0x9b1b446dd599fd5dab08e83738b92651d8aaa7be072db313d237c68ce1094ea1, 0xa03c962c184055ccbf7a42c9a13a0d4c38125535a830832a6fff3029d6deada3, 0xdf5d9e1e3a220d2429f9064adecb86ecae916619c93e17d237b5972692e558fd, 0x2d6315b7a91d62bd31e4738259f56f58075bd14ee2f1e2625738f506a7564176, 0x26b1d48ab8c3f0707bd5afdf4a3ef757abc9b6a0be75b8a3cecbcd5994473a72, 0xf897c92aca8d6ef46a41a3a50aff0527bd09be029355d28c2360ec9cb309b1ae, 0xf80ff7cbcad8c465278a59588a3a0d000cc3130e96fb56d257229c1a50d93125, 0x7a84f42433ecd9352e2ffd8bdc8556c87ec93697cf4c4873d4ab51d2b85c44c1, 0x00c03e0af90a26d0a4bb4b243f99b2d361de2412d82f357f6224eceb2f19c142, 0xe0a8f77abd726e928580656d7ab49dc276603e936e04b9caf53a2a27338e3cd1, 0xe376ebd2f0c93013cf6c856fb76e7b60e64a300a9a4b839844074cac4da42b8d, 0x5fcc77f29cfdb51aac9fff250e1ee7607457ce5a280e946150931d793272593a, 0xad34b2dce6a7136584c5ffea74c66e5613593dddac9eb666ff6a6aef42386968, 0x3d1afa6b931fea014211bb6b08d9508389dd0a9c47a25670ca110bcc8ce8ead1, 0xdf427b938f6ef07cd67da1ab11ad8fb4e6b0a97c03325c1fc8b1c3b0c4b8f7f4, 0x8c3d435fdb6ee44e26155c116a86f4dc2b54b05becb08777a63e1d1ad7c3cbc2, 0x11671f5bd2856de1b4925ee0b82f9cda6179db132c9930431d26f0ccdbb8a822, 0x19dcd3ac59669e10420b36d4e588206ae123a0c8ae64b20e1ede697efc556291, 0x65542a8b2c1bca8d78d6517357853c1d54f6b53f04a8327f28ae2d5d022c5597, 0x4abc07c197a08f42]) = true := by decide +kernel

/-! ### `test_from_str` (sia/src/types/currency.rs) -/

example : (ofOut (parseCurrency .checked ['1', ' ', 'H'])).check (fun c => c == ⟨1⟩) = true := by decide +kernel

example : (ofOut (parseCurrency .checked ['1', '0', '0', ' ', 'H'])).check (fun c => c == ⟨100⟩) = true := by decide +kernel

example : (ofOut (parseCurrency .checked ['1', '0', '0', '1', ' ', 'H'])).check (fun c => c == ⟨1001⟩) = true := by decide +kernel

example : (ofOut (parseCurrency .checked ['1', '0', '0', '0', '0', ' ', 'H'])).check (fun c => c == ⟨10000⟩) = true := by decide +kernel

example : (ofOut (parseCurrency .checked ['1', ' ', 'p', 'S'])).check (fun c => c == ⟨1000000000000⟩) = true := by decide +kernel

example : (ofOut (parseCurrency .checked ['1', '5', '1', '.', '2', '1', '2', '3', '1', '2', ' ', 'u', 'S'])).check (fun c => c == ⟨151212312000000000000⟩) = true := by decide +kernel

example : (ofOut (parseCurrency .checked ['5', '0', '0', ' ', 'm', 'S'])).check (fun c => c == ⟨500000000000000000000000⟩) = true := by decide +kernel

example : (ofOut (parseCurrency .checked ['1', ' ', 'S', 'C'])).check (fun c => c == ⟨1000000000000000000000000⟩) = true := by decide +kernel

example : (ofOut (parseCurrency .checked ['1', '0', ' ', 'S', 'C'])).check (fun c => c == ⟨10000000000000000000000000⟩) = true := by decide +kernel

example : (ofOut (parseCurrency .checked ['1', '0', '0', ' ', 'S', 'C'])).check (fun c => c == ⟨100000000000000000000000000⟩) = true := by decide +kernel

example : (ofOut (parseCurrency .checked ['1', ' ', 'K', 'S'])).check (fun c => c == ⟨1000000000000000000000000000⟩) = true := by decide +kernel

example : (ofOut (parseCurrency .checked ['1', '0', ' ', 'K', 'S'])).check (fun c => c == ⟨10000000000000000000000000000⟩) = true := by decide +kernel

example : (ofOut (parseCurrency .checked ['6', '5', '.', '5', '3', '5', ' ', 'K', 'S'])).check (fun c => c == ⟨65535000000000000000000000000⟩) = true := by decide +kernel

example : (ofOut (parseCurrency .checked ['1', '0', '0', 'K', 'S'])).check (fun c => c == ⟨100000000000000000000000000000⟩) = true := by decide +kernel

example : (ofOut (parseCurrency .checked ['1', ' ', 'M', 'S'])).check (fun c => c == ⟨1000000000000000000000000000000⟩) = true := by decide +kernel

example : (ofOut (parseCurrency .checked ['1', '0', ' ', 'M', 'S'])).check (fun c => c == ⟨10000000000000000000000000000000⟩) = true := by decide +kernel

example : (ofOut (parseCurrency .checked ['1', '0', '0', ' ', 'M', 'S'])).check (fun c => c == ⟨100000000000000000000000000000000⟩) = true := by decide +kernel

example : (ofOut (parseCurrency .checked ['1', ' ', 'G', 'S'])).check (fun c => c == ⟨1000000000000000000000000000000000⟩) = true := by decide +kernel

example : (ofOut (parseCurrency .checked ['4', '.', '2', '9', '4', '9', '6', '7', '2', '9', '5', 'G', 'S'])).check (fun c => c == ⟨4294967295000000000000000000000000⟩) = true := by decide +kernel

example : (ofOut (parseCurrency .checked ['1', '0', ' ', 'G', 'S'])).check (fun c => c == ⟨10000000000000000000000000000000000⟩) = true := by decide +kernel

example : (ofOut (parseCurrency .checked ['1', '0', '0', ' ', 'G', 'S'])).check (fun c => c == ⟨100000000000000000000000000000000000⟩) = true := by decide +kernel

example : (ofOut (parseCurrency .checked ['1', ' ', 'T', 'S'])).check (fun c => c == ⟨1000000000000000000000000000000000000⟩) = true := by decide +kernel

example : (ofOut (parseCurrency .checked ['1', '0', ' ', 'T', 'S'])).check (fun c => c == ⟨10000000000000000000000000000000000000⟩) = true := by decide +kernel

example : (ofOut (parseCurrency .checked ['1', '0', '0', ' ', 'T', 'S'])).check (fun c => c == ⟨100000000000000000000000000000000000000⟩) = true := by decide +kernel

example : (ofOut (parseCurrency .checked ['9', '.', '9', '9', '9', '9', '9', '9', '9', '9', '9', '9', '9', '9', '9', '9', '9', '9', '9', '9', '9', '9', '9', '9', '9', '9', ' ', 'S', 'C'])).check (fun c => c == ⟨9999999999999999999999999⟩) = true := by decide +kernel

example : (ofOut (parseCurrency .checked ['5', '0', '.', '5', '8', '7', '5', '6', '6', ' ', 'S', 'C'])).check (fun c => c == ⟨50587566000000000000000000⟩) = true := by decide +kernel

example : (ofOut (parseCurrency .checked ['2', '.', '5', '2', '9', '3', '7', '8', '3', '3', '3', '3', '5', '6', '1', '5', '6', '1', '5', '8', '3', '6', '7', ' ', 'm', 'S'])).check (fun c => c == ⟨2529378333356156158367⟩) = true := by decide +kernel

example : (ofOut (parseCurrency .checked ['3', '4', '0', '.', '2', '8', '2', '3', '6', '6', '9', '2', '0', '9', '3', '8', '4', '6', '3', '4', '6', '3', '3', '7', '4', '6', '0', '7', '4', '3', '1', '7', '6', '8', '2', '1', '1', '4', '5', '5', ' ', 'T', 'S'])).check (fun c => c == ⟨340282366920938463463374607431768211455⟩) = true := by decide +kernel

/-! ### `test_encode_v1` (sia/src/types/currency.rs) -/

example : (enc .v1 (⟨0⟩ : Currency) == [0, 0, 0, 0, 0, 0, 0, 0] && (dec (α := Currency) .v1 lim [0, 0, 0, 0, 0, 0, 0, 0]).check (fun p => p == (⟨0⟩, []))) = true := by decide +kernel

example : (enc .v1 (⟨10000⟩ : Currency) == [2, 0, 0, 0, 0, 0, 0, 0, 39, 16] && (dec (α := Currency) .v1 lim [2, 0, 0, 0, 0, 0, 0, 0, 39, 16]).check (fun p => p == (⟨10000⟩, []))) = true := by decide +kernel

example : (enc .v1 (⟨50587566000000000000000000⟩ : Currency) == [11, 0, 0, 0, 0, 0, 0, 0, 41, 216, 85, 114, 169, 108, 83, 1, 248, 0, 0] && (dec (α := Currency) .v1 lim [11, 0, 0, 0, 0, 0, 0, 0, 41, 216, 85, 114, 169, 108, 83, 1, 248, 0, 0]).check (fun p => p == (⟨50587566000000000000000000⟩, []))) = true := by decide +kernel

example : (enc .v1 (⟨2529378333356156158367⟩ : Currency) == [9, 0, 0, 0, 0, 0, 0, 0, 137, 30, 45, 0, 247, 119, 66, 129, 159] && (dec (α := Currency) .v1 lim [9, 0, 0, 0, 0, 0, 0, 0, 137, 30, 45, 0, 247, 119, 66, 129, 159]).check (fun p => p == (⟨2529378333356156158367⟩, []))) = true := by decide +kernel

example : (enc .v1 (⟨340282366920938463463374607431768211455⟩ : Currency) == [16, 0, 0, 0, 0, 0, 0, 0, 255, 255, 255, 255, 255, 255, 255, 255, 255, 255, 255, 255, 255, 255, 255, 255] && (dec (α := Currency) .v1 lim [16, 0, 0, 0, 0, 0, 0, 0, 255, 255, 255, 255, 255, 255, 255, 255, 255, 255, 255, 255, 255, 255, 255, 255]).check (fun p => p == (⟨340282366920938463463374607431768211455⟩, []))) = true := by decide +kernel

/-! ### `test_specifier_string` (sia/src/types/specifier.rs) -/

example : ((showSpecifier (specifierOf (ascii "hello world"))) == some (ascii "hello world")) = true := by decide +kernel

example : ((showSpecifier (specifierOf (ascii "hello"))) == some (ascii "hello")) = true := by decide +kernel

example : ((showSpecifier (specifierOf (ascii ""))) == some (ascii "")) = true := by decide +kernel

/-! ### `test_file_contract_tax` (sia/src/types/v1.rs) -/

/-- The tax of a contract with this payout at chain height `height`. -/
def tax1 (height : U64) (payout : U128) : Res Currency :=
  V1.FileContract.tax .checked ⟨0, Arr.zero 32, 0, 0, ⟨payout⟩, [], [], Arr.zero 32, 0⟩ (chain height 10 0)

/-! The test sets the height to 11 in its first iteration and never sets it back: every expected "prefork" value but the
first is compared with the tax *after* the fork (for these payouts the tax before the fork is another number, see below). -/

example : ((tax1 1 0 == .ok ⟨0⟩) && (tax1 11 0 == .ok ⟨0⟩)) = true := by decide +kernel

example : ((tax1 11 1 == .ok ⟨0⟩) && (tax1 11 1 == .ok ⟨0⟩)) = true := by decide +kernel

example : ((tax1 11 2 == .ok ⟨0⟩) && (tax1 11 2 == .ok ⟨0⟩)) = true := by decide +kernel

example : ((tax1 11 340282366920938463463374607431768211455 == .ok ⟨13271012309916600075071609689838960000⟩) && (tax1 11 340282366920938463463374607431768211455 == .ok ⟨13271012309916600075071609689838960000⟩)) = true := by decide +kernel

example : ((tax1 11 595540520000000000000000000000000 == .ok ⟨23226080280000000000000000000000⟩) && (tax1 11 595540520000000000000000000000000 == .ok ⟨23226080280000000000000000000000⟩)) = true := by decide +kernel

example : ((tax1 11 103983762872653413852682180916164570605 == .ok ⟨4055366752033483140254605055730410000⟩) && (tax1 11 103983762872653413852682180916164570605 == .ok ⟨4055366752033483140254605055730410000⟩)) = true := by decide +kernel

example : ((tax1 11 3827764528000000000000000000000000 == .ok ⟨149282816592000000000000000000000⟩) && (tax1 11 3827764528000000000000000000000000 == .ok ⟨149282816592000000000000000000000⟩)) = true := by decide +kernel

example : ((tax1 11 216196544861605368913933682930139323360 == .ok ⟨8431665249602609387643413634275430000⟩) && (tax1 11 216196544861605368913933682930139323360 == .ok ⟨8431665249602609387643413634275430000⟩)) = true := by decide +kernel

example : ((tax1 11 2630651610000000000000000000000000 == .ok ⟨102595412790000000000000000000000⟩) && (tax1 11 2630651610000000000000000000000000 == .ok ⟨102595412790000000000000000000000⟩)) = true := by decide +kernel

example : ((tax1 11 242035606817835258338180817515298863866 == .ok ⟨9439388665895575075189051883096650000⟩) && (tax1 11 242035606817835258338180817515298863866 == .ok ⟨9439388665895575075189051883096650000⟩)) = true := by decide +kernel

example : ((tax1 11 3830155529000000000000000000000000 == .ok ⟨149376065631000000000000000000000⟩) && (tax1 11 3830155529000000000000000000000000 == .ok ⟨149376065631000000000000000000000⟩)) = true := by decide +kernel

example : ((tax1 11 126852058180828682198189558142776852406 == .ok ⟨4947230269052318605729392767568290000⟩) && (tax1 11 126852058180828682198189558142776852406 == .ok ⟨4947230269052318605729392767568290000⟩)) = true := by decide +kernel

example : ((tax1 11 3497644816000000000000000000000000 == .ok ⟨136408147824000000000000000000000⟩) && (tax1 11 3497644816000000000000000000000000 == .ok ⟨136408147824000000000000000000000⟩)) = true := by decide +kernel

example : ((tax1 11 202288428857506739014982837533616200189 == .ok ⟨7889248725442762821584330663811030000⟩) && (tax1 11 202288428857506739014982837533616200189 == .ok ⟨7889248725442762821584330663811030000⟩)) = true := by decide +kernel

example : ((tax1 11 3717108920000000000000000000000000 == .ok ⟨144967247880000000000000000000000⟩) && (tax1 11 3717108920000000000000000000000000 == .ok ⟨144967247880000000000000000000000⟩)) = true := by decide +kernel

example : ((tax1 11 319915558118289110319073160920214552278 == .ok ⟨12476706766613275302443853275888360000⟩) && (tax1 11 319915558118289110319073160920214552278 == .ok ⟨12476706766613275302443853275888360000⟩)) = true := by decide +kernel

example : ((tax1 11 2205536583000000000000000000000000 == .ok ⟨86015926737000000000000000000000⟩) && (tax1 11 2205536583000000000000000000000000 == .ok ⟨86015926737000000000000000000000⟩)) = true := by decide +kernel

example : ((tax1 11 138040906509763116024244911687441931808 == .ok ⟨5383595353880761524945551555810230000⟩) && (tax1 11 138040906509763116024244911687441931808 == .ok ⟨5383595353880761524945551555810230000⟩)) = true := by decide +kernel

example : ((tax1 11 1110927021000000000000000000000000 == .ok ⟨43326153819000000000000000000000⟩) && (tax1 11 1110927021000000000000000000000000 == .ok ⟨43326153819000000000000000000000⟩)) = true := by decide +kernel

example : ((tax1 11 215175656237682186102553629801543673418 == .ok ⟨8391850593269605257999591562260200000⟩) && (tax1 11 215175656237682186102553629801543673418 == .ok ⟨8391850593269605257999591562260200000⟩)) = true := by decide +kernel

example : ((tax1 11 646634091000000000000000000000000 == .ok ⟨25218729549000000000000000000000⟩) && (tax1 11 646634091000000000000000000000000 == .ok ⟨25218729549000000000000000000000⟩)) = true := by decide +kernel

example : ((tax1 11 128469923315667767051668090462322677166 == .ok ⟨5010327009311042915015055528030580000⟩) && (tax1 11 128469923315667767051668090462322677166 == .ok ⟨5010327009311042915015055528030580000⟩)) = true := by decide +kernel

example : ((tax1 11 2889549915000000000000000000000000 == .ok ⟨112692446685000000000000000000000⟩) && (tax1 11 2889549915000000000000000000000000 == .ok ⟨112692446685000000000000000000000⟩)) = true := by decide +kernel

example : ((tax1 11 269364173205837265395254441592734706401 == .ok ⟨10505202755027653350414923222116650000⟩) && (tax1 11 269364173205837265395254441592734706401 == .ok ⟨10505202755027653350414923222116650000⟩)) = true := by decide +kernel

example : ((tax1 1 340282366920938463463374607431768211455 == .ok ⟨13271012309916600056182143758360370000⟩)) = true := by decide +kernel

/-! ### `test_file_contract_tax` (sia/src/types/v2.rs) -/

/-- The tax of a contract whose two outputs have this value. -/
def tax2 (value : U128) : Res Currency :=
  V2.FileContract.tax .checked ⟨0, 0, Arr.zero 32, 0, 0, ⟨⟨value⟩, Arr.zero 32⟩, ⟨⟨value⟩, Arr.zero 32⟩, ⟨0⟩, ⟨0⟩, Arr.zero 32,
    Arr.zero 32, 0, Arr.zero 64, Arr.zero 64⟩ (chain 1 10 0)

example : (tax2 0 == .ok ⟨0⟩) = true := by decide +kernel

example : (tax2 0 == .ok ⟨0⟩) = true := by decide +kernel

example : (tax2 1 == .ok ⟨0⟩) = true := by decide +kernel

example : (tax2 170141183460469231731687303715884105727 == .ok ⟨13611294676837538538534984297270720000⟩) = true := by decide +kernel

example : (tax2 805949712500000000000000000000000 == .ok ⟨64475977000000000000000000000000⟩) = true := by decide +kernel

example : (tax2 151318823166141058930638084278357033939 == .ok ⟨12105505853291284714451046742268560000⟩) = true := by decide +kernel

example : (tax2 2087287149000000000000000000000000 == .ok ⟨166982971920000000000000000000000⟩) = true := by decide +kernel

example : (tax2 19054329256128693174495496952954959442 == .ok ⟨1524346340490295453959639756236390000⟩) = true := by decide +kernel

example : (tax2 1463835551500000000000000000000000 == .ok ⟨117106844120000000000000000000000⟩) = true := by decide +kernel

example : (tax2 34808017277671855105213753517013880976 == .ok ⟨2784641382213748408417100281361110000⟩) = true := by decide +kernel

example : (tax2 1456475819000000000000000000000000 == .ok ⟨116518065520000000000000000000000⟩) = true := by decide +kernel

example : (tax2 4050009160038948139568737574567615426 == .ok ⟨324000732803115851165499005965400000⟩) = true := by decide +kernel

example : (tax2 611362349000000000000000000000000 == .ok ⟨48908987920000000000000000000000⟩) = true := by decide +kernel

example : (tax2 59744399278834191323014460064531501644 == .ok ⟨4779551942306735305841156805162520000⟩) = true := by decide +kernel

example : (tax2 1971395366500000000000000000000000 == .ok ⟨157711629320000000000000000000000⟩) = true := by decide +kernel

example : (tax2 129395477943018813820173885271365401215 == .ok ⟨10351638235441505105613910821709230000⟩) = true := by decide +kernel

example : (tax2 1562430843000000000000000000000000 == .ok ⟨124994467440000000000000000000000⟩) = true := by decide +kernel

example : (tax2 33394010960011557818205782768368594560 == .ok ⟨2671520876800924625456462621469480000⟩) = true := by decide +kernel

example : (tax2 1464305596000000000000000000000000 == .ok ⟨117144447680000000000000000000000⟩) = true := by decide +kernel

example : (tax2 33699424149038914903292787212706936885 == .ok ⟨2695953931923113192263422977016550000⟩) = true := by decide +kernel

example : (tax2 455795805000000000000000000000000 == .ok ⟨36463664400000000000000000000000⟩) = true := by decide +kernel

example : (tax2 88567642754201788868008131876936390234 == .ok ⟨7085411420336143109440650550154910000⟩) = true := by decide +kernel

example : (tax2 359253930000000000000000000000000 == .ok ⟨28740314400000000000000000000000⟩) = true := by decide +kernel

example : (tax2 56501907684312465044405566127405468273 == .ok ⟨4520152614744997203552445290192430000⟩) = true := by decide +kernel

end Verif.Vector
