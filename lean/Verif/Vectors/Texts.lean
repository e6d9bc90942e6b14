import Verif.Model.Json
import Verif.Vectors.Basic

/-!
# The JSON texts in the unit tests of the repository

Tests of the model, like the other vectors: each text is read, and where the test of the repository also compares the text written, the value is
written as the same text.  Texts longer than 400 characters are left out, because the kernel takes about 30 ms for each character.
-/

namespace Verif.Vector

/-- A text of `n` ASCII characters, written as numbers of 32 characters each (the kernel is slow on string literals). -/
def chars (n : Nat) (l : List Nat) : List Char := (bytes n l).map fun b => Char.ofNat b.toNat

/-- The text is read. -/
def reads {α : Type} (S : Serde α) (text : List Char) : Bool := (S.ofText (fun _ => true) text).check fun _ => true

/-- The text is read, and the value is written as the same text. -/
def rewrites {α : Type} (S : Serde α) (text : List Char) : Bool :=
  (S.ofText (fun _ => true) text).check fun a => (S.toText a).check fun t => t == text

/-! ### `test_policy_encoding` (sia/src/types/spendpolicy.rs) -/

example : rewrites (Serde.policy env) (chars 29 [0x7b2274797065223a2261626f7665222c22706f6c696379223a3130307d]) = true := by
  decide +kernel

example : rewrites (Serde.policy env) (chars 29 [0x7b2274797065223a226166746572222c22706f6c696379223a3130307d]) = true := by
  decide +kernel

example : rewrites (Serde.policy env) (chars 97 [0x7b2274797065223a22706b222c22706f6c696379223a22656432353531393a30, 0x3130313031303130313031303130313031303130313031303130313031303130, 0x3130313031303130313031303130313031303130313031303130313031303122, 0x7d]) = true := by
  decide +kernel

example : rewrites (Serde.policy env) (chars 88 [0x7b2274797065223a2268222c22706f6c696379223a2230303030303030303030, 0x3030303030303030303030303030303030303030303030303030303030303030, 0x30303030303030303030303030303030303030303030227d]) = true := by
  decide +kernel

example : rewrites (Serde.policy env) (chars 169 [0x7b2274797065223a22746872657368222c22706f6c696379223a7b226e223a32, 0x2c226f66223a5b7b22706f6c696379223a22656432353531393a303030303030, 0x3030303030303030303030303030303030303030303030303030303030303030, 0x3030303030303030303030303030303030303030303030303030222c22747970, 0x65223a22706b227d2c7b22706f6c696379223a3130302c2274797065223a2261, 0x626f7665227d5d7d7d]) = true := by
  decide +kernel

example : rewrites (Serde.policy env) (chars 227 [0x7b2274797065223a227563222c22706f6c696379223a7b2274696d656c6f636b, 0x223a3130302c227075626c69634b657973223a5b22656432353531393a303030, 0x3030303030303030303030303030303030303030303030303030303030303030, 0x3030303030303030303030303030303030303030303030303030303030222c22, 0x656432353531393a303130313031303130313031303130313031303130313031, 0x3031303130313031303130313031303130313031303130313031303130313031, 0x3031303130313031225d2c227369676e6174757265735265717569726564223a, 0x327d7d]) = true := by
  decide +kernel

/-! ### `test_satisfied_policy_encoding` (sia/src/types/spendpolicy.rs) -/

example : rewrites (Serde.satisfiedPolicy env) (chars 254 [0x7b22706f6c696379223a7b2274797065223a22706b222c22706f6c696379223a, 0x22656432353531393a3362366132376263636562366134326436326133613864, 0x3032613666306437333635333231353737316465323433613633616330343861, 0x313862353964613239227d2c227369676e617475726573223a5b223836376334, 0x3035393737613532636166343535323231643439656136323432353834323231, 0x6162376636623161336535613765353135643166343032373835326536343133, 0x3330333636666264393339353065356431356437313533633238386137643936, 0x343632646239313232333531323937323562663133623261333063225d7d]) = true := by
  decide +kernel

example : rewrites (Serde.satisfiedPolicy env) (chars 180 [0x7b22706f6c696379223a7b2274797065223a2268222c22706f6c696379223a22, 0x3065353735316330323665353433623265386162326562303630393964616131, 0x6431653564663437373738663737383766616162343563646631326665336138, 0x227d2c22707265696d61676573223a5b22303430353036303030303030303030, 0x3030303030303030303030303030303030303030303030303030303030303030, 0x3030303030303030303030303030303030225d7d]) = true := by
  decide +kernel

example : rewrites (Serde.satisfiedPolicy env) (chars 108 [0x7b22706f6c696379223a7b2274797065223a22706b222c22706f6c696379223a, 0x22656432353531393a3362366132376263636562366134326436326133613864, 0x3032613666306437333635333231353737316465323433613633616330343861, 0x313862353964613239227d7d]) = true := by
  decide +kernel

example : rewrites (Serde.satisfiedPolicy env) (chars 99 [0x7b22706f6c696379223a7b2274797065223a2268222c22706f6c696379223a22, 0x3065353735316330323665353433623265386162326562303630393964616131, 0x6431653564663437373738663737383766616162343563646631326665336138, 0x227d7d]) = true := by
  decide +kernel

/-! ### `test_serialize_unlock_key` (sia/src/types/v1.rs) -/

example : rewrites (Serde.unlockKey) (chars 74 [0x22656432353531393a3961616331666662316366643130373961386336633837, 0x6234376461316435363765333562393732333439393363323838633161643064, 0x62316431636531623622]) = true := by
  decide +kernel

/-! ### `test_serialize_unlock_conditions` (sia/src/types/v1.rs) -/

example : rewrites (Serde.unlockConditions) (chars 129 [0x7b2274696d656c6f636b223a3132332c227075626c69634b657973223a5b2265, 0x6432353531393a39616163316666623163666431303739613863366338376234, 0x3764613164353637653335623937323334393933633238386331616430646231, 0x64316365316236225d2c227369676e6174757265735265717569726564223a31, 0x7d]) = true := by
  decide +kernel

/-! ### `test_serialize_covered_fields` (sia/src/types/v1.rs) -/

example : rewrites (Serde.coveredFields) (chars 69 [0x7b2277686f6c655472616e73616374696f6e223a66616c73652c22736961636f, 0x696e496e70757473223a5b315d2c22736961636f696e4f757470757473223a5b, 0x322c335d7d]) = true := by
  decide +kernel

/-! ### `test_serialize_siacoin_input` (sia/src/types/v1.rs) -/

example : rewrites (Serde.v1SiacoinInput) (chars 228 [0x7b22706172656e744944223a2262333633336131333730613732303032616532, 0x6139353664323165386434383163336136396531343636333334373063663632, 0x35656364383366646561613234222c22756e6c6f636b436f6e646974696f6e73, 0x223a7b2274696d656c6f636b223a3132332c227075626c69634b657973223a5b, 0x22656432353531393a3961616331666662316366643130373961386336633837, 0x6234376461316435363765333562393732333439393363323838633161643064, 0x623164316365316236225d2c227369676e617475726573526571756972656422, 0x3a317d7d]) = true := by
  decide +kernel

/-! ### `test_serialize_siafund_input` (sia/src/types/v1.rs) -/

example : rewrites (Serde.v1SiafundInput env) (chars 322 [0x7b22706172656e744944223a2262333633336131333730613732303032616532, 0x6139353664323165386434383163336136396531343636333334373063663632, 0x35656364383366646561613234222c22756e6c6f636b436f6e646974696f6e73, 0x223a7b2274696d656c6f636b223a3132332c227075626c69634b657973223a5b, 0x22656432353531393a3961616331666662316366643130373961386336633837, 0x6234376461316435363765333562393732333439393363323838633161643064, 0x623164316365316236225d2c227369676e617475726573526571756972656422, 0x3a317d2c22636c61696d41646472657373223a22386662343963636631376466, 0x6463633935323664656336656538613563636132306666383234373330323035, 0x3364333737373431306239623034393462613863646633326162656538366630, 0x227d]) = true := by
  decide +kernel

/-! ### `test_serialize_transaction_signature` (sia/src/types/v1.rs) -/

example : rewrites (Serde.transactionSignature) (chars 256 [0x7b22706172656e744944223a2262333633336131333730613732303032616532, 0x6139353664323165386434383163336136396531343636333334373063663632, 0x35656364383366646561613234222c227075626c69634b6579496e646578223a, 0x312c2274696d656c6f636b223a322c22636f76657265644669656c6473223a7b, 0x2277686f6c655472616e73616374696f6e223a747275657d2c227369676e6174, 0x757265223a2241774d4441774d4441774d4441774d4441774d4441774d444177, 0x4d4441774d4441774d4441774d4441774d4441774d4441774d4441774d444177, 0x4d4441774d4441774d4441774d4441774d4441774d4441774d4441773d3d227d]) = true := by
  decide +kernel

/-! ### `test_serialize_storage_proof` (sia/src/types/v1.rs) -/

example : rewrites (Serde.v1StorageProof) (chars 361 [0x7b22706172656e744944223a2262333633336131333730613732303032616532, 0x6139353664323165386434383163336136396531343636333334373063663632, 0x35656364383366646561613234222c226c656166223a22303130323033303430, 0x3530363037303830393061306230633064306530663130313131323133313431, 0x3531363137313831393161316231633164316531663230323132323233323432, 0x3532363237323832393261326232633264326532663330333133323333333433, 0x3533363337333833393361336233633364336533663430222c2270726f6f6622, 0x3a5b223031303230333030303030303030303030303030303030303030303030, 0x3030303030303030303030303030303030303030303030303030303030303030, 0x303030222c223034303530363030303030303030303030303030303030303030, 0x3030303030303030303030303030303030303030303030303030303030303030, 0x303030303030225d7d]) = true := by
  decide +kernel

/-! ### `test_serialize_siacoin_element` (sia/src/types/v2.rs) -/

example : rewrites (Serde.siacoinElement env) (chars 358 [0x7b227374617465456c656d656e74223a7b226c656166496e646578223a302c22, 0x6d65726b6c6550726f6f66223a5b223030303030303030303030303030303030, 0x3030303030303030303030303030303030303030303030303030303030303030, 0x303030303030303030303030303030225d7d2c226964223a2230303030303030, 0x3030303030303030303030303030303030303030303030303030303030303030, 0x30303030303030303030303030303030303030303030303030222c2273696163, 0x6f696e4f7574707574223a7b2276616c7565223a223233383930383438303030, 0x3030303030303030303030303030303030303030303030222c22616464726573, 0x73223a2230303030303030303030303030303030303030303030303030303030, 0x3030303030303030303030303030303030303030303030303030303030303030, 0x30303030383965623064366138613639227d2c226d6174757269747948656967, 0x6874223a307d]) = true := by
  decide +kernel

/-! ### `test_serialize_siafund_element` (sia/src/types/v2.rs) -/

example : rewrites (Serde.siafundElement env) (chars 339 [0x7b227374617465456c656d656e74223a7b226c656166496e646578223a302c22, 0x6d65726b6c6550726f6f66223a5b223030303030303030303030303030303030, 0x3030303030303030303030303030303030303030303030303030303030303030, 0x303030303030303030303030303030225d7d2c226964223a2230303030303030, 0x3030303030303030303030303030303030303030303030303030303030303030, 0x30303030303030303030303030303030303030303030303030222c2273696166, 0x756e644f7574707574223a7b2276616c7565223a313038363730383932393138, 0x383034313430382c2261646472657373223a2230303030303030303030303030, 0x3030303030303030303030303030303030303030303030303030303030303030, 0x3030303030303030303030303030303030303038396562306436613861363922, 0x7d2c22636c61696d5374617274223a2230227d]) = true := by
  decide +kernel

/-! ### `test_transaction_serialization` (sia/src/types/v2.rs) -/

example : rewrites (Serde.v2Transaction env) (chars 16 [0x7b226d696e6572466565223a2230227d]) = true := by
  decide +kernel

end Verif.Vector
