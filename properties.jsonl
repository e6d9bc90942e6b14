{"id": "C01", "title": "v2 transaction binary round trip", "statement": "Decoding the bytes written by encoding a v2 transaction yields the same transaction and leaves exactly the bytes that followed it in the stream.", "quantifier": "every v2 transaction whose timestamps are whole seconds in the representable range and whose threshold policies have at most 255 children; every continuation of the stream", "why_tests_cant": "The space of transactions is infinite: eleven optional lists, three resolution kinds, recursive policies. Tests round-trip a handful of literals.", "anchors": ["sia/src/types/v2.rs:Transaction::encode", "sia/src/types/v2.rs:Transaction::decode", "sia/src/encoding/v2.rs:SiaEncodable::encode", "sia/src/encoding/v2.rs:SiaDecodable::decode"]}
{"id": "C02", "title": "v1 transaction binary round trip", "statement": "decode_v1 of encode_v1 of a v1 transaction yields the same transaction and leaves the following bytes untouched.", "quantifier": "every v1 transaction and every continuation of the stream", "why_tests_cant": "Ten lists of nested structures with variable-length currencies; tests check a few literals.", "anchors": ["sia/src/types/v1.rs:Transaction", "sia_derive/src/lib.rs:derive_sia_encode", "sia_derive/src/lib.rs:derive_sia_decode", "sia_derive/src/lib.rs:derive_v1_sia_encode", "sia_derive/src/lib.rs:derive_v1_sia_decode", "sia/src/encoding/v1.rs:V1SiaEncodable::encode_v1", "sia/src/encoding/v1.rs:V1SiaDecodable::decode_v1"]}
{"id": "C03", "title": "v1 block binary round trip", "statement": "decode_v1 of encode_v1 of a block yields the same block.", "quantifier": "every block whose timestamp is a whole second in the representable range", "why_tests_cant": "Only one or two literal blocks are tested; the timestamp is encoded with the other codec's implementation.", "anchors": ["sia/src/types/common.rs:Block", "sia/src/encoding/v2.rs:OffsetDateTime"]}
{"id": "C04", "title": "chain state binary round trip", "statement": "decode of encode of a consensus State (and of its element accumulator) yields the same state, although only min(height+1, 11) timestamps and only the occupied trees are written.", "quantifier": "every state in normal form: unused timestamps are the epoch, trees at clear bits are zero, durations are non-negative and fit i64 nanoseconds, height < 2^64-1", "why_tests_cant": "The omitted parts depend on the height and on the 64-bit leaf count; tests use one state.", "anchors": ["sia/src/consensus.rs:State::encode", "sia/src/consensus.rs:State::decode", "sia/src/consensus.rs:ElementAccumulator"]}
{"id": "C05", "title": "spend policy binary round trip", "statement": "decode of encode of a spend policy yields the same policy, for any nesting.", "quantifier": "every policy whose every threshold has at most 255 children", "why_tests_cant": "Policies are an unbounded recursive type; tests use small fixed trees.", "anchors": ["sia/src/types/spendpolicy.rs:SpendPolicy::encode_policy", "sia/src/types/spendpolicy.rs:SpendPolicy::decode_policy"]}
{"id": "C06", "title": "encodings are self-delimiting and injective", "statement": "If the encodings of two values of one type, each followed by arbitrary bytes, are the same byte string then the values and the continuations are equal; so no encoding is a proper prefix of another and distinct values hash distinct preimages.", "quantifier": "every pair of representable values of each encodable type, every pair of continuations", "why_tests_cant": "It is a statement about all pairs of values.", "anchors": ["sia/src/encoding/v1.rs:V1SiaEncodable::encode_v1", "sia/src/encoding/v1.rs:V1SiaDecodable::decode_v1", "sia/src/encoding/v2.rs:SiaEncodable::encode", "sia/src/encoding/v2.rs:SiaDecodable::decode", "sia/src/types/v1.rs:UnlockKey", "sia/src/types/v1.rs:UnlockConditions", "sia/src/types/v1.rs:SiacoinInput", "sia/src/types/v1.rs:SiafundInput", "sia/src/types/v1.rs:FileContract", "sia/src/types/v1.rs:FileContractRevision", "sia/src/types/v1.rs:StorageProof", "sia/src/types/v1.rs:CoveredFields", "sia/src/types/v1.rs:TransactionSignature", "sia/src/types/v1.rs:Transaction", "sia/src/types/v2.rs:Attestation", "sia/src/types/v2.rs:FileContract", "sia/src/types/v2.rs:SiacoinElement", "sia/src/types/v2.rs:SiafundElement", "sia/src/types/v2.rs:FileContractElement", "sia/src/types/v2.rs:ChainIndexElement", "sia/src/types/v2.rs:SiacoinInput", "sia/src/types/v2.rs:SiafundInput", "sia/src/types/v2.rs:FileContractRevision", "sia/src/types/v2.rs:FileContractRenewal", "sia/src/types/v2.rs:StorageProof", "sia/src/types/v2.rs:FileContractResolution", "sia/src/types/v2.rs:Transaction", "sia/src/consensus.rs:ElementAccumulator", "sia/src/consensus.rs:State", "sia/src/types/spendpolicy.rs:SpendPolicy", "sia/src/types/spendpolicy.rs:SatisfiedPolicy"]}
{"id": "C07", "title": "truncated input is an error", "statement": "Decoding any proper prefix of a valid encoding returns an error: it neither returns a value nor panics.", "quantifier": "every representable value of every decodable type and every proper prefix of its encoding", "why_tests_cant": "Needs every cut point of every message.", "anchors": ["sia/src/encoding/v1.rs:V1SiaEncodable::encode_v1", "sia/src/encoding/v1.rs:V1SiaDecodable::decode_v1", "sia/src/encoding/v2.rs:SiaEncodable::encode", "sia/src/encoding/v2.rs:SiaDecodable::decode", "sia/src/types/v1.rs:UnlockKey", "sia/src/types/v1.rs:UnlockConditions", "sia/src/types/v1.rs:SiacoinInput", "sia/src/types/v1.rs:SiafundInput", "sia/src/types/v1.rs:FileContract", "sia/src/types/v1.rs:FileContractRevision", "sia/src/types/v1.rs:StorageProof", "sia/src/types/v1.rs:CoveredFields", "sia/src/types/v1.rs:TransactionSignature", "sia/src/types/v1.rs:Transaction", "sia/src/types/v2.rs:Attestation", "sia/src/types/v2.rs:FileContract", "sia/src/types/v2.rs:SiacoinElement", "sia/src/types/v2.rs:SiafundElement", "sia/src/types/v2.rs:FileContractElement", "sia/src/types/v2.rs:ChainIndexElement", "sia/src/types/v2.rs:SiacoinInput", "sia/src/types/v2.rs:SiafundInput", "sia/src/types/v2.rs:FileContractRevision", "sia/src/types/v2.rs:FileContractRenewal", "sia/src/types/v2.rs:StorageProof", "sia/src/types/v2.rs:FileContractResolution", "sia/src/types/v2.rs:Transaction", "sia/src/consensus.rs:ElementAccumulator", "sia/src/consensus.rs:State", "sia/src/types/spendpolicy.rs:SpendPolicy", "sia/src/types/spendpolicy.rs:SatisfiedPolicy"]}
{"id": "C08", "title": "decoders are local", "statement": "A successful decode depends only on the bytes it consumed: what remains is a suffix of the input, and appending bytes to the input appends them to the remainder and changes nothing else.", "quantifier": "every byte string, every decodable type, every extension", "why_tests_cant": "Quantifies over all byte strings including malformed ones.", "anchors": ["sia/src/encoding/v1.rs:V1SiaEncodable::encode_v1", "sia/src/encoding/v1.rs:V1SiaDecodable::decode_v1", "sia/src/encoding/v2.rs:SiaEncodable::encode", "sia/src/encoding/v2.rs:SiaDecodable::decode", "sia/src/types/v1.rs:UnlockKey", "sia/src/types/v1.rs:UnlockConditions", "sia/src/types/v1.rs:SiacoinInput", "sia/src/types/v1.rs:SiafundInput", "sia/src/types/v1.rs:FileContract", "sia/src/types/v1.rs:FileContractRevision", "sia/src/types/v1.rs:StorageProof", "sia/src/types/v1.rs:CoveredFields", "sia/src/types/v1.rs:TransactionSignature", "sia/src/types/v1.rs:Transaction", "sia/src/types/v2.rs:Attestation", "sia/src/types/v2.rs:FileContract", "sia/src/types/v2.rs:SiacoinElement", "sia/src/types/v2.rs:SiafundElement", "sia/src/types/v2.rs:FileContractElement", "sia/src/types/v2.rs:ChainIndexElement", "sia/src/types/v2.rs:SiacoinInput", "sia/src/types/v2.rs:SiafundInput", "sia/src/types/v2.rs:FileContractRevision", "sia/src/types/v2.rs:FileContractRenewal", "sia/src/types/v2.rs:StorageProof", "sia/src/types/v2.rs:FileContractResolution", "sia/src/types/v2.rs:Transaction", "sia/src/consensus.rs:ElementAccumulator", "sia/src/consensus.rs:State", "sia/src/types/spendpolicy.rs:SpendPolicy", "sia/src/types/spendpolicy.rs:SatisfiedPolicy"]}
{"id": "C09", "title": "canonical decoding", "statement": "For the types listed, every byte string the decoder accepts is exactly the encoding of the value it returns; for the other types the accepted non-canonical forms are exhibited.", "quantifier": "every byte string", "why_tests_cant": "Tests never feed non-canonical encodings; the statement covers all inputs.", "anchors": ["sia/src/encoding/v1.rs:V1SiaEncodable::encode_v1", "sia/src/encoding/v1.rs:V1SiaDecodable::decode_v1", "sia/src/encoding/v2.rs:SiaEncodable::encode", "sia/src/encoding/v2.rs:SiaDecodable::decode", "sia/src/types/v1.rs:UnlockKey", "sia/src/types/v1.rs:UnlockConditions", "sia/src/types/v1.rs:SiacoinInput", "sia/src/types/v1.rs:SiafundInput", "sia/src/types/v1.rs:FileContract", "sia/src/types/v1.rs:FileContractRevision", "sia/src/types/v1.rs:StorageProof", "sia/src/types/v1.rs:CoveredFields", "sia/src/types/v1.rs:TransactionSignature", "sia/src/types/v1.rs:Transaction", "sia/src/types/v2.rs:Attestation", "sia/src/types/v2.rs:FileContract", "sia/src/types/v2.rs:SiacoinElement", "sia/src/types/v2.rs:SiafundElement", "sia/src/types/v2.rs:FileContractElement", "sia/src/types/v2.rs:ChainIndexElement", "sia/src/types/v2.rs:SiacoinInput", "sia/src/types/v2.rs:SiafundInput", "sia/src/types/v2.rs:FileContractRevision", "sia/src/types/v2.rs:FileContractRenewal", "sia/src/types/v2.rs:StorageProof", "sia/src/types/v2.rs:FileContractResolution", "sia/src/types/v2.rs:Transaction", "sia/src/types/currency.rs:Currency", "sia/src/types/spendpolicy.rs:SpendPolicy", "sia/src/types/spendpolicy.rs:SatisfiedPolicy"]}
{"id": "C10", "title": "decoding untrusted bytes does not panic", "statement": "Decoding an arbitrary byte string returns a value or an error and never panics.", "quantifier": "every byte string and every decodable type", "why_tests_cant": "Fuzzing samples; the property covers all inputs. (It is false for some types; the exact panic inputs are characterised.)", "anchors": ["sia/src/encoding/v1.rs:Vec", "sia/src/encoding/v2.rs:OffsetDateTime", "sia/src/consensus.rs:State::decode", "sia/src/types/spendpolicy.rs:SpendPolicy::decode"]}
{"id": "C11", "title": "v1 currency encoding is minimal big-endian", "statement": "The v1 encoding of a currency is an 8-byte little-endian length n<=16 followed by the n-byte big-endian representation without leading zero; zero is the empty string. The decoder returns the big-endian value of up to 16 bytes and rejects longer ones.", "quantifier": "every 128-bit value; every byte string", "why_tests_cant": "2^128 values.", "anchors": ["sia/src/types/currency.rs:encode_v1", "sia/src/types/currency.rs:decode_v1"]}
{"id": "C12", "title": "checked currency arithmetic is exact", "statement": "checked_add/sub/mul/div return the mathematically exact result when it is a valid currency and None otherwise.", "quantifier": "every pair of currencies", "why_tests_cant": "2^256 operand pairs.", "anchors": ["sia/src/types/currency.rs:checked_add", "sia/src/types/currency.rs:checked_sub", "sia/src/types/currency.rs:checked_mul", "sia/src/types/currency.rs:checked_div"]}
{"id": "C13", "title": "currency operators never lose money silently", "statement": "+, -, *, /, % and iterator sum return the exact integer result whenever it is representable; otherwise they panic in an overflow-checked build and give the result modulo 2^128 in an unchecked one.", "quantifier": "every pair of currencies, every list of currencies for sum, both build modes", "why_tests_cant": "Infinite lists; overflow depends on build profile.", "anchors": ["sia/src/types/currency.rs:Add", "sia/src/types/currency.rs:Sub", "sia/src/types/currency.rs:Mul", "sia/src/types/currency.rs:Div", "sia/src/types/currency.rs:Rem", "sia/src/types/currency.rs:Sum"]}
{"id": "C14", "title": "currency strings mean what they say", "statement": "Parsing '<integer>[.<fraction>] <unit>' yields exactly the denoted decimal number of the unit in hastings, or an error; malformed numbers and unknown units are errors.", "quantifier": "every string; exactness for every string whose value is a whole number of hastings below 2^128", "why_tests_cant": "All strings; tests use about twenty.", "anchors": ["sia/src/types/currency.rs:parse_string"]}
{"id": "C15", "title": "currency JSON text round trip", "statement": "Formatting a currency as its JSON decimal string and parsing it back is the identity.", "quantifier": "every 128-bit value", "why_tests_cant": "2^128 values.", "anchors": ["sia/src/types/currency.rs:Serialize", "sia/src/types/currency.rs:Deserialize", "sia/src/types/currency.rs:parse_string"]}
{"id": "C16", "title": "whole-siacoin constructor", "statement": "Currency::siacoins(n) is n*10^24 hastings whenever that is representable (n <= 340282366920938), and otherwise overflows.", "quantifier": "every u64 n, both build modes", "why_tests_cant": "2^64 values and the boundary is not tested.", "anchors": ["sia/src/types/currency.rs:siacoins"]}
{"id": "C17", "title": "hash identifiers text round trip", "statement": "Parsing the displayed form of any 32-byte identifier returns it; the parser accepts exactly 64 hex digits optionally preceded by anything up to a first colon, and rejects everything else with the right error.", "quantifier": "every identifier, every string", "why_tests_cant": "2^256 identifiers and all strings.", "anchors": ["sia/src/macros.rs:impl_hash_id"]}
{"id": "C18", "title": "address checksum", "statement": "Parsing the displayed address returns the address; a string is accepted iff it is 76 hex digits whose last six bytes are the first six bytes of the hash of the first 32.", "quantifier": "every address, every string, every hash function", "why_tests_cant": "All strings; tests check a few typos.", "anchors": ["sia/src/types/common.rs:Address::parse_string", "sia/src/types/common.rs:Address::fmt"]}
{"id": "C19", "title": "public key, signature and leaf text round trip", "statement": "Parsing the displayed/serialised form of a public key, signature or storage-proof leaf returns the same value.", "quantifier": "every value", "why_tests_cant": "Infinite (2^256, 2^512) values.", "anchors": ["sia/src/signing.rs:PublicKey", "sia/src/signing.rs:Signature", "sia/src/types/common.rs:Leaf"]}
{"id": "C20", "title": "unlock key text round trip", "statement": "Parsing the displayed form of an unlock key returns the same key when its algorithm name is UTF-8 text without a colon; with a colon it does not.", "quantifier": "every unlock key", "why_tests_cant": "All keys and algorithm names.", "anchors": ["sia/src/types/v1.rs:UnlockKey"]}
{"id": "C21", "title": "specifier conversion", "statement": "Converting a string to a specifier keeps its first 16 bytes and zero-pads; displaying gives the text back when it has at most 16 bytes and no trailing NUL; longer names with a common 16-byte prefix collide.", "quantifier": "every string", "why_tests_cant": "All strings.", "anchors": ["sia/src/types/specifier.rs:Specifier"]}
{"id": "C22", "title": "v1 transaction id ignores signatures and commits to everything else", "statement": "Two v1 transactions that differ only in signatures have the same id; if two have the same id then all other fields agree or a hash collision is exhibited.", "quantifier": "every pair of v1 transactions, every hash function", "why_tests_cant": "Pairs of infinite types, universally over the hash.", "anchors": ["sia/src/types/v1.rs:Transaction::id", "sia/src/types/v1.rs:encode_no_sigs"]}
{"id": "C23", "title": "v2 transaction id and input signature hash ignore witnesses", "statement": "The id and input_sig_hash of a v2 transaction do not change when satisfied policies, contract signatures, Merkle proofs of parents or leaf indices of inputs are changed.", "quantifier": "every v2 transaction and every replacement of those parts", "why_tests_cant": "Infinite families of transactions.", "anchors": ["sia/src/types/v2.rs:Transaction::encode_semantics", "sia/src/types/v2.rs:Transaction::id", "sia/src/types/v2.rs:input_sig_hash"]}
{"id": "C24", "title": "v2 transaction id commits to the transaction's effects", "statement": "If two v2 transactions have the same id then they spend the same elements and create the same outputs, contracts, revisions, resolutions, attestations, data, foundation change and fee, or a hash collision is exhibited.", "quantifier": "every pair of v2 transactions, every hash function", "why_tests_cant": "Pairs of infinite types. (False in full: the resolution kind is not encoded and the siafund claim address is not covered; proved for equal resolution kinds.)", "anchors": ["sia/src/types/v2.rs:Transaction::encode_semantics", "sia/src/types/v2.rs:FileContractResolution::encode_semantics"]}
{"id": "C25", "title": "derived identifiers are domain separated", "statement": "Identifiers derived by different methods, from different parents or for different indices are hashes of different byte strings, so they coincide only by a hash collision.", "quantifier": "every pair of derivations (method, parent, index)", "why_tests_cant": "All pairs of ids and indices.", "anchors": ["sia/src/types/common.rs:SiafundOutputID", "sia/src/types/common.rs:BlockID", "sia/src/types/common.rs:TransactionID", "sia/src/types/common.rs:FileContractID", "sia/src/types/v1.rs:siacoin_output_id"]}
{"id": "C26", "title": "v1 whole-transaction signature hash commits to the transaction and the signature's scope", "statement": "Equal whole_sig_hash implies equal non-signature fields, parent id, key index and timelock, or a hash collision.", "quantifier": "every pair of (transaction, parent, index, timelock) under one chain state, every hash function", "why_tests_cant": "Pairs of infinite types.", "anchors": ["sia/src/types/v1.rs:whole_sig_hash"]}
{"id": "C27", "title": "replay protection across hardforks", "statement": "For a transaction with at least one siacoin or siafund input the preimages signed in two different replay eras differ; for a v2 input the same holds from the ASIC hardfork on for all pairs of transactions.", "quantifier": "every transaction, every pair of chain states in different eras", "why_tests_cant": "All transactions and heights.", "anchors": ["sia/src/consensus.rs:replay_prefix", "sia/src/types/v1.rs:whole_sig_hash", "sia/src/types/v2.rs:input_sig_hash"]}
{"id": "C28", "title": "partial signature hash bounds and coverage", "statement": "partial_sig_hash fails iff some covered index is out of range, never panics, and its result depends only on the covered elements.", "quantifier": "every transaction, every covered-fields value, every pair of transactions agreeing on the covered elements", "why_tests_cant": "All index lists and transactions.", "anchors": ["sia/src/types/v1.rs:partial_sig_hash", "sia/src/types/v1.rs:CoveredFields"]}
{"id": "C29", "title": "v2 signature hashes are domain separated and signature independent", "statement": "sig_hash of attestations, contracts and renewals, and input_sig_hash, hash byte strings with different prefixes, do not depend on signatures, and commit to all other contract fields.", "quantifier": "every pair of signed objects", "why_tests_cant": "All pairs of objects.", "anchors": ["sia/src/types/v2.rs:Attestation::sig_hash", "sia/src/types/v2.rs:FileContract::sig_hash", "sia/src/types/v2.rs:FileContractRenewal::sig_hash", "sia/src/types/v2.rs:input_sig_hash"]}
{"id": "C30", "title": "opaque policies do not change a threshold's address", "statement": "Replacing any sub-policy, at any depth below a threshold, by the opaque policy of its address leaves the address unchanged.", "quantifier": "every policy, every position, every hash function", "why_tests_cant": "Unbounded trees and positions.", "anchors": ["sia/src/types/spendpolicy.rs:SpendPolicy::address"]}
{"id": "C31", "title": "policy address commits to the policy", "statement": "Two policies have the same address exactly if they agree up to parts hidden behind opaque addresses, the keys that addresses of unlock conditions leave out (C68), and fractions of seconds, or a hash collision is exhibited. In particular policies without opaque parts, with times in whole seconds and at most one key per unlock conditions, that have the same address are equal.", "quantifier": "every pair of such policies, every hash function", "why_tests_cant": "Pairs of unbounded trees.", "anchors": ["sia/src/types/spendpolicy.rs:SpendPolicy::address"]}
{"id": "C32", "title": "unlock conditions address is the Merkle root of the conditions", "statement": "The address of unlock conditions is the Merkle root over timelock, each public key in order, and required signatures, so it commits to every key.", "quantifier": "every unlock conditions value, every hash function", "why_tests_cant": "Any number of keys; tests only use one key. (False from two keys on: the exact deviation is proved.)", "anchors": ["sia/src/types/v1.rs:UnlockConditions::address", "sia/src/merkle.rs:Accumulator::add_leaf"]}
{"id": "C33", "title": "Merkle accumulator computes the Merkle root", "statement": "After adding n leaves the accumulator's root is the root of the standard binary Merkle tree over those leaves.", "quantifier": "every list of leaf hashes, every node hash", "why_tests_cant": "Any number of leaves. (False from four leaves on; proved up to three, and the exact function computed is characterised.)", "anchors": ["sia/src/merkle.rs:Accumulator"]}
{"id": "C34", "title": "sector root is the Merkle root of the sector", "statement": "sector_root of a 4 MiB sector is the Merkle root over its 65536 64-byte segments.", "quantifier": "every sector, every hash function", "why_tests_cant": "2^(2^25) sectors; the only test is commented out. (False: most of the sector is never read; the tree reduction itself is proved right.)", "anchors": ["sia/src/rhp.rs:sector_root"]}
{"id": "C35", "title": "sector root is independent of thread scheduling", "statement": "The parallel chunk loops give the same array whatever order the chunks are processed in.", "quantifier": "every permutation of the chunks, every level", "why_tests_cant": "Schedules cannot be enumerated by tests.", "anchors": ["sia/src/rhp.rs:sector_root"]}
{"id": "C36", "title": "block reward schedule", "statement": "The block reward is initial_coinbase minus one siacoin per height, never below minimum_coinbase, non-increasing in height, and constant once at the minimum. In builds without overflow checks the height and the product wrap: the exact reward is proved for every height, and on the main network it rises from 30000 to more than 299999 siacoins at height 340282366920939 (finding).", "quantifier": "every network, every pair of heights where it does not overflow", "why_tests_cant": "All heights and networks.", "anchors": ["sia/src/consensus.rs:ChainState::block_reward"]}
{"id": "C37", "title": "replay prefix eras", "statement": "replay_prefix is determined by the latest activated hardfork and prefixes of distinct eras are distinct.", "quantifier": "every chain state", "why_tests_cant": "All heights and network parameters.", "anchors": ["sia/src/consensus.rs:replay_prefix"]}
{"id": "C38", "title": "foundation subsidy schedule", "statement": "A subsidy is due exactly at the foundation hardfork height and every blocks_per_month blocks after it; the first is twelve times the following ones.", "quantifier": "every network and height", "why_tests_cant": "All heights. Division by zero for degenerate intervals is characterised.", "anchors": ["sia/src/consensus.rs:foundation_subsidy", "sia/src/consensus.rs:blocks_per_month"]}
{"id": "C39", "title": "v1 contract tax", "statement": "The tax never exceeds 3.9% of the payout (rounded per era), is a multiple of the siafund count, falls short of the exact 3.9% by less than 10000 hastings after the hardfork, is monotone in the payout and never panics.", "quantifier": "every payout, every height", "why_tests_cant": "2^128 payouts; the test only reaches the pre-fork branch with payout 0.", "anchors": ["sia/src/types/v1.rs:FileContract::tax"]}
{"id": "C40", "title": "v2 contract tax", "statement": "The tax is the largest multiple of 10000 not above 4% of the renter plus host outputs, and is only undefined when their sum overflows. In builds without overflow checks such a sum loses 2^128 first and the tax is that of the rest.", "quantifier": "every pair of output values, both build modes", "why_tests_cant": "2^256 pairs.", "anchors": ["sia/src/types/v2.rs:FileContract::tax"]}
{"id": "C41", "title": "seed key derivation commits to the index", "statement": "Keys of different indices of one seed are derived from hashes of different byte strings; equal private keys imply a collision in the hash; equal public keys imply a collision in the hash or two seeds with the same ed25519 scalar.", "quantifier": "every seed and pair of u64 indices, every hash function", "why_tests_cant": "2^64 indices.", "anchors": ["sia/src/seed.rs:Seed::private_key"]}
{"id": "C42", "title": "spend policy JSON round trip", "statement": "Deserialising the JSON produced for a policy returns the policy. What is written is an object of the name of its type and its contents.", "quantifier": "every policy with whole-second timestamps in range", "why_tests_cant": "Unbounded trees.", "anchors": ["sia/src/types/spendpolicy.rs:Serialize", "sia/src/types/spendpolicy.rs:Deserialize"]}
{"id": "C43", "title": "writer failures surface as errors", "statement": "When the writer fails, encoding returns the error, does not panic, and what was written is a prefix of the encoding. Interruptions of the writer change nothing: writing goes on until the writer answers. The writer is called at most once for each byte it takes, and once more if it fails.", "quantifier": "every value, every failure point", "why_tests_cant": "Needs every failure point. (False for State, whose timestamps are unwrapped.)", "anchors": ["sia/src/consensus.rs:State::encode", "sia/src/encoding/v1.rs:V1SiaEncodable::encode_v1", "sia/src/encoding/v2.rs:SiaEncodable::encode"]}
{"id": "C44", "title": "signature hash ambiguity of partial signatures", "statement": "Two different covered-field selections over two different transactions never hash the same bytes.", "quantifier": "every pair", "why_tests_cant": "All pairs. (False: lengths and kinds are not encoded; witness given, and the positive part is C28.)", "anchors": ["sia/src/types/v1.rs:partial_sig_hash"]}
{"id": "C45", "title": "element accumulator JSON", "statement": "Deserialising the JSON of an element accumulator gives it back; the number of trees must equal the number of one bits of the leaf count.", "quantifier": "every accumulator in normal form, every JSON value", "why_tests_cant": "2^64 leaf counts.", "anchors": ["sia/src/consensus.rs:ElementAccumulator::serialize", "sia/src/consensus.rs:ElementAccumulator::deserialize"]}
{"id": "C46", "title": "work values round trip", "statement": "Work values round-trip through both binary codecs (32 big-endian bytes) and decimal text.", "quantifier": "every 256-bit value", "why_tests_cant": "2^256 values.", "anchors": ["sia/src/types/work.rs:Work"]}
{"id": "C47", "title": "compile-time literals agree with the parser", "statement": "The literal macros (hash_256!, address!, public_key!, ...) yield on every valid literal the same bytes as the run-time parser, and panic on every literal with a non-hex digit or wrong length.", "quantifier": "every literal string", "why_tests_cant": "All strings. address! does not verify the checksum: characterised.", "anchors": ["sia/src/macros.rs:decode_hex_256", "sia/src/macros.rs:address", "sia/src/macros.rs:public_key"]}
{"id": "C48", "title": "signing round trip", "statement": "A signature made by a private key derived from a seed verifies under its public key; verification panics exactly when the key bytes are not those of a curve point, and there are such bytes.", "quantifier": "every seed and every message; ed25519 with any hash function in place of SHA-512", "why_tests_cant": "All seeds and messages.", "anchors": ["sia/src/signing.rs:PrivateKey::sign_hash", "sia/src/signing.rs:PublicKey::verify"]}
{"id": "C49", "title": "mnemonic phrases", "statement": "A seed's phrase reads back as the seed; text is accepted exactly if it is twelve listed words whose positions encode the seed and its checksum bits; longer right phrases get InvalidLength, everything else MnemonicError; phrases of one seed have the same words.", "quantifier": "every seed, every text; the English list with SHA-256, and every other hash and list of 2048 distinct words; every normalisation that leaves ASCII alone", "why_tests_cant": "2^128 seeds and unbounded text.", "anchors": ["sia/src/seed.rs:Seed::from_mnemonic", "sia/src/seed.rs:Seed::to_mnemonic"]}
{"id": "C50", "title": "JSON round trips", "statement": "Deserialising the JSON produced for a v1 or v2 transaction, block, network, state or chain state returns it, whatever the order of object members.", "quantifier": "every value whose unlock key algorithms are UTF-8 without colon, whose times have RFC 3339 text and whose durations fit 64 bits", "why_tests_cant": "Unbounded values and orders.", "anchors": ["sia/src/types/v1.rs:Transaction", "sia/src/types/v2.rs:Transaction", "sia/src/types/common.rs:Block", "sia/src/consensus.rs:State", "sia/src/consensus.rs:Network"]}
{"id": "C51", "title": "what JSON is accepted", "statement": "Derived structs are read from an object exactly if every field occurs once with a readable value or is absent with a default, from an array exactly by position; policies are read exactly from objects with members type and policy, the last of each counting.", "quantifier": "every JSON value, every struct", "why_tests_cant": "Unbounded documents.", "anchors": ["sia/src/types/spendpolicy.rs:Deserialize", "sia/src/types/common.rs:SiacoinOutput"]}
{"id": "C52", "title": "reading JSON does not panic", "statement": "Reading any JSON document into a policy, transaction, block, state or network returns a value or an error.", "quantifier": "every JSON value nested less deep than the stack allows, builds without overflow checks (with them, currency amounts can panic)", "why_tests_cant": "Unbounded documents.", "anchors": ["sia/src/types/spendpolicy.rs:Deserialize", "sia/src/types/utils.rs:timestamp_array"]}
{"id": "C53", "title": "base64 fields", "statement": "Bytes are written as the RFC 4648 base64 text, and exactly that text is read back.", "quantifier": "every byte string, every JSON value", "why_tests_cant": "Unbounded text.", "anchors": ["sia/src/types/utils.rs:base64", "sia/src/types/utils.rs:vec_base64"]}
{"id": "C54", "title": "exact wire formats", "statement": "Every type is written byte for byte in its specified layout (field order, widths, byte order, tags, bit field) and read back from it; types with one encoding are read from nothing else.", "quantifier": "every value of every encodable type, any trailing bytes", "why_tests_cant": "Unbounded; a round-trip test passes when writer and reader share the same mistake.", "anchors": ["sia/src/encoding/v1.rs:V1SiaEncodable::encode_v1", "sia/src/encoding/v1.rs:V1SiaDecodable::decode_v1", "sia/src/encoding/v2.rs:SiaEncodable::encode", "sia/src/encoding/v2.rs:SiaDecodable::decode", "sia/src/types/v1.rs:Transaction", "sia/src/types/v2.rs:Transaction", "sia/src/types/spendpolicy.rs:encode_policy", "sia/src/consensus.rs:State"]}
{"id": "C55", "title": "The exact JSON documents", "statement": "Serialising any transaction, block, policy, accumulator, chain state, network or part of one to JSON produces exactly the specified document up to the order of object members: the member names and their nesting, the kind strings of policies and resolutions, which members are omitted when empty, hashes as lower-case hex, addresses with their checksum, keys with the prefix ed25519:, amounts as decimal strings, byte strings as padded base64, durations and policy times as unsigned 64-bit numbers. Serialisation fails exactly for values with an unlock-key algorithm that is not UTF-8 or a time that RFC 3339 cannot express. Conversely every value in the supported range is read back from its document with members in any order.", "quantifier": "for all values of all types with a JSON form, all hash functions and all time formatting functions", "why_tests_cant": "The JSON format is an interface to programs in other languages; tests compare a few samples and round trips cannot notice a renamed member.", "anchors": ["sia/src/types/common.rs:ChainIndex", "sia/src/types/common.rs:Block", "sia/src/types/v1.rs:UnlockConditions", "sia/src/types/v1.rs:SiacoinInput", "sia/src/types/v1.rs:SiafundInput", "sia/src/types/v1.rs:FileContract", "sia/src/types/v1.rs:FileContractRevision", "sia/src/types/v1.rs:StorageProof", "sia/src/types/v1.rs:CoveredFields", "sia/src/types/v1.rs:TransactionSignature", "sia/src/types/v1.rs:Transaction", "sia/src/types/v2.rs:Attestation", "sia/src/types/v2.rs:FileContract", "sia/src/types/v2.rs:SiacoinElement", "sia/src/types/v2.rs:SiafundElement", "sia/src/types/v2.rs:FileContractElement", "sia/src/types/v2.rs:ChainIndexElement", "sia/src/types/v2.rs:SiacoinInput", "sia/src/types/v2.rs:SiafundInput", "sia/src/types/v2.rs:FileContractRevision", "sia/src/types/v2.rs:FileContractRenewal", "sia/src/types/v2.rs:StorageProof", "sia/src/types/v2.rs:FileContractResolution", "sia/src/types/v2.rs:Transaction", "sia/src/types/spendpolicy.rs:SpendPolicy::serialize", "sia/src/consensus.rs:Network", "sia/src/consensus.rs:HardforkDevAddr", "sia/src/consensus.rs:HardforkTax", "sia/src/consensus.rs:HardforkStorageProof", "sia/src/consensus.rs:HardforkOak", "sia/src/consensus.rs:HardforkASIC", "sia/src/consensus.rs:HardforkFoundation", "sia/src/consensus.rs:HardforkV2", "sia/src/consensus.rs:ElementAccumulator::serialize", "sia/src/consensus.rs:ElementAccumulator::deserialize", "sia/src/consensus.rs:State", "sia/src/types/utils.rs:base64", "sia/src/types/utils.rs:timestamp_array", "sia/src/types/utils.rs:vec_base64", "sia/src/types/utils.rs:nano_second_duration"]}
{"id": "C56", "title": "exact hashed strings", "statement": "Every transaction ID, derived identifier, signature hash and policy address is the hash of the specified byte string: prefix, fields, order.", "quantifier": "every transaction, identifier, chain state, policy; any hash function", "why_tests_cant": "Unbounded inputs; separation properties hold for wrong prefixes too.", "anchors": ["sia/src/types/common.rs:TransactionID", "sia/src/types/v1.rs:whole_sig_hash", "sia/src/types/v1.rs:partial_sig_hash", "sia/src/types/v2.rs:encode_semantics", "sia/src/types/spendpolicy.rs:address"]}
{"id": "C57", "title": "maturity height, nonce factor, blocks per month and constants", "statement": "Outputs of the next block mature at the child height plus the maturity delay (overflow panics in checked builds and wraps otherwise); nonces must be multiples of 1 before the ASIC fork and of 1009 from the block at the fork height on (the last height panics in checked builds and counts as height 0 otherwise); a month counts the whole block intervals in a twelfth of 365 days and panics exactly for a zero interval; the ancestor depth is 1000 and the largest block weight 2000000 in every state.", "quantifier": "every chain state and network", "why_tests_cant": "Boundary heights of every fork and every interval cannot be enumerated.", "anchors": ["sia/src/consensus.rs:maturity_height", "sia/src/consensus.rs:nonce_factor", "sia/src/consensus.rs:blocks_per_month", "sia/src/consensus.rs:ancestor_depth", "sia/src/consensus.rs:max_block_weight"]}
{"id": "C58", "title": "the built-in networks", "statement": "mainnet, zen and anagami can be constructed in every build and their JSON documents are the published ones; their hardforks are strictly ordered; on mainnet block h pays max(300000-h, 30000) SC, adding up to 44549865000 SC at height 270000 and 30000 SC a block afterwards; the test networks pay 300000 SC; subsidies fall every 4380 blocks from the foundation fork on; the replay prefix changes exactly at the three forks; the documents are read back.", "quantifier": "every height, every chain state on one of the three networks", "why_tests_cant": "Rewards, subsidies and totals at all heights.", "anchors": ["sia/src/consensus.rs:mainnet", "sia/src/consensus.rs:zen", "sia/src/consensus.rs:anagami"]}
{"id": "C59", "title": "hashing in pieces with BLAKE2b", "statement": "With BLAKE2b-256 modelled as in RFC 7693: feeding a hash state the pieces of a message, however it is cut, gives the hash of the whole message and the buffer never exceeds one block; and every hashing function of the library, modelled write by write as the code feeds its hash state (derived ids, transaction ids, whole and partial signature hashes, v2 signature hashes, key leaves, policy addresses), gives the hash of the byte string that the other properties speak about.", "quantifier": "every list of pieces, every transaction, chain state, contract, key and policy", "why_tests_cant": "Piece boundaries against block boundaries (128 bytes) are unboundedly many; tests use a few fixed transactions.", "anchors": ["sia/src/types/v1.rs:whole_sig_hash", "sia/src/types/v1.rs:partial_sig_hash", "sia/src/types/v2.rs:input_sig_hash", "sia/src/types/v1.rs:Transaction::derive_child_id", "sia/src/merkle.rs:sum_leaf"]}
{"id": "C60", "title": "timestamps as text (RFC 3339)", "statement": "Exactly the instants of the years 0 to 9999 have a text; the text is the one canonical RFC 3339 text in UTC (Gregorian date, T, time, fraction without trailing zeros, Z); exactly the texts of the RFC grammar with an existing date are read, as the instant they denote (any separator, any offset below 24 hours, a 61st second only at the end of a month); so blocks, states and networks with such timestamps survive JSON with the real hash and the real texts, while instants before the year 0, which the binary decoder makes, cannot be written.", "quantifier": "every instant, every text, every block and chain state", "why_tests_cant": "All dates of ten thousand years, all offsets and all fractions.", "anchors": ["sia/src/types/common.rs:timestamp", "sia/src/consensus.rs:genesis_timestamp", "sia/src/types/utils.rs:timestamp_array"]}
{"id": "C61", "title": "standard unlock conditions, chain index texts and small constructors", "statement": "The address of the standard unlock conditions of a key is the hash of an explicit string built from the key, and two keys with the same standard address yield a hash collision at one of three named places; a key and its unlock key have the same text; the text of a chain index is decimal height, colon, lower-case hex, is injective, and is accepted by the identifier parser, which drops the height; new() puts its three arguments on the wire in the order timelock, keys, number of signatures, and whole_transaction() is the set flag and ten empty lists; an address from a slice needs exactly 32 bytes and otherwise panics; the partial signature hash ignores the whole-transaction flag, so for the fields made by whole_transaction() it is the hash of the empty string for every transaction.", "quantifier": "every hash function, key, chain index, slice, transaction", "why_tests_cant": "Tests use 25 fixed keys and one index.", "anchors": ["sia/src/types/v1.rs:standard_unlock_conditions", "sia/src/types/v1.rs:whole_transaction", "sia/src/types/common.rs:ChainIndex", "sia/src/types/common.rs:Address"]}
{"id": "C62", "title": "decoding from slow or failing readers", "statement": "For every reader (pieces of any size, errors or end of input at any point) every decoder returns what the bytes the reader gave mean to the in-memory decoder, reads exactly the bytes of the value and no more, never returns a value from an incomplete input, and returns the reader's own error (or UnexpectedEof) if it stops early; so how a stream is cut into pieces is irrelevant and values written one after another are read back one after another. Interruptions of the reader change nothing, as long as they do not go on for ever. Whatever lengths the input claims, the reader is called at most once for each byte it gives, and once more.", "quantifier": "every reader, every state of it, every type with a decoder, every machine limit", "why_tests_cant": "Tests decode from complete slices in memory; the piece boundaries and failure points of sockets and files are unboundedly many.", "anchors": ["sia/src/encoding/v1.rs:decode_v1", "sia/src/encoding/v2.rs:decode", "sia/src/types/work.rs:decode", "sia/src/consensus.rs:State"]}
{"id": "C63", "title": "Types survive serde formats that are not human-readable", "statement": "Every value that is written with serde to a self-describing format that is not human-readable (is_human_readable is false, for example CBOR) is read back unchanged.", "quantifier": "every value of every type with Serialize and Deserialize", "why_tests_cant": "All tests go through serde_json, which is human-readable; the other branches of is_human_readable are never run, and which composite values are affected depends on which fields are empty.", "anchors": ["sia/src/macros.rs:impl_hash_id", "sia/src/types/v1.rs:UnlockKey::serialize", "sia/src/types/v1.rs:UnlockKey::deserialize", "sia/src/types/spendpolicy.rs:SpendPolicy::deserialize", "sia/src/types/spendpolicy.rs:SpendPolicy::serialize", "sia/src/types/v2.rs:FileContractResolution::serialize", "sia/src/types/v2.rs:FileContractResolution::deserialize", "sia/src/consensus.rs:ElementAccumulator::serialize", "sia/src/consensus.rs:ElementAccumulator::deserialize"]}
{"id": "C64", "title": "JSON texts: the grammar, text round trips, nesting, and no panics", "statement": "The parser for whole documents (from_str to a Value) accepts exactly the texts of the JSON grammar (RFC 8259) whose document is nested less than 128 deep, and gives the one document the grammar assigns. The text written for a value is read back as that value exactly if the value survives serde and its document is nested less than 128 deep; for transactions, blocks, chain states and networks the nesting is never a problem except through spend policies (a v2 transaction has room for 40 nested thresholds, a policy alone for 42). Any other text for the same content (spacing, escapes, member order) is read as the same value. No text makes the reader overflow a stack with room for 43 nested policies.", "quantifier": "every text, every document, every value of every type", "why_tests_cant": "Tests use about a hundred fixed texts, all written in one style and nested at most a few levels; the grammar and the nesting limit quantify over all texts.", "anchors": ["sia/src/types/spendpolicy.rs:SpendPolicy::deserialize", "sia/src/types/spendpolicy.rs:SpendPolicy::serialize", "sia/src/types/v1.rs:UnlockKey", "sia/src/types/v1.rs:UnlockConditions", "sia/src/types/v1.rs:SiacoinInput", "sia/src/types/v1.rs:SiafundInput", "sia/src/types/v1.rs:FileContract", "sia/src/types/v1.rs:FileContractRevision", "sia/src/types/v1.rs:StorageProof", "sia/src/types/v1.rs:CoveredFields", "sia/src/types/v1.rs:TransactionSignature", "sia/src/types/v1.rs:Transaction", "sia/src/types/v2.rs:Attestation", "sia/src/types/v2.rs:FileContract", "sia/src/types/v2.rs:SiacoinElement", "sia/src/types/v2.rs:SiafundElement", "sia/src/types/v2.rs:FileContractElement", "sia/src/types/v2.rs:ChainIndexElement", "sia/src/types/v2.rs:SiacoinInput", "sia/src/types/v2.rs:SiafundInput", "sia/src/types/v2.rs:FileContractRevision", "sia/src/types/v2.rs:FileContractRenewal", "sia/src/types/v2.rs:StorageProof", "sia/src/types/v2.rs:FileContractResolution", "sia/src/types/v2.rs:Transaction", "sia/src/consensus.rs:ElementAccumulator::serialize", "sia/src/consensus.rs:ElementAccumulator::deserialize"]}
{"id": "C65", "title": "Decoding does not depend on the pointer width", "statement": "Bytes that a 64-bit machine decodes are decoded by a 32-bit machine (such as wasm32) with memory for them to the same value, and bytes that a 64-bit machine rejects are rejected. The code converts lengths and covered indices with `as usize`, which on 32-bit machines keeps the low 32 bits: values without covered indices and transactions and blocks whose covered indices are below 2^32 are decoded alike; larger indices are silently reduced modulo 2^32, and so are vector and currency lengths, so that bytes invalid on 64-bit machines are accepted. With `usize::try_from` instead a 32-bit machine accepts exactly what a 64-bit machine accepts and it can represent.", "quantifier": "every byte string, every value of every decodable type, every memory size below 2^32 elements", "why_tests_cant": "Tests run on the developer's 64-bit machine and never contain lengths or indices of 2^32 or more.", "anchors": ["sia/src/encoding/v1.rs:V1SiaDecodable::decode_v1", "sia/src/encoding/v1.rs:V1SiaEncodable::encode_v1", "sia/src/encoding/v2.rs:SiaDecodable::decode", "sia/src/encoding/v2.rs:SiaEncodable::encode", "sia/src/types/currency.rs:Currency::decode_v1", "sia/src/types/v1.rs:CoveredFields", "sia/src/types/v1.rs:CoveredFields::whole_transaction", "sia/src/types/v1.rs:Transaction::partial_sig_hash"]}
{"id": "C66", "title": "Reading values from texts in one pass: exactly which texts are read", "statement": "from_str reads a value without building the document first. On any JSON text nested less than 128 deep it does what reading the document would do: same value, same failure, same panic. A v1 transaction, block, chain state or network is read from a text exactly if the text is JSON except for the values of some members, which may be anything serde_json can skip (lone surrogates, numbers out of range, any nesting), and the document says this value whatever is put in for them. The same holds for a contract resolution on its own, whose reader however may panic on a text although the document is refused. A policy is read exactly from JSON nested less than 128 deep that says it. So unknown members need not be JSON, and texts are accepted that a parse to Value refuses.", "quantifier": "every text, every value, every way of deciding which numbers are finite", "why_tests_cant": "The difference between reading in one pass and reading a document only shows on members no field takes, repeated members and deep nesting; tests only read well-formed texts with known fields.", "anchors": ["sia/src/types/spendpolicy.rs:SpendPolicy::deserialize", "sia/src/types/spendpolicy.rs:SpendPolicy::serialize", "sia/src/types/v1.rs:UnlockKey", "sia/src/types/v1.rs:UnlockConditions", "sia/src/types/v1.rs:SiacoinInput", "sia/src/types/v1.rs:SiafundInput", "sia/src/types/v1.rs:FileContract", "sia/src/types/v1.rs:FileContractRevision", "sia/src/types/v1.rs:StorageProof", "sia/src/types/v1.rs:CoveredFields", "sia/src/types/v1.rs:TransactionSignature", "sia/src/types/v1.rs:Transaction", "sia/src/types/v2.rs:Attestation", "sia/src/types/v2.rs:FileContract", "sia/src/types/v2.rs:SiacoinElement", "sia/src/types/v2.rs:SiafundElement", "sia/src/types/v2.rs:FileContractElement", "sia/src/types/v2.rs:ChainIndexElement", "sia/src/types/v2.rs:SiacoinInput", "sia/src/types/v2.rs:SiafundInput", "sia/src/types/v2.rs:FileContractRevision", "sia/src/types/v2.rs:FileContractRenewal", "sia/src/types/v2.rs:StorageProof", "sia/src/types/v2.rs:FileContractResolution", "sia/src/types/v2.rs:Transaction", "sia/src/consensus.rs:ElementAccumulator::serialize", "sia/src/consensus.rs:ElementAccumulator::deserialize"]}
{"id": "C67", "title": "exactly which JSON documents each type is read from", "statement": "Every type is read from exactly the documents that say it, where what a document says is written down from the field names and attributes alone: a struct is an object in which each member occurs once (or is absent and may be), unknown members ignored, or an array of the members in order with only optional ones missing at the end; identifiers, addresses, keys, signatures and leaves are hex texts of exactly the right length with their prefix or checksum; amounts are numbers that are not negative or texts with a unit, of any length; times are RFC 3339 texts, at most eleven in a state; policies and resolutions are objects without unknown members in which the last of repeated members counts; an accumulator lists exactly the roots at the one bits of its leaf count. Together with C66 this says which texts are read. A contract resolution on its own, whose JSON form differs from the one inside a transaction, is always read back, from its document and from its text.", "quantifier": "every document, every value, every hash function, both overflow modes, every stack depth", "why_tests_cant": "Tests read documents the same code has written; acceptance of every other document (wrong length, repeated, missing, null, extra, array form) is unbounded.", "anchors": ["sia/src/types/v1.rs:UnlockKey", "sia/src/types/v1.rs:UnlockConditions", "sia/src/types/v1.rs:SiacoinInput", "sia/src/types/v1.rs:SiafundInput", "sia/src/types/v1.rs:FileContract", "sia/src/types/v1.rs:FileContractRevision", "sia/src/types/v1.rs:StorageProof", "sia/src/types/v1.rs:CoveredFields", "sia/src/types/v1.rs:TransactionSignature", "sia/src/types/v1.rs:Transaction", "sia/src/types/v2.rs:Attestation", "sia/src/types/v2.rs:FileContract", "sia/src/types/v2.rs:SiacoinElement", "sia/src/types/v2.rs:SiafundElement", "sia/src/types/v2.rs:FileContractElement", "sia/src/types/v2.rs:ChainIndexElement", "sia/src/types/v2.rs:SiacoinInput", "sia/src/types/v2.rs:SiafundInput", "sia/src/types/v2.rs:FileContractRevision", "sia/src/types/v2.rs:FileContractRenewal", "sia/src/types/v2.rs:StorageProof", "sia/src/types/v2.rs:FileContractResolution", "sia/src/types/v2.rs:Transaction", "sia/src/types/common.rs:ChainIndex", "sia/src/types/common.rs:Block", "sia/src/types/common.rs:Address", "sia/src/types/common.rs:SiacoinOutput", "sia/src/types/common.rs:SiafundOutput", "sia/src/types/common.rs:Leaf", "sia/src/types/common.rs:StateElement", "sia/src/types/spendpolicy.rs:SpendPolicy::deserialize", "sia/src/types/spendpolicy.rs:SpendPolicy::serialize", "sia/src/types/utils.rs:base64", "sia/src/types/utils.rs:timestamp_array", "sia/src/types/utils.rs:vec_base64", "sia/src/types/utils.rs:nano_second_duration", "sia/src/types/currency.rs:Currency::serialize", "sia/src/types/currency.rs:Currency::deserialize", "sia/src/consensus.rs:Network", "sia/src/consensus.rs:HardforkDevAddr", "sia/src/consensus.rs:HardforkTax", "sia/src/consensus.rs:HardforkStorageProof", "sia/src/consensus.rs:HardforkOak", "sia/src/consensus.rs:HardforkASIC", "sia/src/consensus.rs:HardforkFoundation", "sia/src/consensus.rs:HardforkV2", "sia/src/consensus.rs:ElementAccumulator::serialize", "sia/src/consensus.rs:ElementAccumulator::deserialize", "sia/src/consensus.rs:State"]}
{"id": "C68", "title": "exactly what accumulator roots, addresses of unlock conditions and sector roots commit to", "statement": "Two lists of leaves have the same accumulator root exactly if their lengths are equal or of the form s+2^k+1 and s+2^(k+1) (s a multiple of 2^(k+2), k>0), their last leaves are equal and they agree at the leaves the accumulator looks at: for each power of two in the binary decomposition of the shorter length the first leaf of its block and the last of the first 2^j of it. Two unlock conditions have the same address exactly if timelock and required signatures agree and the keys agree in this sense; so a second key added to a single key changes nothing, and of 2^k-2 keys only the k-1 keys numbered 2^j-2 count. Two sectors have the same root exactly if their first 16387 segments agree; with the segments read in order, exactly if they are equal. 'If' holds for every hash function; 'only if' unless two of the strings hashed collide.", "quantifier": "every hash function, every list of leaves, all unlock conditions, all sectors", "why_tests_cant": "Which inputs do not influence a root is a statement about all pairs of inputs of all sizes; a test compares one pair.", "anchors": ["sia/src/merkle.rs:Accumulator::add_leaf", "sia/src/merkle.rs:Accumulator::root", "sia/src/merkle.rs:sum_leaf", "sia/src/merkle.rs:sum_node", "sia/src/types/v1.rs:UnlockConditions::address", "sia/src/rhp.rs:sector_root"]}
{"id": "C69", "title": "JSON on 32-bit targets: the same value or an error", "statement": "On a 32-bit target a v1 transaction or block is written as JSON exactly as on a 64-bit target, and is read from a document or text exactly if a 64-bit target reads it and all covered indices are below 2^32; then the values are equal. A document a 64-bit target reads and that has a larger index is refused with an error, never read as another value (unlike the binary form, C65) and never a panic.", "quantifier": "every document, every text, every value, every hash function, both overflow modes", "why_tests_cant": "Tests run on the developer's 64-bit machine, on a few documents without large indices.", "anchors": ["sia/src/types/v1.rs:CoveredFields", "sia/src/types/v1.rs:Transaction"]}
{"id": "C70", "title": "The derive macros generate faithful codecs", "statement": "For every struct declaration the derived encoder writes the encodings of the covered fields in declaration order and nothing else, where v1 covers all fields and v2 all but the named fields that are not pub. The derived decoder compiles exactly if all fields are covered; then it reads the fields in declaration order and accepts, fails or panics as they do, so it inverts the encoder whenever the field codecs round-trip. A private named field under v2 leaves the type without a decoder and its value out of the encoding. Enums and unions are rejected. For every deriving type of the crate the generated programs are exactly the codec of the model.", "quantifier": "every declaration of every length and every choice of field types and codecs, every value, every stream and every limit; all 38 deriving types of the crate", "why_tests_cant": "Tests expand the macros on the crate's own types only; a macro that mishandles another declaration, or a field that is silently skipped, is not noticed by any of them.", "anchors": ["sia_derive/src/lib.rs:derive_sia_encode", "sia_derive/src/lib.rs:derive_sia_decode", "sia_derive/src/lib.rs:derive_v1_sia_encode", "sia_derive/src/lib.rs:derive_v1_sia_decode", "sia/src/types/common.rs:ChainIndex", "sia/src/types/v1.rs:SiacoinInput", "sia/src/types/v1.rs:SiafundInput", "sia/src/types/v1.rs:FileContract", "sia/src/types/v1.rs:FileContractRevision", "sia/src/types/v1.rs:StorageProof", "sia/src/types/v1.rs:CoveredFields", "sia/src/types/v1.rs:TransactionSignature", "sia/src/types/v1.rs:Transaction", "sia/src/types/v2.rs:Attestation", "sia/src/types/v2.rs:FileContract", "sia/src/types/v2.rs:SiacoinElement", "sia/src/types/v2.rs:SiafundElement", "sia/src/types/v2.rs:FileContractElement", "sia/src/types/v2.rs:ChainIndexElement", "sia/src/types/v2.rs:SiacoinInput", "sia/src/types/v2.rs:SiafundInput", "sia/src/types/v2.rs:FileContractRevision", "sia/src/types/v2.rs:FileContractRenewal", "sia/src/types/v2.rs:StorageProof"]}
{"id": "C71", "title": "The memory that decoding asks for", "statement": "A value that is decoded never costs more than its size: the bytes that the decoder requests from the allocator, added up over all vectors, are at most S times the bytes it read, where S is the size in memory of the largest type kept in a vector. What it requests is exactly what the value occupies behind its vectors and strings. So whatever can be decoded at all is decoded on a machine that can give S bytes per byte of it. Chain states ask for nothing. This ends with accepted input: a length prefix alone makes the decoder request as much as the prefix says before it fails. If vectors grew with the elements read, S times eight per byte of input would bound the requests for every input, and the results would be the same.", "quantifier": "every binary-decodable type, every byte string, every machine (largest request and stack depth), every choice of struct sizes", "why_tests_cant": "Tests decode a few honest encodings and do not measure memory; the bound is over all inputs, including hostile ones, and all layouts rustc may choose.", "anchors": ["sia/src/encoding/v1.rs:V1SiaDecodable::decode_v1", "sia/src/encoding/v2.rs:SiaDecodable::decode", "sia/src/types/spendpolicy.rs:SpendPolicy::decode", "sia/src/types/v2.rs:Transaction::decode", "sia/src/consensus.rs:State::decode"]}
{"id": "C72", "title": "What a signature binds", "statement": "A signature is accepted exactly if its second half is a number s below the order of the base point and its first half is the encoding of s B - k A, where A is the point of the public key and k is the SHA-512 of first half, key and message. Therefore a signature cannot be altered in its second half, public keys made from seeds are points of prime order, and a signature accepted for two messages by such a key gives a collision of SHA-512 modulo the order. This ends with keys made from seeds: there is a public key for which one signature is accepted for every message, and points have more than one public key.", "quantifier": "every public key (32 bytes), every hash (32 bytes), every signature (64 bytes), every seed", "why_tests_cant": "Tests sign a few messages with a few keys; whether another signature, message or key is accepted is a statement about all of them.", "anchors": ["sia/src/signing.rs:PublicKey::verify", "sia/src/signing.rs:PrivateKey::sign_hash", "sia/src/signing.rs:PrivateKey::from_seed"]}
{"id": "C73", "title": "Containers of any element type keep its guarantees", "statement": "For every type T that implements the encoding and decoding traits of a version, also one the crate does not know: if T round trips, fails on every proper prefix of an encoding and reads only what it consumes, so do Vec<T>, Option<T>, two such fields in a row and a struct deriving its codec from such fields, and streams of such containers that agree hold equal containers and end at the same place. If T has one encoding per value, or re-encodes stably, or never panics while reading only what it consumes, so do the containers. A vector writes its length as eight little-endian bytes and then its elements, an option one byte and then its value, and nothing else. All integer widths, all array lengths, strings and durations of both versions meet the hypotheses; integers of 16 and 32 bits are cut to their width without a check, so they have many encodings. A type that does not mark its end shows that the hypotheses are needed.", "quantifier": "All versions, all element types with all encoders and decoders meeting the stated hypotheses, all vectors, options, pairs and derived structs of them, all byte strings, all limits of memory and stack.", "why_tests_cant": "The impls are generic and open: tests exercise a few element types, but downstream crates instantiate them with their own.", "anchors": ["sia/src/encoding/v1.rs:impl_sia_numeric", "sia/src/encoding/v1.rs:Vec<T>", "sia/src/encoding/v1.rs:Option<T>", "sia/src/encoding/v2.rs:impl_sia_numeric", "sia/src/encoding/v2.rs:Vec<T>", "sia/src/encoding/v2.rs:Option<T>", "sia_derive/src/lib.rs:derive_sia_encode", "sia_derive/src/lib.rs:derive_sia_decode", "sia_derive/src/lib.rs:derive_v1_sia_encode", "sia_derive/src/lib.rs:derive_v1_sia_decode"]}
{"id": "C74", "title": "Order, conversions and default values", "statement": "Amounts compare as numbers of hastings, consistently with equality and with checked_sub, and so do their v1 encodings compared byte by byte (the v2 encodings do not). An amount converts to u64 exactly if it is below 2^64 and keeps its value. A work made from 32 bytes is encoded as these bytes, and works compare as the 32 bytes they are made from. Default values are encoded as zeros and empty lists. A private key or seed that is dropped leaves a buffer of zeros.", "quantifier": "All amounts, all works, both versions, all key and seed bytes.", "why_tests_cant": "An order is a statement about all pairs; conversions have 2^128 or 2^256 inputs.", "anchors": ["sia/src/types/currency.rs:Currency", "sia/src/types/currency.rs:TryInto<u64>", "sia/src/types/currency.rs:DerefMut", "sia/src/types/work.rs:From<&[u8; 32]> for Work", "sia/src/consensus.rs:Default for ElementAccumulator", "sia/src/signing.rs:Drop for PrivateKey", "sia/src/signing.rs:Default for Signature", "sia/src/seed.rs:Drop for Seed", "sia/src/macros.rs:impl_hash_id"]}
{"id": "C75", "title": "A signature is a signature of one message only", "statement": "A signature that the key of a seed accepts for an attestation, a contract, a renewal or the inputs of a v2 transaction is not accepted for anything else that is signed in v2 (apart from resolutions of other kinds, C24), nor in another era after the ASIC hardfork; one accepted for a whole v1 transaction is not accepted for another transaction, parent, key index, timelock or, if there is an input, era, nor for anything signed in v2; unless blake2b-256 or SHA-512 modulo the order of ed25519 collide on two strings that are named.", "quantifier": "All seeds, all 64-byte signatures, all pairs of messages and chain states.", "why_tests_cant": "It compares all pairs of messages of all kinds and all signatures; a test sees that a few signatures fail to verify.", "anchors": ["sia/src/signing.rs:verify", "sia/src/types/v1.rs:whole_sig_hash", "sia/src/types/v2.rs:input_sig_hash", "sia/src/types/v2.rs:sig_hash", "sia/src/consensus.rs:replay_prefix"]}
{"id": "C76", "title": "A signature of selected fields is not a signature of something else", "statement": "What is signed for selected fields of a v1 transaction is never what is signed for a whole v1 transaction or for anything in v2. (False of the code: a storage proof can be chosen whose partial signature is that of a v2 transaction spending any given siacoin output to any given address. It holds of a partial signature hash that starts with a constant and the selection, and of selections that start with a contract revision whose parent id does not start with one of a few values.)", "quantifier": "All transactions, selections, v2 messages, chain states and hash functions.", "why_tests_cant": "It is about the absence of equal strings among all pairs of messages; the counterexamples are strings no one would write down as a test.", "anchors": ["sia/src/types/v1.rs:partial_sig_hash", "sia/src/types/v1.rs:whole_sig_hash", "sia/src/types/v2.rs:input_sig_hash", "sia/src/types/v1.rs:StorageProof"]}
{"id": "C77", "title": "An id belongs to transactions of one version", "statement": "A v1 and a v2 transaction never have the same id. (False of the code: for every siacoin output there is a v1 and a v2 transaction spending it with the same id under every hash function. But two such transactions spend the same siacoin output first or none at all, or blake2b-256 collides; and it holds of a v2 id that hashes a constant first, as all other v2 identifiers do.)", "quantifier": "All v1 and v2 transactions and hash functions.", "why_tests_cant": "Pairs of transactions of different types with the same hashed bytes do not occur in examples; their absence is a statement about all pairs.", "anchors": ["sia/src/types/v1.rs:id", "sia/src/types/v2.rs:id", "sia/src/types/v2.rs:encode_semantics", "sia/src/types/v1.rs:encode_no_sigs"]}
{"id": "C78", "title": "An identifier names one output or contract", "statement": "If two siacoin outputs, siafund outputs, contracts, claims, payouts or renewals (v1 or v2) have the same identifier, then they come from the same method at the same index all along the chain of identifiers, back to the same block or the same transaction up to signatures (for v2 as far as C24 goes), and what was created is the same: kind, version, value and address or terms; or two strings hashed on the way collide. (Not so for attestations, because of C24.)", "quantifier": "All pairs of chains of identifiers of any length, all transactions and indices, all hash functions.", "why_tests_cant": "It is about all pairs of chains of hashes through sixteen methods; a test compares a few identifiers.", "anchors": ["sia/src/types/v1.rs:siacoin_output_id", "sia/src/types/v1.rs:siafund_output_id", "sia/src/types/v1.rs:file_contract_id", "sia/src/types/v2.rs:id", "sia/src/types/common.rs:v2_siacoin_output_id", "sia/src/types/common.rs:claim_output_id", "sia/src/types/common.rs:v2_renewal_id"]}
{"id": "C79", "title": "The supply of siacoins", "statement": "On every network with a block interval between a nanosecond and a month, the blocks up to any height create exactly the rewards of C36 and the subsidies of C38: 360000 siacoins at the fork and 30000 every month after it. On the main network that is a closed formula; every block creates between 30000 and 390000 siacoins; the whole supply fits in a Currency, and can be added up with sum, until height 11338941825 and not after it.", "quantifier": "All networks, all heights up to 340282366920938 (where C36 ends), all chain states, both builds.", "why_tests_cant": "The sum runs over every block of a chain, and the point of overflow is two hundred thousand years away.", "anchors": ["sia/src/consensus.rs:block_reward", "sia/src/consensus.rs:foundation_subsidy", "sia/src/consensus.rs:mainnet", "sia/src/types/currency.rs:Sum"]}
{"id": "C80", "title": "What debug texts show", "statement": "The debug text of a PrivateKey, with {:?} and with {:#?}, shows all 64 bytes of the key: the numbers in the text are exactly its bytes, and one function recovers every key, and so makes its signatures, from the text. A key that must stay secret must therefore never be logged (finding; a text that leaves the field out is the same for all keys). The debug texts of two different public keys or signatures differ.", "quantifier": "All 64-byte keys, all public keys and signatures, both layouts.", "why_tests_cant": "A test sees the text of one key; that the text gives away every key, and tells any two keys apart, is a statement about all keys.", "anchors": ["sia/src/signing.rs:PrivateKey", "sia/src/signing.rs:PublicKey", "sia/src/signing.rs:Signature"]}
{"id": "C81", "title": "What exactly is read from the wire", "statement": "A byte string is read as a v1 amount, output, contract, revision, transaction or block exactly if what comes before the remaining bytes is the layout of that value (C54) in which every amount may be padded with leading zeros up to sixteen digits, the last amount of a siafund output may be anything, and every sequence has room in memory. It is read as a v2 transaction exactly if it is the byte 2, a 64-bit field and the fields announced by its lowest eleven bits, which may be empty although announced; the other bits mean nothing. Of all the strings from which a v1 value is read, the one that is written is the only shortest, so a value that was padded is written back with fewer bytes. A v2 transaction is never written longer than it was read, and if it is written with other bytes and no unknown bit was set, it is written shorter; with an unknown bit it may be written with other bytes of the same length.", "quantifier": "All byte strings, values and memory limits.", "why_tests_cant": "A test tries some malformed or padded strings; which of the infinitely many strings are accepted, and as what, needs a proof in both directions.", "anchors": ["sia/src/types/currency.rs:Currency", "sia/src/types/common.rs:SiafundOutput", "sia/src/types/v1.rs:Transaction", "sia/src/types/v2.rs:Transaction", "sia/src/types/common.rs:Block", "sia/src/encoding/v1.rs:V1SiaDecodable", "sia/src/encoding/v2.rs:SiaDecodable"]}
{"id": "C82", "title": "Digests, keys and signatures are those of the standards", "statement": "Identifiers of transactions and of what they create, and the hashes that are signed, are the BLAKE2b hashes of RFC 7693 of their layouts. The private key of a seed and an index is the RFC 8032 key pair whose seed is the BLAKE2b hash of the hashed seed and the index. A hash signed with a private key gives the one signature that RFC 8032 defines for its first half, and a signature is accepted exactly by the equation of the standard, both with the SHA-512 of FIPS 180-4. A phrase is read as a seed exactly if it is twelve English words whose positions are the seed and the first four bits of its FIPS 180-4 SHA-256; the words are those of the published list, as the SHA-256 of that list shows. The standard address of a key, the address of the policy of a key and the checksum in the text of an address are made of the same BLAKE2b hashes. The constants of the digests are bits of roots of the first primes.", "quantifier": "all messages (below 2^64 bits for SHA-256 and 2^128 bits for SHA-512), all transactions, identifiers, chain states, seeds, indices, keys, hashes, signatures and phrases", "why_tests_cant": "A test compares a few digests, keys and signatures; interoperability needs agreement with the standards on every length of message, every block boundary and every key.", "anchors": ["sia/src/seed.rs:Seed::private_key", "sia/src/seed.rs:Seed::from_mnemonic", "sia/src/signing.rs:PrivateKey::from_seed", "sia/src/signing.rs:PrivateKey::sign_hash", "sia/src/signing.rs:PublicKey::verify", "sia/src/types/common.rs:TransactionID", "sia/src/types/v1.rs:UnlockConditions::standard_unlock_conditions", "sia/src/types/spendpolicy.rs:SpendPolicy::address", "sia/src/types/common.rs:Address"]}
