# Formal model of core-rs (SiaFoundation) in Lean 4

Source: `/repo` (crate `sia_sdk` in `/repo/sia`, derive macros in `/repo/sia_derive`), read as text only.
Every model definition cites file and lines relative to `/repo`.

## 1. Layout

* `lean/Verif/Model/*`  the code, function by function (total, computable).
* `lean/Verif/Spec/*`   small specifications, written without the model's helpers.
* `lean/Verif/Lemmas/*` helper lemmas.
* `lean/Verif/Props/*`  the property theorems (`Cxx_...`) with non-vacuity examples beside them.
* `lean/Verif/Vectors/*` the unit-test vectors of the repository, evaluated on the model. These are tests of
  the model (do the definitions compute what the repository's authors expect?); no property rests on them.
* `properties.jsonl`, `MANIFEST.json`, `seeded/LOG.jsonl` (mutation tests of the theorems).

Names: `Cxx_not_...` proves that the full claim is false of the code; `Cxx_..._partial` is the part that holds;
`Cxx_repaired` proves the full claim of a program that differs from the code in the one place named.

## 2. Modelling decisions

* **Bytes** are `UInt8`; a byte stream is `List UInt8`. An encoder is a function to `List UInt8`. The same
  encoders are modelled a second time write by write against an arbitrary `Write` (`Model/Writer`, C43), the
  decoders a second time read by read against an arbitrary `Read` (`Model/Reader`, C62), and the hashing
  functions a third time piece by piece against a hash state (`Model/Streaming`, C59).
* **Integers**: `u64`/`u128`/256-bit values are `BitVec`s, so range is in the type. `usize` is 64 bits (32-bit targets: the binary decoders, C65, and JSON, C69).
  Arithmetic that can overflow returns `Res` and takes a `Mode` (`checked` = overflow checks on, panic;
  `unchecked` = wrap).
* **Results**: `Res α = ok | err e | panic`. A Rust panic (unwrap, overflow, index, capacity overflow) is
  the explicit `panic` value, never a default. `&mut` arguments are returned.
* **Decoders** are `Lim → List UInt8 → Res (α × List UInt8)`. `Lim` holds the machine's limits: the largest
  element count for which `Vec::with_capacity` succeeds (simplification: one limit for all element types, and
  an allocation failure, which aborts, is identified with a capacity-overflow panic; C71 counts in bytes per element type) and the number of nested
  policy-decoder calls that fit on the stack.
* **Version index**: `encoding/v1.rs` and `encoding/v2.rs` contain the same code for primitives, so codecs are
  one class `Codec v α` with `v ∈ {v1, v2}`; types whose two codecs differ branch on `v`.
* **Derive macros**: a derived codec is the codec of the tuple of the listed fields in declaration order; C70 models the
  macros themselves and proves that this is what they generate for every deriving type.
* **Hash newtypes** (`BlockID`, `TransactionID`, ...) are all `Arr 32`.
* **Hash functions** (BLAKE2b-256, SHA-256) and **ed25519** are parameters. Commitment properties hold for
  every hash function: their conclusion is "or here are two different inputs with equal hash". All are also
  modelled concretely: BLAKE2b from RFC 7693 (`Model/Blake2b`), for the published networks (C58), hashing in
  pieces (C59) and the test vectors; SHA-256 and SHA-512 from FIPS 180-4 (`Model/Sha2`); all three are proved to
  be what the standards define (C82); ed25519 from RFC 8032
  (`Model/Ed25519`), which discharges the correctness law (C48) and tells what a signature binds (C72); the
  English words of BIP39 (`Model/English`, C49).
* **Time**: `OffsetDateTime` is an instant (seconds, nanoseconds), as Rust compares it; the UTC offset a value
  carries is not kept. `Duration` is a number of nanoseconds. RFC 3339 texts are a parameter in the serde model
  and concrete in `Model/Rfc3339`, which follows the documentation of the `time` crate 0.3.37.
* **Text**: `&str` is its UTF-8 bytes in the hex parsers and `List Char` in the currency parser.
* **serde** is modelled at the level of JSON values (`Model/Json`, `Model/Serde`): what each derived or
  hand-written `Serialize`/`Deserialize` makes of a value tree. `Env` collects hash, build mode, stack depth of the
  JSON parser and time texts. Object members are unordered (`Json.Reordered`).

## 3. Trusted base

Lean 4.33.0 kernel; axioms at most `propext`, `Classical.choice`, `Quot.sound` (section 7 lists them per theorem);
no axioms of our own, no `sorry`, no `native_decide`, no `bv_decide`; Mathlib is imported only for the curve of ed25519 (`Spec/Curve`, `Lemmas/Edwards`, `Lemmas/Prime`,
`Lemmas/Ed25519`, `Props/Ed25519`, and through it `Props/Separation`), module by module. The correspondence
between `/repo` and the model is by reading, supported by the test vectors of the repository (`Vectors`). The
behaviour of external crates is as listed in section 5. The code was neither built nor run.

## 4. Properties: what is modelled and how it is proved

| id | modelled | proof |
|----|----------|-------|
| C01 | v2.rs types, encode/decode with the field bitmap | lawful-codec class (round trip law) composed through products, lists, options; bitmap by case on each field |
| C02 | v1.rs types, derived codecs | same class at `v1` |
| C03 | common.rs Block | same |
| C04 | consensus.rs State, ElementAccumulator | induction over the 64 heights and the timestamp array |
| C05 | spendpolicy.rs encode/decode | mutual induction on the policy; violation for 256 children by a witness |
| C06 | all codecs | corollary of the round-trip law with arbitrary continuation |
| C07 | all codecs | truncation law of the class |
| C08 | all codecs | extension law of the class |
| C09 | codecs that are canonical; witnesses for the others | canonicity law; concrete non-canonical inputs |
| C10 | panic value of decoders | panic-freedom law with unbounded memory; witnesses for capacity, timestamps, height; full claim for decoders with vectors that grow with what is read, checked ranges and a depth limit (`Model/Careful`, `C10_…_repaired`), which return what the code's do wherever these return a value |
| C11 | Currency v1 codec | big-endian stripping lemma |
| C12, C13, C16 | Currency arithmetic with overflow modes | arithmetic on `Nat` |
| C14, C15 | `parse_string` on `List Char` | decimal semantics as separate spec; full statement fails for overlong fractions/overflow; what is read, for texts of any length (`Props/Amount`) |
| C17-C21, C47 | hex, display and parse functions, literal macros | round trip on digit lists, iff characterisation of acceptance; full claim of C47 for `address!` with its checksum compared (`C47_address_repaired`) |
| C22, C26 | v1 id and whole_sig_hash | injectivity of the preimage from C06 |
| C23, C24, C29 | v2 semantics encoding | invariance by computation; injectivity; counterexample for resolution kinds and claim address; full claim for a program that hashes them too (`C24_repaired`) |
| C25 | id preimages | injectivity over an inductive type of derivations (length and prefix) |
| C27, C37 | replay_prefix | case analysis, length/first-byte arguments |
| C28, C44 | partial_sig_hash | induction over index lists; witness; full claim for a program that hashes the selection too (`C44_repaired`) |
| C30, C31 | policy address, for all policies | induction on policies; `Agree` says when two policies have the same address |
| C32, C33 | merkle.rs accumulator | binary-counter invariant; exact function computed; negation of the Merkle claim; full claims for an accumulator that merges the running node (`C32_repaired`, `C33_repaired`) |
| C34, C35 | rhp.rs sector_root | level invariant over array; permutation invariance; negation of the Merkle claim |
| C36, C38 | ChainState methods | arithmetic |
| C39, C40 | tax functions | arithmetic on exact rationals |
| C41, C48, C49 | seed.rs, signing.rs | preimage injectivity; ed25519 law, abstract and proved for the real one (see C72); phrases as 128-bit numbers in base 2048; the English list is sorted, hence without repetition |
| C42, C45, C46, C50-C53 | serde at the level of JSON values | a round-trip law per `Serde` record composed through objects, arrays, enums; base64 against a bit-level definition; full claim of C42 for keys written in hex where they have no text (`Model/Mended`, `C42_repaired`), and of C50 without any condition on unlock keys (`Model/Formats`, the records over any format of identifiers, unlock keys and policies) |
| C43 | encoders against arbitrary writers; interruptions in `Model/Interrupt` | prefix law composed over write sequences; `write_all` with interruptions, as a big-step relation, is `write_all` on the writer without them |
| C54, C56 | wire layouts and hashed strings | second, literal description of every layout; equality by unfolding, length lemmas |
| C55 | JSON documents of all types | second, literal description of every document; the writer of each type tells exactly it |
| C57 | heights, block factors, maturity of ChainState | arithmetic in both build modes |
| C58 | built-in networks | the published documents, read and written; with BLAKE2b and RFC 3339 by kernel computation |
| C59 | BLAKE2b-256 with a one-block buffer, hashing functions write by write | induction over pieces; refinement to the one-shot hash |
| C60 | RFC 3339 texts | calendar arithmetic (days of civil dates) both ways; grammar of the texts as separate spec |
| C61 | standard unlock conditions, chain index text, constructors | instance of C32, digits lemma, case analysis |
| C62 | decoders against arbitrary readers; interruptions in `Model/Interrupt` | `read_exact` with interruptions is `read_exact` without them, as for C43; simulation law (`Follows`) composed over all decoders; full claim for work fields that keep the reader's error (`C62_…_repaired`) |
| C63 | serde with `is_human_readable` false (`Model/Binary`), self-describing formats that keep field names | compositional iff (`Back`) over records, lists, options: which values survive; also makes C50 exact; with identifiers, unlock keys and policies repaired (`Model/Formats`) every type is kept (`C63_*_repaired`) |
| C64 | the text layer of `serde_json` (`Model/JsonText`: printer, parser with nesting limit, escapes, surrogates, numbers) against the RFC 8259 grammar as inductive relations (`Spec/JsonText`) | soundness and completeness of the parser by mutual induction; documents of all types bounded in depth by type classes; text round trips as iffs |
| C65 | the binary decoders with the conversion `u64 as usize` as a parameter (`Model/Width`): 64-bit, 32-bit, and `try_from` as repair | the 64-bit instance is proved equal to the other decoders (`C65_wide`); relations between two decoders closed under the combinators; exact result on 32 bits; violations as general theorems |
| C66 | the readers of `serde_json` in one pass over the text (`Model/Json`, `Model/Serde`: `take` of each `Serde`; `Model/JsonText`: the lenient skipping of unknown members) | against a grammar with blanks for skipped values (`Spec/Stream`); classes `Tracks` (agrees on documents), `Sound` (what is read is said by the document whatever the blanks), `Complete` (converse), `Bounds` (depth) composed over all records |
| C67 | the readers of documents of all types; `ContractResolution` on its own (`Model/Resolution`) | what a document says as relations, from field lists only (`Spec/Accept`); one lemma turns a field list into the reader's behaviour (`record_exact`), leaves from C14 to C20, C46, C53, C60 |
| C68 | nothing new | which leaf numbers the accumulator looks at, and which numbers of leaves it confuses, as arithmetic (`Spec/Cover`); an inductive relation in between (`SameCover`); both directions, the converse up to collisions among the strings actually hashed |
| C69 | JSON of v1 transactions and blocks with the reader of indices as a parameter (`Model/JsonWidth`); on 32 bits `serde` refuses numbers of 2^32 and more | a relation 'reads the same, but refuses some values' between readers, closed under structs and lists, with panics followed by a simulation; texts by the exactness of C66 |
| C70 | `Model/Derive`: declarations as `syn` gives them, the four macros of `sia_derive` as functions from declarations to generated programs (lists of `self.field.encode(w)?` and struct expressions), and what rustc makes of those programs: name resolution of members, completeness, uniqueness and types of struct expressions, evaluation in the order written; `none` is a program that does not compile. `Model/Declarations`: the 26 named and 6 tuple declarations of the crate as they stand, field by field. Left out: generic parameters, attributes, hygiene. | For any set of type expressions with any codecs. Encoders by induction along the declaration with the fields already written as prefix, using that a name is found where it is declared if names differ; decoders by showing that the struct expression gives every field the value read for it, so that the program is the sequence of field decoders. `C70_private`: a skipped field is missing in the struct expression. `C70_crate*`: the nested tuples of the other models have the same codec as the declared struct, one type at a time. |
| C71 | `Model/Memory`: the binary decoders with an account of the bytes requested (`Met`), per element type, with `size_of` of structs as a parameter; a second mode in which vectors grow as `RawVec::grow_amortized` does. Error messages are not counted. | One invariant (`Fair`) with four parts composed over all types: what is read pays for what was asked (each element leaves one byte uncharged, which pays for its place in the vector), the outcome is the decoder's, and a machine that can give the total can give every part. Growing: potential argument (`Grown`). The exact cost (`Spec/Heap`: the heap of a value, field by field, with its own table of sizes) by a second invariant (`Pays`). |
| C72 | `Model/Ed25519` (RFC 8032 section 5.1 in extended coordinates, as `ed25519-dalek` 2.1.1 uses it), `Model/Sha2` (FIPS 180-4), `Model/English` | the curve as a commutative group over `ZMod p` (`Spec/Curve`): completeness because `d` is not a square, associativity by reducing the difference by the curve equations (`Lemmas/Edwards`), primality of `p` and the order by Pratt certificates (`Lemmas/Prime`); the model's coordinates represent the group (`Rep`), square roots by Euler's criterion |
| C73 | the generic codecs of `Model/Codec` over an arbitrary `Codec v α` | the codec laws are equivalent to the specification of a type (`lawful_of_spec`), so the composition lemmas apply to types outside the crate; one user type as example, one without framing as counterexample |
| C74 | `Model/Conversion` | big-endian strings of one length are ordered as their values; stripped ones by length first, which the length prefix of v1 puts in front |
| C75 | `Model/Hashing`, `Ed25519` | C29 and C26 from the strings of C56, then C72; `Lemmas/Separation`: strings no hash tells apart are equal |
| C76 | `Model/Hashing`, `Spec/Repaired` | every string of 104 + 32 n bytes with n in bytes 96 to 103 is a storage proof (`proof_of_parts`); first eight bytes otherwise |
| C77 | `Model/Hashing`, `Spec/Repaired` | both strings start with the number of siacoin inputs and the first id; a key of 56 bytes hides the rest |
| C78 | `Model/Hashing`, `Spec/Origin` | induction over the chain: C25 for the last step, C24 for v2 transactions, the parent by induction |
| C79 | `Model/Consensus`, `Spec/Supply` | induction over the height with C36 and C38; C58 for the closed form; C13 for the sum |
| C80 | `Model/Debug`, `Spec/Debug` | induction over the text with a run of digits as state |
| C81 | `Spec/Spelling` | spellings composed with the decoders of products, sequences and structs |
| C82 | `Spec/Sha2`, `Spec/Blake2b`, `Spec/Standards`: FIPS 180-4, RFC 7693 and RFC 8032 as relations | numbers to bit vectors, lists to functions, induction over blocks; the kernel checks the constants |

## 5. Not modelled, or modelled from documentation

* Network I/O (the crate has none), what a compiler leaves of the zeroing on drop, timing, texts of error messages.
* rayon's thread pool beyond arbitrary interleaving of the tasks (C35).
* Payloads of errors (message of `Error::Custom`).
* In the JSON text layer: how `f64` is parsed (which numbers are finite is a parameter, their value is not kept).
* `time` crate: RFC 3339 from its documentation, years -9999 to 9999 (no `large-dates`).
* bip39 2.1.0: Unicode normalisation (NFKD) is a parameter that leaves ASCII alone; the words and SHA-256 are those of
  the BIP39 document and FIPS 180-4.
* ed25519-dalek 2.1.1: RFC 8032, with the choices that the crate documents (no cofactor in `verify`, keys need not be
  canonical, `s` below the order, feature `legacy_compatibility` off). Its code for field, tables and constant time is not modelled.
* Vectors: 6 of the 25 standard unlock hashes are
  evaluated, the others would only repeat them.

## 6. Findings: where the code violates a claim, or surprises

Every item is a theorem about the model (`_not_...` or named).

* **merkle.rs 34** (C32, C33, `C32_second_key_ignored`, `C33_third_leaf_ignored`; for BLAKE2b too, C59): when merging trees
  the accumulator hashes the new leaf `h` again instead of the merged `node`, so with four or more leaves a leaf does not influence the root. Unlock
  conditions with two or more keys do not commit to the second key. `C33_repaired` proves the fixed line right. C68 says exactly what is committed to: a second key
  added to conditions with one key does not even change the address (`C68_one_or_two_keys`); of six keys only the first and the third count (`C68_few_keys`).
* **rhp.rs 25** (C34, `C34_rest_ignored`; for BLAKE2b too): `sector_root` reads segments `i + j` instead of `4 * i + j`: most of the
  sector does not influence the root. `C34_repaired` proves the fixed index right.
* **consensus.rs 383-386** (C43): `State::encode` unwraps the writes of timestamps: a failing writer panics instead of
  returning an error.
* **work.rs 23-29** (C62): the v2 decoder of `Work` replaces I/O errors of the reader by "invalid work"; hence `State` too.
* **macros.rs 17-35, v1.rs 38-57** (C63): in formats that are not human-readable identifiers are written as bytes but read as text,
  and unlock keys are written as text but read as a pair; so neither they nor anything that holds one can be read back.
* **encoding/v1.rs 77-98, v2.rs 123-144** (C65): on 32-bit targets `u64 as usize` drops the high half of lengths and covered indices: the same bytes are a
  different transaction there (with another partial signature hash), and vectors and currencies that 64-bit machines reject are accepted.
* **utils.rs 53-71** (C50_timestamps): fewer than eleven timestamps are accepted and filled up with 1970.
* **C10**: decoders panic on hostile input: `with_capacity` of an unchecked length, `OffsetDateTime` out of range,
  height `u64::MAX` (checked builds), nested policies overflow the stack.
* **C71** (`C71_length_alone`): 8 bytes (v1) or 17 bytes (v2) of input make the decoder request any amount of memory up to the machine's limit before it fails.
* **C14, C15, C52**: `Currency::parse_string` panics or drops the fraction when there are more fraction digits than the unit has
  (even zeros), panics or wraps on overflow ("341 TS" from JSON panics in checked builds), misreads fractions of 2^32 digits.
* **C24**: v2 transaction ids cover neither claim addresses of siafund inputs nor the kind of a resolution.
* **C27**: transactions without inputs are not protected against replay. **C44**: different selections of covered fields can have
  the same signed bytes. **C61**: `partial_sig_hash` ignores the `whole_transaction` flag; for `CoveredFields::whole_transaction()` it
  is the hash of nothing for every transaction.
* **v1.rs 356-455** (C76, `C76_not_v2`, `C76_not_whole`): what is signed for selected fields has no constant in front and no selection in it. A signature that covers one
  storage proof, chosen by someone else, is a signature of a v2 transaction that spends any given output, or of almost any whole v1 transaction.
* **v2.rs 514-518** (C77, `C77_not_separate`): v2 transaction ids have no constant in front, so there are v1 and v2 transactions with the same id.
* **C42, C50**: unlock keys with a non-UTF-8 or colon-containing algorithm are decodable but panic when serialised or are not read back;
  policies nested 43 deep or more are not read back from JSON text.
* **C46**: `Work` accepts the empty string as zero. **C47**: `address!` accepts wrong checksums and garbage in the last 12 characters.
* **C48**: 64-byte private keys are not checked: inconsistent ones sign but do not verify, or verification panics.
* **signing.rs 50-57** (C48, C72): `verify` panics on public keys that are not curve points; it accepts keys of small order: for the key `01 00 … 00` one
  signature is valid for every hash (`C72_not_binds`); several byte strings are the same key (`C72_not_canonical`).
* **C60**: timestamps before the year 0 are decodable but have no JSON.
* **C61**: thresholds over unlock conditions panic in the constructor but are accepted by the decoder.
* **C38** (remark, not a theorem: the Go reference is not in `/repo`): `foundation_subsidy` pays 30000 SC per month and 12 times that once at the fork; the
  constant is named "per block" but is not multiplied by the number of blocks, as the reference implementation does.
* v1.rs `test_file_contract_tax` sets the height to 11 in its first iteration and never back, so its "prefork" expectations
  are compared with the post-fork tax; the real prefork tax of `u128::MAX` is 13271012309916600056182143758360370000, the test expects
  ...75071609689838960000 (`Vectors/Numbers`).

## 7. Axioms per theorem

As printed by `#print axioms`.

**none** (4):
C43_forever, C57_constants, C62_forever, C74_add_assign

**propext** (23):
C03_subsecond_lost, C09_non_canonical, C09_v1_transaction_non_canonical, C09_v1_others_non_canonical,
C10_block_panics, C13_div_rem, C22_signatures_not_covered, C27_v1_no_inputs, C48_signs, C48_panics, C48_answers,
C48_bytes, C48_not_total, C51_other, C57_maturity_height_wraps, C57_nonce_factor, C57_blocks_per_month_panics,
C61_address_of_slice, C61_whole_wire, C61_whole_fields, C62_pieces, C70_names, C74_v2_not_sorts

**Quot.sound, propext** (69):
C04_normal_form_needed, C10_v1_repaired, C10_state_repaired, C10_no_panic_anywhere_partial, C10_state_panics,
C10_policy_panics, C11_v2_encoding, C12_checked_add, C12_checked_sub, C12_checked_mul, C12_checked_div,
C12_checked_none, C15_text, C21_convert, C21_literal, C21_collisions, C27_v1_replay, C33_spec_unique, C35_loop,
C35_schedule_exists, C37_replay_prefix, C37_eras_differ, C38_degenerate_interval, C39_at_most, C39_multiple,
C39_tight, C39_monotone, C39_fork_raises, C39_panics_iff, C41_derivation, C43_containers, C43_not_state,
C43_state_repaired, C43_interrupted, C43_calls, C44_selections_ambiguous, C46_text_accepts, C46_text_round_trip,
C50_timestamps, C51_array, C57_maturity_height, C57_maturity_height_panics, C57_blocks_per_month,
C57_nonce_factor_last, C61_threshold, C62_work_repaired, C62_state_repaired, C62_state_same_repaired, C62_containers,
C62_work_partial, C62_not_work, C62_not_state, C62_sequence, C62_readers, C62_interrupted, C62_signals, C62_calls,
C65_exact, C65_same_partial, C70_structs_only, C70_same_programs, C71_state_costs_nothing, C72_scalar,
C73_derived_frame, C73_containers_canonical, C74_order, C74_to_u64, C74_defaults, C74_wiped

**Classical.choice, Quot.sound** (2):
C43_quiet, C62_quiet

**Classical.choice, Quot.sound, propext** (448):
C01_v2_transaction_round_trip, C01_v2_parts_round_trip, C02_v1_transaction_round_trip, C02_v1_parts_round_trip,
C03_block_round_trip, C04_state_round_trip, C04_element_accumulator_round_trip, C05_policy_round_trip,
C05_threshold_overflow, C05_unbounded_false, C06_v2_self_delimiting, C06_v1_self_delimiting,
C06_state_self_delimiting, C07_v2_truncation_fails, C07_v1_truncation_fails, C07_state_truncation_fails, C08_v2_local,
C08_v1_local, C08_state_local, C09_v2_canonical, C09_v1_canonical, C09_state_canonical, C09_v2_transaction_header,
C09_siafund_claim_start_ignored, C09_v2_unknown_bits_ignored, C09_v2_transaction_non_canonical,
C09_v2_reencodes_stably, C09_v1_reencodes_stably, C10_v2_repaired, C10_never_panics_repaired, C10_reads_repaired,
C10_state_reads_repaired, C10_no_panic_v2_partial, C10_no_panic_v1_partial, C10_block_panics_iff,
C10_state_panics_iff, C10_vec_panics, C11_v1_encoding_minimal, C11_v1_encoding_unique, C11_v1_decoding,
C11_v1_decoding_rejects, C13_add, C13_sub, C13_mul, C13_sum, C13_sum_perm, C14_checked_reads_any,
C14_unchecked_reads_any, C14_exact_partial, C14_checked_reads, C14_checked_panics, C14_rejects, C14_unknown_unit,
C14_unchecked_reads, C14_not_trailing_zeros, C14_not_overflow, C14_not_long, C14_repaired, C15_round_trip,
C15_numbers, C16_siacoins, C16_siacoins_range, C17_round_trip, C17_display, C17_accepts, C17_errors, C18_round_trip,
C18_accepts, C18_errors, C19_key_round_trip, C19_key_accepts, C19_signature_round_trip, C19_signature_accepts,
C19_signature_errors, C19_leaf_round_trip, C19_leaf_accepts, C20_accepts, C20_display, C20_round_trip, C21_display,
C21_display_fails, C21_round_trip, C21_display_convert, C22_v1_transaction_id, C23_witnesses_not_covered,
C24_v2_transaction_id_partial, C24_no_resolutions_partial, C24_claim_addresses_not_covered, C24_resolutions_ambiguous,
C24_repaired, C25_derived_ids, C26_whole_sig_hash, C27_v2_replay, C28_partial_sig_hash_range,
C28_partial_sig_hash_coverage, C29_v2_sig_hashes, C29_input_sig_hash_partial, C29_input_repaired, C30_hiding,
C30_agree, C31_address_iff_agree, C31_commits, C31_total, C32_not_merkle_root_blake2b, C32_address_exact,
C32_address_partial, C32_second_key_ignored, C32_commits_partial, C32_repaired, C33_not_merkle_root_blake2b,
C33_accumulator_exact, C33_merkle_root_partial, C33_third_leaf_ignored, C33_not_merkle_root, C33_repaired,
C33_panics_iff, C34_not_root_blake2b, C34_exact, C34_panics_iff, C34_root_partial, C34_rest_ignored, C34_not_root,
C34_repaired, C35_schedule_independent, C36_block_reward, C36_block_reward_panics, C36_non_increasing,
C36_stays_minimal, C36_mainnet, C36_block_reward_wraps, C36_not_non_increasing_unchecked, C37_replay_prefix_latest,
C38_foundation_subsidy, C39_tight_before, C40_v2_tax, C40_v2_tax_panics_iff, C40_v2_tax_wraps, C41_private,
C41_public, C41_seeds, C41_ed25519, C42_key_repaired, C42_key_same_repaired, C42_repaired, C42_same_repaired,
C42_round_trip_partial, C42_exactly, C42_not_textual, C42_not_utf8, C42_text, C42_type, C43_v2_types, C43_v1_types,
C43_hashed, C43_memory, C43_room, C43_state_partial, C44_same_selection_partial, C44_same_counts_partial,
C44_repaired, C45_round_trip, C45_writes, C45_object, C45_array, C45_count, C45_normalises, C46_text_errors,
C46_binary, C47_address_repaired, C47_id, C47_id_agrees, C47_key, C47_address, C47_address_partial, C47_address_not,
C48_not_bytes, C48_law, C48_ed25519, C48_derived, C48_no_point, C49_accepts, C49_too_long, C49_rejects, C49_writes,
C49_round_trip, C49_unique, C49_english, C49_english_phrase, C50_v1_transaction_exactly, C50_block_exactly,
C50_v2_transaction_exactly, C50_state_exactly, C50_network_exactly, C50_chain_state_exactly,
C50_v1_transaction_repaired, C50_block_repaired, C50_v2_transaction_repaired, C50_same_repaired, C50_v1_transaction,
C50_block, C50_v2_transaction, C50_state, C50_network, C50_chain_state, C50_not_rewritten, C51_object, C51_output,
C51_policy, C52_policy, C52_others, C52_not_checked, C53_writes, C53_reads, C54_v2_transaction, C54_v2_parts, C54_v1,
C54_v1_parts, C54_state, C54_v1_currency_digits, C54_sizes, C55_v1, C55_v1_parts, C55_values, C55_policy, C55_v2,
C55_v2_parts, C55_consensus, C55_read_transactions, C55_read_others, C56_derived_ids, C56_transaction_ids,
C56_v1_whole, C56_v1_selected, C56_v2_signatures, C56_policy_address, C56_single_key_address, C58_published,
C58_mainnet_document, C58_zen_document, C58_anagami_document, C58_forks_in_order, C58_mainnet_rewards,
C58_test_rewards, C58_mainnet_issuance, C58_mainnet_total, C58_subsidies, C58_replay_prefix, C58_read_back,
C59_pieces, C59_buffer, C59_parts, C59_transaction_ids, C59_v2_sig_hashes, C59_whole_sig_hash, C59_partial_sig_hash,
C59_addresses, C60_parse_exact, C60_format_range, C60_format_exact, C60_round_trip, C60_injective, C60_block,
C60_state, C60_not_all, C61_standard_address, C61_standard_commits, C61_unlock_key_text, C61_chain_index_text,
C61_chain_index_as_id, C61_chain_index_injective, C61_new_conditions, C61_threshold_decodes, C62_v2_types,
C62_v1_types, C62_state_partial, C62_state_pieces, C62_calls_hiding, C63_not_identifiers, C63_not_unlock_keys,
C63_unlock_key_reads, C63_not_others, C63_text_types_partial, C63_v1_transaction_partial, C63_v2_transaction_partial,
C63_policy_partial, C63_smaller_partial, C63_repaired, C63_same_repaired, C63_types_repaired, C63_v1_repaired,
C63_v2_repaired, C63_state_repaired, C63_outcomes_repaired, C64_parse, C64_unambiguous, C64_print,
C64_print_injective, C64_v1_transaction, C64_block, C64_state, C64_network, C64_chain_state, C64_policy,
C64_v2_transaction, C64_not_nested, C64_any_v1_transaction, C64_any_block, C64_any_v2_transaction, C64_any_state,
C64_any_network, C64_policy_calm, C64_calm, C65_wide, C65_values_partial, C65_not_same, C65_not_length,
C65_not_currency, C65_repaired, C66_documents, C66_v1_transaction, C66_block, C66_state, C66_network, C66_chain_state,
C66_v2_transaction, C66_policy, C66_unknown, C66_not_json_only, C66_contract_resolution,
C66_contract_resolution_not_documents, C67_texts, C67_currency, C67_numbers, C67_time, C67_v1_parts,
C67_v1_transaction, C67_block, C67_policy, C67_v2_parts, C67_resolution, C67_v2_transaction,
C67_resolution_round_trip, C67_accumulator, C67_state, C67_network, C67_chain_state, C67_of_text, C67_v2_of_document,
C67_resolution_text, C68_same_root, C68_root_iff, C68_same_address, C68_address_iff, C68_one_or_two_keys,
C68_few_keys, C68_sector_iff, C68_sector_repaired, C69_wide, C69_writes, C69_documents, C69_texts, C69_refuses,
C69_panic, C69_calm, C69_back, C69_against_binary, C70_encoder, C70_compiles, C70_decoder, C70_round_trip,
C70_private, C70_crate, C70_crate_v1, C70_crate_v2, C71_same_decoders, C71_value_costs, C71_room_suffices,
C71_length_alone, C71_input_costs_repaired, C71_same_results_repaired, C71_exact, C71_element_sizes, C72_accepts,
C72_encoding, C72_order, C72_one_scalar, C72_public_key, C72_seed_key, C72_binds, C72_not_binds, C72_not_canonical,
C73_containers_frame, C73_containers_self_delimiting, C73_containers_stable, C73_containers_never_panic,
C73_containers_bytes, C73_needs_framing, C73_leaves_frame, C73_leaves_canonical, C73_narrow_truncate,
C73_narrow_not_canonical, C74_v1_sorts, C74_work, C74_work_sorts, C75_v2, C75_v2_input, C75_v1, C75_v1_v2, C76_not_v2,
C76_not_whole, C76_revision_partial, C76_repaired, C77_not_separate, C77_same_spent_partial, C77_double_spend_partial,
C77_repaired, C78_origin, C78_thing, C78_differ, C78_not_attestations, C79_created, C79_mainnet, C79_formula,
C79_fits, C79_per_block, C80_shows_key, C80_not_hidden, C80_apart, C80_hidden_repaired, C81_v1_outputs, C81_v1,
C81_v2_transaction, C81_v1_shortest, C81_v2_short, C81_v2_shortest, C81_v2_not_shortest, C82_sha256, C82_sha512,
C82_blake2b, C82_identifiers, C82_accepts, C82_private_key, C82_signs, C82_phrase, C82_standard_address,
C82_key_address, C82_address_text, C82_words
