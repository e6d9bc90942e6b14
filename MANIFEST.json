{
 "claims": [
  {
   "property": "C01",
   "status": "proved",
   "theorems": [
    "Verif.C01_v2_transaction_round_trip",
    "Verif.C01_v2_parts_round_trip"
   ],
   "note": "v2 transaction and every other v2 type, all values in the stated domain, any continuation"
  },
  {
   "property": "C02",
   "status": "proved",
   "theorems": [
    "Verif.C02_v1_transaction_round_trip",
    "Verif.C02_v1_parts_round_trip"
   ],
   "note": "v1 transaction and its parts"
  },
  {
   "property": "C03",
   "status": "proved",
   "theorems": [
    "Verif.C03_block_round_trip",
    "Verif.C03_subsecond_lost"
   ],
   "note": "block; also shows that sub-second timestamps are lost"
  },
  {
   "property": "C04",
   "status": "proved",
   "theorems": [
    "Verif.C04_state_round_trip",
    "Verif.C04_element_accumulator_round_trip",
    "Verif.C04_normal_form_needed"
   ],
   "note": "state and element accumulator in normal form, both build modes; normal form shown to be needed"
  },
  {
   "property": "C05",
   "status": "proved",
   "theorems": [
    "Verif.C05_policy_round_trip",
    "Verif.C05_threshold_overflow",
    "Verif.C05_unbounded_false"
   ],
   "note": "all policies with at most 255 children per threshold; the behaviour beyond that is proved too and refutes the unbounded statement"
  },
  {
   "property": "C06",
   "status": "proved",
   "theorems": [
    "Verif.C06_v2_self_delimiting",
    "Verif.C06_v1_self_delimiting",
    "Verif.C06_state_self_delimiting"
   ],
   "note": "every type with a codec, plus State"
  },
  {
   "property": "C07",
   "status": "proved",
   "theorems": [
    "Verif.C07_v2_truncation_fails",
    "Verif.C07_v1_truncation_fails",
    "Verif.C07_state_truncation_fails"
   ],
   "note": "every type with a codec, plus State"
  },
  {
   "property": "C08",
   "status": "proved",
   "theorems": [
    "Verif.C08_v2_local",
    "Verif.C08_v1_local",
    "Verif.C08_state_local"
   ],
   "note": "every type with a codec, plus State"
  },
  {
   "property": "C09",
   "status": "proved",
   "theorems": [
    "Verif.C09_v2_canonical",
    "Verif.C09_v1_canonical",
    "Verif.C09_state_canonical",
    "Verif.C09_v2_transaction_header",
    "Verif.C09_non_canonical",
    "Verif.C09_v1_transaction_non_canonical",
    "Verif.C09_siafund_claim_start_ignored",
    "Verif.C09_v2_unknown_bits_ignored",
    "Verif.C09_v2_transaction_non_canonical",
    "Verif.C09_v2_reencodes_stably",
    "Verif.C09_v1_reencodes_stably",
    "Verif.C09_v1_others_non_canonical"
   ],
   "note": "canonical types listed; accepted non-canonical forms exhibited for the others; re-encoding is stable for all"
  },
  {
   "property": "C10",
   "status": "partial",
   "theorems": [
    "Verif.C10_v2_repaired",
    "Verif.C10_v1_repaired",
    "Verif.C10_state_repaired",
    "Verif.C10_never_panics_repaired",
    "Verif.C10_reads_repaired",
    "Verif.C10_state_reads_repaired",
    "Verif.C10_no_panic_v2_partial",
    "Verif.C10_no_panic_v1_partial",
    "Verif.C10_no_panic_anywhere_partial",
    "Verif.C10_block_panics_iff",
    "Verif.C10_state_panics_iff",
    "Verif.C10_block_panics",
    "Verif.C10_state_panics",
    "Verif.C10_vec_panics",
    "Verif.C10_policy_panics"
   ],
   "note": "the unrestricted statement is false and refuted by witnesses; proved under enough memory and stack, with exact panic conditions for Block and State. For decoders with vectors that grow with what is read, checked time ranges and a depth limit instead of the stack (not in the code) the full statement is proved (C10_v1_repaired, C10_v2_repaired, C10_state_repaired, C10_never_panics_repaired), with what the code reads still read (C10_reads_repaired)"
  },
  {
   "property": "C11",
   "status": "proved",
   "theorems": [
    "Verif.C11_v1_encoding_minimal",
    "Verif.C11_v1_encoding_unique",
    "Verif.C11_v1_decoding",
    "Verif.C11_v1_decoding_rejects",
    "Verif.C11_v2_encoding"
   ],
   "note": "minimal big-endian form, uniqueness, decoder value and rejections"
  },
  {
   "property": "C12",
   "status": "proved",
   "theorems": [
    "Verif.C12_checked_add",
    "Verif.C12_checked_sub",
    "Verif.C12_checked_mul",
    "Verif.C12_checked_div",
    "Verif.C12_checked_none"
   ],
   "note": "all four checked operations"
  },
  {
   "property": "C13",
   "status": "proved",
   "theorems": [
    "Verif.C13_add",
    "Verif.C13_sub",
    "Verif.C13_mul",
    "Verif.C13_div_rem",
    "Verif.C13_sum",
    "Verif.C13_sum_perm"
   ],
   "note": "both build modes; sum also shown independent of order"
  },
  {
   "property": "C14",
   "status": "partial",
   "theorems": [
    "Verif.C14_checked_reads_any",
    "Verif.C14_unchecked_reads_any",
    "Verif.C14_exact_partial",
    "Verif.C14_checked_reads",
    "Verif.C14_checked_panics",
    "Verif.C14_rejects",
    "Verif.C14_unknown_unit",
    "Verif.C14_unchecked_reads",
    "Verif.C14_not_trailing_zeros",
    "Verif.C14_not_overflow",
    "Verif.C14_not_long",
    "Verif.C14_repaired"
   ],
   "note": "Exact in both builds for every amount with at most as many fraction digits as the unit has; what is read, in either build, for texts of any length (C14_checked_reads_any, C14_unchecked_reads_any); what is refused and panicked on for every string below 2^31 characters. The full claim is false: too many fraction digits (even zeros) panic or drop the fraction, overflow panics or wraps, and fractions of 2^32 and more digits are misread (C14_not_*). C14_repaired proves it for a corrected parser."
  },
  {
   "property": "C15",
   "status": "proved",
   "theorems": [
    "Verif.C15_round_trip",
    "Verif.C15_text",
    "Verif.C15_numbers"
   ],
   "note": "Both builds; also the numeric tokens."
  },
  {
   "property": "C16",
   "status": "proved",
   "theorems": [
    "Verif.C16_siacoins",
    "Verif.C16_siacoins_range"
   ],
   "note": "exact range of the argument"
  },
  {
   "property": "C17",
   "status": "proved",
   "theorems": [
    "Verif.C17_round_trip",
    "Verif.C17_display",
    "Verif.C17_accepts",
    "Verif.C17_errors"
   ],
   "note": "Every string and every identifier, with the exact errors."
  },
  {
   "property": "C18",
   "status": "proved",
   "theorems": [
    "Verif.C18_round_trip",
    "Verif.C18_accepts",
    "Verif.C18_errors"
   ],
   "note": "Every hash function."
  },
  {
   "property": "C19",
   "status": "proved",
   "theorems": [
    "Verif.C19_key_round_trip",
    "Verif.C19_key_accepts",
    "Verif.C19_signature_round_trip",
    "Verif.C19_signature_accepts",
    "Verif.C19_signature_errors",
    "Verif.C19_leaf_round_trip",
    "Verif.C19_leaf_accepts"
   ],
   "note": "Round trips and exactly what is accepted."
  },
  {
   "property": "C20",
   "status": "proved",
   "theorems": [
    "Verif.C20_accepts",
    "Verif.C20_display",
    "Verif.C20_round_trip"
   ],
   "note": "Round trip exactly if the algorithm has no colon; displaying fails if the name is not UTF-8."
  },
  {
   "property": "C21",
   "status": "proved",
   "theorems": [
    "Verif.C21_convert",
    "Verif.C21_literal",
    "Verif.C21_display",
    "Verif.C21_display_fails",
    "Verif.C21_round_trip",
    "Verif.C21_collisions",
    "Verif.C21_display_convert"
   ],
   "note": "Conversion, display, collisions; UTF-8 as in Lean's String."
  },
  {
   "property": "C22",
   "status": "proved",
   "theorems": [
    "Verif.C22_v1_transaction_id",
    "Verif.C22_signatures_not_covered"
   ],
   "note": "the hashed string determines and is determined by everything but the signatures"
  },
  {
   "property": "C23",
   "status": "proved",
   "theorems": [
    "Verif.C23_witnesses_not_covered"
   ],
   "note": "any two transactions with the same effects, all witnesses arbitrary"
  },
  {
   "property": "C24",
   "status": "partial",
   "theorems": [
    "Verif.C24_v2_transaction_id_partial",
    "Verif.C24_no_resolutions_partial",
    "Verif.C24_claim_addresses_not_covered",
    "Verif.C24_resolutions_ambiguous",
    "Verif.C24_repaired"
   ],
   "note": "proved up to the kinds of resolutions, fully without resolutions; the rest is false: claim addresses and resolution kinds are not covered (both proved). C24_repaired: the full claim for an id that also hashes them"
  },
  {
   "property": "C25",
   "status": "proved",
   "theorems": [
    "Verif.C25_derived_ids"
   ],
   "note": "all 16 derivation methods, one injectivity theorem across methods, parents and indices"
  },
  {
   "property": "C26",
   "status": "proved",
   "theorems": [
    "Verif.C26_whole_sig_hash"
   ],
   "note": "within one replay era"
  },
  {
   "property": "C27",
   "status": "proved",
   "theorems": [
    "Verif.C27_v1_replay",
    "Verif.C27_v1_no_inputs",
    "Verif.C27_v2_replay"
   ],
   "note": "v1 same transaction across any two eras; v1 with siacoin inputs and all v2 messages: any two messages of different eras from the ASIC fork on; transactions without inputs shown unprotected"
  },
  {
   "property": "C28",
   "status": "proved",
   "theorems": [
    "Verif.C28_partial_sig_hash_range",
    "Verif.C28_partial_sig_hash_coverage"
   ],
   "note": "exact error condition, no panic, dependence only on selected elements"
  },
  {
   "property": "C29",
   "status": "proved",
   "theorems": [
    "Verif.C29_v2_sig_hashes",
    "Verif.C29_input_sig_hash_partial",
    "Verif.C29_input_repaired"
   ],
   "note": "purpose separation in all chain states; commitment to all non-signature fields; inputs inherit the gap of C24 (closed by hashing claim addresses and kinds too, C29_input_repaired)"
  },
  {
   "property": "C30",
   "status": "proved",
   "theorems": [
    "Verif.C30_hiding",
    "Verif.C30_agree"
   ],
   "note": "One hidden part at any position, and any number of hidden parts on either side."
  },
  {
   "property": "C31",
   "status": "proved",
   "theorems": [
    "Verif.C31_address_iff_agree",
    "Verif.C31_commits",
    "Verif.C31_total"
   ],
   "note": "For all policies: same address exactly if the policies agree up to hidden parts, the parts of unlock conditions that are hashed (C68) and fractions of seconds; equality for policies in which these are trivial."
  },
  {
   "property": "C32",
   "status": "partial",
   "theorems": [
    "Verif.C32_not_merkle_root_blake2b",
    "Verif.C32_address_exact",
    "Verif.C32_address_partial",
    "Verif.C32_second_key_ignored",
    "Verif.C32_commits_partial",
    "Verif.C32_repaired"
   ],
   "note": "Exact value of the address proved for all unlock conditions; Merkle root of all leaves and commitment to every field proved for at most one key against at most one key. Missing: two or more keys, where the code drops the second key (C32_second_key_ignored proves it for every hash function). Exactly what is committed to, for any number of keys: C68_address_iff. C32_repaired: the full claim if the accumulator merges the running node."
  },
  {
   "property": "C33",
   "status": "partial",
   "theorems": [
    "Verif.C33_not_merkle_root_blake2b",
    "Verif.C33_accumulator_exact",
    "Verif.C33_merkle_root_partial",
    "Verif.C33_third_leaf_ignored",
    "Verif.C33_not_merkle_root",
    "Verif.C33_repaired",
    "Verif.C33_spec_unique",
    "Verif.C33_panics_iff"
   ],
   "note": "Exact value proved for all lists; Merkle root proved for one to three leaves. Missing: four or more leaves, where the third leaf is ignored (C33_third_leaf_ignored, C33_not_merkle_root); the program with line 34 repaired is proved correct for all lists (C33_repaired). Exactly what is committed to: C68_root_iff."
  },
  {
   "property": "C34",
   "status": "partial",
   "theorems": [
    "Verif.C34_not_root_blake2b",
    "Verif.C34_exact",
    "Verif.C34_panics_iff",
    "Verif.C34_root_partial",
    "Verif.C34_rest_ignored",
    "Verif.C34_not_root",
    "Verif.C34_repaired"
   ],
   "note": "Exact value proved for every sector; it is the sector root when the hashed segments equal the right ones. Missing: all other sectors, where the code reads the wrong segments (C34_rest_ignored, C34_not_root); the repaired program is proved correct (C34_repaired). Exactly what is committed to: C68_sector_iff."
  },
  {
   "property": "C35",
   "status": "proved",
   "theorems": [
    "Verif.C35_loop",
    "Verif.C35_schedule_exists",
    "Verif.C35_schedule_independent"
   ],
   "note": "Arbitrary interleavings of the single steps of all tasks, in every loop of the function."
  },
  {
   "property": "C36",
   "status": "proved",
   "theorems": [
    "Verif.C36_block_reward",
    "Verif.C36_block_reward_panics",
    "Verif.C36_non_increasing",
    "Verif.C36_stays_minimal",
    "Verif.C36_mainnet",
    "Verif.C36_block_reward_wraps",
    "Verif.C36_not_non_increasing_unchecked"
   ],
   "note": "for heights up to 340282366920938 in both builds; beyond, a checked build panics (C36_block_reward_panics) and an unchecked one wraps (C36_block_reward_wraps, exact)"
  },
  {
   "property": "C37",
   "status": "proved",
   "theorems": [
    "Verif.C37_replay_prefix",
    "Verif.C37_replay_prefix_latest",
    "Verif.C37_eras_differ"
   ],
   "note": "latest active fork decides; prefixes distinct"
  },
  {
   "property": "C38",
   "status": "proved",
   "theorems": [
    "Verif.C38_foundation_subsidy",
    "Verif.C38_degenerate_interval"
   ],
   "note": "any interval from one nanosecond to a month; the panics outside are proved"
  },
  {
   "property": "C39",
   "status": "proved",
   "theorems": [
    "Verif.C39_at_most",
    "Verif.C39_multiple",
    "Verif.C39_tight",
    "Verif.C39_tight_before",
    "Verif.C39_monotone",
    "Verif.C39_fork_raises",
    "Verif.C39_panics_iff"
   ],
   "note": "both eras; the only panic is the height overflow"
  },
  {
   "property": "C40",
   "status": "proved",
   "theorems": [
    "Verif.C40_v2_tax",
    "Verif.C40_v2_tax_panics_iff",
    "Verif.C40_v2_tax_wraps"
   ],
   "note": "exact rounding, exact panic condition, and what an unchecked build returns on overflow"
  },
  {
   "property": "C41",
   "status": "proved",
   "theorems": [
    "Verif.C41_derivation",
    "Verif.C41_private",
    "Verif.C41_public",
    "Verif.C41_seeds",
    "Verif.C41_ed25519"
   ],
   "note": "Exact derivation; equal private or public keys give an explicit collision of the hash or of key expansion; for the real ed25519, of the clamped SHA-512 modulo the order."
  },
  {
   "property": "C42",
   "status": "partial",
   "theorems": [
    "Verif.C42_key_repaired",
    "Verif.C42_key_same_repaired",
    "Verif.C42_repaired",
    "Verif.C42_same_repaired",
    "Verif.C42_round_trip_partial",
    "Verif.C42_exactly",
    "Verif.C42_not_textual",
    "Verif.C42_not_utf8",
    "Verif.C42_text",
    "Verif.C42_type"
   ],
   "note": "False in full: unlock keys whose algorithm is not UTF-8 panic, one with a colon is not read back (C42_not_textual, C42_not_utf8). Proved for all other policies, and that these are exactly the ones that survive; C42_text adds the parser's nesting limit. RFC 3339 is not involved; the stack limit is a parameter. With such algorithms written in hex (not in the code) the full claim is proved (C42_repaired)."
  },
  {
   "property": "C43",
   "status": "partial",
   "theorems": [
    "Verif.C43_v2_types",
    "Verif.C43_v1_types",
    "Verif.C43_containers",
    "Verif.C43_hashed",
    "Verif.C43_memory",
    "Verif.C43_room",
    "Verif.C43_state_partial",
    "Verif.C43_not_state",
    "Verif.C43_state_repaired",
    "Verif.C43_quiet",
    "Verif.C43_interrupted",
    "Verif.C43_forever",
    "Verif.C43_calls"
   ],
   "note": "Every encoder except State's, against an arbitrary writer (own state, short writes, errors, zero writes): on failure the writer's error is returned, nothing panics and exactly the bytes before the refused piece were written. State unwraps its timestamp writes: C43_not_state shows the panic, C43_state_partial says exactly when it happens, C43_state_repaired proves the repaired encoder."
  },
  {
   "property": "C44",
   "status": "partial",
   "theorems": [
    "Verif.C44_same_selection_partial",
    "Verif.C44_selections_ambiguous",
    "Verif.C44_same_counts_partial",
    "Verif.C44_repaired"
   ],
   "note": "false in general (ambiguity exhibited for every hash function); proved for one selection and for selections with the same number of indices per field. C44_repaired: the full claim if the selection is hashed too"
  },
  {
   "property": "C45",
   "status": "proved",
   "theorems": [
    "Verif.C45_round_trip",
    "Verif.C45_writes",
    "Verif.C45_object",
    "Verif.C45_array",
    "Verif.C45_count",
    "Verif.C45_normalises"
   ],
   "note": "Round trip for normal forms, what is written, exactly what is read from objects and arrays, and the count of trees."
  },
  {
   "property": "C46",
   "status": "proved",
   "theorems": [
    "Verif.C46_text_accepts",
    "Verif.C46_text_errors",
    "Verif.C46_text_round_trip",
    "Verif.C46_binary"
   ],
   "note": "Binary codecs and decimal text; the empty string is accepted as zero."
  },
  {
   "property": "C47",
   "status": "partial",
   "theorems": [
    "Verif.C47_address_repaired",
    "Verif.C47_id",
    "Verif.C47_id_agrees",
    "Verif.C47_key",
    "Verif.C47_address",
    "Verif.C47_address_partial",
    "Verif.C47_address_not"
   ],
   "note": "Identifier and public key macros agree with the parsers on every literal. address! accepts literals with a wrong checksum or garbage in the last 12 characters (C47_address_not); with the checksum compared (not in the code) it agrees with the parser (C47_address_repaired)."
  },
  {
   "property": "C48",
   "status": "proved",
   "theorems": [
    "Verif.C48_signs",
    "Verif.C48_panics",
    "Verif.C48_answers",
    "Verif.C48_bytes",
    "Verif.C48_not_bytes",
    "Verif.C48_law",
    "Verif.C48_ed25519",
    "Verif.C48_derived",
    "Verif.C48_no_point",
    "Verif.C48_not_total"
   ],
   "note": "C48_law proves the correctness law for ed25519 as in RFC 8032, from the group law of the curve. Also: keys given as 64 inconsistent bytes need not verify (C48_not_bytes), and some key bytes make verify panic (C48_not_total)."
  },
  {
   "property": "C49",
   "status": "proved",
   "theorems": [
    "Verif.C49_accepts",
    "Verif.C49_too_long",
    "Verif.C49_rejects",
    "Verif.C49_writes",
    "Verif.C49_round_trip",
    "Verif.C49_unique",
    "Verif.C49_english",
    "Verif.C49_english_phrase"
   ],
   "note": "For every list of words and hash, and for the English list with SHA-256. Unicode normalisation is a parameter that leaves ASCII alone."
  },
  {
   "property": "C50",
   "status": "proved",
   "theorems": [
    "Verif.C50_v1_transaction_exactly",
    "Verif.C50_block_exactly",
    "Verif.C50_v2_transaction_exactly",
    "Verif.C50_state_exactly",
    "Verif.C50_network_exactly",
    "Verif.C50_chain_state_exactly",
    "Verif.C50_timestamps",
    "Verif.C50_v1_transaction_repaired",
    "Verif.C50_block_repaired",
    "Verif.C50_v2_transaction_repaired",
    "Verif.C50_same_repaired",
    "Verif.C50_v1_transaction",
    "Verif.C50_block",
    "Verif.C50_v2_transaction",
    "Verif.C50_state",
    "Verif.C50_network",
    "Verif.C50_chain_state",
    "Verif.C50_not_rewritten"
   ],
   "note": "RFC 3339 text of times is a parameter with the hypothesis that the library reads what it writes; the *_exactly theorems show that the hypotheses are necessary. C50_not_rewritten shows a key that is read but cannot be written. C50_*_repaired: with algorithms in hex where they have no text (not in the code) no condition on unlock keys is needed."
  },
  {
   "property": "C51",
   "status": "proved",
   "theorems": [
    "Verif.C51_object",
    "Verif.C51_array",
    "Verif.C51_other",
    "Verif.C51_output",
    "Verif.C51_policy"
   ],
   "note": "Generic over derived structs (C51_object, C51_array, C51_other) with the output as an instance; policies exactly."
  },
  {
   "property": "C52",
   "status": "proved",
   "theorems": [
    "Verif.C52_policy",
    "Verif.C52_others",
    "Verif.C52_not_checked"
   ],
   "note": "For builds without overflow checks; C52_not_checked shows the panic with them."
  },
  {
   "property": "C53",
   "status": "proved",
   "theorems": [
    "Verif.C53_writes",
    "Verif.C53_reads"
   ],
   "note": "Against a bit-level definition of base64."
  },
  {
   "property": "C54",
   "status": "proved",
   "theorems": [
    "Verif.C54_v2_transaction",
    "Verif.C54_v2_parts",
    "Verif.C54_v1",
    "Verif.C54_v1_parts",
    "Verif.C54_state",
    "Verif.C54_v1_currency_digits",
    "Verif.C54_sizes"
   ],
   "note": "Against a separate description of every layout, written without the encoders. v1 types containing amounts also accept padded amounts (C09), so only the layout direction is claimed for them."
  },
  {
   "property": "C55",
   "status": "proved",
   "theorems": [
    "Verif.C55_v1",
    "Verif.C55_v1_parts",
    "Verif.C55_values",
    "Verif.C55_policy",
    "Verif.C55_v2",
    "Verif.C55_v2_parts",
    "Verif.C55_consensus",
    "Verif.C55_read_transactions",
    "Verif.C55_read_others"
   ],
   "note": "The writers of all types against a second description of the documents; reading back from the documents. The RFC 3339 text of a time is a parameter."
  },
  {
   "property": "C56",
   "status": "proved",
   "theorems": [
    "Verif.C56_derived_ids",
    "Verif.C56_transaction_ids",
    "Verif.C56_v1_whole",
    "Verif.C56_v1_selected",
    "Verif.C56_v2_signatures",
    "Verif.C56_policy_address",
    "Verif.C56_single_key_address"
   ],
   "note": "Against separate byte strings with literal prefixes. Unlock conditions: the root the code computes (see C32 for how it differs from a Merkle root)."
  },
  {
   "property": "C57",
   "status": "proved",
   "theorems": [
    "Verif.C57_maturity_height",
    "Verif.C57_maturity_height_panics",
    "Verif.C57_maturity_height_wraps",
    "Verif.C57_nonce_factor",
    "Verif.C57_blocks_per_month",
    "Verif.C57_blocks_per_month_panics",
    "Verif.C57_nonce_factor_last",
    "Verif.C57_constants"
   ],
   "note": "All chain states; overflow in both build modes."
  },
  {
   "property": "C58",
   "status": "proved",
   "theorems": [
    "Verif.C58_published",
    "Verif.C58_mainnet_document",
    "Verif.C58_zen_document",
    "Verif.C58_anagami_document",
    "Verif.C58_forks_in_order",
    "Verif.C58_mainnet_rewards",
    "Verif.C58_test_rewards",
    "Verif.C58_mainnet_issuance",
    "Verif.C58_mainnet_total",
    "Verif.C58_subsidies",
    "Verif.C58_replay_prefix",
    "Verif.C58_read_back"
   ],
   "note": "C58_published has no hypotheses: hash BLAKE2b and time texts RFC 3339; the other theorems keep the checksums of the address literals and the text of the genesis time as hypotheses so that they hold for every hash function"
  },
  {
   "property": "C59",
   "status": "proved",
   "theorems": [
    "Verif.C59_pieces",
    "Verif.C59_buffer",
    "Verif.C59_parts",
    "Verif.C59_transaction_ids",
    "Verif.C59_v2_sig_hashes",
    "Verif.C59_whole_sig_hash",
    "Verif.C59_partial_sig_hash",
    "Verif.C59_addresses"
   ],
   "note": "BLAKE2b-256 as in RFC 7693 (hash state with a one-block buffer); the write-by-write versions are in Model/Streaming"
  },
  {
   "property": "C60",
   "status": "proved",
   "theorems": [
    "Verif.C60_parse_exact",
    "Verif.C60_format_range",
    "Verif.C60_format_exact",
    "Verif.C60_round_trip",
    "Verif.C60_injective",
    "Verif.C60_block",
    "Verif.C60_state",
    "Verif.C60_not_all"
   ],
   "note": "format and parser of the time crate modelled from its documentation (crate sources not available); C60_not_all shows timestamps that are decodable but have no JSON"
  },
  {
   "property": "C61",
   "status": "proved",
   "theorems": [
    "Verif.C61_standard_address",
    "Verif.C61_standard_commits",
    "Verif.C61_unlock_key_text",
    "Verif.C61_chain_index_text",
    "Verif.C61_chain_index_as_id",
    "Verif.C61_chain_index_injective",
    "Verif.C61_address_of_slice",
    "Verif.C61_new_conditions",
    "Verif.C61_whole_wire",
    "Verif.C61_whole_fields",
    "Verif.C61_threshold",
    "Verif.C61_threshold_decodes"
   ],
   "note": "for every hash function, key, index and slice; C61_whole_fields records that partial_sig_hash never looks at the whole_transaction flag and no code in the library chooses between the two hashes: the choice is left to the user"
  },
  {
   "property": "C62",
   "status": "partial",
   "theorems": [
    "Verif.C62_work_repaired",
    "Verif.C62_state_repaired",
    "Verif.C62_state_same_repaired",
    "Verif.C62_v2_types",
    "Verif.C62_v1_types",
    "Verif.C62_containers",
    "Verif.C62_work_partial",
    "Verif.C62_not_work",
    "Verif.C62_state_partial",
    "Verif.C62_not_state",
    "Verif.C62_pieces",
    "Verif.C62_state_pieces",
    "Verif.C62_sequence",
    "Verif.C62_readers",
    "Verif.C62_quiet",
    "Verif.C62_interrupted",
    "Verif.C62_forever",
    "Verif.C62_signals",
    "Verif.C62_calls",
    "Verif.C62_calls_hiding"
   ],
   "note": "all types except Work (v2) and State, whose decoder reports failures of the reader in a work field as a custom error 'invalid work' (C62_not_work, C62_not_state); everything else of the claim holds for them too (C62_work_partial, C62_state_partial, C62_state_pieces). With the reader's error kept (not in the code) the full claim is proved (C62_work_repaired, C62_state_repaired)"
  },
  {
   "property": "C63",
   "status": "partial",
   "theorems": [
    "Verif.C63_not_identifiers",
    "Verif.C63_not_unlock_keys",
    "Verif.C63_unlock_key_reads",
    "Verif.C63_not_others",
    "Verif.C63_text_types_partial",
    "Verif.C63_v1_transaction_partial",
    "Verif.C63_v2_transaction_partial",
    "Verif.C63_policy_partial",
    "Verif.C63_smaller_partial",
    "Verif.C63_repaired",
    "Verif.C63_same_repaired",
    "Verif.C63_types_repaired",
    "Verif.C63_v1_repaired",
    "Verif.C63_v2_repaired",
    "Verif.C63_state_repaired",
    "Verif.C63_outcomes_repaired"
   ],
   "note": "Violated: identifiers and unlock keys cannot be read back (C63_not_*); the partial theorems say exactly which values survive. The format is modelled as a self-describing one that keeps field names. With identifiers read as written, unlock keys written as read and policies as JSON values (not in the code) every type is kept (C63_types_repaired, C63_v1_repaired, C63_v2_repaired, C63_state_repaired)."
  },
  {
   "property": "C64",
   "status": "proved",
   "theorems": [
    "Verif.C64_parse",
    "Verif.C64_unambiguous",
    "Verif.C64_print",
    "Verif.C64_print_injective",
    "Verif.C64_v1_transaction",
    "Verif.C64_block",
    "Verif.C64_state",
    "Verif.C64_network",
    "Verif.C64_chain_state",
    "Verif.C64_policy",
    "Verif.C64_v2_transaction",
    "Verif.C64_not_nested",
    "Verif.C64_any_v1_transaction",
    "Verif.C64_any_block",
    "Verif.C64_any_v2_transaction",
    "Verif.C64_any_state",
    "Verif.C64_any_network",
    "Verif.C64_policy_calm",
    "Verif.C64_calm"
   ],
   "note": "Parser equals the RFC 8259 grammar within the nesting limit; text round trips for all types as iffs; C64_not_nested shows the limit bites inside transactions. What typed readers accept beyond this grammar is C66."
  },
  {
   "property": "C65",
   "status": "partial",
   "theorems": [
    "Verif.C65_wide",
    "Verif.C65_values_partial",
    "Verif.C65_exact",
    "Verif.C65_same_partial",
    "Verif.C65_not_same",
    "Verif.C65_not_length",
    "Verif.C65_not_currency",
    "Verif.C65_repaired"
   ],
   "note": "Negations proved: on 32-bit targets covered indices and lengths are reduced modulo 2^32 (C65_not_same, C65_not_length, C65_not_currency). C65_values_partial and C65_same_partial are what holds, C65_exact the exact result, C65_repaired the fix. JSON on 32-bit targets is C69."
  },
  {
   "property": "C66",
   "status": "proved",
   "theorems": [
    "Verif.C66_documents",
    "Verif.C66_v1_transaction",
    "Verif.C66_block",
    "Verif.C66_state",
    "Verif.C66_network",
    "Verif.C66_chain_state",
    "Verif.C66_v2_transaction",
    "Verif.C66_policy",
    "Verif.C66_unknown",
    "Verif.C66_not_json_only",
    "Verif.C66_contract_resolution",
    "Verif.C66_contract_resolution_not_documents"
   ],
   "note": "Iffs for v1 transactions, blocks, states, networks and policies. For v2 transactions the condition is necessary, and sufficient when nothing is skipped: the full converse is not stated because overwritten policy and resolution members are read as values, not skipped."
  },
  {
   "property": "C67",
   "status": "proved",
   "theorems": [
    "Verif.C67_texts",
    "Verif.C67_currency",
    "Verif.C67_numbers",
    "Verif.C67_time",
    "Verif.C67_v1_parts",
    "Verif.C67_v1_transaction",
    "Verif.C67_block",
    "Verif.C67_policy",
    "Verif.C67_v2_parts",
    "Verif.C67_resolution",
    "Verif.C67_v2_transaction",
    "Verif.C67_resolution_round_trip",
    "Verif.C67_accumulator",
    "Verif.C67_state",
    "Verif.C67_network",
    "Verif.C67_chain_state",
    "Verif.C67_of_text",
    "Verif.C67_v2_of_document",
    "Verif.C67_resolution_text"
   ],
   "note": "Every reader of documents equals an independent relation, for all documents and values, both overflow modes and any stack depth; timestamps go through the texts of the time crate (C60). The text form of a contract resolution on its own is modelled on documents only."
  },
  {
   "property": "C68",
   "status": "proved",
   "theorems": [
    "Verif.C68_same_root",
    "Verif.C68_root_iff",
    "Verif.C68_same_address",
    "Verif.C68_address_iff",
    "Verif.C68_one_or_two_keys",
    "Verif.C68_few_keys",
    "Verif.C68_sector_iff",
    "Verif.C68_sector_repaired"
   ],
   "note": "'If' for every hash function; 'only if' unless two of the strings that are hashed collide, which is stated for exactly these strings and shown to be satisfiable."
  },
  {
   "property": "C69",
   "status": "proved",
   "theorems": [
    "Verif.C69_wide",
    "Verif.C69_writes",
    "Verif.C69_documents",
    "Verif.C69_texts",
    "Verif.C69_refuses",
    "Verif.C69_panic",
    "Verif.C69_calm",
    "Verif.C69_back",
    "Verif.C69_against_binary"
   ],
   "note": "serde's usize is taken to refuse u64 values that do not fit, as documented by the crate."
  },
  {
   "property": "C70",
   "status": "proved",
   "theorems": [
    "Verif.C70_structs_only",
    "Verif.C70_encoder",
    "Verif.C70_compiles",
    "Verif.C70_decoder",
    "Verif.C70_round_trip",
    "Verif.C70_private",
    "Verif.C70_same_programs",
    "Verif.C70_crate",
    "Verif.C70_crate_v1",
    "Verif.C70_crate_v2",
    "Verif.C70_names"
   ],
   "note": "No deriving type of the crate has a private named field, so the hazard of C70_private does not occur today. Generic parameters are not modelled (no deriving type has any)."
  },
  {
   "property": "C71",
   "status": "proved",
   "theorems": [
    "Verif.C71_same_decoders",
    "Verif.C71_value_costs",
    "Verif.C71_room_suffices",
    "Verif.C71_state_costs_nothing",
    "Verif.C71_length_alone",
    "Verif.C71_input_costs_repaired",
    "Verif.C71_same_results_repaired",
    "Verif.C71_exact",
    "Verif.C71_element_sizes"
   ],
   "note": "C71_length_alone is the finding behind C10_vec_panics, now in bytes and per element type. The two repaired theorems are about Vec::new() in place of Vec::with_capacity(len), which is not in the code; growth follows RawVec::grow_amortized."
  },
  {
   "property": "C72",
   "status": "proved",
   "theorems": [
    "Verif.C72_accepts",
    "Verif.C72_encoding",
    "Verif.C72_order",
    "Verif.C72_one_scalar",
    "Verif.C72_scalar",
    "Verif.C72_public_key",
    "Verif.C72_seed_key",
    "Verif.C72_binds",
    "Verif.C72_not_binds",
    "Verif.C72_not_canonical"
   ],
   "note": "ed25519 follows RFC 8032 and the documentation of ed25519-dalek 2.1.1 (verify without cofactor, non-canonical keys accepted, s below the order). C72_not_binds and C72_not_canonical are findings about keys that were not made from seeds."
  },
  {
   "property": "C73",
   "status": "proved",
   "theorems": [
    "Verif.C73_containers_frame",
    "Verif.C73_derived_frame",
    "Verif.C73_containers_self_delimiting",
    "Verif.C73_containers_canonical",
    "Verif.C73_containers_stable",
    "Verif.C73_containers_never_panic",
    "Verif.C73_containers_bytes",
    "Verif.C73_needs_framing",
    "Verif.C73_leaves_frame",
    "Verif.C73_leaves_canonical",
    "Verif.C73_narrow_truncate",
    "Verif.C73_narrow_not_canonical"
   ],
   "note": "Universally quantified over the codec of the element type. The element type is assumed not to fail for other reasons than its bytes; panics are excluded where allocation does not fail, as in C10."
  },
  {
   "property": "C74",
   "status": "proved",
   "theorems": [
    "Verif.C74_order",
    "Verif.C74_v1_sorts",
    "Verif.C74_v2_not_sorts",
    "Verif.C74_to_u64",
    "Verif.C74_add_assign",
    "Verif.C74_work",
    "Verif.C74_work_sorts",
    "Verif.C74_defaults",
    "Verif.C74_wiped"
   ],
   "note": "Dropping is the loop of stores; copies made by moves and stores removed by an optimiser are not modelled."
  },
  {
   "property": "C75",
   "status": "proved",
   "theorems": [
    "Verif.C75_v2",
    "Verif.C75_v2_input",
    "Verif.C75_v1",
    "Verif.C75_v1_v2"
   ],
   "note": "For the concrete BLAKE2b, SHA-512 and ed25519 of the model. Whole transactions with 2^56 or more inputs are excluded in C75_v1_v2."
  },
  {
   "property": "C76",
   "status": "partial",
   "theorems": [
    "Verif.C76_not_v2",
    "Verif.C76_not_whole",
    "Verif.C76_revision_partial",
    "Verif.C76_repaired"
   ],
   "note": "False as stated: C76_not_v2, C76_not_whole. C76_revision_partial is the case of revisions, as hosts and renters sign them; C76_repaired the whole property for the tagged hash."
  },
  {
   "property": "C77",
   "status": "partial",
   "theorems": [
    "Verif.C77_not_separate",
    "Verif.C77_same_spent_partial",
    "Verif.C77_double_spend_partial",
    "Verif.C77_repaired"
   ],
   "note": "False as stated: C77_not_separate. C77_double_spend_partial says how much the two transactions share; C77_repaired is for the tagged id."
  },
  {
   "property": "C78",
   "status": "proved",
   "theorems": [
    "Verif.C78_origin",
    "Verif.C78_thing",
    "Verif.C78_differ",
    "Verif.C78_not_attestations"
   ],
   "note": "C78_not_attestations shows why attestations are left out. The ids of blocks are given, as the crate does not compute them."
  },
  {
   "property": "C79",
   "status": "proved",
   "theorems": [
    "Verif.C79_created",
    "Verif.C79_mainnet",
    "Verif.C79_formula",
    "Verif.C79_fits",
    "Verif.C79_per_block"
   ],
   "note": "The coins of the genesis block are outside the crate."
  },
  {
   "property": "C80",
   "status": "proved",
   "theorems": [
    "Verif.C80_shows_key",
    "Verif.C80_not_hidden",
    "Verif.C80_apart",
    "Verif.C80_hidden_repaired"
   ],
   "note": "The derived Debug and the debug builders of the standard library are modelled; format flags other than # are not."
  },
  {
   "property": "C81",
   "status": "proved",
   "theorems": [
    "Verif.C81_v1_outputs",
    "Verif.C81_v1",
    "Verif.C81_v2_transaction",
    "Verif.C81_v1_shortest",
    "Verif.C81_v2_short",
    "Verif.C81_v2_shortest",
    "Verif.C81_v2_not_shortest"
   ],
   "note": "ReadFrom is an equivalence between successful decoding and the spellings of Spec/Spelling, which uses only the layouts of Spec/Layout; values without amounts have exactly one spelling (C54). C81_v2_not_shortest shows that the shortest form of a v2 transaction is not unique if unknown bits are set."
  },
  {
   "property": "C82",
   "status": "proved",
   "theorems": [
    "Verif.C82_sha256",
    "Verif.C82_sha512",
    "Verif.C82_blake2b",
    "Verif.C82_identifiers",
    "Verif.C82_accepts",
    "Verif.C82_private_key",
    "Verif.C82_signs",
    "Verif.C82_phrase",
    "Verif.C82_standard_address",
    "Verif.C82_key_address",
    "Verif.C82_address_text",
    "Verif.C82_words"
   ],
   "note": "Independent definitions of the digests (bit vectors, padding as a relation, constants as bits of roots of primes) and of RFC 8032 over the group of the curve; the model of the crates that the code calls is shown to compute them for every message. The crates themselves are not part of the repository: that they implement the standards is an assumption."
  }
 ]
}
