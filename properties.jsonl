{"id": "C01", "title": "An accepted transfer balances exactly over the integers", "statement": "If TransferNote::verify accepts a note then the records it spends and creates satisfy: for a non-native transfer, fee input amount = fee change amount + fee, and the sum of the other inputs = the sum of the other outputs; for a native transfer, the sum of all inputs = the sum of all outputs + fee. The equalities hold between natural numbers, not only modulo the scalar field, and every created amount is below 2^127.", "quantifier": "every witness satisfying the transfer circuit, every number of inputs and outputs (below 2^64), every amount an honest ledger can hold", "why_tests_cant": "a test fixes a handful of amounts; wrap-around modulo the 254-bit field needs adversarial field elements", "anchors": ["src/circuit/transfer.rs:TransferCircuit::build", "src/circuit/gadgets.rs:preserve_balance"]}
{"id": "C02", "title": "An accepted transfer never turns one asset type into another", "statement": "If TransferNote::verify accepts a note, every non-fee, non-dummy record it spends carries the same asset code as every non-fee record it creates.", "quantifier": "every witness satisfying the transfer circuit", "why_tests_cant": "the unit test for mixed assets changes code and policy together, so it cannot see that only the policy is compared", "anchors": ["src/circuit/transfer.rs:TransferCircuit::build", "src/utils/mod.rs:check_asset_def"]}
{"id": "C03", "title": "A mint or freeze note cannot pay a fee larger than the record it spends", "statement": "If MintNote::verify or FreezeNote::verify accepts a note, the amount of the spent fee record equals the created change amount plus the published fee over the natural numbers, so the fee never exceeds the spent amount and no native value is created.", "quantifier": "every witness satisfying the mint or the freeze circuit", "why_tests_cant": "tests only run the honest prover, which refuses fee > input before any circuit is built", "anchors": ["src/circuit/mint.rs:MintCircuit::build", "src/circuit/freeze.rs:FreezeCircuit::build_unchecked", "src/utils/mod.rs:check_fee"]}
{"id": "C04", "title": "Spending a credentialed asset needs a credential from the policy's issuer for the owner", "statement": "If TransferNote::verify accepts a note that spends a record whose policy names a credential issuer, the prover held an unexpired credential signed by that issuer for the address that owns the record.", "quantifier": "every witness satisfying the transfer circuit, every issuer key and credential", "why_tests_cant": "the credential used in tests is always issued by the right issuer to the right user", "anchors": ["src/circuit/transfer.rs:TransferCircuit::build", "src/circuit/structs.rs:ExpirableCredVar::verify", "src/utils/mod.rs:check_creds"]}
{"id": "C05", "title": "Frozen records cannot move and transfers never create frozen records", "statement": "No accepted transfer spends a frozen record, and every record created by an accepted transfer or mint is unfrozen; the fee record and fee change of an accepted mint or freeze are unfrozen as well.", "quantifier": "every satisfying witness of the three circuits, every input position", "why_tests_cant": "an adversarial prover chooses the flag; a test tries two values at one position", "anchors": ["src/circuit/transfer.rs", "src/circuit/mint.rs", "src/circuit/freeze.rs"]}
{"id": "C06", "title": "Freezing changes nothing but the freeze flag", "statement": "For every frozen or unfrozen record pair of an accepted freeze note, output record has the same owner address, amount, asset code and policy as the input record and the opposite freeze flag; applying the operation twice gives back the original flag.", "quantifier": "every satisfying witness of the freeze circuit and every successful FreezeNote::generate, any number of inputs", "why_tests_cant": "needs all field values at all positions", "anchors": ["src/circuit/freeze.rs", "src/utils/mod.rs:get_output_ros", "src/freeze.rs:FreezeNote::generate"]}
{"id": "C07", "title": "Only the policy's freezer can freeze or release a record", "statement": "If FreezeNote::verify accepts a note, then for each non-dummy record it freezes or releases the prover knew the secret key of the freezer public key in that record's own policy, and that policy does name a freezer.", "quantifier": "every satisfying witness of the freeze circuit", "why_tests_cant": "adversarial keys are not enumerable", "anchors": ["src/circuit/freeze.rs", "src/circuit/gadgets.rs:prove_spend"]}
{"id": "C08", "title": "Only the owner can spend", "statement": "If a transfer, mint or freeze note is accepted then for each record spent by a user the prover knew a secret scalar whose public key is the owner address inside the record opening, that opening commits to the leaf value, and (unless the record is a dummy) the leaf is under the note's Merkle root.", "quantifier": "every satisfying witness of the three circuits", "why_tests_cant": "adversarial keys and paths are not enumerable", "anchors": ["src/circuit/gadgets.rs:prove_spend", "src/circuit/transfer.rs", "src/circuit/mint.rs", "src/circuit/freeze.rs"]}
{"id": "C09", "title": "Owner and freezer derive the same nullifier", "statement": "UserKeyPair::nullify with the freezer's public key and FreezerKeyPair::nullify with the owner's address give the same nullifier for the same record whenever the freezer key is not the identity; in the circuits the user and the freezer path give the same nullifier for the same record.", "quantifier": "all key pairs, record ids and commitments", "why_tests_cant": "a Diffie-Hellman identity over all keys, including the identity point", "anchors": ["src/keys.rs:nullify", "src/keys.rs:derive_nullifier_key", "src/circuit/gadgets_helper.rs:derive_nullifier_key"]}
{"id": "C10", "title": "A record has one nullifier", "statement": "Any two accepted notes that spend the same record opening at the same position publish the same nullifier, so a ledger that refuses repeated nullifiers lets each record be spent once.", "quantifier": "all pairs of satisfying witnesses", "why_tests_cant": "quantifies over pairs of adversarial witnesses, including non-canonical secret scalars", "anchors": ["src/circuit/gadgets.rs:prove_spend", "src/circuit/gadgets_helper.rs"]}
{"id": "C11", "title": "A record commitment binds the record", "statement": "Two record openings with the same commitment have the same amount, asset code, owner address, policy (keys, reveal map, threshold), freeze flag and blinding factor, or they exhibit a collision of the underlying commitment function.", "quantifier": "all pairs of record openings", "why_tests_cant": "an injectivity claim over an infinite domain; the reveal map and the freeze flag share one scalar", "anchors": ["src/structs.rs:derive_record_commitment", "src/circuit/structs.rs:compute_record_commitment"]}
{"id": "C12", "title": "The circuit and the library compute the same commitment, nullifier and asset code", "statement": "On variables created from library values, the in-circuit record commitment, nullifier, user address and internal asset code equal the values computed by RecordOpening::derive_record_commitment, UserKeyPair::nullify, UserKeyPair::address and InternalAssetCode::new.", "quantifier": "all record openings, keys, ids, seeds and digests", "why_tests_cant": "tests compare one random sample", "anchors": ["src/circuit/structs.rs", "src/circuit/gadgets_helper.rs", "src/structs.rs", "src/keys.rs"]}
{"id": "C13", "title": "The policy's viewer always sees what the policy reveals", "statement": "If a transfer with a viewer policy and an amount over the threshold is accepted, then ViewerKeyPair::open_transfer_viewing_memo by the policy's viewer succeeds and returns, for each non-dummy input and each output, exactly the fields of the true records selected by the reveal map.", "quantifier": "every satisfying witness of the transfer circuit, every reveal map, every mix of dummy and real inputs", "why_tests_cant": "needs all adversarial ways to write the memo", "anchors": ["src/circuit/transfer.rs:is_correct_viewing_memo", "src/keys.rs:open_transfer_viewing_memo", "src/structs.rs:from_xfr_data_and_asset"]}
{"id": "C14", "title": "Viewing memos round-trip and hide what the policy hides", "statement": "The memo written by TransferNote::generate decrypts for the policy's viewer to exactly the revealed fields, and hidden fields are encoded as zero whatever their value.", "quantifier": "all inputs, outputs, credentials, reveal maps", "why_tests_cant": "2^12 reveal maps times all record values", "anchors": ["src/structs.rs:new_for_transfer_note", "src/structs.rs:hadamard_product", "src/keys.rs:open_transfer_viewing_memo"]}
{"id": "C15", "title": "A mint is always visible to its viewer", "statement": "If a mint note whose policy names a viewer is accepted, open_mint_viewing_memo by that viewer returns the true owner address, amount and blinding factor of the minted record as selected by the reveal map.", "quantifier": "every satisfying witness of the mint circuit", "why_tests_cant": "adversarial memos", "anchors": ["src/circuit/mint.rs:is_correct_viewing_memo", "src/keys.rs:open_mint_viewing_memo", "src/structs.rs:from_mint_note"]}
{"id": "C16", "title": "Below the reveal threshold nothing is disclosed and the transfer still goes through", "statement": "When the transferred amount does not exceed the policy's reveal threshold, the generated memo is independent of the records, and the transfer circuit is satisfied without any memo.", "quantifier": "all thresholds and amounts representable as Amount", "why_tests_cant": "the boundary needs thresholds at and above 2^127, which no test uses", "anchors": ["src/structs.rs:new_for_transfer_note", "src/circuit/transfer.rs:TransferCircuit::build"]}
{"id": "C17", "title": "Generated transfers verify", "statement": "If TransferNote::generate returns a note, TransferNote::verify accepts it under the matching key, its own Merkle root and every timestamp up to valid_until.", "quantifier": "all inputs for which generate succeeds", "why_tests_cant": "generate and verify compute the public input by two different routes that must agree for all inputs", "anchors": ["src/transfer.rs:generate", "src/transfer.rs:verify", "src/proof/transfer.rs:from_witness"]}
{"id": "C18", "title": "Generated mints verify", "statement": "If MintNote::generate returns a note for a mintable amount, MintNote::verify accepts it under the matching key and its own Merkle root.", "quantifier": "all inputs for which generate succeeds", "why_tests_cant": "two routes to the public input", "anchors": ["src/mint.rs:generate", "src/mint.rs:verify", "src/proof/mint.rs:from_witness"]}
{"id": "C19", "title": "Generated freezes verify", "statement": "If FreezeNote::generate returns a note, FreezeNote::verify accepts it under the matching key and its own Merkle root.", "quantifier": "all inputs for which generate succeeds", "why_tests_cant": "two routes to the public input", "anchors": ["src/freeze.rs:generate", "src/freeze.rs:verify", "src/proof/freeze.rs:from_witness"]}
{"id": "C20", "title": "Verification depends on time only through expiry", "statement": "A note accepted at some time is accepted at every earlier time; after valid_until every transfer note is rejected; a note is rejected for every Merkle root other than its own; mint and freeze notes do not expire.", "quantifier": "all notes, keys, roots and times", "why_tests_cant": "quantifies over all times and roots", "anchors": ["src/transfer.rs:verify", "src/mint.rs:verify", "src/freeze.rs:verify"]}
{"id": "C21", "title": "Batch verification agrees with verifying notes one by one", "statement": "txn_batch_verify succeeds on lists of notes, roots and keys if and only if the lists have equal lengths and every note verifies individually under its root and key at that time.", "quantifier": "all lists of notes of any length and any mix of types", "why_tests_cant": "one test batch cannot show equivalence on invalid notes", "anchors": ["src/lib.rs:txn_batch_verify", "src/mint.rs:verify"]}
{"id": "C22", "title": "Fee collection is exact", "statement": "calculate_fee returns the exact sum of the fees of the notes or an error, never a wrapped value; derive_txns_fee_records returns one native, unfrozen record per note whose amount is that note's fee and whose owner is the proposer, or an error when the list is empty or blinds do not match.", "quantifier": "all lists of notes", "why_tests_cant": "overflow at the 128-bit boundary over unbounded lists", "anchors": ["src/lib.rs:calculate_fee", "src/lib.rs:derive_txns_fee_records"]}
{"id": "C23", "title": "Fee change is exact", "statement": "TxnFeeInfo::new succeeds exactly when the record covers the fee, and then change = amount - fee, the change goes to the same key, is native and unfrozen; a TxnFeeInfo built this way from a native record passes the fee check of generate.", "quantifier": "all fee inputs and fees", "why_tests_cant": "boundary over all u128 pairs", "anchors": ["src/structs.rs:TxnFeeInfo::new", "src/utils/mod.rs:check_fee"]}
{"id": "C24", "title": "Generated native transfers spend exactly what they take", "statement": "If TransferNote::generate_native returns a note and a fee change record, then the sum of the input amounts equals the sum of the requested outputs plus the change plus the fee, the change is owned by the first input's owner, and the published fee is the requested fee - in debug and in release builds, where integer overflow panics or wraps.", "quantifier": "all input and output amounts and fees, both overflow behaviours", "why_tests_cant": "the overflow of total_out + fee needs u128-boundary values in a release build", "anchors": ["src/transfer.rs:generate_native", "src/utils/mod.rs:derive_fee", "src/utils/mod.rs:check_asset_amount"]}
{"id": "C25", "title": "The library's balance check is exact", "statement": "check_balance accepts exactly the input/output lists that balance per asset type with a non-negative fee, for amounts below 2^127; for larger amounts the signed casts never let an unbalanced list through to a published note.", "quantifier": "all lists of inputs and outputs, both overflow behaviours", "why_tests_cant": "signed 128-bit wrap-around over unbounded lists", "anchors": ["src/utils/mod.rs:check_balance", "src/utils/mod.rs:derive_fee", "src/utils/mod.rs:check_asset_amount"]}
{"id": "C26", "title": "A note never spends the same record twice", "statement": "A note returned by generate has pairwise distinct nullifiers, and a note accepted by verify has pairwise distinct nullifiers.", "quantifier": "all generated notes; all notes accepted by verify", "why_tests_cant": "adversarial notes with repeated inputs are not built by the test builders", "anchors": ["src/transfer.rs:generate", "src/transfer.rs:verify", "src/freeze.rs:generate", "src/utils/mod.rs:check_distinct_input_nullifiers"]}
{"id": "C27", "title": "A proof is tied to one statement", "statement": "Two transfer (freeze) notes presented with the same proof and key that lead the verifier to the same scalar vector are the same statement: same root, fee, expiry, nullifiers, commitments and memo.", "quantifier": "all pairs of notes", "why_tests_cant": "an injectivity claim over variable-length lists", "anchors": ["src/proof/transfer.rs:to_scalars", "src/proof/freeze.rs:to_scalars", "src/proof/mint.rs:to_scalars"]}
{"id": "C28", "title": "Reveal maps encode faithfully", "statement": "RevealMap serialization round-trips, deserialization rejects every other length and every non-boolean byte, and the scalar encoding is injective and below 2^12.", "quantifier": "all 2^12 reveal maps and all byte strings", "why_tests_cant": "all byte strings", "anchors": ["src/structs.rs:RevealMap"]}
{"id": "C29", "title": "Amounts encode faithfully", "statement": "Amount serializes to 16 little-endian bytes and back, conversion from a 256-bit integer succeeds exactly when the value fits in 128 bits, and safe summation returns the exact sum or nothing.", "quantifier": "all amounts, byte strings, 256-bit integers, lists", "why_tests_cant": "all values", "anchors": ["src/structs.rs:Amount", "src/utils/mod.rs:safe_sum_amount"]}
{"id": "C30", "title": "Notes and verifying keys decode to what was encoded", "statement": "Serialized TransactionNote and TransactionVerifyingKey values decode to the same variant and payload, and any other tag byte is rejected.", "quantifier": "all notes/keys and all byte strings, for any payload codecs that round-trip", "why_tests_cant": "all byte strings", "anchors": ["src/lib.rs:TransactionNote", "src/lib.rs:TransactionVerifyingKey", "src/structs.rs:FreezeFlag"]}
{"id": "C31", "title": "Identity attributes round-trip", "statement": "IdentityAttribute::new accepts exactly byte strings of 1 to PER_ATTR_BYTE_CAPACITY bytes, value() returns the original bytes, distinct strings give distinct attributes, and value() never panics on any attribute a viewer can decrypt.", "quantifier": "all byte strings; all field elements", "why_tests_cant": "arbitrary field elements reach value() through viewing memos", "anchors": ["src/structs.rs:IdentityAttribute"]}
{"id": "C32", "title": "Policies built through the API are coherent", "statement": "Starting from the default policy, after any sequence of policy API calls: address bits are revealed together, no reveal operation succeeds without the keys it needs, attribute bits are only set when viewer and issuer keys were set at that time, and out-of-range attribute indices are rejected without effect.", "quantifier": "all sequences of policy API calls", "why_tests_cant": "unbounded histories", "anchors": ["src/structs.rs:AssetPolicy", "src/structs.rs:RevealMap"]}
{"id": "C33", "title": "User-defined assets never collide with the native or dummy asset", "statement": "AssetDefinition::new rejects the native and dummy codes for every policy and accepts every other code unchanged; is_native/is_dummy hold of exactly the native/dummy definitions; native, dummy and default codes are pairwise distinct.", "quantifier": "all codes and policies", "why_tests_cant": "all field elements", "anchors": ["src/structs.rs:AssetDefinition", "src/config.rs"]}
{"id": "C34", "title": "Domestic and foreign asset codes are separated", "statement": "If a domestic and a foreign asset have the same code, or two domestic codes come from different internal codes, or two foreign codes from different descriptions, then a Keccak-then-reduce collision is exhibited; verify_domestic / verify_foreign accept exactly the derived code.", "quantifier": "all internal codes, descriptions", "why_tests_cant": "prefix-freeness over all byte strings", "anchors": ["src/structs.rs:new_domestic_from_internal", "src/structs.rs:new_foreign", "src/structs.rs:verify_domestic", "src/structs.rs:verify_foreign"]}
{"id": "C35", "title": "Receiver memos deliver exactly the committed record", "statement": "ReceiverMemo::decrypt on a memo written for a record opening returns that opening to its owner; whatever the memo, a returned opening belongs to the decrypting key and commits to the commitment it was checked against.", "quantifier": "all memos (also malformed), all keys and commitments", "why_tests_cant": "adversarial ciphertexts", "anchors": ["src/structs.rs:ReceiverMemo"]}
{"id": "C36", "title": "Receiver memo signatures bind the whole memo list", "statement": "A signature made by sign_receiver_memos verifies for that list under the note's key, an empty list is refused, and two different lists with the same digest exhibit a hash collision.", "quantifier": "all lists of memos", "why_tests_cant": "concatenation without separators needs an injectivity proof over unbounded lists", "anchors": ["src/lib.rs:sign_receiver_memos", "src/lib.rs:verify_receiver_memos_signature", "src/utils/mod.rs:get_receiver_memos_digest"]}
{"id": "C37", "title": "Credentials verify exactly until they expire", "statement": "ExpirableCredential::create accepts exactly ATTRS_LEN attributes, the result verifies at every time up to and including expiry and at no later time, and a credential whose expiry, holder or attributes were changed does not verify unless the signature scheme accepts a new message.", "quantifier": "all credentials and times", "why_tests_cant": "all times, all attribute vectors", "anchors": ["src/structs.rs:ExpirableCredential"]}
{"id": "C38", "title": "Transfer expiry is bounded by the credential time window", "statement": "Every transfer with valid_until small enough that credentials are unexpired can be generated; in particular a transfer of an asset without credential policy can be generated for every valid_until.", "quantifier": "all valid_until values (u64)", "why_tests_cant": "the 20-bit window is only reached by large timestamps", "anchors": ["src/structs.rs:dummy_unexpired", "src/circuit/structs.rs:ExpirableCredVar::verify", "src/constants.rs:MAX_TIMESTAMP_LEN"]}
{"id": "C39", "title": "Viewer decryption is total", "statement": "open_transfer_viewing_memo and open_mint_viewing_memo return a value or an error on every note, and refuse a memo of the wrong length, the wrong asset code, or a transfer of an asset with another viewer.", "quantifier": "all notes (also malformed)", "why_tests_cant": "malformed notes with empty lists and arbitrary plaintexts", "anchors": ["src/keys.rs:open_transfer_viewing_memo", "src/keys.rs:open_mint_viewing_memo"]}
{"id": "C40", "title": "Generate refuses bad transfers before proving", "statement": "TransferNote::generate succeeds only if inputs and outputs are non-empty and fit the proving key, each non-dummy input is owned by the given key and proven under one Merkle root, dummy inputs have amount zero and are not first, all inputs and outputs are unfrozen, amounts balance per asset, and non-fee records share one asset definition.", "quantifier": "all inputs", "why_tests_cant": "each check must hold at every position of unbounded lists", "anchors": ["src/transfer.rs:generate", "src/utils/mod.rs"]}
{"id": "C41", "title": "All parts of the library agree on the transferred asset", "statement": "Whenever the asset check of generate accepts, the memo builder, the witness and the check itself pick the same asset definition.", "quantifier": "all input lists", "why_tests_cant": "one code path picks the first, another the last non-native input", "anchors": ["src/utils/mod.rs:get_asset_def_in_transfer_txn", "src/proof/transfer.rs:new_unchecked", "src/utils/mod.rs:check_asset_def"]}
{"id": "C42", "title": "Note accessors are consistent", "statement": "For every note, output_len equals the length of output_commitments, nullifiers and output_commitments list exactly the values that the verifier binds in the proof, and merkle_root is the root it verifies against.", "quantifier": "all notes", "why_tests_cant": "all variants and lengths", "anchors": ["src/lib.rs:TransactionNote"]}
{"id": "C43", "title": "A transfer proof is bound to its memo key and extra data", "statement": "Changing the receiver-memo verification key, or for transfers the extra bound data, changes the message bound into the proof; no key/data pair shares a bound message with another.", "quantifier": "all keys and data", "why_tests_cant": "concatenation without a separator", "anchors": ["src/proof/transfer.rs:prove", "src/proof/transfer.rs:verify", "src/lib.rs:txn_batch_verify"]}
{"id": "C44", "title": "Supply is conserved over every ledger history", "statement": "Along every sequence of blocks of honestly generated notes applied to the reference ledger, the native value of all unspent records plus nothing else stays constant, each other asset's value changes only by mint notes of that asset, and each record is spent at most once.", "quantifier": "all histories of any length", "why_tests_cant": "unbounded histories", "anchors": ["tests/examples.rs:LedgerStateMock", "src/lib.rs:txn_batch_verify", "src/transfer.rs", "src/mint.rs", "src/freeze.rs"]}
{"id": "C45", "title": "Only the creator of an asset can mint it", "statement": "If MintNote::verify accepts a note, the minted asset code is the domestic code of an internal code derived from a seed and digest known to the prover; the minted record has exactly the published amount, code and policy.", "quantifier": "every satisfying witness of the mint circuit", "why_tests_cant": "adversarial witnesses", "anchors": ["src/circuit/mint.rs", "src/mint.rs:verify"]}
{"id": "C46", "title": "Dummy records carry no value and no rights", "statement": "Every dummy record spent in an accepted transfer has amount zero and the default policy, and the fee input is never a dummy; library and circuit agree on which records are dummies and on dummy policies for every policy the API can build.", "quantifier": "all witnesses; all policies", "why_tests_cant": "the circuit tests one field sum instead of two values", "anchors": ["src/circuit/transfer.rs", "src/circuit/structs.rs:is_dummy_policy", "src/utils/mod.rs:check_dummy_inputs"]}
{"id": "C47", "title": "The library's memo message equals the circuit's", "statement": "For every transfer that generate accepts, the plaintext encrypted by the library equals the plaintext recomputed in the circuit, so the note can be proved.", "quantifier": "all records, credentials, reveal maps", "why_tests_cant": "all reveal maps, dummy mixes", "anchors": ["src/structs.rs:new_for_transfer_note", "src/circuit/transfer.rs:is_correct_viewing_memo"]}
{"id": "C48", "title": "Every well-formed transfer can be generated", "statement": "If the documented conditions hold (owned, unfrozen, balanced, one asset, valid credentials, matching key, amounts below 2^127), then the transfer circuit is satisfied and generate returns a note.", "quantifier": "all inputs meeting the conditions", "why_tests_cant": "liveness over all inputs", "anchors": ["src/transfer.rs:generate", "src/circuit/transfer.rs:TransferCircuit::build"]}
{"id": "C49", "title": "Stored keys load back", "statement": "Whatever proving and verifying keys the library has stored, at default paths or at paths the caller names, loading them from the same place gives back exactly the keys preprocess makes for these sizes, whatever other keys have been stored in between.", "quantifier": "all sizes, directories, disks and sequences of store calls of any length", "why_tests_cant": "the repository's tests store one key of each kind at the default path (and are ignored in CI); histories and all sizes are unbounded", "anchors": ["src/parameters.rs:store_transfer_proving_key", "src/parameters.rs:load_transfer_proving_key", "src/parameters.rs:default_path"]}
{"id": "C50", "title": "The parameter tool makes the keys it was asked for", "statement": "After gen-parameters prover-srs has run successfully for a circuit and a size, the proving and verifying key of that circuit and size can be loaded.", "quantifier": "all circuits, sizes and disks", "why_tests_cant": "the tool has no tests; it must hold for every size", "anchors": ["src/bin/gen-parameters.rs:main", "src/parameters.rs"]}
{"id": "C51", "title": "The reference validator accepts exactly the fresh blocks, and the proposer gets the fees", "statement": "A block of notes made by the library is accepted by the repository's reference validator if and only if no transfer in it has expired, every note names a root the ledger had, and no nullifier occurs twice in the block or already in the ledger. The proposer's record is worth exactly the sum of the fees and is in the tree after insertion; a block proposed by one user is refused under any other user's name.", "quantifier": "all ledger states, all non-empty blocks of any length, all times and proposers", "why_tests_cant": "the example tests validate a handful of fixed blocks; acceptance must be exact for every block and ledger state", "anchors": ["tests/examples.rs:validate_txns_batch", "tests/examples.rs:validate_block", "tests/examples.rs:collect_fee_and_build_block", "src/lib.rs:txn_batch_verify"]}
{"id": "C52", "title": "Inserting a block is all or nothing", "statement": "Inserting a block into the reference ledger either succeeds, and adds exactly the outputs, the fee record, the new root and the nullifiers, or fails and leaves the ledger as it was.", "quantifier": "all ledger states and blocks, all failure points", "why_tests_cant": "the example tests only insert blocks that succeed; failure in the middle of a block needs fees above 128 bits or a full tree", "anchors": ["tests/examples.rs:insert_block", "tests/examples.rs:insert_record", "src/lib.rs:calculate_fee"]}
{"id": "C53", "title": "Every well-formed mint can be generated", "statement": "Whoever knows an asset's seed and description and owns a native record of the tree that covers the fee can mint any amount of the asset: generation succeeds in both builds and for every randomness, and the note is accepted.", "quantifier": "all seeds, descriptions, policies, amounts, fee records, tree depths and randomness", "why_tests_cant": "tests mint a few small amounts; that the host checks imply every constraint of the circuit must hold for every amount and record", "anchors": ["src/mint.rs:generate", "src/structs.rs:TxnFeeInfo", "src/circuit/mint.rs"]}
{"id": "C54", "title": "Every well-formed freeze can be generated", "statement": "The freezer of an asset who holds a native record covering the fee can freeze or release any set of distinct records of the tree under its freezing key: generation succeeds in both builds and for every randomness, and the note is accepted.", "quantifier": "all numbers of inputs, records, owners, dummies, fee records, tree depths and randomness", "why_tests_cant": "tests freeze a few records of honest users; success must hold for every record an owner can make, including unusual owner keys", "anchors": ["src/freeze.rs:generate", "src/circuit/freeze.rs", "src/proof/freeze.rs:prove"]}
{"id": "C55", "title": "Every well-formed payment goes through", "statement": "Whoever owns records of the tree that cover the outputs and the fee can pay through generate_native or generate_non_native with any expiry time: generation succeeds, the change is exactly what is left over, and the note is accepted until it expires.", "quantifier": "all inputs, outputs, fees, expiry times, numbers of inputs and outputs, tree depths and randomness", "why_tests_cant": "tests pay a few fixed amounts with small expiry times; success must hold for every payment a user can afford and every expiry", "anchors": ["src/transfer.rs:generate_native", "src/transfer.rs:generate_non_native", "src/structs.rs:TxnFeeInfo"]}
{"id": "C56", "title": "What a user holds on the ledger can be spent", "statement": "After any history of transactions made by the library, every unspent record of the ledger can be used by its owner: with the membership witness looked up from the tree, paying, minting with it as fee, or freezing it (by its freezer) succeeds, the validator accepts the note and the block can be inserted; what the block creates is unspent and can be used next.", "quantifier": "all histories of any length, all records, coins, amounts, fees and randomness", "why_tests_cant": "the example test runs one short history; nothing may get stuck after any other history", "anchors": ["tests/examples.rs:validate_txns_batch", "tests/examples.rs:insert_block", "src/transfer.rs:generate_native", "src/transfer.rs:generate_non_native", "src/mint.rs:generate", "src/freeze.rs:generate"]}
{"id": "C57", "title": "Whatever is submitted, only existing records are spent", "statement": "On the reference ledger, in any history of grants and blocks in which anybody submits any notes, every record that an accepted note spends was created earlier on this ledger, at the position the spender names, with the same asset, amount, owner, policy, freeze flag and blinding; the tree of the ledger is the list of the commitments of the created records.", "quantifier": "all histories of grants and accepted blocks of arbitrary notes (only acceptance is known), all assignments behind the notes", "why_tests_cant": "tests submit notes made by the library; an attacker may submit any bytes that verify, in any order and over any history", "anchors": ["tests/examples.rs:validate_txns_batch", "tests/examples.rs:insert_block", "src/lib.rs:txn_batch_verify", "src/circuit/transfer.rs"]}
{"id": "C58", "title": "Whatever is submitted, no value comes into being and no record is spent twice", "statement": "On the reference ledger, in any history of grants and blocks in which anybody submits any notes, for every asset the unspent records are worth exactly what was granted and minted, and no position of the tree is spent twice.", "quantifier": "all histories of grants and accepted blocks of arbitrary notes, all assets", "why_tests_cant": "global safety of the system over unbounded adversarial histories; the library never generates the notes that matter", "anchors": ["tests/examples.rs:validate_txns_batch", "tests/examples.rs:insert_block", "src/lib.rs:txn_batch_verify", "src/circuit/transfer.rs", "src/circuit/mint.rs", "src/circuit/freeze.rs"]}
{"id": "C59", "title": "The reference wallet holds exactly the unspent records of its owner that it has been told of", "statement": "A wallet that scans every block of the reference ledger, with whatever memos were published, holds a record exactly when it was handed that record or can decrypt it from a memo, the record is unfrozen and its nullifier is not on the ledger; every record it holds belongs to its key and is the leaf at the recorded position; the change of its own payments arrives; a spent or frozen record leaves the wallet; scanning never panics when each output but the first has a memo.", "quantifier": "every history of grants, blocks with arbitrary accepted notes and arbitrary memos, records handed over, payments begun, changes awaited, credentials set, and changes of the iteration order of the hash maps; every key pair; every tree depth; both build profiles", "why_tests_cant": "The tests scan a handful of blocks made by honest mock users; that no sequence of foreign notes and malicious memos makes the wallet miss, duplicate or retain a record is a statement about all histories.", "anchors": ["tests/examples.rs:scan_txn", "tests/examples.rs:scan_block", "tests/examples.rs:mark_spent_if_owned", "tests/examples.rs:add_record_opening", "src/structs.rs:ReceiverMemo"]}
{"id": "C60", "title": "A wallet's balance is what its records are worth, and the collected fee is where the block puts it", "statement": "The balance the reference wallet reports for an asset is the total of the distinct records of that asset it holds; if the total exceeds 128 bits the debug build panics and the release build wraps. The fee record a block collects is the leaf after all outputs of the block, so the proposer's wallet can look up its membership proof at the position it records.", "quantifier": "every history of C59, every asset code, both build profiles; every accepted block and ledger state for the position of the fee", "why_tests_cant": "The tests read a few balances and never spend a collected fee at the position they record; that the position is right for every number of transactions and outputs is a statement about all blocks.", "anchors": ["tests/examples.rs:available_funds", "tests/examples.rs:insert_block", "tests/examples.rs:add_record_opening"]}
{"id": "C61", "title": "A payment of the reference wallet is accepted, arrives, and returns the change", "statement": "If the native records a wallet holds cover some payments and a fee, the wallet can make the payment in the native asset: the note is accepted by the validator, it spends records of the wallet worth exactly the payments, the fee and the change, the memos are signed so that everybody can check them, every recipient's wallet has its record after scanning the block, and the sender's wallet has the change in place of the records spent. Several payments can be made one after the other.", "quantifier": "every history of C59, every list of recipients and amounts, every fee, every tree depth, all randomness, both build profiles", "why_tests_cant": "The tests make one payment at a time between two mock users with a fixed seed; that each payment that is covered succeeds and arrives, for every set of held records, is a statement about all histories.", "anchors": ["tests/examples.rs:spend_native", "tests/examples.rs:find_records", "tests/examples.rs:scan_block", "src/transfer.rs:generate_native", "src/lib.rs:sign_receiver_memos"]}
{"id": "C62", "title": "Wallet payments in other assets are accepted, arrive, and return both changes", "statement": "Whenever a wallet of the reference ledger has records of an asset that cover the amounts to be paid, and one native record that covers the fee, its asset payment function produces a transaction that the validator accepts (as long as the note is valid); once the block is scanned each recipient's wallet has the amount it was paid, and the sender has what is left of the asset and of the fee record, and no longer the records it spent.", "quantifier": "every reachable pair of ledger and wallet state, asset definition, list of recipients and amounts, fee, randomness, build profile and later history", "why_tests_cant": "The example tests pay one asset with one policy from a wallet with a fresh credential; the property is about every policy, credential state and sequence of payments.", "anchors": ["tests/examples.rs:spend_non_native", "tests/examples.rs:find_record_for_fee", "tests/examples.rs:scan_block", "src/transfer.rs:generate_non_native"]}
{"id": "C63", "title": "What an asset issuer mints is accepted and arrives, with the definition it declared", "statement": "An asset issuer keeps every asset definition it declared, with the code of its seed and description and the chosen policy. Whenever it holds a native record that covers the fee, it can mint any amount (below the protocol's limit) of any declared asset for anyone: the note is accepted by the validator, the memo signature verifies, the owner's wallet finds the record when it scans the block, and the issuer's fee record is replaced by its change. (As implemented, two mints in a row without a block between them use the same fee record and exclude each other.)", "quantifier": "every history of an issuer (declarations, blocks, payments, restarts of its wallet in any reachable state), every declared asset, amount, owner, fee and randomness", "why_tests_cant": "tests mint one amount of one asset with a fresh ledger; that every reachable issuer can mint, and that the record always reaches the owner's wallet, ranges over all ledger histories", "anchors": ["tests/examples.rs:AssetIssuerMock", "tests/examples.rs:new_asset_definition", "tests/examples.rs:mint", "src/mint.rs:generate", "src/structs.rs:new_domestic"]}
{"id": "C64", "title": "What a freezer freezes is accepted and taken from its owner, and what it releases comes back", "statement": "Whenever a freezer knows unspent records of a user of its asset that are on the ledger, and holds a native record that covers the fee, its request to freeze (or release) that user makes a note that the validator accepts, whose memo signature verifies. Once a block contains the note, the owner's wallet no longer holds the records and no note using them is ever accepted again; released records are back in the owner's wallet when it has scanned the block, with the same amount and asset. The freezer remembers for every record what it turned into.", "quantifier": "every reachable wallet of a freezer, every list of known records of any length, every user, fee, ledger history and randomness", "why_tests_cant": "the test freezes one record of one user on one ledger; that any list of records in any history is frozen and taken from any owner's wallet ranges over all of them", "anchors": ["tests/examples.rs:FreezerMock", "tests/examples.rs:freeze_user", "tests/examples.rs:unfreeze_user", "src/freeze.rs:generate", "src/keys.rs:nullify"]}
{"id": "C65", "title": "What a viewer is shown about a transaction is what the transaction did", "statement": "If a transaction is accepted and a viewer opens its viewing memo for their asset, then the addresses, amounts, blinding factors and attributes they are shown are those of the records that the transaction really spent and created, field by field, and nothing the policy hides is shown.", "quantifier": "every accepted transfer or mint, whoever made it and however; every asset and policy; every viewer key; every satisfying assignment of the circuit", "why_tests_cant": "Tests open memos of notes made by the library. The property is about every note that verifies, including ones whose author does not use the library, and about every opening of the commitments.", "anchors": ["src/keys.rs:open_transfer_viewing_memo", "src/keys.rs:open_mint_viewing_memo", "src/circuit/transfer.rs:TransferCircuit", "src/circuit/mint.rs:is_correct_viewing_memo", "tests/examples.rs:ViewerMock"]}
{"id": "C66", "title": "The memo of a mint discloses to the viewer only what the policy reveals", "statement": "Two mints of an asset that differ only in fields which the asset's reveal map hides cannot be told apart by the asset's viewer from their memos.", "quantifier": "every two generated mints of one asset; every policy; every accepted mint", "why_tests_cant": "Disclosure is a relation between all pairs of mints; a test opens the memo of one mint with the library function and looks at one reveal map.", "anchors": ["src/structs.rs:new_for_mint_note", "src/keys.rs:open_mint_viewing_memo", "src/circuit/mint.rs:is_correct_viewing_memo"]}
{"id": "C67", "title": "A freezer that follows the ledger knows the records of its asset, and where they are", "statement": "A freezer of the reference tests that scans every block from the beginning lists, for every user, exactly what it has read about: records of its asset, of that user, in the right state, at the positions where they are on the ledger. Whatever a viewing memo shows is listed until a freeze note takes it; a confirmed freeze or release request moves the record to the other list, with the opening that is on the ledger; and requests for listed records are accepted. This fails for blocks with transfers or mints of other assets, for records that their owners spend, and after two requests in a row.", "quantifier": "every history of grants, accepted blocks of any size, new user keys, records told, freeze and release requests, and map iteration orders", "why_tests_cant": "the lists are the result of an arbitrarily long history of blocks; tests follow one scripted history", "anchors": ["tests/examples.rs:scan_block", "tests/examples.rs:add_user_key", "tests/examples.rs:freeze_user", "tests/examples.rs:unfreeze_user"]}
{"id": "C68", "title": "A transfer with separate fee information pays the requested fee", "statement": "When TransferNote::generate_non_native succeeds, the fee published in the note is the fee_amount of the given TxnFeeInfo, the fee record is worth the fee change plus that fee, the change is native, unfrozen, owned by the owner of the fee record and committed to by the first output, and the given inputs and outputs carry the same total. A fee information whose change is not exact, whose records are not native, whose change goes to another key or whose path is wrong is refused.", "quantifier": "all builds, randomness, lists of inputs and outputs, fee informations, expiry times, proving keys and bound data", "why_tests_cant": "The fee is not a parameter of the proof: it is derived from the records. Tests use a few amounts and one asset; the claim is about every amount and every mixture of assets, and it fails for native records, which no test passes to this function.", "anchors": ["src/transfer.rs:generate_non_native", "src/utils/mod.rs:check_fee", "src/utils/mod.rs:derive_fee"]}
{"id": "C69", "title": "Bad input is reported as an error, not a panic", "statement": "Whatever arguments they are given, the functions of the library that return a result report what is wrong as an error and do not panic: generating and verifying transfers, mints and freezes, batch verification, signing and checking receiver memos, fee collection and preprocessing. A validator built on the library does not panic on a note somebody sends to it.", "quantifier": "all notes (also malformed ones), keys, roots, times, batches, records, amounts, credentials, fee informations, in builds with and without overflow checks", "why_tests_cant": "A panic is an input that nobody thought of; tests call the functions with inputs somebody thought of, and the sums that overflow need amounts near 2^127.", "anchors": ["src/transfer.rs:generate", "src/mint.rs:generate", "src/freeze.rs:generate", "src/utils/mod.rs:check_balance", "src/structs.rs:new_for_transfer_note", "src/lib.rs:txn_batch_verify", "src/proof/freeze.rs:preprocess", "tests/examples.rs:validate_txns_batch"]}
{"id": "C70", "title": "The universal parameter that was stored is the one that is loaded", "statement": "After a universal parameter has been stored, to a given file or to the default place, loading it from there gives this parameter, also after keys have been stored; storing it does not spoil stored keys; and the parameter tool makes keys with the parameter it has generated.", "quantifier": "all sizes, directories, files, disk contents, all sequences of later store calls, the settings of the curve feature", "why_tests_cant": "Tests store one parameter in one place with one set of features; whether a file is overwritten or ignored depends on all later calls and on the build.", "anchors": ["src/parameters.rs:store_universal_parameter_for_demo", "src/parameters.rs:load_universal_parameter", "src/parameters.rs:load_default_universal_parameters", "src/proof/mod.rs:load_srs", "src/proof/mod.rs:universal_setup_for_staging", "src/bin/gen-parameters.rs:main"]}
{"id": "C71", "title": "Notes, records and credentials survive the byte format; a note's commitment identifies it", "statement": "A transaction note, record opening, credential or asset definition written with the canonical byte format is read back as the same value, whatever follows in the stream, and what follows is left unread. A stream that begins with one encoded note begins with no other note's encoding; a note with bytes missing at its end is refused; an unknown kind byte and a field element of the size of the modulus or more are refused; bytes that are read as a note are exactly its encoding (if this holds of the curve points and proofs in it). The number of bytes is determined by the numbers of records, the memo, the bound data and the proof. Two notes with the same commitment are the same note, unless the hash collides on their encodings.", "quantifier": "every note of every kind with vectors of any length below 2^64, every record opening, credential and asset definition, every byte string that follows, every truncation, every pair of notes", "why_tests_cant": "Tests round-trip a few generated notes; that no two notes share an encoding, that every truncation is refused and that every accepted byte string is canonical range over all notes and byte strings.", "anchors": ["src/lib.rs:TransactionNote", "src/transfer.rs:TransferNote", "src/mint.rs:MintNote", "src/freeze.rs:FreezeNote", "src/structs.rs:RecordOpening", "src/structs.rs:ExpirableCredential"]}
{"id": "C72", "title": "A pending transaction stays acceptable until it expires or one of its inputs is spent", "statement": "Transactions that the reference validator would accept now are accepted after any further history of the ledger, at any time, exactly if none of the transfers among them has expired and none of their inputs has been spent meanwhile; inputs once spent are refused for ever. Two lists of transactions can be accepted as one block exactly if each can and they share no input; the order within a block does not matter; two blocks without a common input can be inserted in either order, with the same records and the same spent inputs in the end.", "quantifier": "every ledger state, every list of notes (also notes not made by the library), every further history of grants and accepted blocks, every time; every pair of blocks and every reordering of a block", "why_tests_cant": "Tests submit transactions in one order and soon after they are made; that nothing but expiry and spending can invalidate a pending transaction ranges over all schedules and intermediate histories.", "anchors": ["tests/examples.rs:validate_txns_batch", "tests/examples.rs:insert_block", "tests/examples.rs:check_txn_input_nullifiers", "src/lib.rs:txn_batch_verify", "src/transfer.rs:verify"]}
{"id": "C73", "title": "Without the keys nobody takes a record, makes it unspendable, or diminishes what an address holds", "statement": "Whatever transactions anybody submits to the reference ledger: a record is taken off the ledger only with a secret key of its address, and then it is not frozen, or with a secret key of the freezer named in its policy, and then a record of the same owner, asset and amount is created by the same transaction. As long as neither key is used, an unspent record stays unspent. What an address holds of an asset (frozen records included) never becomes less by transactions that do not spend with a secret key of the address. Nobody else can publish the nullifier of a record in advance, which would make the ledger refuse its owner.", "quantifier": "every history of the ledger in which any notes are accepted (also notes not made by the library), every record on it, every address and asset, every split of the history into what came before and what came after, every nullifier published", "why_tests_cant": "Tests show that honest owners can spend; that no sequence of transactions by others ever touches the record is a statement about all adversarial histories.", "anchors": ["src/circuit/transfer.rs:TransferCircuit", "src/circuit/freeze.rs:FreezeCircuit", "src/circuit/mint.rs:MintCircuit", "src/keys.rs:UserKeyPair", "src/keys.rs:FreezerKeyPair", "tests/examples.rs:insert_block", "tests/examples.rs:validate_txns_batch"]}
{"id": "C74", "title": "Nobody else can block a pending transaction", "statement": "A transaction that the reference ledger would accept now is refused later only if it has expired, or one of the records it spends has been taken meanwhile with a secret key of the record's owner or of the freezer named in its policy. If those who hold these keys do not spend the records, nothing that others submit makes the ledger refuse the transaction, and a block with it goes in as long as there is room in the tree and the fees can be added up.", "quantifier": "every ledger state, every pending list of transactions (made by the library or not), every later history in which anybody submits any accepted notes, every later time", "why_tests_cant": "Tests never let an adversary act between making and submitting a transaction; that no sequence of accepted transactions of others blocks it is a statement about all histories.", "anchors": ["tests/examples.rs:validate_txns_batch", "tests/examples.rs:insert_block", "tests/examples.rs:check_txn_input_nullifiers", "src/keys.rs:UserKeyPair", "src/circuit/transfer.rs:TransferCircuit", "src/circuit/freeze.rs:FreezeCircuit"]}
{"id": "C75", "title": "What belongs to an asset carries the policy the asset was issued under", "statement": "On a ledger that validates and inserts blocks, every record that is worth something carries the asset policy (viewer, credential and freezer keys, reveal map, threshold) under which its asset was granted or minted: nobody can put units of an asset under another policy by transferring, freezing or releasing them. In particular an asset issued without a freezer can never be frozen, and native coins stay under the empty policy.", "quantifier": "all histories of grants and blocks containing any accepted notes (for the statement about the library: any notes generated by it), all records they create, all satisfying assignments behind the notes", "why_tests_cant": "Tests follow a few records through a few transactions; the claim is an invariant of all histories, including notes that the library would never generate.", "anchors": ["src/circuit/transfer.rs:build", "src/circuit/freeze.rs:build", "src/circuit/mint.rs:build", "src/transfer.rs:generate", "src/structs.rs:AssetDefinition", "src/structs.rs:AssetPolicy"]}
{"id": "C76", "title": "Whatever others submit, what a wallet sees as spendable can be spent", "statement": "On a ledger to which anybody submits anything: whoever knows the opening of a commitment in the tree and its secret key, and sees that the record is unfrozen and that its nullifier has not been published, can pay with it, mint with it or (as the freezer) freeze it: generation succeeds whatever randomness is drawn, and a block with the note is accepted and inserted. A record nobody has spent always has an unpublished nullifier, and a spendable coin stays spendable until somebody spends that very record with a key of its owner or freezer. Limits as in C53 to C55.", "quantifier": "every history of grants and blocks the reference ledger accepts, whatever notes are in it, every set of coins with their keys and positions, every outputs and fee within the limits, every randomness, every later history of accepted notes", "why_tests_cant": "Tests spend records on ledgers built by well-behaved users; that no sequence of accepted notes leads to a ledger on which an owner is stuck is a statement about all adversarial histories.", "anchors": ["src/transfer.rs:generate_native", "src/transfer.rs:generate_non_native", "src/mint.rs:generate", "src/freeze.rs:generate", "src/keys.rs:UserKeyPair", "src/keys.rs:FreezerKeyPair", "tests/examples.rs:validate_txns_batch", "tests/examples.rs:insert_block"]}
{"id": "C77", "title": "The size of a transaction tells nothing but how many records it spends and creates", "statement": "The encoded size of a note is determined by its kind, the numbers of records it spends and creates, the length of the data the sender bound to it and the size of its proof. In particular a transfer of a viewable asset, of an asset without viewer, below or above its reveal threshold, of native coins or padded with dummies has a viewing memo of the same length and cannot be told from another by its size. The same holds for every note a validator accepts, whoever made it.", "quantifier": "every note the library makes, of any kind, assets, amounts and policies, and every note in an accepted block", "why_tests_cant": "Tests do not compare sizes, and would do so for a few policies; that no combination of policy, threshold, dummies and owners shows in the size is a claim about all of them.", "anchors": ["src/structs.rs:ViewableMemo", "src/structs.rs:new_for_transfer_note", "src/structs.rs:dummy_for_transfer_note", "src/transfer.rs:generate", "src/lib.rs:TransactionNote"]}
{"id": "C78", "title": "A wallet can be rebuilt from its key, the blocks and the memos", "statement": "A user who has lost everything but their key can scan the published blocks and memos again with a fresh wallet, from the beginning: the scan succeeds, and the wallet then holds the same unspent records as the one that was lost. (As implemented this fails for the change of payments, mints and freezes: the first output of a transaction comes without a memo.)", "quantifier": "every history of grants and accepted blocks, whoever made the notes and memos, and everything the lost wallet did in between", "why_tests_cant": "Tests never restore a wallet; what is recovered depends on the whole history of the ledger and of the wallet.", "anchors": ["tests/examples.rs:scan_txn", "tests/examples.rs:scan_block", "tests/examples.rs:add_record_opening", "tests/examples.rs:spend_native", "tests/examples.rs:mark_spent_if_owned", "src/structs.rs:ReceiverMemo"]}
{"id": "C79", "title": "Caches of keys never change an answer", "statement": "A validator that keeps the verifying keys it has computed under descriptions such as \"Xfr_2_3\" answers every request as one that computes every key anew, whatever it has been asked before. Payments of a wallet and requests of a freezer with a cache of proving keys give the same note, memos, signature and new state, or the same error, as with a key computed anew.", "quantifier": "all sequences of requests to a validator (batches, single notes, blocks; accepted, refused or panicking), all wallets and freezers after any sequence of payments, all numbers of inputs and outputs", "why_tests_cant": "A test uses a few shapes; two shapes with the same description, or a key entered under a wrong one, show only for particular sequences of shapes.", "anchors": ["tests/examples.rs:get_xfr_verifying_key", "tests/examples.rs:get_mint_verifying_key", "tests/examples.rs:get_freeze_verifying_key", "tests/examples.rs:get_proving_key", "tests/examples.rs:insert_proving_key"]}
{"id": "C80", "title": "What the library's transaction builders make is accepted", "statement": "A builder for transfers, mints or freezes that is given balanced amounts, keys of matching number and room in its tree makes records with the given amounts and owners, and builds a note that spends exactly these, pays the given fee, carries one memo for each output under a valid signature, and is accepted until its time bound. Whatever the generator of lists of transactions draws within its ranges, all notes it makes are accepted one by one and as a batch, with the keys, roots and time it returns. A transfer without an output besides the change is never built.", "quantifier": "all amounts, keys, blinding factors, attributes, expiry times, tree depths, numbers of inputs and outputs and of transactions, all sequences of records switched to frozen, all draws of the generator", "why_tests_cant": "The builders are what tests and benchmarks use; a test sees single draws, and an amount, an index or a stale membership proof that fails only for particular draws stays unseen.", "anchors": ["src/utils/params_builder.rs:TransferParamsBuilder", "src/utils/params_builder.rs:MintParamsBuilder", "src/utils/params_builder.rs:FreezeParamsBuilder", "src/utils/params_builder.rs:TxnsParams"]}
{"id": "C81", "title": "The circuits that are built say exactly what a valid transfer, mint or freeze is, and depend only on the size", "statement": "For every witness and public inputs of matching sizes the library builds a circuit. All circuits of one kind and size have the same variables, gates and public variables. The gates hold for the values put in exactly when the witness makes the transaction valid, and values for the public variables can be completed to a solution of the gates exactly when some witness of this size makes the transaction with these public inputs valid. No gate is missing, and no solution uses values a witness could not have.", "quantifier": "all numbers of inputs and outputs, all tree depths, all witnesses and public inputs (also invalid ones), all assignments of field elements to the variables of a circuit", "why_tests_cant": "A forgotten or misplaced gate is invisible to honest witnesses: only a dishonest prover, who chooses all internal variables, can use it. A test checks chosen assignments; a layout that depends on values shows only for a witness that differs from the dummy in the right place.", "anchors": ["src/circuit/transfer.rs:TransferCircuit", "src/circuit/mint.rs:MintCircuit", "src/circuit/freeze.rs:FreezeCircuit", "src/circuit/gadgets.rs:TransactionGadgets", "src/circuit/structs.rs:RecordOpeningVar"]}
{"id": "C82", "title": "A key made from a dummy witness proves and accepts exactly the valid transactions of its size", "statement": "Preprocessing builds a circuit from a dummy witness. For every size it either fails with the documented error or gives a key that fits the circuit of every witness of this size. So a proof system for circuits that is complete, sound and has sound batches gives one for transfers, mints and freezes. The prove functions of the library, which build, check and prove, return what a proof system for the three kinds would return.", "quantifier": "all numbers of inputs and outputs, all tree depths, all witnesses and public inputs, all proof systems for circuits", "why_tests_cant": "If the dummy circuit differed from that of some witness, or the dummy could not be built for some size, only this witness or size would show it. Soundness of what a key accepts is about provers that do not use the library.", "anchors": ["src/proof/transfer.rs:preprocess", "src/proof/mint.rs:preprocess", "src/proof/freeze.rs:preprocess", "src/proof/transfer.rs:prove", "src/proof/freeze.rs:FreezeWitness", "src/circuit/transfer.rs:build_for_preprocessing"]}
{"id": "C83", "title": "A universal parameter of the computed size is enough", "statement": "compute_universal_param_size, given a type of note, numbers of inputs and outputs and a tree depth, returns a size such that every universal parameter of this size or a larger one can be preprocessed into keys for such notes, and the circuit of every note of these numbers and depth needs exactly this size, so that proving never needs a larger parameter. It fails only where preprocessing fails for every universal parameter, and with the same error. A transfer verifying key taken from a transfer proving key is the one that preprocessing returned together with it.", "quantifier": "all types of notes, numbers of inputs and outputs, tree depths, universal parameters, and all witnesses and public inputs of these numbers", "why_tests_cant": "The size is computed from the circuit of one dummy witness; that the circuits of all other witnesses of the same numbers have the same size is a statement about all witnesses and all sizes, and each test makes one circuit.", "anchors": ["src/utils/mod.rs:compute_universal_param_size", "src/structs.rs:NoteType", "src/proof/transfer.rs:preprocess", "src/proof/mint.rs:preprocess", "src/proof/freeze.rs:preprocess", "src/proof/transfer.rs:from"]}
{"id": "C84", "title": "Keys keep their promises: signing, encrypting, storing freezer keys", "statement": "What UserPubKey::encrypt writes under a label is read by the owner of the key under this label. What UserKeyPair::sign makes is accepted by verify_sig of the signer's public key for this message, and one signature is accepted for two messages only with a collision of hash_to_field or of the signature scheme. A freezer key pair written to bytes is read back whatever follows in the stream, truncated bytes are refused, two key pairs are equal exactly if their bytes are, and what is read as a freezer key pair is a pair: its public key is the one of its secret key.", "quantifier": "all user keys, messages, labels, signatures, freezer key pairs, byte strings, and all freeze notes generated with a key pair that was read", "why_tests_cant": "Tests generate keys and use them at once; they do not store a pair, alter one half and read it again, and they try one message. The claims are about all byte strings and all messages.", "anchors": ["src/keys.rs:encrypt", "src/keys.rs:sign", "src/keys.rs:verify_sig", "src/keys.rs:FreezerKeyPair", "src/keys.rs:FreezerPubKey", "src/keys.rs:eq", "src/freeze.rs:generate"]}
{"id": "C85", "title": "The circuits enforce the relations of the specification document", "statement": "The statement a note proves is the one the protocol's specification document defines: for every assignment of values, the transfer, mint and freeze circuits accept it exactly if it satisfies the relation of section 3.2 of the document; so every accepted note comes from a documented witness, and every generated note satisfies the documented relation.", "quantifier": "every assignment of field values to the circuits' witnesses and statements, every shape; every accepted and every generated note", "why_tests_cant": "Tests compare the circuits with the implementation's own idea of the rules on a few witnesses; agreement with the document has to hold for every witness, including those no honest wallet builds.", "anchors": ["src/circuit/transfer.rs:TransferCircuit", "src/circuit/mint.rs:MintCircuit", "src/circuit/freeze.rs:FreezeCircuit", "src/proof/transfer.rs:verify", "src/proof/mint.rs:verify", "src/proof/freeze.rs:verify"]}
{"id": "C86", "title": "A note discloses nothing but its public parts", "statement": "What a note shows beyond its nullifiers, fee, root, expiry, counts and (for mints) the minted amount and asset is at most what it tells the viewer named in the policy. Take a generated note and any other story about the same positions of the tree, spent with the same nullifier keys: other amounts, another asset and policy, other credentials, other receivers, dummies instead of records; for freezes also the opposite direction. If both stories have the same message for the viewer (in particular if there is no viewer or the amounts stay within the threshold), then both produce the very same note, after a renaming of blinding factors and of the prover's randomness. So nobody who sees the note and the ledger can tell the stories apart. A freeze note does not show whether it freezes or releases, and a mint without viewer does not show its receiver.", "quantifier": "every key size, every pair of well-formed requests with the same counts, fee, expiry, positions and nullifier keys, every randomness, both builds", "why_tests_cant": "Indistinguishability compares all notes of two requests over all randomness; a test sees single notes, and finds no leak it was not written to look for.", "anchors": ["src/transfer.rs:generate", "src/mint.rs:generate", "src/freeze.rs:generate", "src/structs.rs:derive_record_commitment", "src/structs.rs:new_for_transfer_note"]}
{"id": "C87", "title": "Whatever can be issued can be paid with", "statement": "If an asset can be declared and units of it are minted and accepted, whoever receives them can pay with them, at any later time while they are unspent, and the freezer named by the policy can freeze them.", "quantifier": "all policies that can be put together with the API, all seeds, descriptions, receivers, amounts, randomness, and all ledger histories before and after the mint", "why_tests_cant": "The tests use a handful of policies. The property ranges over every sequence of policy calls and over every later history of the ledger, and its failures lie between calls of different functions: declaring and minting accept a policy that every transfer refuses.", "anchors": ["src/structs.rs:AssetPolicy", "src/mint.rs:MintNote", "src/transfer.rs:TransferNote", "src/utils/mod.rs:check_asset_def"]}
{"id": "C88", "title": "Values survive serde, and a text of one kind is never read as another", "statement": "Every value with a serde form (keys, codes, nullifiers, commitments, credentials, memos, policies, records, notes, verifying keys) is read back from its binary form whatever follows it, and from its text form. A text with the tag of one kind is refused by every other kind. A receiver memo, whose plaintext is the binary form of the record, gives its owner exactly the record, and its length does not depend on the record. Bytes that are no encoding are an error and never a panic, and each value has one binary form. An amount is parsed from a text exactly if the text is a number below 2^128, and shown as the number it is.", "quantifier": "all 21 tagged types and all their values, all records, policies, credentials and notes, all byte strings and texts given to the readers, all bytes after a value", "why_tests_cant": "The tests write and read a few sampled values of some types. The property ranges over all values, over every malformed byte string and over every pair of kinds; the panic is in a conversion that only malformed bytes reach.", "anchors": ["src/structs.rs:RevealMap", "src/structs.rs:AssetPolicy", "src/structs.rs:RecordOpening", "src/structs.rs:ReceiverMemo", "src/structs.rs:Amount", "src/keys.rs:UserKeyPair", "src/lib.rs:TransactionNote", "src/lib.rs:TransactionVerifyingKey", "src/proof/transfer.rs:TransferVerifyingKey"]}
{"id": "C89", "title": "All wallets together hold what was issued, no more and no less", "statement": "Wallets of different owners follow the same reference ledger, each with the memos it was shown and the records it was handed. For every asset the balances they report never add up to more than was granted and minted; together with the unspent records that none of them holds they add up to exactly that. A wallet that was handed an unspent record, can decrypt its memo or awaits it as change holds it, so if every unspent record is known to a wallet, the balances account for everything that was issued.", "quantifier": "all histories of grants and accepted blocks of arbitrary notes, any number of wallets with any memos, handed records, pending payments and awaited changes, all assets", "why_tests_cant": "The tests check the balances of a few wallets after a few blocks. The property is about all wallets at once, over histories of any length, with memos and notes from anybody.", "anchors": ["tests/examples.rs:available_funds", "tests/examples.rs:scan_block", "tests/examples.rs:LedgerStateMock", "src/structs.rs:ReceiverMemo::decrypt", "src/keys.rs:UserKeyPair::nullify"]}
{"id": "C90", "title": "A transfer builder that chooses the tree depth itself", "statement": "A transfer builder that is given no tree depth chooses one with room for all inputs and outputs, that it would accept if it were given, and that is the smallest such depth; it then works as with this depth given.", "quantifier": "all numbers of inputs and outputs, all keys and assets, every value of the logarithm computed with floating point numbers that is not too large", "why_tests_cant": "The tests use the numbers 0, 8, 9 and 14, and builders with at most eight records; the choice must be right for every number of records and despite rounding errors.", "anchors": ["src/utils/mod.rs: next_power_of_three", "src/utils/params_builder.rs: TransferParamsBuilder::new_non_native, calculate_tree_depth"]}
{"id": "C91", "title": "A viewer who is shown everything can keep books", "statement": "The viewer of an asset whose policy reveals addresses and amounts can tell from the ledger alone what every address holds of it: what the address was granted, plus what the viewer saw it receive, minus what the viewer saw it pay.", "quantifier": "all ledger histories made by anybody with any accepted notes, all assets with such a policy, all addresses", "why_tests_cant": "The tests open the memo of one note at a time. The books must balance after every history, whoever made the notes, and no test tries notes made by somebody who wants them not to.", "anchors": ["src/keys.rs: ViewerKeyPair::open_transfer_viewing_memo, ViewerKeyPair::open_mint_viewing_memo", "src/circuit/transfer.rs: TransferCircuit::build", "src/circuit/mint.rs: MintCircuit::build"]}
{"id": "C92", "title": "Payments are possible at every time", "statement": "At whatever time, given as a 64-bit timestamp: whoever holds enough native coins on the ledger can pay with them, by a note that the ledger accepts at that time.", "quantifier": "all states the reference ledger can reach, all coins, outputs, fees, randomness, all timestamps", "why_tests_cant": "The tests use small timestamps. Whether payments still go through at every later time, for every set of coins, takes a proof over all timestamps.", "anchors": ["src/structs.rs: ExpirableCredential::dummy_unexpired", "src/circuit/structs.rs: ExpirableCredVar::verify", "src/transfer.rs: TransferNote::generate, TransferNote::generate_native", "src/lib.rs: txn_batch_verify"]}
{"id": "C93", "title": "What a wallet counts as coins can be paid with, and only the owner takes it away", "statement": "A record that a wallet counts in its balance of the native asset (it decrypted a memo for it, was handed it, or expected it as change) is a coin: the native policy has no freezer, so nobody but a holder of the owner's secret key can ever take it off the ledger, and the wallet can pay with it.", "quantifier": "every depth, every history of grants and accepted blocks before and after, every wallet that follows it and every record it holds; the negation: every instantiation of the primitives, every coin, payer, freezer key pair and receiver", "why_tests_cant": "Tests receive payments that the library made. Whether a received native record is spendable and cannot be seized depends on every accepted transfer that anybody can build, because the receiver sees only a commitment and a memo.", "anchors": ["tests/examples.rs:available_funds", "tests/examples.rs:spend_native", "tests/examples.rs:scan_block", "src/structs.rs:AssetDefinition::native", "src/structs.rs:ReceiverMemo::decrypt", "src/circuit/transfer.rs:TransferCircuit::build", "src/freeze.rs:FreezeNote::generate"]}
{"id": "C94", "title": "A record under an issuer's credentials is moved only by an owner whom the issuer has admitted", "statement": "On the ledger, whatever transactions anybody submits: a record of an asset whose policy names a credential issuer is moved by its owner only in a transfer whose maker holds a credential that this issuer signed for this owner and that has not expired at the time of the block.", "quantifier": "every history of grants and accepted blocks of arbitrary notes, every record on the ledger, every policy with an issuer; the negation: every reachable state, every asset, every set of coins and outputs, every signing key and every named user", "why_tests_cant": "Tests use credentials of the right issuer for the right user. Whether somebody without one can move the asset ranges over all assignments of the circuit and all histories of the ledger.", "anchors": ["src/circuit/structs.rs:ExpirableCredVar::verify", "src/circuit/transfer.rs:TransferCircuit::build", "src/proof/transfer.rs:TransferWitness::new_unchecked", "src/structs.rs:ExpirableCredential::create", "src/transfer.rs:TransferNote::generate_non_native"]}
{"id": "C95", "title": "A transaction that is passed on stays what its author made", "statement": "Whoever passes a transaction on to a validator, and a block on to a wallet, cannot change what its author made: a transaction that is accepted with the proof of another accepted one is that one, and the receiver memos that stand beside it in a wallet's eyes are those its author signed, so a payment that is in a block reaches its recipient's wallet.", "quantifier": "every accepted transaction of each kind, every other batch, ledger and time, every list of memos and every signature, every history of the recipient's ledger", "why_tests_cant": "Tests pass notes and memos on unchanged. What a relay can change ranges over all notes, all memos and all signatures.", "anchors": ["src/lib.rs:txn_batch_verify", "src/lib.rs:TransactionNote::verify_receiver_memos_signature", "src/structs.rs:ReceiverMemo::decrypt", "tests/examples.rs:validate_txns_batch", "tests/examples.rs:scan_block"]}
{"id": "C96", "title": "A wallet that waits for its payments pays out exactly what it has", "statement": "If a wallet waits after each payment until it has scanned a block with it, it can go on paying until its native records are used up: each payment is made and accepted as long as what the wallet held at the beginning covers it together with the payments made before, and after any number of payments the balance is lower by exactly the amounts paid to others and the fees. Whatever is in a block, the balance of an asset changes by exactly the held records whose nullifiers the block publishes and the records its memos and awaited changes bring.", "quantifier": "every reachable pair of ledger and wallet, every list of payment orders of any length with any recipients (the owner included), amounts, fees and randomness, every asset and every accepted block for the statement of account, every tree depth, both build profiles", "why_tests_cant": "Tests make one payment from a fresh wallet. That nothing is lost or counted twice over a sequence of payments needs an induction over payments of any number, with change spent again and again.", "anchors": ["tests/examples.rs:spend_native", "tests/examples.rs:find_records", "tests/examples.rs:scan_block", "tests/examples.rs:scan_txn", "tests/examples.rs:available_funds"]}
{"id": "C97", "title": "What the benchmarks time are valid transactions, and their batch is not a block", "statement": "The notes that the benchmarks build and time are genuine: for every number of inputs and outputs from two on that fits into the tree they have these numbers of inputs and outputs, pay fees of 1 (transfer), 4 (mint) and 5 (freeze), and pass the timed check; the timed batch of k copies of each note is accepted for every k >= 1 and counts 3k notes, but from k = 2 on no ledger accepts these notes as a block. With no input, or fewer than two outputs, the builders panic.", "quantifier": "all numbers of inputs and outputs, tree depths, keys, blinding factors, attributes and other draws, all numbers of copies, all ledger states and times", "why_tests_cant": "The benchmarks assert success only for six sizes, one depth, three numbers of copies and one random seed, and never submit the notes to a ledger.", "anchors": ["src/bench_utils/mod.rs: get_builder_transfer, get_builder_mint, get_builder_freeze, NUM_INPUTS_RANGE, NUM_OUTPUTS_RANGE, TREE_DEPTH", "benches/transfer.rs: run_benchmark_transfer", "benches/batch_verification.rs: run_benchmark_batch_verification", "src/lib.rs: txn_batch_verify", "tests/examples.rs: validate_txns_batch"]}
{"id": "C98", "title": "Each column of a benchmark table shows the quantity of its heading", "statement": "Each row of a table that save_result_to_file_simple or save_result_to_file_batch writes has one entry for each heading, namely the quantity named there for one measurement, with the time measured under the title of this measurement; different measurements have different titles.", "quantifier": "all lists of measurements, all sizes and counts, all settings of the number of threads", "why_tests_cant": "The titles are joined and split again as text; nothing tests this, and it goes wrong only for unusual settings of an environment variable.", "anchors": ["src/bench_utils/mod.rs: compute_title_simple, compute_title_batch, number_threads, save_results_to_file, build_csv_records_simple, build_csv_records_batch, save_result_to_file_simple, save_result_to_file_batch"]}
{"id": "C99", "title": "Payments in several assets are booked to the right accounts", "statement": "A reference wallet makes payments one after the other, each in an asset of the caller's choice, and waits after each until it has scanned a block with it. Then for every asset the balance is lower by exactly the amounts of this asset that were paid to others; the native balance is lower by the fees as well; assets that were not paid are untouched. The wallet holds what it held without the coins it spent, the change, and what it paid to itself, and can make every payment that its balances cover.", "quantifier": "every sequence of payments in native and other assets, every history of the wallet and ledger before it, both builds, every randomness that does not collide with the history", "why_tests_cant": "A test makes one or two payments with fixed amounts; that the books are right in every asset after any sequence needs an induction over histories.", "anchors": ["tests/examples.rs:spend_non_native", "tests/examples.rs:find_record_for_fee", "tests/examples.rs:scan_block", "src/transfer.rs:generate_non_native"]}
{"id": "C100", "title": "Mints, freezes and payments of one wallet are booked to the right accounts", "statement": "The owner of a reference wallet pays from it, mints with it as an asset issuer, and freezes or releases records of others with it as a freezer, in any order, and waits after each until the wallet has scanned a block with the note. Then the native balance is lower by exactly the fees and the native amounts paid to others; the balance of every other asset is higher by what was minted of it for the wallet itself and lower by what was paid of it to others; freezing and releasing change no balance but by their fee. Whatever the balances cover can be done.", "quantifier": "every sequence of payments, mints, freezes and releases, every history of wallet and ledger before it, both builds, every randomness that does not collide with the history", "why_tests_cant": "The tests run one scenario with fixed amounts and one issuer and freezer; that the books are right after any mixed sequence needs an induction over histories.", "anchors": ["tests/examples.rs:mint", "tests/examples.rs:freeze_user", "tests/examples.rs:unfreeze_user", "tests/examples.rs:find_record_for_fee", "tests/examples.rs:scan_txn"]}
{"id": "C101", "title": "The order in which transactions come, and the blocks they come in, make no difference to what anybody holds", "statement": "A wallet follows a ledger from some state on. If a number of transactions that do not depend on each other (none spends a record that another one of them creates) go into blocks, then in the end the wallet holds, of every asset, exactly the records it held that no transaction spends, and those the transactions bring it. The records brought are the same whatever the order of the transactions and however they are distributed over blocks; so two wallets with the same key that saw the same transactions in different orders or blocks have the same records, up to their positions, and the same balance in every asset. Two blocks of transactions which spend different records can always come in either order.", "quantifier": "every ledger state, wallet and history; every number of blocks, with any number of transactions each; any permutation and regrouping of the transactions; any transactions and memos, also of other people", "why_tests_cant": "A test runs one order in one grouping; the statement is about every permutation and every division into blocks, and about every wallet that follows the ledger.", "anchors": ["tests/examples.rs:scan_block", "tests/examples.rs:scan_txn", "tests/examples.rs:insert_block", "tests/examples.rs:validate_txns_batch"]}
{"id": "C102", "title": "The books of a wallet are right on a busy ledger, also when some of what it does comes to nothing", "statement": "A wallet pays in any asset, mints, freezes and releases records of others whenever it likes, without waiting: an attempt may come into a block at once, much later, or never, and may be made again with the same coins. Blocks hold any number of its own transactions, in any order, among those of other people; in between, records are granted on the ledger and handed to the wallet. After any such history the balance in every asset is the balance at the beginning, less what those of its acts take that came into blocks (what is paid to others, and the fees in the native asset), plus what they give it (mints for itself), plus the records that transactions of others and grants brought. Attempts that never came into a block cost nothing; the coins they named are still held, unless another act that came into a block spent them; and no coin goes with two acts that came into blocks.", "quantifier": "every history: any number and order of attempts, blocks, grants and hand-overs; any assets, amounts, fees and recipients; every asset code; any transactions and memos of others", "why_tests_cant": "A test plays one interleaving of attempts and blocks; the statement is an equation after every interleaving, including attempts that are abandoned or repeated.", "anchors": ["tests/examples.rs:spend_native", "tests/examples.rs:spend_non_native", "tests/examples.rs:mint", "tests/examples.rs:freeze_user", "tests/examples.rs:unfreeze_user", "tests/examples.rs:scan_block", "tests/examples.rs:mark_unconfirmed_spent", "tests/examples.rs:validate_txns_batch"]}
{"id": "C103", "title": "An attempt stays open until it expires or something else takes one of its inputs", "statement": "A wallet made a payment, a mint, a freeze or a release that the validator would have accepted at some time. At any later point of any history of blocks, grants and further attempts, it is accepted if and only if it has not expired, none of the wallet's coins in it went with a transaction that came into a block, and none of the records of others in it was spent. As long as that is so, a block with it can be appended and the wallet goes on with it. Once one of its coins is gone it is never accepted again, alone or together with others; and of several attempts that share a coin at most one ever comes into a block.", "quantifier": "every history with any number and order of attempts, blocks, grants and hand-overs; every attempt made in it; every earlier point at which it was acceptable; every time and every later history", "why_tests_cant": "A test submits a transaction at once or after a few blocks; the statement is an equivalence for every delay and every sequence of blocks in between, including rival attempts with the same coin.", "anchors": ["tests/examples.rs:validate_txns_batch", "tests/examples.rs:insert_block", "tests/examples.rs:scan_block", "tests/examples.rs:mark_unconfirmed_spent", "tests/examples.rs:spend_native", "tests/examples.rs:mint", "tests/examples.rs:freeze_user"]}
{"id": "C104", "title": "Freezing and releasing move exactly the listed records in and out of the accounts", "statement": "When a block with a freeze or a release by the freezer of an asset has been scanned, the balance that a user's wallet has of each asset is lower by exactly what was frozen of the records it holds, and higher by exactly what was released to its owner; for everybody else it is the same. The freezer's own wallet changes in the same way, also when the freezer freezes or releases records of their own, and besides pays the fee in the native asset and nothing else. What is released later of frozen records is what was taken when they were frozen.", "quantifier": "every history of the wallet, every freezer with the key of its asset, every list of live records, every fee, randomness and asset code; users, the freezer and bystanders", "why_tests_cant": "A test freezes one record of one user and looks at it; the statement is an equation for every list of records, every asset and every wallet, including a freezer who is a user of the asset.", "anchors": ["tests/examples.rs:freeze_user", "tests/examples.rs:unfreeze_user", "tests/examples.rs:scan_block", "tests/examples.rs:scan_txn", "tests/examples.rs:mark_spent_if_owned", "src/freeze.rs:FreezeNote"]}
{"id": "C105", "title": "The accounts of a wallet whose owner also freezes and releases records of their own", "statement": "After any sequence of payments in any assets, mints, freezes and releases that a wallet has made and waited for, where records of others and of the wallet itself are frozen and released, the account of every asset together with what was paid of it to others, the fees (in the native asset) and what was frozen of the wallet's own records is what it was before, together with what was minted for the wallet itself and what was released to its owner. Every accepted freeze or release takes part in such a history.", "quantifier": "all wallets, all histories of any length of payments, mints, freezes and releases, all assets, all ledgers, all records frozen or released by the freezer of their asset", "why_tests_cant": "The test of the reference freezer freezes and releases one record of another user and looks only at the freezer's native balance; a freezer who also owns records of the asset, over histories of any length, is never looked at.", "anchors": ["tests/examples.rs:freeze_user", "tests/examples.rs:unfreeze_user", "tests/examples.rs:spend_native", "tests/examples.rs:spend_non_native", "tests/examples.rs:mint", "tests/examples.rs:scan_block", "tests/examples.rs:mark_spent_if_owned", "src/freeze.rs:FreezeNote"]}
