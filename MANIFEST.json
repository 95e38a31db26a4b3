{
 "claims": [
  {
   "property": "C01",
   "status": "proved",
   "theorems": [
    "Cap.C01_balance",
    "Cap.C01_records",
    "Cap.C01_accepted",
    "Cap.C01_bound_needed"
   ],
   "note": "every satisfying assignment (C01_balance), the host records it stands for (C01_records), and from verify itself under SnarkSound (C01_accepted). Hypotheses: spent amounts fit in 128 bits (C01_bound_needed shows that this cannot be dropped), fewer than 2^64 inputs and outputs."
  },
  {
   "property": "C02",
   "status": "partial",
   "theorems": [
    "Cap.C02_false",
    "Cap.C02_partial",
    "Cap.C02_records_partial",
    "Cap.C02_generated"
   ],
   "note": "FALSE of the code: the transfer circuit never compares the asset code of a spent record with the code of the transfer, only the policies. C02_false: for every instantiation, any unfrozen record of an asset without viewer can be turned into a record of any other code (also native) in an accepted note. C02_partial, C02_records_partial: what the circuit does guarantee (equal policies, fee records native, one code for all created records). C02_generated: notes made by TransferNote::generate have equal asset definitions."
  },
  {
   "property": "C03",
   "status": "partial",
   "theorems": [
    "Cap.C03_mint_false",
    "Cap.C03_freeze_false",
    "Cap.C03_mint_partial",
    "Cap.C03_freeze_partial",
    "Cap.C03_mint_records_partial",
    "Cap.C03_freeze_records_partial",
    "Cap.C03_mint_generated",
    "Cap.C03_freeze_generated"
   ],
   "note": "FALSE of the code: neither circuit range-checks the change, so the equation change + fee = spent only holds in the field. C03_mint_false, C03_freeze_false: for every instantiation, every native record and every fee (also one larger than the record) there is an accepted note that pays this fee from this record; its change is negative in the field. C03_mint_partial, C03_freeze_partial: the equation holds over the integers if the change amount fits in 128 bits; C03_*_records_partial: so it does if the change is a record that the library can hold. C03_mint_generated, C03_freeze_generated: it holds for generated notes."
  },
  {
   "property": "C04",
   "status": "partial",
   "theorems": [
    "Cap.C04_false",
    "Cap.C04_generate_false",
    "Cap.C04_partial",
    "Cap.C04_generated_partial"
   ],
   "note": "FALSE of the code: the circuit checks a credential against the issuer key inside the credential, which it never compares with the policy's issuer, and never compares the credential's user with the record's owner; TransferNote::generate does not either. C04_false: for every instantiation and every issuer key, a record is spent in an accepted note with a credential signed with the secret key 0 for nobody. C04_generate_false: the library's own check accepts a credential of any issuer for any user. C04_partial: some unexpired, validly signed credential is needed. C04_generated_partial: the same for generated notes."
  },
  {
   "property": "C05",
   "status": "proved",
   "theorems": [
    "Cap.C05_transfer",
    "Cap.C05_transfer_records",
    "Cap.C05_transfer_accepted",
    "Cap.C05_mint",
    "Cap.C05_freeze"
   ],
   "note": "For every satisfying assignment and at every position. A circuit record is an assignment to variables; the theorems *_records speak of the record openings with the same committed values (Spec.Reads): they are unfrozen too, also at dummy positions, where the reveal map is not range-checked. C05_transfer_accepted is end to end: a verified note whose nullifier/commitment positions are opened; a frozen record whose commitment is the one of a spent input is a collision of the commitment function between two named inputs."
  },
  {
   "property": "C06",
   "status": "partial",
   "theorems": [
    "Cap.C06_partial",
    "Cap.C06_records_partial",
    "Cap.C06_accepted_partial",
    "Cap.C06_forge",
    "Cap.C06_false",
    "Cap.C06_release_false",
    "Cap.C06_generated",
    "Cap.C06_generated_twice"
   ],
   "note": "FALSE of the code as far as the reveal map is concerned: the commitment holds 2*map + flag and the freeze circuit never range-checks the map, so that a freezer can open an unfrozen record with map m as (flag 1, map m - 1/2). C06_false: for every instantiation there is an accepted freeze note that turns an unfrozen record with map m+1 into a frozen record with map m; C06_release_false: one that turns a frozen record with map m into an unfrozen one with map m+1. C06_partial (assignments): nothing but the flag changes. C06_records_partial (record openings with the same committed values): owner, amount, code, keys and threshold are the same and the flag is the opposite; the map is the same, or one step away in the direction of the two negations. C06_generated: generated notes change only the flag (and the blinding factor). C06_generated_twice: generating a second note from the first one's outputs gives back the original records."
  },
  {
   "property": "C07",
   "status": "proved",
   "theorems": [
    "Cap.C07_freezer",
    "Cap.C07_records",
    "Cap.C07_accepted",
    "Cap.C07_generated"
   ],
   "note": "For every satisfying assignment of the freeze circuit: each input that is not a dummy has a policy that names a freezer, the assignment contains a scalar whose public key is that freezer key, and the record is under the note's root. C07_records says it for the record opening with the same committed values; C07_accepted is end to end from FreezeNote::verify, with the freezer's secret key reduced to a scalar of the curve; C07_generated for FreezeNote::generate."
  },
  {
   "property": "C08",
   "status": "proved",
   "theorems": [
    "Cap.C08_transfer",
    "Cap.C08_mint",
    "Cap.C08_freeze",
    "Cap.C08_records",
    "Cap.C08_transfer_accepted",
    "Cap.C08_mint_accepted",
    "Cap.C08_freeze_accepted",
    "Cap.C08_transfer_generated"
   ],
   "note": "For every satisfying assignment of the three circuits and every record spent by a user (all inputs of a transfer, the fee input of a mint or freeze): the assignment contains a scalar whose public key is the owner address of the opening, and the opening's commitment is under the note's root unless the opening's code is the dummy code (never for fee inputs). *_records speaks of the record openings with the same committed values; C08_transfer_accepted, C08_mint_accepted, C08_freeze_accepted are end to end; C08_transfer_generated: generation succeeds only with the owner's key pair."
  },
  {
   "property": "C09",
   "status": "partial",
   "theorems": [
    "Cap.C09_library",
    "Cap.C09_library_generated",
    "Cap.C09_circuit_partial",
    "Cap.C09_circuit_false",
    "Cap.C09_library_circuit"
   ],
   "note": "The library's functions agree whenever the freezer key is not the identity (C09_library). In the circuits they agree if the owner address is not the neutral point (C09_circuit_partial). FALSE for a record owned by the neutral address, whose secret key is 0: the freezer path then takes the freezer's secret key itself as nullifier key while the user path hashes the shared point (C09_circuit_false, for every instantiation; in the toy instantiation the two nullifiers are shown to differ). C09_library_circuit: on a record owned by the neutral address the library's freezer nullifier is the one of the user, so that FreezeNote::generate cannot make a proof."
  },
  {
   "property": "C10",
   "status": "partial",
   "theorems": [
    "Cap.C10_partial",
    "Cap.C10_alias_false",
    "Cap.C10_unowned_false",
    "Cap.C10_generated_same",
    "Cap.C10_generated"
   ],
   "note": "For notes the library generates the claim holds in full (C10_generated: any two generated notes of any kinds that spend the same record at the same position publish the same nullifier for it). For all accepted notes it holds under two conditions (C10_partial): the owner is not the neutral address, and, if the policy has no freezer, the secret scalars are below the order of the curve. FALSE otherwise, for every instantiation: (1) C10_alias_false: without a freezer the circuit uses the secret scalar itself as nullifier key but only constrains it to fit in scalarBits bits, so that an owner whose key k satisfies k + r < 2^scalarBits can spend one record (e.g. a native one) in two accepted transfers with two nullifiers; (2) C10_unowned_false: a record owned by the neutral address can be transferred and frozen."
  },
  {
   "property": "C11",
   "status": "proved",
   "theorems": [
    "Cap.C11_exact",
    "Cap.C11_binds",
    "Cap.C11_circuit",
    "Cap.C11_enc_key"
   ],
   "note": "C11_binds: equal commitments mean equal amount, code, owner address, policy, flag and blinding factor, or the commitment function collides on the two named inputs. The collision is never an artefact of the packing of the twelve scalars: C11_exact says that the committed scalars and the blinding factor are equal exactly when these fields are (in particular 2*map + flag is decoded uniquely and points by their coordinates). C11_enc_key delimits the claim: the owner's encryption key is not bound."
  },
  {
   "property": "C12",
   "status": "proved",
   "theorems": [
    "Cap.C12_same",
    "Cap.C12_owner",
    "Cap.C12_merkle",
    "Cap.C12_memo",
    "Cap.C12_cred",
    "Cap.C12_freezer"
   ],
   "note": "For all host values. Besides the four equalities of the claim: Merkle roots (a path accepted by the library's check gives the circuit's root), the gates for ownership of a record, the ElGamal ciphertext, and the credential check. C12_freezer states the one place where library and circuit differ, the freezer's nullifier of a record owned by the neutral address (see C10)."
  },
  {
   "property": "C13",
   "status": "partial",
   "theorems": [
    "Cap.C13_decrypts",
    "Cap.C13_partial",
    "Cap.C13_accepted",
    "Cap.C13_false",
    "Cap.C13_dropped",
    "Cap.C13_odd_map"
   ],
   "note": "C13_partial (assignments and host records) and C13_accepted (from verify, under SnarkSound): for an amount over the threshold the policy's viewer opens the memo and gets, for every input that is not a dummy and every output (after the fee input and change), exactly the fields selected by the map; attributes are those of the credential in the prover's assignment. Conditions: owners are points (host records), no spent record is owned by the neutral element when addresses are revealed, the two address bits of the map agree, fewer than 2^64 inputs and outputs. The property as stated is false, for every environment and depth: C13_false (an extra output of amount 0 owned by coordinates off the curve makes the whole memo unreadable), C13_dropped (a spent record of the neutral address is left out), C13_odd_map (maps whose address bits differ)."
  },
  {
   "property": "C14",
   "status": "proved",
   "theorems": [
    "Cap.C14_plaintext",
    "Cap.C14_seen",
    "Cap.C14_hides"
   ],
   "note": "For every generated transfer over the threshold of a policy with a viewer. C14_plaintext: the viewer decrypts exactly plainMessage (Spec.lean): asset code, then per input and output each field if its bit is set and zero otherwise, dummies as the neutral address. C14_seen: the viewer's opening function returns exactly the revealed fields of the records that were given to generate (if the two address bits of the map agree, and no spent record is owned by the neutral element when addresses are revealed; see C13 for what happens otherwise). C14_hides: two transfers whose records have the same revealed fields get the same memo for the same randomness, whatever the hidden values."
  },
  {
   "property": "C15",
   "status": "partial",
   "theorems": [
    "Cap.C15_opened",
    "Cap.C15_exact",
    "Cap.C15_partial",
    "Cap.C15_accepted",
    "Cap.C15_false"
   ],
   "note": "C15_partial / C15_accepted: if a record opening (a host record, so with an owner address that is a point) has the published commitment, then open_mint_viewing_memo by the policy's viewer succeeds and returns its owner, amount and blinding factor exactly as the reveal map selects, or the commitment function collides on two named inputs. (An owner equal to the neutral element is shown even if hidden by the map: C15_exact.) The property as stated is false, C15_false: for every environment and depth, anyone with a native record can have a mint accepted whose record is owned by the coordinates (0, 0), which are not on the curve; the circuit does not check this, and the viewer gets an error instead of the amount and blinding factor."
  },
  {
   "property": "C16",
   "status": "partial",
   "theorems": [
    "Cap.C16_empty",
    "Cap.C16_independent",
    "Cap.C16_circuit_partial",
    "Cap.C16_generated_partial",
    "Cap.C16_false",
    "Cap.C16_refused"
   ],
   "note": "Nothing is disclosed: C16_independent (the memo of a generated transfer below the threshold, or without viewer, is a function of the encryption randomness and of the numbers of inputs and outputs only), for all amounts and thresholds. Goes through: C16_circuit_partial and C16_generated_partial, if the threshold exceeds the amount by less than 2^127. Beyond that the circuit's comparison is wrong (it takes the transfer to be over the threshold) while the library writes an empty memo: C16_false shows that such a transfer is only generated if the empty memo happens to decrypt to the full message, and that of two such transfers of different assets at most one is generated; the example is refused."
  },
  {
   "property": "C17",
   "status": "proved",
   "theorems": [
    "Cap.C17_generate",
    "Cap.C17_generate_native",
    "Cap.C17_generate_non_native"
   ],
   "note": "For every environment whose proof system is complete: every note returned by generate, generate_native or generate_non_native verifies under the preprocessed key, its own root and every time up to valid_until."
  },
  {
   "property": "C18",
   "status": "proved",
   "theorems": [
    "Cap.C18_generate",
    "Cap.C18_generate_any",
    "Cap.C18_fields",
    "Cap.C18_bound"
   ],
   "note": "Mintable means an amount below 2^127. C18_generate needs completeness only; C18_generate_any replaces the bound by \"the prover refuses unsatisfied circuits\"; C18_bound shows that no verifying mint exceeds the bound."
  },
  {
   "property": "C19",
   "status": "proved",
   "theorems": [
    "Cap.C19_generate",
    "Cap.C19_generate_any",
    "Cap.C19_outputs"
   ],
   "note": "generate compares only the fee record's path length, modulo 256, with the key's depth. C19_generate therefore asks for Merkle paths of the key's depth; C19_generate_any asks instead that the prover refuses circuits of the wrong size."
  },
  {
   "property": "C20",
   "status": "proved",
   "theorems": [
    "Cap.C20_earlier",
    "Cap.C20_until_expiry",
    "Cap.C20_expired",
    "Cap.C20_wrong_root",
    "Cap.C20_mint_freeze",
    "Cap.C20_batch_earlier"
   ],
   "note": "For every note, key, root and time and for every proof system; mint and freeze verification take no time at all, and in a batch the time does not matter for them either."
  },
  {
   "property": "C21",
   "status": "partial",
   "theorems": [
    "Cap.C21_sound",
    "Cap.C21_lengths",
    "Cap.C21_partial",
    "Cap.C21_domestic_false",
    "Cap.C21_kind_false"
   ],
   "note": "C21_partial: for a non-empty batch in which every note comes with a key of its own kind, batch verification succeeds and all mint notes pass the domestic check, if and only if the lists have equal lengths and every note verifies on its own. FALSE as stated: C21_domestic_false: txn_batch_verify leaves out the check that the minted code is the domestic code of the internal code, so for every instantiation and every asset code (also the native one) it accepts a mint of that code that MintNote::verify refuses; C21_kind_false: it does not compare the kind of a note with the kind of its key, so for every instantiation it accepts a freeze note under a transfer key, with a fee of 2^64 - 1 that no record pays. C21_sound: what batch acceptance means in any case. C21_lengths: lists of different lengths are refused whatever they contain. The empty batch is left to the proof system (jf-plonk refuses it)."
  },
  {
   "property": "C22",
   "status": "proved",
   "theorems": [
    "Cap.C22_calculate_fee",
    "Cap.C22_calculate_fee_overflow",
    "Cap.C22_records_ok",
    "Cap.C22_records_err",
    "Cap.C22_records"
   ],
   "note": "calculate_fee is ok exactly when the natural-number sum fits in 128 bits and then equals it; the fee records are one native, unfrozen record per fee, in order; empty or mismatched lists are errors."
  },
  {
   "property": "C23",
   "status": "proved",
   "theorems": [
    "Cap.C23_new_ok",
    "Cap.C23_change",
    "Cap.C23_check_fee",
    "Cap.C23_passes_check"
   ],
   "note": "For every fee input and fee; the last clause (passing the fee check of generate) is proved for native fee records with a correct Merkle path, and its converse gives what check_fee enforces."
  },
  {
   "property": "C24",
   "status": "proved",
   "theorems": [
    "Cap.C24_native",
    "Cap.C24_wrap",
    "Cap.C24_empty"
   ],
   "note": "In both builds and for all amounts: the inputs (dummies carry nothing) equal the outputs plus the change plus the requested fee, over the natural numbers, the change is native, unfrozen and the first input's owner's, is the first output of the note, and the published fee is the requested one. In release builds the unchecked `total_out + fee` may wrap; C24_wrap shows that generate then refuses. With no inputs the function panics (C24_empty)."
  },
  {
   "property": "C25",
   "status": "partial",
   "theorems": [
    "Cap.C25_exact_partial",
    "Cap.C25_debug_sound",
    "Cap.C25_sound",
    "Cap.C25_nonnegative",
    "Cap.C25_release_unbalanced",
    "Cap.C25_debug_panics",
    "Cap.C25_release_refuses",
    "Cap.C25_refuses_mixed",
    "Cap.C25_published"
   ],
   "note": "False as stated (C25_release_unbalanced, C25_debug_panics, C25_release_refuses, C25_refuses_mixed): amounts below 2^127 are not enough, because their sums are computed in i128. In release builds the check accepts four inputs of 2^126 and one output of 0 with fee 0; in debug builds a balanced list with sum 2^127 panics; balanced lists with native records besides the fee record and another asset are refused. Proved: C25_exact_partial: with totals below 2^127 and the other checks of generate the check accepts exactly the balanced lists, in both builds; C25_debug_sound: in debug builds it never accepts an unbalanced list of amounts below 2^127, whatever the sums; C25_sound: in both builds with per-asset totals below 2^127. C25_published: the second half of the statement, without any bound: a published note balances exactly. C25_nonnegative: the fee is below 2^127."
  },
  {
   "property": "C26",
   "status": "partial",
   "theorems": [
    "Cap.C26_transfer_generated",
    "Cap.C26_mint",
    "Cap.C26_freeze_generated",
    "Cap.C26_transfer_false",
    "Cap.C26_freeze_false",
    "Cap.C26_transfer_partial",
    "Cap.C26_freeze_partial"
   ],
   "note": "TRUE of generated notes (C26_transfer_generated, C26_mint, C26_freeze_generated). FALSE of accepted notes: neither verify nor the circuits compare nullifiers with each other. C26_transfer_false: for every instantiation and every native record, an accepted note spends the record twice and creates two records of its amount (value is doubled unless the ledger compares the nullifiers of a note). C26_freeze_false: an accepted freeze note turns one record into two. C26_transfer_partial, C26_freeze_partial: a repeated nullifier in an accepted note means that the same commitment at the same position was opened twice, or the PRF collides on named inputs; so comparing nullifiers within a note is exactly the missing check."
  },
  {
   "property": "C27",
   "status": "partial",
   "theorems": [
    "Cap.C27_transfer_false",
    "Cap.C27_freeze_false",
    "Cap.C27_transfer_partial",
    "Cap.C27_freeze_partial",
    "Cap.C27_mint"
   ],
   "note": "False as stated for transfer and freeze notes: the scalar vector has no boundary between nullifiers and commitments and verify does not compare their numbers with the key, so from every accepted note one can make a different accepted note (C27_transfer_false, C27_freeze_false). Proved for notes with equal numbers of nullifiers and commitments (C27_transfer_partial, C27_freeze_partial) and in full for mint notes (C27_mint)."
  },
  {
   "property": "C28",
   "status": "proved",
   "theorems": [
    "Cap.C28_round_trip",
    "Cap.C28_accepts_only_encodings",
    "Cap.C28_rejects_wrong_length",
    "Cap.C28_scalar"
   ],
   "note": "Round trip with any trailing bytes, exact acceptance of encodings, rejection of other lengths, scalar encoding injective and below 2^12."
  },
  {
   "property": "C29",
   "status": "proved",
   "theorems": [
    "Cap.C29_serialize_le",
    "Cap.C29_round_trip",
    "Cap.C29_deserialize",
    "Cap.C29_u256",
    "Cap.C29_safe_sum"
   ],
   "note": "16-byte little-endian codec, U256 conversion exact, safe summation exact or none."
  },
  {
   "property": "C30",
   "status": "proved",
   "theorems": [
    "Cap.C30_note_round_trip",
    "Cap.C30_key_round_trip",
    "Cap.C30_bad_tag",
    "Cap.C30_note_variant",
    "Cap.C30_key_variant",
    "Cap.C30_freeze_flag"
   ],
   "note": "For any payload codecs that round-trip (the derived arkworks codecs are a hypothesis); any other tag byte is rejected."
  },
  {
   "property": "C31",
   "status": "partial",
   "theorems": [
    "Cap.C31_new_accepts",
    "Cap.C31_round_trip",
    "Cap.C31_injective",
    "Cap.C31_value_panics",
    "Cap.C31_value_total_partial",
    "Cap.C31_decrypted_panics",
    "Cap.C31_ambiguous"
   ],
   "note": "The last clause is false: C31_value_panics gives an attribute on which value() panics in a debug build, and C31_decrypted_panics shows it in the viewer's hands: if a credential of a spent record carries such an attribute and the policy reveals it, the viewer of the transfer note made by the library is given this attribute. C31_value_total_partial proves totality for attributes made by new. C31_ambiguous: value() does not look at the padding, so two different attributes have the same value. The other clauses are proved in full."
  },
  {
   "property": "C32",
   "status": "proved",
   "theorems": [
    "Cap.C32_call",
    "Cap.C32_history_bits",
    "Cap.C32_history_address",
    "Cap.C32_no_viewer",
    "Cap.C32_last",
    "Cap.C32_queries"
   ],
   "note": "All histories of policy API calls, by induction over the list of calls. C32_last: the keys and the threshold are those set last, and the is_..._set queries say whether they are the defaults."
  },
  {
   "property": "C33",
   "status": "proved",
   "theorems": [
    "Cap.C33_new",
    "Cap.C33_is_native_dummy",
    "Cap.C33_codes_distinct",
    "Cap.C33_new_not_special"
   ],
   "note": "All codes and policies."
  },
  {
   "property": "C34",
   "status": "proved",
   "theorems": [
    "Cap.C34_domestic_foreign",
    "Cap.C34_domestic_domestic",
    "Cap.C34_foreign_foreign",
    "Cap.C34_new_domestic",
    "Cap.C34_verify",
    "Cap.C34_derived_verifies",
    "Cap.C34_no_cross_verify",
    "Cap.C34_published"
   ],
   "note": "Collisions are named: the two colliding preimages are given explicitly. C34_published pins the two preimages: the ASCII texts DOMESTIC_ASSET and FOREIGN_ASSET and 32 little-endian bytes."
  },
  {
   "property": "C35",
   "status": "proved",
   "theorems": [
    "Cap.C35_round_trip",
    "Cap.C35_sound",
    "Cap.C35_wrong_commitment",
    "Cap.C35_total"
   ],
   "note": "AEAD correctness and the bincode round trip are hypotheses recorded in the trusted base."
  },
  {
   "property": "C36",
   "status": "proved",
   "theorems": [
    "Cap.C36_empty",
    "Cap.C36_sign_verify",
    "Cap.C36_binds",
    "Cap.C36_digest_binds"
   ],
   "note": "The hash collision names the two serialized lists; injectivity of the serialization is proved from the self-delimiting ciphertext encoding."
  },
  {
   "property": "C37",
   "status": "proved",
   "theorems": [
    "Cap.C37_create",
    "Cap.C37_verify_iff",
    "Cap.C37_verify_any",
    "Cap.C37_monotone",
    "Cap.C37_tamper"
   ],
   "note": "Tampering is reduced to the signature scheme accepting the same signature for two named messages."
  },
  {
   "property": "C38",
   "status": "partial",
   "theorems": [
    "Cap.C38_credential",
    "Cap.C38_host",
    "Cap.C38_window",
    "Cap.C38_fresh",
    "Cap.C38_partial",
    "Cap.C38_exact",
    "Cap.C38_false"
   ],
   "note": "C38_partial: every transfer that meets the documented conditions and involves no credential policy (and no viewer) is generated for every valid_until below 2^20, and by C38_window for no other: valid_until < 2^20 is necessary for every transfer, because the fee input always carries the dummy credential of expiry 2^20 - 1. C38_exact: with credentials, each one must also expire less than 2^20 after valid_until. So the property as stated (every valid_until) is false: C38_false gives, in every environment and for every tree depth, a well-formed transfer of one coin that is generated for every smaller valid_until and for none from 2^20 on. Completeness of the SNARK is assumed for the positive part only."
  },
  {
   "property": "C39",
   "status": "partial",
   "theorems": [
    "Cap.C39_transfer_partial",
    "Cap.C39_transfer_exact",
    "Cap.C39_refusals",
    "Cap.C39_mint_exact",
    "Cap.C39_mint_total",
    "Cap.C39_mint_any_key",
    "Cap.C39_accepted_panics",
    "Cap.C39_release_panics"
   ],
   "note": "open_mint_viewing_memo never panics and refuses exactly memos of the wrong length and, if addresses are revealed, plaintexts that are not points (C39_mint_total, C39_mint_exact). open_transfer_viewing_memo never panics on a note with at least one nullifier and one commitment (C39_transfer_partial), and C39_transfer_exact says exactly when it succeeds: the key is the policy's viewer, the length fits, the first element is the asset code, and every revealed address is a point and every revealed amount fits in 128 bits; otherwise one of two errors is returned (C39_refusals). FALSE for other notes: `len() - 1` underflows. C39_accepted_panics: from every accepted transfer, whatever the key, one can make another accepted one (same proof) on which the viewer panics in debug builds; C39_release_panics: in release builds the viewer panics on a note without nullifiers and with four commitments. C39_mint_any_key delimits the claim for mints: whose key it is, is not checked, so any key pair \"opens\" a mint whose policy hides the address."
  },
  {
   "property": "C40",
   "status": "proved",
   "theorems": [
    "Cap.C40_generate",
    "Cap.C40_odd_dummy",
    "Cap.C40_owned"
   ],
   "note": "Every condition in the statement, for every build and every choice of randomness, whatever the proof system (no assumption on the SNARK). Balance is exact over the natural numbers, not modulo 2^128. The code compares whole asset definitions where the circuit compares codes: a record with the dummy code and another policy is not a dummy for the library; for such a record only the stated ownership and stored root are guaranteed, and its amount must be zero (C40_odd_dummy)."
  },
  {
   "property": "C41",
   "status": "proved",
   "theorems": [
    "Cap.C41_agree",
    "Cap.C41_unique",
    "Cap.C41_generated"
   ],
   "note": "C41_agree: whenever the asset check of generate accepts, there is one definition, not the dummy, that the memo builder returns, the witness carries, and every non-fee output and non-dummy non-fee input has; C41_unique: it is the only definition with that property, unless every non-fee input is a dummy and there is no non-fee output (then it is the native one). C41_generated: the witness and memo of a generated note are about it. An example shows that without the check the memo builder (first definition) and the witness (last definition) do differ."
  },
  {
   "property": "C42",
   "status": "proved",
   "theorems": [
    "Cap.C42_output_len",
    "Cap.C42_bound",
    "Cap.C42_verified"
   ],
   "note": "The verifier's vector of public inputs is given explicitly in terms of the accessors, for each kind of note, whenever the instance check passes."
  },
  {
   "property": "C43",
   "status": "proved",
   "theorems": [
    "Cap.C43_injective",
    "Cap.C43_verify",
    "Cap.C43_transfer_binds",
    "Cap.C43_mint_binds",
    "Cap.C43_freeze_binds"
   ],
   "note": "The bound message determines key and data; a proof valid for the bound message only is rejected with any other key or data (all three kinds of notes)."
  },
  {
   "property": "C44",
   "status": "proved",
   "theorems": [
    "Cap.C44_history",
    "Cap.C44_block",
    "Cap.C44_native",
    "Cap.C44_accepted_false"
   ],
   "note": "Along every history of any length whose notes were made by the library and accepted by the reference validator, for every asset except the dummy the value of all unspent records is exactly what was granted plus what the mint notes of this asset published (C44_history, C44_block, C44_native for the native asset), and every record is spent at most once (C44_history: spentAt has no repetitions; each spend is of the record at that position). The hypothesis NoCollision says that the hash evaluations this history makes do not collide; it is about the values of the history, not about the hash functions, and is met by the example. The claim needs the notes to be made by the library: FALSE for arbitrary accepted notes, for every instantiation (C44_accepted_false: from a granted native record of any amount, one block with one accepted mint note creates a native fee record of any amount up to 2^128-1)."
  },
  {
   "property": "C45",
   "status": "proved",
   "theorems": [
    "Cap.C45_opened",
    "Cap.C45_records",
    "Cap.C45_accepted",
    "Cap.C45_change",
    "Cap.C45_creator",
    "Cap.C45_same_asset",
    "Cap.C45_native"
   ],
   "note": "Every satisfying assignment of the mint circuit together with the library's domestic check. C45_accepted (end to end): the code is the domestic code of the seed and digest in the prover's assignment; whatever record opening has the published commitment has exactly the published amount, asset definition and is unfrozen, or the commitment function collides on two named inputs. C45_change: the other record of the note is native. C45_creator: if the code was made by newDomestic from a seed and a description, the prover's seed and digest are these, or Keccak or the PRF collides on named inputs. C45_native / C45_dummy: minting the native or dummy code is a named Keccak preimage of 1 or 2. MintNote::verify is meant; batch verification skips the domestic check (C21)."
  },
  {
   "property": "C46",
   "status": "partial",
   "theorems": [
    "Cap.C46_partial",
    "Cap.C46_fee",
    "Cap.C46_records",
    "Cap.C46_accepted",
    "Cap.C46_policy_false",
    "Cap.C46_policies",
    "Cap.C46_agree",
    "Cap.C46_other_policy"
   ],
   "note": "Amount zero and \"the fee input is never a dummy\" hold of every satisfying assignment. \"Default policy\" is FALSE of assignments: is_dummy_policy adds map and threshold in the field and tests the sum, and neither is range-checked at a dummy position. C46_policy_false: for every instantiation an accepted note spends a dummy with map 1 and threshold -1. C46_partial: keys neutral and map + threshold = 0. For records the library can hold the claim is proved in full: C46_records (a record opening with the committed values of a dummy input is the dummy asset definition with its default policy, amount 0, unfrozen), C46_accepted end to end; C46_policies and C46_agree: library and circuit agree on dummies and dummy policies for every policy and every asset definition the API can build."
  },
  {
   "property": "C47",
   "status": "partial",
   "theorems": [
    "Cap.C47_partial",
    "Cap.C47_generated",
    "Cap.C47_false",
    "Cap.C47_refused"
   ],
   "note": "C47_partial: for every witness whose inputs passed the asset check, whose credentials have eight attributes and whose asset code is not the dummy code, the library's plaintext (plainMessage, the message of the memo by C14) is the circuit's transferMsgV, if the two address bits of the map agree. C47_generated: for every transfer generate returns a note for, over the threshold, the two messages are equal without that condition. The property as stated fails for the maps whose address bits differ: C47_false (host checks pass, the messages differ), C47_refused (generate returns no note for such an asset over the threshold, for owners with a non-zero y coordinate)."
  },
  {
   "property": "C48",
   "status": "partial",
   "theorems": [
    "Cap.C48_partial",
    "Cap.C48_exact",
    "Cap.C48_false"
   ],
   "note": "C48_partial: a transfer that meets the documented conditions (Spec.WellFormed) and the undocumented limits of the circuit (Spec.Limits) is generated, in both builds and for every randomness, with the expected fee, root, nullifiers and commitments, and the note is accepted at every time up to valid_until. C48_exact: given the documented conditions, and unless the threshold exceeds the amount moved by 2^127 or more, the limits are necessary as well, so they are the exact difference between the property as stated and the code. C48_false refutes the property as stated in every environment. Completeness of the SNARK is assumed. Amounts: the statement's bound (each amount below 2^127) is replaced by the total being below 2^127; see C25 for what happens above."
  },
  {
   "property": "C49",
   "status": "partial",
   "theorems": [
    "Cap.C49_transfer_partial",
    "Cap.C49_mint_partial",
    "Cap.C49_freeze_partial",
    "Cap.C49_paths",
    "Cap.C49_explicit_verifying_partial",
    "Cap.C49_transfer_explicit_false",
    "Cap.C49_mint_explicit_false",
    "Cap.C49_freeze_explicit_false"
   ],
   "note": "For the default paths the claim holds over every history of store calls: once the keys of a circuit have been stored, then after any sequence of further successful store calls, of any kinds and sizes, whose explicit destinations are not these files, loading gives exactly the proving key and the verifying key that preprocess makes (C49_transfer_partial, C49_mint_partial, C49_freeze_partial; C49_paths: no two keys share a default path); a verifying key stored to a path of the caller's choice loads back from it (C49_explicit_verifying_partial). FALSE for proving keys stored to a path of the caller's choice, for every instantiation: the verifying key is written over the proving key in the same file (C49_transfer_explicit_false, C49_mint_explicit_false, C49_freeze_explicit_false). External encodings of jf-plonk keys are a parameter (KeyCodec)."
  },
  {
   "property": "C50",
   "status": "partial",
   "theorems": [
    "Cap.C50_transfer_partial",
    "Cap.C50_mint_false",
    "Cap.C50_freezing_false",
    "Cap.C50_swapped"
   ],
   "note": "True for transfers: after a successful run the proving key and the verifying key of the requested size load from the default paths (C50_transfer_partial). FALSE for the other two kinds, for every instantiation: asked for `mint` the tool stores freeze keys and asked for `freezing` it stores mint keys, so that on a fresh directory the requested keys cannot be loaded afterwards (C50_mint_false, C50_freezing_false), while those of the other kind can (C50_swapped)."
  },
  {
   "property": "C51",
   "status": "proved",
   "theorems": [
    "Cap.C51_any",
    "Cap.C51_made",
    "Cap.C51_single",
    "Cap.C51_propose_ok",
    "Cap.C51_propose",
    "Cap.C51_block",
    "Cap.C51_fee_record"
   ],
   "note": "For a non-empty block of notes made by the library (mints below 2^127): validation succeeds if and only if no transfer has expired, every root is a root the ledger had at the end of some block, and no nullifier occurs twice in the block or in the ledger (C51_made). For arbitrary notes C51_any says exactly what is checked (which leaves out the domestic check of mints, see C21). C51_single: validating a transfer note alone is the same as validating it in a block of one. C51_propose, C51_propose_ok: a proposed block is signed so that everybody who expects this proposer decides about it as about its transactions and everybody who expects somebody else refuses it. C51_fee_record: after insertion the leaf behind the outputs of the block is the commitment of the proposer's record opening, worth exactly the sum of the fees."
  },
  {
   "property": "C52",
   "status": "partial",
   "theorems": [
    "Cap.C52_partial",
    "Cap.C52_same",
    "Cap.C52_false",
    "Cap.C52_full_false"
   ],
   "note": "C52_partial: in a ledger within its tree, insert_block succeeds exactly when the tree has room for the outputs and the fee record and the fees fit in 128 bits, and then the ledger has exactly the outputs and the fee record behind its leaves, the new root, and the nullifiers of the notes. FALSE when it fails: C52_false: for every instantiation and every block of fresh made notes whose fees exceed 128 bits, the validator accepts the block, insert_block returns an error, and yet the outputs are in the tree and the nullifiers stored: no note of the block is ever accepted again, no root is stored, and nobody gets the fees. C52_full_false: the same with a tree that runs full in the middle of a block (a panic)."
  },
  {
   "property": "C53",
   "status": "partial",
   "theorems": [
    "Cap.C53_partial",
    "Cap.C53_exact",
    "Cap.C53_false",
    "Cap.C53_declared"
   ],
   "note": "C53_partial: whoever owns a native record of the tree that covers the fee, and knows the seed and description of an asset, can make the change record and a mint of any amount below 2^127 of it, for every owner, policy, blinding factor and randomness, and the note is accepted with the expected fields. FALSE for the other amounts a record can hold: C53_false: no mint of 2^127 or more is both generated and accepted (for a sound proof system), and C53_exact: if the prover refuses unsatisfied circuits, 2^127 is exactly where minting ends. C53_declared: with the asset code the API makes for this seed and description (AssetDefinition::new) the record is mintable. Completeness of the SNARK is assumed."
  },
  {
   "property": "C54",
   "status": "partial",
   "theorems": [
    "Cap.C54_partial",
    "Cap.C54_exact",
    "Cap.C54_false"
   ],
   "note": "C54_partial: the freezer of some records of the tree can freeze or release all of them at once (together with dummies), with any native record of the tree that covers the fee, for every randomness; the note is accepted, and it commits to the change and to the same records with the flag flipped. The owners' addresses must not be the neutral point. FALSE without this restriction: C54_false: a request with a record owned by the neutral address is refused, unless the PRF gives the same value under the freezer's secret key and under hash(0,1,0). C54_exact: that the circuit's and the library's nullifiers coincide is exactly what is needed. Completeness of the SNARK is assumed."
  },
  {
   "property": "C55",
   "status": "partial",
   "theorems": [
    "Cap.C55_native_partial",
    "Cap.C55_native_exact",
    "Cap.C55_false",
    "Cap.C55_asset_partial"
   ],
   "note": "The two public entry points. C55_native_partial: whoever owns native records of the tree that cover the outputs and the fee can pay through generate_native, in both builds and for every randomness; the change is exactly what is left, and the note is accepted until valid_until. C55_asset_partial: the same for another asset through TxnFeeInfo::new and generate_non_native, within Spec.Limits (C48). FALSE without limits: C55_native_exact: generate_native succeeds exactly when valid_until is below 2^20, so C55_false: no native payment at all is possible with a later valid_until. Totals are required to be below 2^127. Completeness of the SNARK is assumed."
  },
  {
   "property": "C56",
   "status": "partial",
   "theorems": [
    "Cap.C56_partial",
    "Cap.C56_asset_partial",
    "Cap.C56_mint_partial",
    "Cap.C56_freeze_partial",
    "Cap.C56_received"
   ],
   "note": "C56_partial: after any honest history of the reference ledger, whoever owns unspent, unfrozen native records of the tree that cover the outputs and the fee can pay with them: with the paths the tree gives, generation succeeds for every randomness, the note is accepted by the validator in a block of its own, and the block goes into the ledger. C56_asset_partial, C56_mint_partial and C56_freeze_partial say the same for other assets, mints and freezes. C56_received: whatever a block creates is on the ledger and unspent afterwards, so that payments can be chained. Hypotheses: room in the tree; valid_until below 2^20 and the other limits of C53 to C55; the PRF and commitment values behind the nullifiers of this very history do not collide (Spec.NoClash, named values only). Completeness and batch correctness of the SNARK are assumed."
  },
  {
   "property": "C57",
   "status": "proved",
   "theorems": [
    "Cap.C57_opened",
    "Cap.C57_spends",
    "Cap.C57_tree",
    "Cap.C57_accepted"
   ],
   "note": "Histories of the reference ledger in which anybody submits any notes; the only thing known about a note is that the ledger accepted it. C57_opened: behind every note of an accepted history there is an assignment that satisfies its circuit (soundness of the proof system, batch verification). C57_spends: every record that such a note spends was created earlier on this ledger, at the position the assignment names, with all committed values equal (asset, amount, owner, policy, freeze flag, blinding). C57_tree: the tree of the ledger is the list of the commitments of all created records. Hypothesis on hashes: no collision among the hash evaluations of this very history (NoCollisionV). What accepted notes may do with the amounts is C58."
  },
  {
   "property": "C58",
   "status": "partial",
   "theorems": [
    "Cap.C58_value_partial",
    "Cap.C58_once_partial",
    "Cap.C58_accepted_partial",
    "Cap.C58_honest",
    "Cap.C58_alias_false",
    "Cap.C58_code_false"
   ],
   "note": "Histories of the reference ledger in which anybody submits any notes (the setting of C57). C58_value_partial and C58_once_partial: if the assignments behind the accepted notes pass three checks that the circuits do not make (spent records of a transfer have the asset code of the transfer; the change of a mint or freeze fits in 128 bits; secret scalars are below the order of the curve and no record of the neutral address is spent), then for every asset the unspent records are worth exactly what was granted and minted, and no position is spent twice. C58_honest: histories of notes made by the library pass the checks (a library user may still own the neutral address, with secret key 0). The claim without the checks is FALSE, for every instantiation: C58_alias_false (an owner with a small enough secret key spends both records twice and doubles everything), C58_code_false (any record of an asset without viewer becomes an equal amount of any other asset, e.g. native coins). For the third check see C44_accepted_false."
  },
  {
   "property": "C59",
   "status": "proved",
   "theorems": [
    "Cap.C59_sound",
    "Cap.C59_told",
    "Cap.C59_memo",
    "Cap.C59_change",
    "Cap.C59_fresh",
    "Cap.C59_exact",
    "Cap.C59_scans",
    "Cap.C59_gone",
    "Cap.C59_apart_of",
    "Cap.C59_apart"
   ],
   "note": "The wallet of the reference tests, following the reference ledger: anybody submits notes, anybody publishes memos, records are granted, the wallet is handed records, marks records as being spent and waits for change, in any order and number; the iteration order of its hash maps may change at any time. C59_sound: every record it holds was received, belongs to its key, is not frozen and is the leaf at the recorded position. C59_told, C59_memo, C59_change: every record it was handed, could decrypt from a memo, or was waiting for as change is held or its nullifier is published. C59_fresh: no nullifier of a held record is published (given Apart: the nullifiers of the received records collide neither with each other nor with one published before the record existed). C59_exact combines these. C59_apart: Apart follows from the absence of named PRF and commitment collisions, when no record with the dummy asset code is received. C59_scans: scanning never panics when every output but the first of a transaction has a memo. C59_gone: a block that publishes the nullifier of a record takes it out of the wallet, even when the wallet is told of it in the same block."
  },
  {
   "property": "C60",
   "status": "partial",
   "theorems": [
    "Cap.C60_funds",
    "Cap.C60_fee",
    "Cap.C60_collected",
    "Cap.C60_position_false",
    "Cap.C60_unspendable_partial"
   ],
   "note": "C60_funds: in every world (C59), the balance the wallet reports for an asset is the total of the records of that asset it holds, counted once each, and when the total does not fit in 128 bits the debug build panics while the release build reports it modulo 2^128. C60_fee: the fee record of a block is the leaf after all outputs of the block's transactions. C60_collected: it is the record the proposer keeps from building the block. The reference tests record it elsewhere, at offset + number of transactions - 1; C60_position_false: there, for every block of accepted notes, an output of one of the transactions is found instead, so that (C60_unspendable_partial) no membership witness looked up at that position proves the fee record, unless named hash inputs collide. Partial because the claim that the proposer's wallet knows where its fee is fails for the position used in the tests."
  },
  {
   "property": "C61",
   "status": "partial",
   "theorems": [
    "Cap.C61_pays_partial",
    "Cap.C61_payment",
    "Cap.C61_arrives",
    "Cap.C61_settles",
    "Cap.C61_twice_false",
    "Cap.C61_nobody"
   ],
   "note": "C61_pays_partial: in every world (C59) where the native records held cover the payments and the fee, spend_native succeeds, in both builds and for every randomness whose dummy is fresh; its note alone is accepted by the validator until 2^20 - 1 and the memo signature verifies. C61_payment: whatever it returns spends held native records worth exactly payments + change + fee, and the history goes on. C61_arrives: each recipient's wallet has its record at its position once it scanned the block. C61_settles: the sender's coins are gone and the change is back. FALSE for two payments in a row: C61_twice_false: the wallet does not set aside the records of an unconfirmed payment, so the second note always spends the same first record, and never is accepted together with or after the first one. C61_nobody: a payment without recipients always fails. Totals below 2^127; completeness of the SNARK is assumed."
  },
  {
   "property": "C62",
   "status": "partial",
   "theorems": [
    "Cap.C62_payment",
    "Cap.C62_pays_partial",
    "Cap.C62_arrives",
    "Cap.C62_settles",
    "Cap.C62_expired_false",
    "Cap.C62_far_false",
    "Cap.C62_twice_false"
   ],
   "note": "C62_pays_partial: in every world (C59) where the records of the asset cover the payments and one native record covers the fee, spend_non_native succeeds, in both builds and for every randomness whose dummy is fresh; its note alone is accepted by the validator until the note expires and the memo signature verifies. C62_payment: whatever it returns spends held records of this asset worth exactly payments + change, and one native record worth fee + change of the fee; the history goes on. C62_arrives: each recipient's wallet, and the sender's own for what is left, has its record at its position once it scanned the block. C62_settles: the spent records are gone and the change of the fee is back. FALSE: C62_expired_false and C62_far_false: a wallet with a credential that has expired, or is valid for 2^20 or longer, cannot pay in any asset at all, because the credential's expiry is used for every asset; C62_twice_false: two payments in a row in the same asset, or with the same fee, exclude each other. Totals below 2^127, limits of the memo as in C48; completeness of the SNARK is assumed."
  },
  {
   "property": "C63",
   "status": "partial",
   "theorems": [
    "Cap.C63_declared",
    "Cap.C63_kept",
    "Cap.C63_minted",
    "Cap.C63_mints_partial",
    "Cap.C63_arrives",
    "Cap.C63_settles",
    "Cap.C63_scans",
    "Cap.C63_limit_false",
    "Cap.C63_twice_false"
   ],
   "note": "C63_declared and C63_kept: the issuer keeps each definition it declared, for the code of its seed and description, unless it declares another asset with the same code. C63_mints_partial: in every such history, with a held native record that covers the fee, mint succeeds for every declared asset, owner and amount below 2^127; its note alone is accepted by the validator at any time and the memo signature verifies. C63_minted: whatever mint returns pays exactly the fee from a held native record and creates one record of the declared asset. C63_scans: scan_txn succeeds for the block of a mint and the issuer goes on with it. C63_arrives: the owner's wallet has that record, C63_settles: the fee record is gone and its change is back, after the block. FALSE: C63_limit_false: amounts from 2^127 on are never accepted; C63_twice_false: two mints in a row with the same fee exclude each other. The memo must be encryptable (C48); completeness of the SNARK is assumed."
  },
  {
   "property": "C64",
   "status": "partial",
   "theorems": [
    "Cap.C64_did",
    "Cap.C64_accepted_partial",
    "Cap.C64_taken",
    "Cap.C64_settled",
    "Cap.C64_released",
    "Cap.C64_spent_false",
    "Cap.C64_twice_false"
   ],
   "note": "C64_did says what a request does (for every reachable wallet), C64_accepted_partial that it succeeds and is accepted; C64_taken, C64_settled, C64_released give the effects on owners. Partial because acceptance needs every listed record to be live on the ledger (C64_spent_false: one spent record is enough to refuse the request, and the freezer never drops it), fresh dummy keys and nullifiers, and no earlier request in flight (C64_twice_false)."
  },
  {
   "property": "C65",
   "status": "partial",
   "theorems": [
    "Cap.C65_partial",
    "Cap.C65_accepted_partial",
    "Cap.C65_mint_opened",
    "Cap.C65_mint",
    "Cap.C65_false",
    "Cap.C65_native_false",
    "Cap.C65_mint_false"
   ],
   "note": "C65_partial (assignments), C65_accepted_partial (from verify, under SnarkSound): if more than the threshold of an asset with a viewer goes out, then whatever the viewer is shown is what the assignment's records are, field by field, and nothing hidden is shown; C65_mint for mints, for the viewer named in the policy. Conditions: the transfer does move that asset, above the threshold (which the viewer cannot tell from the memo), and the two address bits of the map agree. Without them the property is false in every environment: C65_false, C65_native_false (any accepted transfer of an asset without viewer, or under the threshold, has an accepted twin that shows the viewer of any asset whatever its author likes), C65_mint_false (the same for mints of assets without viewer)."
  },
  {
   "property": "C66",
   "status": "partial",
   "theorems": [
    "Cap.C66_partial",
    "Cap.C66_false",
    "Cap.C66_accepted_false"
   ],
   "note": "C66_partial: what the library's function for opening the memo returns depends only on the fields that the map reveals (and on whether the owner is the neutral address). The memo itself discloses everything: C66_false (every mint the library makes for a policy with a viewer, whatever its map) and C66_accepted_false (every accepted one, under SnarkSound): the viewer's key decrypts the owner's address and the blinding factor, and two mints that differ only in hidden fields have different plaintexts. Unlike transfers (C14_hides), no field is masked."
  },
  {
   "property": "C67",
   "status": "partial",
   "theorems": [
    "Cap.C67_wallet",
    "Cap.C67_lists",
    "Cap.C67_there_partial",
    "Cap.C67_shown",
    "Cap.C67_stays",
    "Cap.C67_confirmed",
    "Cap.C67_moved",
    "Cap.C67_accepted_partial",
    "Cap.C67_transfer",
    "Cap.C67_mint",
    "Cap.C67_truthful",
    "Cap.C67_matched_quiet",
    "Cap.C67_matched_next",
    "Cap.C67_scans_partial",
    "Cap.C67_legible_transfer",
    "Cap.C67_legible_mint",
    "Cap.C67_reads",
    "Cap.C67_blind_false",
    "Cap.C67_stranger_false",
    "Cap.C67_foreign_false",
    "Cap.C67_stale_false",
    "Cap.C67_twice_false"
   ],
   "note": "Follows: the freezer of the reference tests scans every block (successfully) from the beginning, is handed keys of users and records of its own, and freezes and releases at will. C67_wallet, C67_lists: its wallet is a wallet as in C59, and what it lists is of its asset, of that user, in that state. C67_there_partial: what it lists is the leaf at the recorded position, if what it reads is true (C67_truthful: if all transfers move its asset and all mints are of its asset) and if freeze notes for its records create what it waits for (C67_matched_next: if it makes one request at a time). C67_shown, C67_stays, C67_confirmed, C67_moved: whatever it reads about is listed, what is listed stays listed until a freeze note takes it, and confirmed records change lists. C67_accepted_partial: requests are accepted if the listed records are unspent. C67_scans_partial: a block is scanned without error if every transaction is legible (C67_legible_transfer, C67_legible_mint: transfers and mints of the asset for known users); C67_reads: and only if every transfer decrypts to something that begins with the code of the asset. Partial because of these conditions; C67_blind_false (a transfer of another asset of the same viewer makes the scan of the block fail), C67_stranger_false (so does a mint for an unknown user), C67_foreign_false (a mint of another asset of the same viewer is listed as one of the freezer's asset), C67_stale_false (a record that its owner has spent stays on the list, and from then on no request for this owner is accepted) and C67_twice_false (after two requests in a row the freezer records a wrong opening for the accepted one) show that they are needed."
  },
  {
   "property": "C68",
   "status": "partial",
   "theorems": [
    "Cap.C68_change",
    "Cap.C68_published",
    "Cap.C68_asset_partial",
    "Cap.C68_refused",
    "Cap.C68_native",
    "Cap.C68_false"
   ],
   "note": "C68_asset_partial: whatever the build and the amounts, if generate_non_native succeeds and some given input is of an asset with another code than the native one and is not a dummy, the published fee is the requested one, the given inputs and outputs carry the same total, and the fee record is worth the change plus the fee; the change is native, unfrozen, the first output and belongs to the owner of the fee record. C68_published: in general the published fee plus the given outputs is the requested fee plus the given inputs. So the property fails for native records, which the function does not refuse although its documentation excludes them: C68_false shows for every environment, every tree depth and every well-formed payment that whatever native inputs exceed the outputs by is paid as fee beyond the requested amount. C68_refused: with a change that is not exact, fee records that are not native, or a wrong path nothing is generated."
  },
  {
   "property": "C69",
   "status": "partial",
   "theorems": [
    "Cap.C69_verify",
    "Cap.C69_mint",
    "Cap.C69_freeze",
    "Cap.C69_transfer_partial",
    "Cap.C69_non_native_partial",
    "Cap.C69_native_partial",
    "Cap.C69_debug_false",
    "Cap.C69_attrs_false",
    "Cap.C69_empty_false",
    "Cap.C69_preprocess",
    "Cap.C69_validator_false",
    "Cap.C69_validator_partial"
   ],
   "note": "C69_verify: verifying single notes, batches and memo signatures, signing memos, calculate_fee and derive_txns_fee_records never panic, whatever the arguments. C69_mint, C69_freeze: nor does making mints and freezes. C69_transfer_partial, C69_non_native_partial, C69_native_partial: making transfers panics only when overflow is checked and the totals reach 2^127 (for native transfers also when outputs plus fee reach 2^128 or there is no input), or when a credential asked for by the policy does not have eight attributes. These cases panic: C69_debug_false, C69_attrs_false, C69_empty_false. C69_preprocess: of the three preprocess functions only freeze for 0 inputs panics, as long as the tree has a leaf for every input (else see C82_freeze). C69_validator_false, C69_validator_partial: the reference validator panics on notes of a shape without keys, before it checks any proof, and on nothing else. Reading attributes and opening viewing memos are C31 and C39."
  },
  {
   "property": "C70",
   "status": "partial",
   "theorems": [
    "Cap.C70_explicit_partial",
    "Cap.C70_default_partial",
    "Cap.C70_keys",
    "Cap.C70_disk_ignored",
    "Cap.C70_default_false",
    "Cap.C70_tool_false",
    "Cap.C70_size"
   ],
   "note": "With an explicit file, and at the default place in builds for other curves than bn254, the claim holds over every history of further store calls: loading gives the parameter that was stored (C70_explicit_partial, C70_default_partial), and storing a parameter at its default place spoils no key file (C70_keys). FALSE at the default place in builds with the default feature bn254, for every instantiation: what is stored there is never read, loading (and the key tool) takes the parameter compiled into the library whatever is on the disk (C70_default_false, C70_tool_false, C70_disk_ignored). C70_size: load_srs does not use its size below the limit of 2^17. jf-plonk's parameters, their encoding and SHA-256 are a parameter (SrsEnv)."
  },
  {
   "property": "C71",
   "status": "proved",
   "theorems": [
    "Cap.C71_note",
    "Cap.C71_again",
    "Cap.C71_records",
    "Cap.C71_unambiguous",
    "Cap.C71_truncated",
    "Cap.C71_only_encodings",
    "Cap.C71_bad_kind",
    "Cap.C71_field",
    "Cap.C71_size",
    "Cap.C71_commit"
   ],
   "note": "Proved for every transaction note, record opening, credential and asset definition, whatever follows in the stream, with vectors shorter than 2^64 elements (any Rust vector). The encodings of points, proofs, signatures and AEAD keys are external; that only encodings are read (`C71_only_encodings`) assumes it of those four."
  },
  {
   "property": "C72",
   "status": "proved",
   "theorems": [
    "Cap.C72_stays",
    "Cap.C72_spent",
    "Cap.C72_merge",
    "Cap.C72_order",
    "Cap.C72_commute"
   ],
   "note": "For the reference ledger and validator, for arbitrary notes (also notes not made by the library), every intermediate history and every time; under the idealisation of batch verification (`SnarkBatch`)."
  },
  {
   "property": "C73",
   "status": "proved",
   "theorems": [
    "Cap.C73_spender",
    "Cap.C73_frozen",
    "Cap.C73_kept",
    "Cap.C73_balance",
    "Cap.C73_nullifier",
    "Cap.C73_accepted"
   ],
   "note": "Histories of the reference ledger in which anybody submits any notes (the setting of C57). C73_spender: whoever takes a record off the ledger holds a secret key of its address (then it is not frozen), or a secret key of its policy's freezer (then the transaction is a freeze, which gives the same amount of the same asset back to the same owner). C73_kept: a position that is unspent stays unspent as long as neither key is used. C73_frozen: a frozen record is taken only with the freezer's key. C73_balance: what an address holds of an asset (frozen records included) does not become less as long as no transaction spends with a secret key of the address. C73_nullifier: if the nullifier that the owner would publish for a record has been published (so that the ledger would refuse the owner's spending), then it was published by taking this very record with one of the two keys, or two named inputs of a hash function collide. C73_accepted: the same for a history of which only acceptance is known. Hypothesis on hashes as in C57 (NoCollisionV), about the evaluations of this history."
  },
  {
   "property": "C74",
   "status": "proved",
   "theorems": [
    "Cap.C74_blocked",
    "Cap.C74_idle",
    "Cap.C74_included",
    "Cap.C74_accepted"
   ],
   "note": "Any ledger state, any further history in which anybody submits any notes. C74_blocked: if a pending transaction that was acceptable is refused later, then it has expired, or one of the very records it spends has been taken meanwhile, at the same position, with a secret key of its owner or of its freezer, or two named inputs of a hash function collide. C74_idle: for transactions made by the library: if the owners and freezers of the records it spends do nothing, it stays acceptable until it expires. C74_included: then a block with it goes into the ledger as long as there is room. C74_accepted: the same for histories and pending notes of which only acceptance is known."
  },
  {
   "property": "C75",
   "status": "partial",
   "theorems": [
    "Cap.C75_terms_partial",
    "Cap.C75_partial",
    "Cap.C75_freezer",
    "Cap.C75_honest",
    "Cap.C75_native_false",
    "Cap.C75_mint_false"
   ],
   "note": "Histories of the reference ledger in which anybody submits any notes (the setting of C57), with the missing check of C02 (SameCode) as a hypothesis. C75_terms_partial: a record that is worth something, of an asset other than the native one, has the viewer, credential and freezer keys and the threshold of a definition under which its asset was granted or minted. C75_partial: with the missing range check of C06 (MapFits) its whole asset definition is one of these. C75_freezer: an asset issued without a freezer is never taken by anybody but the owner. C75_honest: for notes made by the library the claim holds of every record without these conditions. FALSE without them, and of the native asset: C75_native_false: for every instantiation, whoever holds a native record can turn it, in an accepted transfer, into a record with the native code and any policy (say, with the payer as freezer), because a transfer whose other inputs are all dummies may name any policy. C75_mint_false: the issuer can mint the same code under any two policies, since the code does not bind the policy."
  },
  {
   "property": "C76",
   "status": "partial",
   "theorems": [
    "Cap.C76_native_partial",
    "Cap.C76_asset_partial",
    "Cap.C76_mint_partial",
    "Cap.C76_freeze_partial",
    "Cap.C76_unspent",
    "Cap.C76_accepted",
    "Cap.C76_stays"
   ],
   "note": "The counterpart of C56 for a ledger on which anybody submits anything. C76_native_partial, C76_asset_partial, C76_mint_partial and C76_freeze_partial: in every state the reference ledger can reach (nothing is assumed about the notes in it), whoever knows the opening of a commitment in the tree, holds its key (or the freezer's), and finds its nullifier unpublished, can pay, mint or freeze with it: with the paths the tree gives, generation succeeds for every randomness, and a block of that note is accepted and goes in. No hypothesis on hashes; the nullifiers of the coins used together have to be distinct. C76_unspent: in a history of accepted notes a record nobody has spent has an unpublished nullifier, and coins at different positions have different ones, or two named inputs of a hash function collide; C76_accepted: for histories of which only acceptance is known. C76_stays: a coin stays spendable as long as nobody spends this very record with a key of its owner or freezer. Hypotheses: room in the tree; valid_until below 2^20 and the other limits of C53 to C55, which is why this is partial. Completeness and batch correctness of the SNARK are assumed."
  },
  {
   "property": "C77",
   "status": "proved",
   "theorems": [
    "Cap.C77_memo",
    "Cap.C77_made",
    "Cap.C77_same",
    "Cap.C77_accepted"
   ],
   "note": "C77_memo: the viewing memo of a generated transfer has as many entries with a viewer as without, above the reveal threshold as below, with dummy inputs as without: a number that depends on how many records are spent and created. C77_made: the encoded size of every note made by the library is therefore a function of its kind, the numbers of records spent and created, the length of the bound data the sender chose, and the size of the proof (jf-plonk, external; its size depends on the circuit). C77_same: two such notes with the same of these have the same size, whatever the assets, policies, amounts, owners and freeze flags. C77_accepted: the same formula holds for every note a validator accepts, so a different size does not mark notes made by other programs either. Uses the byte format of C71."
  },
  {
   "property": "C78",
   "status": "partial",
   "theorems": [
    "Cap.C78_restores",
    "Cap.C78_restored_partial",
    "Cap.C78_backup",
    "Cap.C78_lost",
    "Cap.C78_change_lost",
    "Cap.C78_false"
   ],
   "note": "False for the reference wallet: the first output of every transaction, which is where payments, mints and freezes put their change, comes without a memo, so a wallet rebuilt from the key and everything that was published never holds it (C78_lost for every first output of every history, C78_change_lost for every native payment; C78_false: a history in which the owner holds their change and the rebuilt wallet does not). Proved: scanning the published blocks again from the beginning succeeds (C78_restores); the rebuilt wallet holds exactly those records of the one that followed along whose memo was published, whatever was pending, whoever made the notes and memos (C78_restored_partial); and when the openings of the other ones were kept and are handed to it, it holds exactly what the lost one held (C78_backup)."
  },
  {
   "property": "C79",
   "status": "proved",
   "theorems": [
    "Cap.C79_validator",
    "Cap.C79_history",
    "Cap.C79_native",
    "Cap.C79_asset",
    "Cap.C79_freezer"
   ],
   "note": "For the validator every sequence of requests is covered, refused and panicking ones included; for wallets and freezers every cache that any sequence of successful payments can leave. As in the rest of the model a failing payment returns no wallet."
  },
  {
   "property": "C80",
   "status": "proved",
   "theorems": [
    "Cap.C80_transfer_native",
    "Cap.C80_transfer_asset",
    "Cap.C80_needs_output",
    "Cap.C80_mint",
    "Cap.C80_freeze",
    "Cap.C80_batch"
   ],
   "note": "C80_transfer_native, C80_transfer_asset: a transfer builder that is given as many keys as inputs, balanced amounts, a fee change not above the fee record, at least one output besides the change and a tree with room for inputs and outputs makes records with these amounts and owners, and builds a note that spends exactly these, pays the difference as fee, carries one memo for each output under a valid signature, and is accepted until valid_until (for native notes until 2^20 - 1); C80_mint, C80_freeze: the same for mint and freeze builders, whatever records are switched to frozen before; C80_batch: whatever is drawn within the ranges of generate_txns, all notes are accepted one by one and as a batch, with the keys, roots and time that the parameters give. Named hypotheses: the nullifiers of one note are distinct (a collision of the PRF otherwise), the drawn keys and asset codes are not degenerate, the encryption of memos succeeds, the proof system is complete. C80_needs_output: without an output besides the change no note is built, because an empty list of memos cannot be signed."
  },
  {
   "property": "C81",
   "status": "proved",
   "theorems": [
    "Cap.C81_transfer",
    "Cap.C81_mint",
    "Cap.C81_freeze",
    "Cap.C81_memo"
   ],
   "note": "C81_transfer, C81_mint, C81_freeze: the calls that the library makes to build a circuit succeed for every witness and public inputs of matching sizes, and every two of the same size give the same variables, gates and public variables, so a key made for one fits all; the gates hold for the values that were put in exactly when the relation holds of the witness; and values for the public variables can be completed to values for all variables that satisfy all gates exactly when some witness of this size satisfies the relation with these public inputs. The relations are those that C01-C80 are about. C81_memo: a mint whose memo does not have three ciphertexts is refused while the circuit is built. The gadgets of jf-relation and jf-primitives are taken as gates."
  },
  {
   "property": "C82",
   "status": "proved",
   "theorems": [
    "Cap.C82_transfer",
    "Cap.C82_mint",
    "Cap.C82_freeze",
    "Cap.C82_sound",
    "Cap.C82_complete",
    "Cap.C82_batch",
    "Cap.C82_refuses",
    "Cap.C82_preprocess",
    "Cap.C82_prove_transfer",
    "Cap.C82_prove_mint",
    "Cap.C82_prove_freeze"
   ],
   "note": "C82_transfer, C82_mint, C82_freeze: the circuit that is built from the dummy witness during preprocessing has the layout of the circuit of every witness of its size, and preprocessing fails exactly for the sizes listed (no inputs, no outputs, a freeze of fewer than two records, a freeze of more records than the tree has leaves, which panics). C82_sound, C82_complete, C82_batch, C82_refuses: the laws of the proof system for the three relations that C01-C80 assume (SnarkSound, SnarkComplete, SnarkBatch, SnarkRefuses) follow from the laws of a proof system for circuits made of gates, which knows nothing about CAP. C82_prove_*: prove, as the library composes it from building, checking satisfiability and proving, is the prove of the model. Left as an assumption about the relations: SnarkSized, used in C19_generate_any only."
  },
  {
   "property": "C83",
   "status": "proved",
   "theorems": [
    "Cap.C83_transfer",
    "Cap.C83_mint",
    "Cap.C83_freeze",
    "Cap.C83_error",
    "Cap.C83_verifying_key"
   ],
   "note": "For the size that compute_universal_param_size returns: a universal parameter of this size or more gives keys (C83_transfer, C83_mint, C83_freeze), and the circuit of every witness of the same numbers of inputs and outputs and the same depth needs exactly this size and has the number of gates of the key, so that proving never needs a larger one. C83_error: where no size is returned no parameter of any size gives keys, and both calls fail with the same error. C83_verifying_key: the verifying key taken from a transfer proving key is the one preprocessing returned with it. Assumed of jf-plonk: SrsSuffices, and that a proving key contains its verifying key."
  },
  {
   "property": "C84",
   "status": "partial",
   "theorems": [
    "Cap.C84_encrypt",
    "Cap.C84_sign",
    "Cap.C84_binds",
    "Cap.C84_eq",
    "Cap.C84_generated",
    "Cap.C84_generate_partial",
    "Cap.C84_stored",
    "Cap.C84_bytes",
    "Cap.C84_truncated",
    "Cap.C84_only_encodings",
    "Cap.C84_pair_false",
    "Cap.C84_locked"
   ],
   "note": "Proved: what is encrypted to a user is read by that user under the same label; a signature is accepted under the signer's public key, and accepted for two messages only with a named collision of hash_to_field or of the signature scheme; a freezer key pair survives its byte format, whatever follows, and equal encodings are equal pairs under eq. FALSE (C84_pair_false): bytes whose two halves do not belong together are accepted as a freezer key pair, for every secret and every other public point. C84_generate_partial: a freeze note of a record whose freezer is the public half of the key pair given is generated only if the halves belong together, and C84_locked: records issued under the public half of such a stored pair are never frozen with it."
  },
  {
   "property": "C85",
   "status": "partial",
   "theorems": [
    "Cap.C85_transfer",
    "Cap.C85_mint",
    "Cap.C85_freeze",
    "Cap.C85_conserves",
    "Cap.C85_mint_fee",
    "Cap.C85_transfer_partial",
    "Cap.C85_mint_partial",
    "Cap.C85_freeze_accepted",
    "Cap.C85_transfer_generated",
    "Cap.C85_mint_generated",
    "Cap.C85_freeze_generated",
    "Cap.C85_transfer_false",
    "Cap.C85_mint_false",
    "Cap.C85_freeze_fee_false"
   ],
   "note": "Proved for all assignments: the freeze circuit is the documented relation; the transfer circuit and the mint circuit together with exactly the conditions of TransferGap and MintGap are the documented relations. Generated notes satisfy the documented relations if credentials are by the policy's issuer for the owner and expire before 2^20, and the change of a mint is below 2^127; accepted freeze notes satisfy theirs outright. Negations: accepted transfers for which nobody has a documented witness; accepted mints that violate the relation; and the documented freeze relation itself permits a fee larger than the record that pays it."
  },
  {
   "property": "C86",
   "status": "proved",
   "theorems": [
    "Cap.C86_masks",
    "Cap.C86_transfer",
    "Cap.C86_quiet",
    "Cap.C86_viewer",
    "Cap.C86_receivers",
    "Cap.C86_mint",
    "Cap.C86_freeze",
    "Cap.C86_release"
   ],
   "note": "Two requests for a note are compared: the real one, and another story with other amounts, assets, policies, credentials, receivers, dummies and (for freezes) directions, told about the same positions of the tree and the same nullifier keys. Under idealised hiding of commitments and zero knowledge there is, for each pair of records, a renaming of blinding factors, and a renaming of the prover's randomness, under which both stories produce the very same note; so whoever sees the note and the ledger, the validator included, cannot tell the stories apart. C86_transfer: equal messages to the viewer suffice (C86_quiet: in particular no viewer or amounts up to the threshold); C86_receivers: amounts and receivers of the same inputs; C86_mint: fee record, change and receiver of a mint without viewer; C86_freeze and C86_release: a freeze note does not show whether it freezes or releases. The receivers' memos are separate ciphertexts and not covered; nullifier keys are the same in both stories (that nullifiers do not give away their keys is the pseudorandomness of the PRF, not modelled)."
  },
  {
   "property": "C87",
   "status": "partial",
   "theorems": [
    "Cap.C87_locked_false",
    "Cap.C87_far_false",
    "Cap.C87_exact",
    "Cap.C87_elsewhere_partial",
    "Cap.C87_usable_partial",
    "Cap.C87_frozen_partial"
   ],
   "note": "False of the code for policies with a freezer and no viewer (C87_locked_false): the policy can be put together and declared with the API, and units of it are minted and accepted, but every one of the three ways of making a transfer fails as soon as such a record is among the inputs or outputs, for all randomness, keys and times. C87_exact: of the transfers that meet all other conditions, exactly those whose policy names a viewer along with a freezer are generated. C87_elsewhere_partial: the restriction is the library's alone: the same transfers satisfy the circuit, and made by another program they are accepted by every validator. C87_frozen_partial: the freezer can freeze and release such units all the same. C87_far_false: a policy with a viewer and a threshold of 2^128 - 1 can be declared and minted under, but a transfer of less than 2^127 such units is only made if the empty memo happens to decrypt to the message for the viewer. C87_usable_partial: for all other policies made with the API, amounts below 2^127, and, if there is a viewer, a threshold that exceeds the amount by less than 2^127: once minted on the reference ledger, the units can be paid on, after any later history in which their nullifier was not published, whatever the reveal bits say. Assumed: completeness and batch correctness of the SNARK; valid_until below 2^20 and credentials that are not valid for too long (C55_false)."
  },
  {
   "property": "C88",
   "status": "partial",
   "theorems": [
    "Cap.C88_binary",
    "Cap.C88_text",
    "Cap.C88_kinds",
    "Cap.C88_text_identifies",
    "Cap.C88_binary_kinds_false",
    "Cap.C88_tag",
    "Cap.C88_record",
    "Cap.C88_memo",
    "Cap.C88_record_length",
    "Cap.C88_policy",
    "Cap.C88_credential",
    "Cap.C88_note",
    "Cap.C88_calm",
    "Cap.C88_panic_false",
    "Cap.C88_panic_partial",
    "Cap.C88_unique_false",
    "Cap.C88_unique_partial",
    "Cap.C88_parse_amount",
    "Cap.C88_show_amount"
   ],
   "note": "Round trips of all 21 tagged types in binary and text form, of records, policies, credentials and notes, hold (C88_binary, _text, _record, _policy, _credential, _note); texts of different kinds never mix (C88_kinds, _text_identifies, _tag); memos give their owner the record with bincode as it is (C88_memo) and have one length (C88_record_length); amounts (C88_parse_amount, _show_amount). Reading records, credentials and notes never panics (C88_calm). False: that malformed bytes never panic (C88_panic_false for policies, reveal maps and verifying keys; C88_panic_partial says when), that binary forms tell kinds apart (C88_binary_kinds_false), and, if jf-utils tolerates bytes after a value, that a value has one binary form (C88_unique_false, C88_unique_partial). The forms of types of other crates are parameters with a round trip."
  },
  {
   "property": "C89",
   "status": "partial",
   "theorems": [
    "Cap.C89_books_partial",
    "Cap.C89_solvent_partial",
    "Cap.C89_claims",
    "Cap.C89_total_partial",
    "Cap.C89_honest",
    "Cap.C89_solvent_false"
   ],
   "note": "Any number of wallets (C59) with keys of different addresses follow the same ledger; each is shown its own memos and handed its own records. C89_books_partial: for every asset, the balances they report (debug build) and the unspent records that none of them holds make up exactly what was granted and minted. C89_solvent_partial: so the wallets together never claim more. C89_claims: a wallet that was handed an unspent record, can decrypt its memo, or waited for it as change, holds it. C89_total_partial: when every unspent record of the asset is known in this way to some wallet, the balances make up exactly what was granted and minted. Partial because of the checks that the circuits do not make (C58); C89_honest: in histories of notes made by the library they hold. C89_solvent_false: without them, for every instantiation, a wallet reports an amount of an asset of which nothing was ever granted or minted."
  },
  {
   "property": "C90",
   "status": "partial",
   "theorems": [
    "Cap.C90_power",
    "Cap.C90_fits_partial",
    "Cap.C90_own_false",
    "Cap.C90_least_false",
    "Cap.C90_fits_false",
    "Cap.C90_given",
    "Cap.C90_room",
    "Cap.C90_chosen_partial"
   ],
   "note": "C90_power: if the logarithm computed with floating point numbers is not too large, the next power of three is the least one, for all numbers up to 3^40; whatever it is, a result is a power of three and large enough. C90_given: with a depth given, the builder is the one of C80; C90_room: it is then made exactly if there is a key for each input, at least one input and output, and room in the tree. C90_chosen_partial: up to 27 records, the builder without a depth is the one that is given the least power of three not below their number as depth (3, 9 or 27), so all of C80 is true of it. C90_fits_partial: up to 3^38 records a tree of the chosen depth has room for all. Not true in general: C90_own_false, from 28 up to 3^21 records the builder itself refuses (by a panic) the depth it chooses, because it takes the power of three and not its exponent; C90_least_false: up to 27 records a smaller depth always suffices; C90_fits_false: the depth is cut to eight bits, so that for 3^38 + 1 records it is 11."
  },
  {
   "property": "C91",
   "status": "partial",
   "theorems": [
    "Cap.C91_legible",
    "Cap.C91_books_partial",
    "Cap.C91_forged_false",
    "Cap.C91_hidden_false"
   ],
   "note": "Anybody submits any notes. For an asset whose policy reveals addresses and amounts, and for every address: what it holds, together with what its viewer saw it pay, is what it was granted together with what the viewer saw it receive. This needs that every transfer of the asset moves more than the reveal threshold (or nothing), that its receivers are points of the curve (neither is enforced), that no transfer of something else carries a memo the viewer can open (C91_hidden_false: without the second, an accepted transfer above the threshold moves everything and shows nothing; C91_forged_false: without the third, whoever makes a payment of an asset without viewer can attach a memo that shows the viewer of any other asset whatever receipt they like, with the same effect on the ledger), that no two definitions share the code of the asset, and that the hash evaluations of the history do not collide."
  },
  {
   "property": "C92",
   "status": "partial",
   "theorems": [
    "Cap.C92_false",
    "Cap.C92_exact",
    "Cap.C92_standstill",
    "Cap.C92_circuit"
   ],
   "note": "FALSE of the code. C92_exact: in every state the reference ledger can reach, whoever is ready to pay with native coins can make a note that the ledger accepts at the time `time` if and only if `time` is below 2^20. C92_false: from 2^20 on no block with a transfer made by the library is accepted, of any asset, whoever made it and whatever expiry date they asked for. C92_standstill: in a ledger whose users all use the library, every block from then on consists of mints and freezes only. These do go on at every time (C76_mint_partial, C76_freeze_partial). C92_circuit: it is the library that stops, not the circuit: for any two native coins there is a note that verifies at all times. The reason is the credential that the library puts into the fee input and into every input without credential: it expires at 2^20 - 1, and the library has no way to choose another one (C38). Completeness and batch correctness of the SNARK are assumed where notes are accepted."
  },
  {
   "property": "C93",
   "status": "partial",
   "theorems": [
    "Cap.C93_partial",
    "Cap.C93_honest",
    "Cap.C93_false"
   ],
   "note": "C93_partial: a genuine native record (native code and the native policy) that a wallet holds is taken off the ledger, now or later and whatever anybody submits, only by somebody with a secret key of its owner's address. C93_honest: in histories of notes made by the library, where everything granted or minted under the native code is genuine, every record that a wallet counts under the native code is genuine. Partial because the circuits do not tie the native code to the native policy. C93_false: for every instantiation, the holder of one coin can pay it, in an accepted transfer and with a memo that opens, as a record with the native code and a policy that names the payer's own freezer key; the receiver's wallet reports the amount as native balance, every payment from it fails, and the payer freezes the record with FreezeNote::generate in an accepted block."
  },
  {
   "property": "C94",
   "status": "partial",
   "theorems": [
    "Cap.C94_shown_partial",
    "Cap.C94_partial",
    "Cap.C94_honest",
    "Cap.C94_false"
   ],
   "note": "FALSE of the code. C94_shown_partial: whatever anybody submits, whoever moves as its owner a record whose policy names a credential issuer does so by a transfer and shows a signed credential of eight attributes that has not expired at the time of the block. C94_partial: with the check that is missing in the circuit (issuer of the credential = issuer in the policy, user of the credential = owner of the record), the credential is one of the policy's issuer for the owner. C94_honest: honest users pass that check. C94_false: without it, in every state the reference ledger can reach, whoever owns records of an asset under credentials pays with them, with the library's own functions, by a credential they signed themselves with any key and for anybody. Completeness and batch correctness of the SNARK are assumed where notes are accepted."
  },
  {
   "property": "C95",
   "status": "partial",
   "theorems": [
    "Cap.C95_note",
    "Cap.C95_shift",
    "Cap.C95_memos_partial",
    "Cap.C95_arrives_partial",
    "Cap.C95_false",
    "Cap.C95_dark"
   ],
   "note": "False as stated: nobody in the reference ledger or wallet checks the signature on the receiver memos, so whoever passes a payment on can put other memos beside it; the block is accepted and scanned, and the recipient's wallet holds nothing new (C95_false). The note itself cannot be changed (C95_note, and C95_shift for the change that verify alone does not notice), changed memos do not pass the signature check (C95_memos_partial), and a payment whose memos pass the check arrives whoever passed it on (C95_arrives_partial). Hypotheses: a proof verifies for one statement only (key, public inputs and message are hashed into its challenges), different circuits have different keys."
  },
  {
   "property": "C96",
   "status": "partial",
   "theorems": [
    "Cap.C96_statement",
    "Cap.C96_settled",
    "Cap.C96_charge",
    "Cap.C96_account",
    "Cap.C96_next_partial",
    "Cap.C96_goes_on",
    "Cap.C96_all_partial"
   ],
   "note": "C61 shows that a wallet cannot make two payments without waiting (C61_twice_false). C96 is about a wallet that waits for each payment to be in a scanned block. C96_statement: whatever the block (anybody's transactions, any memos), what a wallet holds of an asset changes by exactly the held records whose nullifier the block publishes and the records its memos and awaited changes bring. C96_settled: after the block with its own payment the wallet holds what it held without the coins spent, the change, and what it paid to itself, and nothing else. C96_charge, C96_account: its balance is lower by exactly the amounts paid to others and the fees, after any number of payments. C96_next_partial: the next payment is made and accepted as long as the balance at the beginning covers it together with those made. C96_goes_on and C96_all_partial: hence all payments of a list can be made that the balance covers. Hypotheses on the history: the nullifiers the wallet meets are apart (C59), and Tidy: no two awaited changes have the same commitment, no record has the nullifier of a dummy, and a memo the wallet can open holds the record it was written for. Partial: totals below 2^127, keys of the sizes needed, room in the tree; completeness of the SNARK is assumed."
  },
  {
   "property": "C97",
   "status": "proved",
   "theorems": [
    "Cap.C97_too_small",
    "Cap.C97_sizes",
    "Cap.C97_transfer",
    "Cap.C97_mint",
    "Cap.C97_freeze",
    "Cap.C97_batch",
    "Cap.C97_not_block"
   ],
   "note": "C97_transfer, C97_mint, C97_freeze: for every number of inputs and outputs from two on that fits into the tree, and whatever is drawn, the builders of the benchmarks make records with the stated amounts, and the notes built from them have the stated numbers of inputs and outputs, pay fees of 1, 4 and 5, and pass the very check that is timed (transfers at every time up to 1234). C97_sizes: the sizes and the depth that the benchmarks use are among these. C97_batch: for every k from 1 on, the list that the batch benchmark verifies (k copies of each of the three notes) has 3 k entries, as its title says, and is accepted. C97_not_block: from k = 2 on it is refused as a block on every ledger at every time, because it spends each record k times; so the benchmark times a batch that no ledger accepts. C97_too_small: without an input, or with fewer than two outputs, the builders panic. Named hypotheses as in C80: distinct nullifiers in one note, drawn keys and codes not degenerate, memos can be encrypted, the proof system is complete."
  },
  {
   "property": "C98",
   "status": "partial",
   "theorems": [
    "Cap.C98_simple_partial",
    "Cap.C98_batch_partial",
    "Cap.C98_titles",
    "Cap.C98_shift_false",
    "Cap.C98_broken"
   ],
   "note": "C98_simple_partial, C98_batch_partial: for every list of measurements and every setting of the number of threads without a dash in it, the table has one row for each title in the same order, a row has as many entries as the heading, and the entries are the name of the transaction, the threads, the function, the numbers of inputs and outputs, the depth, the sizes (in kilobytes for the note and the keys) and the time that was measured under this very title. C98_titles: whatever the setting is, the titles of different measurements in one run differ, so no measurement overwrites the other's file. FALSE without the condition on the number of threads, which is copied from RAYON_NUM_THREADS unread: C98_shift_false: with a dash in it every row of a batch table shows the rest of that text as the function, the function as the number of inputs, and so on, without an error. C98_broken: in the table of single notes the same dash makes the utility ratio be read as the size of the note."
  },
  {
   "property": "C99",
   "status": "partial",
   "theorems": [
    "Cap.C99_settled",
    "Cap.C99_charge",
    "Cap.C99_account",
    "Cap.C99_scattered_false",
    "Cap.C99_next_partial",
    "Cap.C99_goes_on"
   ],
   "note": "C96 for payments in any assets, mixed. C99_settled: after the block with a payment of its own, in the native or another asset, the wallet holds what it held without the coins spent, the change in the native asset, and what was paid to itself, and nothing else. C99_charge, C99_account: after any number of payments in any assets, each waited for, the account of every asset is lower by exactly the amounts of it that were paid to others, the native one also by the fees, and no other one changes. C99_next_partial, C99_goes_on: the next payment in another asset is made, accepted until the credential of the wallet expires, and can be settled, as long as what was held of the asset at the beginning covers it and one native record covers the fee. FALSE that the balances suffice: C99_scattered_false: if every single native record is below the fee, no payment in another asset is made, whatever they are worth together. Partial: totals below 2^127, policies and keys as in C62; completeness of the SNARK is assumed."
  },
  {
   "property": "C100",
   "status": "partial",
   "theorems": [
    "Cap.C100_minted",
    "Cap.C100_froze",
    "Cap.C100_charge",
    "Cap.C100_account",
    "Cap.C100_mint_goes_on",
    "Cap.C100_freeze_goes_on",
    "Cap.C100_scattered_false"
   ],
   "note": "C100_minted, C100_froze: what the wallet holds when a mint, a freeze or a release is settled: what it held without the coin that paid the fee, the change, and, if it minted for itself, the minted record; nothing else. C100_charge, C100_account: after any sequence of payments in any assets, mints, freezes and releases of records of others, each waited for, the account of every asset is lower by what was paid of it to others, the native one also by all fees, and higher by what was minted for the wallet itself. C100_mint_goes_on, C100_freeze_goes_on: every accepted mint, freeze or release can be settled and carried on with. FALSE that the balance suffices: C100_scattered_false: if every single native record is below the fee, no mint, freeze or release is made. Partial: freezing the wallet's own records is left out here; it is in C104 and C105."
  },
  {
   "property": "C101",
   "status": "proved",
   "theorems": [
    "Cap.C101_account",
    "Cap.C101_order",
    "Cap.C101_swap"
   ],
   "note": "C101_account: after any blocks a wallet holds, of each asset, what it held and no transaction of the blocks spends, and what the transactions bring it (a list that is computed transaction by transaction, without the blocks or positions), and nothing else. C101_order: if the same transactions come in another order or in other blocks, then in the end the wallet holds the same records, up to their positions, and so has the same balance in every asset. C101_swap: two blocks of transactions that spend different records can indeed come in either order. Assumed, about the values of the history only: no two awaited changes have the same commitment, the first outputs of the transactions differ, and none of the transactions spends a record that another one of them brings."
  },
  {
   "property": "C102",
   "status": "proved",
   "theorems": [
    "Cap.C102_books",
    "Cap.C102_coins",
    "Cap.C102_in_turn"
   ],
   "note": "C102_books: a wallet pays, mints, freezes and releases whenever it likes, attempts may never come into a block, be made again, or come late, blocks hold any number of its own transactions and of those of others, and records are granted and handed to it in between; after any such history the account of every asset is exactly the first balance, minus what the acts that came into blocks take, plus what they give, plus what others brought. C102_coins: what came into blocks was made, no coin went with two of them, and a coin of an attempt that came to nothing is still held. C102_in_turn: the histories of C100 are a special case. Hypotheses about the values of this history only: own nullifiers apart, no two transactions with the same first output, a transaction labelled as somebody else's spends no record of the wallet, only records of others are frozen."
  },
  {
   "property": "C103",
   "status": "proved",
   "theorems": [
    "Cap.C103_open",
    "Cap.C103_settles",
    "Cap.C103_closed",
    "Cap.C103_rivals"
   ],
   "note": "C103_open: something a wallet did that would have been accepted at some earlier time is accepted now if and only if it has not expired, none of its coins went with something of the wallet that came into a block, and none of its inputs of others (records it freezes or releases) is spent. C103_settles: what is open can be settled: with room in the tree its block goes through, the wallet scans it and goes on. C103_closed: once one of its coins went with something, also with itself, no block with it is accepted any more, whatever happens later. C103_rivals: of several attempts that share a coin, at most one is settled. For histories as in C102, with different nullifiers for the records of the wallet and no clash of memos."
  },
  {
   "property": "C104",
   "status": "proved",
   "theorems": [
    "Cap.C104_user",
    "Cap.C104_freezer",
    "Cap.C104_back"
   ],
   "note": "C104_user: after a block with a freeze or release by somebody else, the account of every asset of every wallet, together with what was frozen of the records it holds, is what it was together with what was released to its owner. C104_freezer: the same for the wallet of the freezer, who may freeze and release records of their own, with the fee in the native asset. C104_back: what the release of the replaced records gives back is what was taken when they were frozen. Conditions: the listed records are live (C64), the wallet's records have different nullifiers, and what the freezer draws does not coincide by accident with nullifiers or memos of the wallet."
  },
  {
   "property": "C105",
   "status": "proved",
   "theorems": [
    "Cap.C105_charge",
    "Cap.C105_account",
    "Cap.C105_goes_on"
   ],
   "note": "C105_charge, C105_account: after any sequence of payments in any assets, mints, freezes and releases, each waited for, where records of others and of the wallet itself are frozen and released: the account of every asset, together with all that was paid of it to others, the fees in the native asset, and what was frozen of the wallet's own records, is what it was together with what was minted for the wallet and what was released to its owner. C105_goes_on: every accepted freeze or release takes part in such a history. Conditions as in C100 and C104, but with no condition on whose records are frozen."
  }
 ]
}
