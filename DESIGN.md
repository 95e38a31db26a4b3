# Formal model of EspressoSystems/cap in Lean 4

This file is the plan (written before the proofs) and the record of the trusted base.
`properties.jsonl` has the English properties, `MANIFEST.json` maps them to theorems,
`seeded/LOG.jsonl` records the mutation tests of the theorems: `failed` lists theorems of the named claims only, and `named_claims_not_failed` the named claims that an edit did not break, with a remark why or what was tightened; a stopped build is inconclusive for those. A theorem counts as failed if its own proof, or one it depends on, no longer goes through as written. That is weaker than showing it false of the edited program: a proof may also break only because its script no longer fits the edited definition.

## Method

The Rust code in /repo is transcribed by hand, function by function, to total computable Lean
functions. `Result` is `Except`, a panic is an explicit error value, `&mut` becomes a returned
value, a random draw becomes a parameter. Each definition cites the file and lines it models and
says where it simplifies.

There are two layers.

* **Host layer**: the Rust structs and the functions on them (`structs.rs`, `keys.rs`, `utils/mod.rs`,
  `transfer.rs`, `mint.rs`, `freeze.rs`, `lib.rs`, `proof/*.rs`).
* **Circuit layer**: for each circuit in `circuit/*.rs`, the relation between a witness (arbitrary
  values chosen by a prover, not necessarily values a host struct can hold) and a public input that
  holds when every gate is satisfied. One conjunct per `enforce_*`/`*_gate` call, in source order.

Properties about "accepted" notes are theorems about every satisfying witness: a PLONK proof that
verifies is taken (knowledge soundness, trusted) to come from a prover holding such a witness.
Properties about "generated" notes are theorems about the host layer.

External primitives (field sizes, embedded curve group, Rescue, Keccak, PRF, commitment, Schnorr,
ElGamal, AEAD, Merkle hashing, SNARK) are fields of one class `CapEnv`. Laws they need are either
fields of that class (group axioms, sizes of the moduli, injective affine coordinates, decrypt after
encrypt) or explicit hypotheses of the theorem (SNARK completeness, ...). Collision resistance is never
assumed: theorems name the two colliding inputs (see "Trusted base"). A concrete instance (`Toy`) with the
real bn254 modulus shows that the class is inhabited and is used in the non-vacuity examples.

When a property is false of the code the negation is proved and a `_partial` theorem keeps what holds.

## Trusted base

**Checker.** Lean 4.33.0's kernel and the Mathlib modules that are imported. No `native_decide`, `bv_decide`,
`implemented_by`, `unsafe`, `sorry` or axioms of our own.

**Axioms.** Every theorem depends on a subset of `propext`, `Quot.sound`, `Classical.choice`.
`tools/axioms.py` prints the set for every theorem of `MANIFEST.json`; at the time of writing about four fifths
depend on all three, the others on `propext` and `Quot.sound` only, and none on anything else.

**Transcription.** That the definitions in `lean/Verif/Model` say what the cited lines of /repo say. This is
checked by reading only.

**Modelled code.**

| Code in /repo | Model |
|---|---|
| `structs.rs`: amounts, asset codes, reveal maps, policies, definitions, freeze flags, record openings, commitments, nullifiers, attributes, credentials, their hand-written codecs | `Model/Structs.lean`, `Model/Bytes.lean` |
| `structs.rs`: viewing memos, receiver memos, fee info, fee records | `Model/Memo.lean` |
| `keys.rs`: addresses, nullifier keys, signatures, memo opening | `Model/Keys.lean`, `Model/Memo.lean` |
| `keys.rs`: encrypting bytes to a user, equality and byte format of freezer key pairs | `Model/KeyBytes.lean` |
| `utils/mod.rs`: all checks of `txn_helpers` (debug and release arithmetic) | `Model/Utils.lean` |
| `transfer.rs`, `mint.rs`, `freeze.rs`, `lib.rs`: generation, verification, batch verification, accessors, memo signatures | `Model/Notes.lean`, `Model/Txn.lean` |
| `proof/*.rs`: witnesses, public inputs, preprocessing, proving, verifying | `Model/Proof.lean` |
| `circuit/*.rs`: what the three circuits and their gadgets say about values | `Model/Circuit/{Structs,Transfer,Mint,Freeze}.lean` |
| `circuit/*.rs`: how the three circuits are built, call by call | `Model/Circuit/Plonk.lean`, `Model/Circuit/Build.lean` |
| `proof/*.rs`: dummy witnesses; `circuit/*.rs`: circuits for preprocessing; preprocessing and proving with a proof system for gates | `Model/Circuit/Keys.lean` |
| `utils/mod.rs`: the size of universal parameters; the verifying key inside a proving key | `Model/Circuit/Size.lean` |
| `parameters.rs`, `bin/gen-parameters.rs`, `proof/mod.rs` | `Model/Params.lean`, `Model/Srs.lean` |
| the derived codecs of notes, records, credentials and asset definitions; `lib.rs`: the commitment of a note | `Model/Wire.lean` |
| the serde forms: tagged blobs in binary and text, the derived bincode of records, policies, credentials and notes; amounts as decimal text | `Model/Serde.lean` |
| `tests/examples.rs`: ledger, validator, proposer | `Model/Ledger.lean`, `Model/Validator.lean` |
| `tests/examples.rs`: user wallet (scanning blocks, choosing records, payments) | `Model/Wallet.lean` |
| `tests/examples.rs`: asset issuer (declaring assets, minting) | `Model/Issuer.lean` |
| `tests/examples.rs`: viewer and freezer (scanning viewing memos, lists of records, freezing and releasing a user) | `Model/Freezer.lean` |
| `tests/examples.rs`: caches of verifying and proving keys | `Model/Cache.lean` |
| `utils/params_builder.rs`: builders of transfers, mints and freezes, and of lists of transactions; `utils/mod.rs`: the next power of three | `Model/Builders.lean`, `Model/Depth.lean` |
| `bench_utils/mod.rs`, `benches/*.rs`: builders, titles and tables of the benchmarks | `Model/Bench.lean` |

**The specification document.** `lean/Verif/SpecDoc.lean` transcribes the relations of `cap-specification.pdf`
(sections 3.2.1 to 3.2.4 and 4.2.5), with the code's constants where the document leaves them open; checked by
reading. It does not use the circuit model's helpers, and only C85 depends on it.

**Not modelled.** `testing_apis.rs` (only compiled with a feature, and then it names items such as `crate::BaseField` that the crate does
not have) and the test modules; the clock, files and floating point of the benchmarks; `Debug`; the base64 and
checksum of tagged texts (an arbitrary invertible function of tag and bytes); zeroization; thread pools; the derived codecs of proving keys and of proofs (parameters with a stated
round trip), which error a reader returns for a bad point or field element; how jf-plonk lays out the gadgets as rows of a table (the size of the domain of a circuit is an
arbitrary function of its gates in C83; elsewhere the universal parameter is taken as large enough); the distribution of random values (every draw is an arbitrary parameter).

**Laws of the primitives (`CapEnv`).** Nothing else is assumed about external crates.

* Sizes: 2^252 < p < 2^256, p odd, 2^250 < r < p, r below two to the number of bits of a scalar gadget. Primality of p is
  not assumed; a circuit's field operations are those of `ZMod p`.
* The embedded curve's subgroup is a commutative group killed by r; the generator has order r; affine coordinates
  determine a point, and the neutral element has coordinates (0, 1), which no other point has. Multiplication in a circuit of a
  point by a field value agrees with the group.
* Schnorr signatures made with a key verify under it. Nothing is assumed about forgeries.
* AEAD decryption of an encryption gives the plaintext. Ciphertexts encode in a self-delimiting way (no encoding is a prefix
  of another), memo verification keys encode injectively in a fixed length.
* Hashes, PRF and commitment are arbitrary functions. **Collision resistance is never assumed.** Theorems either name
  the two colliding inputs (`Spec.Collides`: different inputs that occur in the statement, with equal image) or assume that the
  finitely many values of the history in question do not collide (`Spec.NoCollision`, `Spec.NoCollisionV`, `Spec.NoClash`). A bare
  "or there is a collision" would be vacuous, since every hash into a field has one.
* `CapExt`: reading back the bincode of a record opening gives the opening. `KeyCodec`: reading a serialized key of jf-plonk
  gives the key and takes exactly its bytes, and a proving key is longer than the verifying key inside it. `SrsEnv`: reading a serialized universal parameter gives it. `WireEnv`: points, proofs,
  signatures and AEAD keys are read back from their bytes, and reading does not look beyond what it takes. `SerdeEnv`: the same for
  key pairs, ciphertexts, verifying keys, and for bincode of points, Merkle roots and proofs; a tagged text gives back tag and bytes.
  That `#[tagged_blob]` writes the canonical bytes after their number in eight bytes, and that `CanonicalBytes` converts by panicking on an error, is read
  off the documentation of jf-utils, which is not in /repo; whether it refuses bytes after the value is left open (`strict`).
  For the concrete bincode of Model/Serde.lean the law of `CapExt` is a theorem (`withBincode`, C88).

**The proof system** is four functions about which nothing is assumed. Theorems that need more take it as a hypothesis:
`SnarkComplete` (proofs of satisfied circuits of the right shape are made and verify), `SnarkRefuses` (the prover fails
on unsatisfied circuits of the shape of the key), `SnarkSound` (idealised knowledge
soundness: a verifying proof comes with a satisfying assignment of the key's shape), `SnarkBatch` (idealised: a non-empty batch
verifies exactly if all members do). The toy instance satisfies all four. They are not about
CAP at bottom: C82 derives them from the same laws for a proof system that knows only gates (`GateComplete`, `GateSound`, `GateBatch`, `GateRefuses` in
`Model/Circuit/Keys.lean`), by way of the circuits that the library builds. Only `C19_generate_any` assumes more, `SnarkSized`: the
prover fails on circuits of another shape than the key's (jf-plonk compares the number of public inputs and the size of the domain only).
C83 assumes `SrsSuffices`: a universal parameter of the size of the domain and 2 is enough to preprocess a circuit.
C86 assumes `ZeroKnowledge` (idealised: the proofs of two assignments with the same public inputs are the same after a renaming of
the prover's randomness) and `CommitHiding` (idealised: so are commitments to two messages after a renaming of the blinding
factors). Perfect hiding excludes binding, but no theorem assumes both: binding is never assumed. The toy instance satisfies both.

C95 assumes `OneStatement` (a proof verifies for one key, one vector of public inputs and one message only; they are hashed into its
challenges) of the proof in question, and `KeysApart` (different circuits have different verifying keys). The toy instance satisfies
both.

**Gadgets of jf-relation** are taken at their specification: boolean variables are 0 or 1, a range gate bounds the
canonical representative, `is_equal`, `is_zero`, `mux` and logic gates are exact, scalar multiplication computes the
multiple for every scalar below two to its number of bits, and Rescue, PRF, commitment, ElGamal, Schnorr and Merkle
gadgets compute the host functions on arbitrary variables. The gadgets that unpack a value into bits use fewer bits than p has, so
that the bits are those of the canonical representative.

**The Merkle tree of jf-primitives** is modelled (`Model/Ledger.lean`): 3-ary, fixed depth, filled from the left, empty
subtrees 0, leaves hashed with their index. **The file system** is a map from paths to contents without failures other than a missing file;
a write replaces the whole file.

## Findings

Claims of `properties.jsonl` that are false of the code. Each has a theorem with the negation, mostly for every
instantiation of the primitives, and a `_partial` theorem with what holds.

| Claim | Finding | Theorem |
|---|---|---|
| C02 | The transfer circuit does not compare the asset code of a spent record with the code of the transfer; a record of an asset without viewer becomes any other asset, also native | `C02_false` |
| C03 | Mint and freeze circuits do not range-check the fee change: a fee can exceed the spent record | `C03_mint_false`, `C03_freeze_false` |
| C04 | A credential is checked against the key inside it, which is not compared with the policy's issuer, and its user not with the owner; `generate` does not either | `C04_false`, `C04_generate_false` |
| C06 | The freeze circuit does not range-check the reveal map, so that 2·map + flag opens in two ways | `C06_false`, `C06_release_false` |
| C09, C10, C54 | For a record owned by the neutral address the freezer's nullifier differs from the owner's (circuits), and the freezer cannot generate a freeze of it | `C09_circuit_false`, `C10_alias_false`, `C10_unowned_false`, `C54_false` |
| C13, C15, C47 | Owner addresses that are not points make a memo unreadable; a map that reveals one coordinate only is treated differently by library and circuit | `C13_false`, `C13_dropped`, `C13_odd_map`, `C15_false`, `C47_false` |
| C16 | The comparison with the threshold is wrong if the difference exceeds 2^127 | `C16_false` |
| C21 | Batch verification omits the domestic check of mints and accepts notes with keys of another kind | `C21_domestic_false`, `C21_kind_false` |
| C25 | The balance check sums in `i128`: it accepts unbalanced lists in release builds, panics in debug builds | `C25_release_unbalanced`, `C25_debug_panics`, `C25_release_refuses` |
| C26 | Neither circuit nor `verify` compares the nullifiers of one note | `C26_transfer_false` |
| C27 | A nullifier can be relabelled as a commitment without invalidating the proof | `C27_transfer_false`, `C27_freeze_false` |
| C31, C39 | `value()` of an attribute and `open_transfer_viewing_memo` can panic | `C31_value_panics`, `C31_decrypted_panics`, `C39_accepted_panics` |
| C38, C55 | No transfer can expire at 2^20 or later, because of the dummy credential of the fee input | `C38_window`, `C55_false` |
| C44 | Accepted mints that were not made by the library inflate the native asset | `C44_accepted_false` |
| C46 | Dummy records may have a non-default policy (map and threshold are tested through their sum) | `C46_policy_false` |
| C49, C50 | Explicit destinations collide; the parameter tool swaps mint and freeze keys | `C49_*_explicit_false`, `C50_mint_false`, `C50_freezing_false` |
| C52 | A block that fails half way leaves its outputs in the tree | `C52_false`, `C52_full_false` |
| C53 | Mints of 2^127 or more cannot be made | `C53_false` |
| C58 | On the ledger, notes not made by the library can spend everything twice and turn any asset without viewer into any other | `C58_alias_false`, `C58_code_false` |
| C60 | The position at which the reference tests record a collected fee is never the fee's leaf: the witness looked up there proves another record | `C60_position_false` |
| C61 | Two payments of the reference wallet without a block in between always spend the same record, so that only one of them can be accepted; a payment to nobody fails | `C61_twice_false`, `C61_nobody` |
| C62 | The example wallet uses the expiry of its credential as `valid_until` of every asset payment, whether or not the asset's policy asks for a credential. When the credential has expired the payments are still made, but no validator accepts them; when it lasts 2^20 or longer, none can be made. | `C62_expired_false`, `C62_far_false` |
| C62 | Two asset payments in a row, of the same asset or with the same fee, always spend a common record: only one of them can be accepted. | `C62_twice_false` |
| C63 | An issuer cannot mint 2^127 units or more at once although amounts go up to 2^128 - 1: the note fails or is refused by every validator. | `C63_limit_false` |
| C63 | Two mints in a row with the same fee use the same fee record (it is only marked, not removed): only one of them can be accepted. | `C63_twice_false` |
| C64 | If one of the records a freezer lists for a user has been spent, no request to freeze that user is ever accepted: the request always covers the whole list, and nothing drops spent records from it. | `C64_spent_false` |
| C64 | Two requests for the same user before a block confirms the first exclude each other: both notes freeze the same records. | `C64_twice_false` |
| C65 | The circuit does not check the viewing memo of a transfer of an asset without viewer, nor under the threshold. Every such accepted transfer, in particular every payment in the native asset, has an accepted twin whose memo shows the viewer of any other asset a transfer that never took place; mints of assets without viewer likewise. | `C65_false`, `C65_native_false`, `C65_mint_false` |
| C66 | The memo of a mint encrypts owner and blinding factor to the viewer whatever the reveal map says, and the circuit insists on it; only the opening function hides them. | `C66_false`, `C66_accepted_false` |
| C67 | The freezer of the tests gives up on a whole block as soon as it contains one transfer that it cannot read: any native transfer or any transfer of another asset (unless the memo decrypts to the code by accident), in particular any transfer of another asset of the same viewer. | `C67_reads`, `C67_blind_false` |
| C67 | A mint for a user whose key the freezer does not have makes the scan panic. | `C67_stranger_false` |
| C67 | The freezer does not compare the asset of a mint with its own: a mint of another asset with the same viewer is listed as a record of the freezer's asset, with a commitment that is not on the ledger. | `C67_foreign_false` |
| C67 | The freezer never removes records that their owners spend. From the first payment of a user on, every request concerning this user is refused. | `C67_stale_false` |
| C67 | After two requests in a row for the same user, the freezer records for the accepted one the blinding factors of the other one, and loses the record. | `C67_twice_false` |
| C68 | `generate_non_native` does not check that the given records are non-native. With native records the published fee is the requested fee plus whatever the inputs exceed the outputs by (in the example 57 instead of 7), or less than requested if the outputs exceed the inputs. For other assets inputs and outputs must carry exactly the same, although the documentation only asks for "at least". | `C68_false`, `C68_native`, `C68_published` |
| C69 | Three calls panic instead of returning an error. A build with overflow checks panics on every native transfer whose inputs reach 2^127 in total. A credential whose number of attributes is not eight, signed by its issuer, is valid but makes `generate` panic in the memo builder. `generate_native` panics without inputs. The reference validator unwraps `preprocess`, so a note without inputs or outputs, or a freeze note with fewer than two inputs, makes it panic before any proof is checked: anybody can send one. | `C69_debug_false`, `C69_attrs_false`, `C69_empty_false`, `C69_validator_false` |
| C70 | In builds with the default feature bn254 the universal parameter stored at the default place is never read: loading without a file, and the key tool after `universal-srs`, use the parameter compiled into the library. (For explicit files and the other curves storing and loading agree.) | `C70_default_false`, `C70_tool_false`, `C70_disk_ignored` |
| C75 | The policy of a transfer is not tied to its asset when all inputs but the fee input are dummies: whoever holds a native coin can turn it, in an accepted transfer, into a record with the native code and any policy, for example one that names the payer as freezer. A receiver who looks only at the asset code takes it for a native coin. Separately, the asset code does not bind the policy, so that an issuer can mint the same code under several policies. The library does not generate such transfers itself, but it does generate such mints. | `C75_native_false`, `C75_mint_false` |
| C78 | A wallet rebuilt from its key and everything that was published does not hold the change of its payments, mints and freezes: the reference wallets publish no memo for the first output of a transaction, and no scan looks at it. The openings must be kept. | `C78_lost`, `C78_change_lost`, `C78_false` |
| C82 | Preprocessing a freeze key panics if the tree has fewer leaves than the key has inputs: the dummy witness puts one leaf into a tree of the given depth for every input and unwraps the membership proof of each. The reference validator preprocesses for whatever number of nullifiers a note carries. | `C82_freeze`, `C82_preprocess` |
| C84 | Reading a freezer key pair from bytes does not check that its public half belongs to its secret half. Whoever issues assets under the public half of such a pair can never freeze or release a record of them with it | `C84_pair_false`, `C84_locked` |
| C85 | The circuits are weaker than the specification document. The transfer circuit does not ask that a spent record has the type of the transfer, that the credential is by the policy's issuer for the record's owner, that times are below 2^20, that the map and the threshold of a dummy are both zero, or that addresses are revealed as a whole; the mint circuit does not ask for a range of the change. Some accepted transfers have no documented witness at all. The freeze circuit is the documented relation, so the missing range of the fee change (C03) is a gap of the document too. | `C85_transfer_false`, `C85_mint_false`, `C85_freeze_fee_false` |
| C87 | Units that nobody can pay with. A policy with a freezer and no viewer can be put together, declared and minted under, and the mint is accepted; but every way of making a transfer refuses records of such an asset (utils/mod.rs, check_asset_def). The circuit has no such condition: the same transfers satisfy it, and validators accept them from another program. The freezer can freeze and release the units. | `C87_locked_false`, `C87_elsewhere_partial` |
| C87 | Units of an asset whose policy names a viewer and whose threshold is 2^127 or more above every amount can be minted, but a transfer of them fails at the prover: the library writes an empty memo, the circuit's comparison takes the amount for too large (C16) and asks for a full one. | `C87_far_false` |
| C88 | A policy, a reveal map or a verifying key read through serde panics on malformed bytes: their conversion from bytes (`#[serde(from = "CanonicalBytes")]`) cannot report an error. Records, credentials and notes do not contain these types in this form (an asset definition is one blob), so reading them never panics. | `C88_panic_false`, `C88_panic_partial`, `C88_calm` |
| C88 | In binary form kinds are not told apart: the bytes of a nullifier are read as a commitment, an asset code or a blinding factor. Only the text form carries the tag. | `C88_binary_kinds_false`, `C88_kinds` |
| C88 | If jf-utils ignores bytes after the value inside a blob, each note has many binary forms that are read as the same note. | `C88_unique_false`, `C88_unique_partial` |
| C89 | A forged transfer (C58) shows up in a wallet as a balance of an asset of which nothing was ever granted or minted: the wallet decrypts the memo of the output like any other. | `C89_solvent_false`, `C89_solvent_partial` |
| C90 | A transfer builder that is given no tree depth takes the next power of three itself, not its exponent, as depth: 9 for five records where 2 suffices, and from 28 records on a depth of 81 or more, on which the same builder panics if the caller gives it. | `C90_own_false`, `C90_least_false`, `C90_fits_false` |
| C91 | The circuit says nothing about the memo of a transfer whose policy names no viewer. Whoever makes such a payment can attach a memo that shows the viewer of any other asset a receipt of any amount by any address, with the same effect on the ledger: the books of the viewer are wrong from then on. And a payment that the policy says must be shown can be hidden on a ledger by adding a worthless output to an owner off the curve. | `C91_forged_false`, `C91_hidden_false` |
| C92 | From the time 2^20 on no transfer made by the library is accepted by any ledger, native or not: the credential that the library puts into every fee input expires at 2^20 - 1 and there is no way to choose another one. Mints and freezes go on, and the circuit itself would accept transfers at every time. | `C92_false`, `C92_exact`, `C92_standstill` |
| C93 | The coins that a wallet reports may not be coins: whoever holds one native coin can pay it, in an accepted transfer and with a memo that opens, as a record with the native code and a policy that names the payer's freezer key. The receiver's wallet counts it, cannot pay with it, and the payer can freeze it at any time with the library's own freeze note. A receiver that compares the whole asset definition with the native one, not only the code, is safe (`C93_partial`). | `C93_false` |
| C94 | Credentials do not restrict anybody: in every state of the ledger, the owner of records of an asset whose policy names a credential issuer can pay with them, using only the library's functions, by a credential that they signed themselves with any key and for anybody. What is enforced is that some signed credential is shown that has not expired (`C94_shown_partial`). Comparing its issuer with the policy and its user with the owner would be enough (`C94_partial`) and would refuse no honest user (`C94_honest`). | `C94_false` |
| C95 | The signature on the receiver memos is checked by nobody in the reference ledger and wallet (`tests/examples.rs:1699` leaves it to a bulletin board). Whoever passes a block on can put other memos beside a payment: the block is accepted and scanned, and the recipient's wallet does not see the payment. The note itself cannot be changed, and a check of the signature would be enough. | `C95_false`, `C95_note`, `C95_arrives_partial` |
| C97 | The batch that the benchmark of batch verification times repeats the same three notes. It is accepted by `txn_batch_verify`, which does not look for repeated nullifiers, but no ledger accepts it as a block. | `C97_batch`, `C97_not_block` |
| C98 | The text of RAYON_NUM_THREADS goes unread into the titles of measurements, which are split at dashes again. With a dash in it (such as -1) all columns of the tables are shifted without an error. | `C98_shift_false`, `C98_broken` |
| C99 | The reference wallet takes the fee of a payment in another asset from one single native record (`find_record_for_fee`). If every native record is below the fee, no payment in another asset can be made, whatever the records are worth together. | `C99_scattered_false` |
| C100 | The same holds for mints, freezes and releases: if every native record of the issuer's or freezer's wallet is below the fee, none is made, whatever the records are worth together. | `C100_scattered_false` |

## Plan per property

| id | property | what is modelled, how it is proved |
|---|---|---|
| C01 | An accepted transfer balances exactly over the integers | Circuit model (`Circuit/*`): the relation `TransferSat wit pub` lists every constraint of `TransferCircuit::build` over field values. Proof: range checks + `preserve_balance` gates => integer equalities because both sides stay below the field modulus. |
| C02 | An accepted transfer never turns one asset type into another | Same relation. The code does not compare asset codes of inputs, so the negation is proved with a satisfying witness (for every configuration), and `_partial` theorems give what does hold: policies agree, and notes returned by `generate` do preserve the type. |
| C03 | A mint or freeze note cannot pay a fee larger than the record it spends | Mint/freeze relations. `fee + change = input` is only a field equation and the change is not range checked: negation with a witness; `_partial`: holds whenever the change is in range / for notes returned by `generate`. |
| C04 | Spending a credentialed asset needs a credential from the policy's issuer for the owner | Same relation. The credential's issuer and holder are not tied to the record: negation with a witness; `_partial`: some valid, unexpired credential was held. |
| C05 | Frozen records cannot move and transfers never create frozen records | Relations of the three circuits. |
| C06 | Freezing changes nothing but the freeze flag | Freeze relation + `get_output_ros`. |
| C07 | Only the policy's freezer can freeze or release a record | Freeze relation; knowledge = the witness contains the scalar. |
| C08 | Only the owner can spend | `proveSpend` model used by the three relations. |
| C09 | Owner and freezer derive the same nullifier | Host key model over an abstract commutative group; commutativity of scalar multiplication. Edge case (identity owner address) as a negation. |
| C10 | A record has one nullifier | Two satisfying witnesses; reduces to uniqueness of the secret scalar. Necessary and sufficient condition on the scalar-multiplication gadget, with the alias counterexample. |
| C11 | A record commitment binds the record | Collision-reduction statement: equal commitments give equal fields or an explicit pair of distinct commitment inputs with equal output. |
| C12 | The circuit and the library compute the same commitment, nullifier and asset code | Host functions against circuit-value functions on embedded values. |
| C13 | The policy's viewer always sees what the policy reveals | Relation => memo is ElGamal encryption of the true message; then run the model of `open_transfer_viewing_memo` symbolically over arbitrary lists. |
| C14 | Viewing memos round-trip and hide what the policy hides | Host memo builder + open; hidden fields are zero. |
| C15 | A mint is always visible to its viewer | Mint relation + `open_mint_viewing_memo`. |
| C16 | Below the reveal threshold nothing is disclosed and the transfer still goes through | Host threshold test against the circuit's 127-bit range test; negation for thresholds >= 2^127 above the amount. |
| C17 | Generated transfers verify | `generate` modelled check by check in the `Except` monad with the SNARK as a parameter with completeness as hypothesis. |
| C18 | Generated mints verify | As C17. `prove` for mint does not check satisfiability; so the amount bound appears. |
| C19 | Generated freezes verify | As C17. |
| C20 | Verification depends on time only through expiry | `verify` models. |
| C21 | Batch verification agrees with verifying notes one by one | `txn_batch_verify` model with an arbitrary batch verifier that agrees with the single verifier; negation (mint notes skip the domestic check) and `_partial`. |
| C22 | Fee collection is exact | Folds with checked addition, induction on the list. |
| C23 | Fee change is exact | Decision logic. |
| C24 | Generated native transfers spend exactly what they take | `generate_native` with an explicit overflow mode (panic / wrap). |
| C25 | The library's balance check is exact | `derive_fee` and `check_asset_amount` with i128 wrap/panic semantics. |
| C26 | A note never spends the same record twice | generate: check_distinct model; verify: negation with witness (every satisfying note can be re-used with a repeated input), needs the ledger to check. |
| C27 | A proof is tied to one statement | Flattening injectivity for fixed shape; negation across shapes. |
| C28 | Reveal maps encode faithfully | Byte-level model of (de)serialization; `Vector Bool 12`. |
| C29 | Amounts encode faithfully | Byte-level model. |
| C30 | Notes and verifying keys decode to what was encoded | Tagged union codec with payload codecs as parameters. |
| C31 | Identity attributes round-trip | Byte-level model of padding; panic as error value; negation for arbitrary field elements. |
| C32 | Policies built through the API are coherent | Inductive histories of API calls. |
| C33 | User-defined assets never collide with the native or dummy asset | Decision logic. |
| C34 | Domestic and foreign asset codes are separated | Byte prefixes; collision reduction. |
| C35 | Receiver memos deliver exactly the committed record | AEAD as parameter with correctness hypothesis. |
| C36 | Receiver memo signatures bind the whole memo list | Serialization as a self-delimiting code parameter. |
| C37 | Credentials verify exactly until they expire | Signature scheme as parameter. |
| C38 | Transfer expiry is bounded by the credential time window | Host + circuit: `valid_until` must be below 2^20: negation and exact bound as `_partial`. |
| C39 | Viewer decryption is total | Host model with usize underflow as panic value: negation, `_partial`. |
| C40 | Generate refuses bad transfers before proving | Inversion of the `Except` model. |
| C41 | All parts of the library agree on the transferred asset | List lemmas about first/last. |
| C42 | Note accessors are consistent | Case analysis over variants + public-input model. |
| C43 | A transfer proof is bound to its memo key and extra data | Fixed-length key serialization; append injectivity. |
| C44 | Supply is conserved over every ledger history | Ledger transition system, invariant by induction over histories. |
| C45 | Only the creator of an asset can mint it | Mint relation. |
| C46 | Dummy records carry no value and no rights | Relation and host dummies; field-sum test negation for non-API values. |
| C47 | The library's memo message equals the circuit's | Host message = circuit message by induction over lists; reveal-map address bits must agree (negation otherwise). |
| C48 | Every well-formed transfer can be generated | Completeness: checks of `generate` => all constraints of the relation. |
| C49 | Stored keys load back | `parameters.rs` over a file-system map with an abstract key codec; invariant over sequences of store calls; default paths are injective. |
| C50 | The parameter tool makes the keys it was asked for | Model of the tool's dispatch on top of C49. |
| C51 | The reference validator accepts exactly the fresh blocks, and the proposer gets the fees | Model of the mock validator of `tests/examples.rs` on the ledger model of C44; exact characterisation. |
| C52 | Inserting a block is all or nothing | In-place (`&mut self`) model of `insert_block` that keeps the state at a failure; negation for failures in the middle. |
| C53 | Every well-formed mint can be generated | Completeness: host checks => all constraints of the mint relation; exact limit on the amount. |
| C54 | Every well-formed freeze can be generated | Completeness for the freeze relation; exact limit on the owners. |
| C55 | Every well-formed payment goes through | C48 through `generate_native` and `TxnFeeInfo::new` + `generate_non_native`. |
| C56 | What a user holds on the ledger can be spent | Invariant of honest histories (leaves, nullifiers, root) + completeness (C53 to C55) + exact acceptance (C51, C52). |
| C57 | Whatever is submitted, only existing records are spent | Histories as lists of steps with an opening (satisfying assignment) per note; existence by soundness of the proof system; induction over the history with the tree invariant; collision-freeness only of the hash evaluations of the history. |
| C58 | Whatever is submitted, no value comes into being and no record is spent twice | Invariant over histories (value of unspent = issued; positions distinct) under the three checks the circuits do not make; negations at the ledger level for the missing checks. |
| C59 | The reference wallet holds exactly the unspent records of its owner that it has been told of | Model the wallet function by function (hash maps as lists, iteration order free). Invariant over histories of ledger and wallet; absence of collisions among named nullifiers derived from C57. |
| C60 | A wallet's balance is what its records are worth, and the collected fee is where the block puts it | Fold over the wallet's shelf for the code, using the invariant of C59; positions by counting leaves; refutation by comparing leaf counts, naming the colliding Merkle inputs. |
| C61 | A payment of the reference wallet is accepted, arrives, and returns the change | Inversion and introduction lemmas for the wallet functions over the invariant of C59, completeness from C55, acceptance from C51, memos from C35/C36; refutation of consecutive payments by the shared first record. |
| C62 | Wallet payments in other assets are accepted, arrive, and return both changes | wallet model of C59/C61 and C55 for the asset; negations for two payments in a row and for wallets whose credential expired or lasts too long |
| C63 | What an asset issuer mints is accepted and arrives, with the definition it declared | Model the issuer of the examples (Model/Issuer.lean) on top of the wallet; invariant over histories; acceptance from C53 and the ledger lemmas, arrival from C59; negations for the limit and for consecutive mints |
| C64 | What a freezer freezes is accepted and taken from its owner, and what it releases comes back | Model the freezer and viewer of the examples (Model/Freezer.lean) on top of the wallet; what a request does from the generator lemmas; acceptance from C54 and the ledger lemmas; owner's wallet from C59; negations for spent records and consecutive requests |
| C65 | What a viewer is shown about a transaction is what the transaction did | Specify when a shown entry agrees with a record opening; from a satisfying assignment compute what the opening functions return. Expected to fail where the circuit does not check the memo: transfers of assets without viewer or under the threshold can carry a memo that the viewer of another asset reads. |
| C66 | The memo of a mint discloses to the viewer only what the policy reveals | Compute the plaintext of a mint's memo. The opening function is expected to satisfy the claim; the plaintext itself is expected to contain hidden fields. |
| C67 | A freezer that follows the ledger knows the records of its asset, and where they are | Induction on the history (Spec.Follows) with an invariant relating the lists to the leaves; the viewing theorems C14, C15, C65, C66 give when what is read is true. |
| C68 | A transfer with separate fee information pays the requested fee | From C23 (check_fee), C40 (balance per asset) and C24 (totals) derive the published fee; for native records prove the negation with a payment of one coin in every environment |
| C69 | Bad input is reported as an error, not a panic | Panics are the error value `Err.panic` of the model, so the property is a statement about results: follow every function statement by statement (a bind does not panic if neither part does). For the balance check bound every partial sum. Where a panic is possible, prove it for every environment. |
| C70 | The universal parameter that was stored is the one that is loaded | Extend the model of the file system with the universal parameter (external type, encoding with round trip, the file compiled into the library). Induct over the later store calls: none of them writes the parameter's file, because no default key file has its name. For bn254 show that loading does not depend on the disk. |
| C71 | Notes, records and credentials survive the byte format; a note's commitment identifies it | Model the derived codecs field by field as composable pairs of writer and reader (`Model/Wire.lean`), with the encodings of points, proofs, signatures and AEAD keys external. Laws per combinator: round trip, reading is not changed by more input, only encodings are read. |
| C72 | A pending transaction stays acceptable until it expires or one of its inputs is spent | From the exact characterisation of acceptance (C51), the growth of roots and spent inputs along histories (induction), and the dependence on time through expiry only. |
| C73 | Without the keys nobody takes a record, makes it unspendable, or diminishes what an address holds | On top of C57's histories of opened notes: the spend at a position reads the record at that position; the circuits tie the secret key to the owner or the freezer (C05-C07); the balance by induction over the history, pairing each frozen or released record with its replacement. |
| C74 | Nobody else can block a pending transaction | C72 reduces later refusal to expiry or a common nullifier; a common nullifier is a common record and position unless named hash inputs collide; the circuits then give a key of that record. |
| C75 | What belongs to an asset carries the policy the asset was issued under | Invariant of the histories of C57, by induction: every valuable non-native record has the terms of an issued definition; balance with range checks gives a valuable input for every valuable output. Negations for the native asset (a transfer whose other inputs are dummies may name any policy) and for the issuer (the code does not bind the policy). |
| C76 | Whatever others submit, what a wallet sees as spendable can be spent | Any state the ledger reaches keeps its root among the known ones; completeness of generation (C53 to C55) with the paths of the tree, then validation and insertion of the block; freshness from the nullifier lemma of C73. |
| C77 | The size of a transaction tells nothing but how many records it spends and creates | The memo of a generated transfer has the length the circuit fixes; the size of an encoding is computed in C71; combine. |
| C78 | A wallet can be rebuilt from its key, the blocks and the memos | Two histories of the same ledger, one with what the wallet did and one without; the records held in either are characterised by C59. Negation: positions of different outputs are different, and no memo is for a first output. |
| C79 | Caches of keys never change an answer | Model the caches as association lists from strings. Prove that descriptions are injective (decimal digits contain no underscore), that every entry is the key its description calls for, and by induction over the requests that all answers agree with the model without caches. |
| C80 | What the library's transaction builders make is accepted | Model the builders with their draws as parameters. Prove that every builder keeps a shape invariant (records, owners, indices, membership proofs under one root), that the shape meets the well-formedness conditions of C48, C53, C54 and C55, and conclude with these; for lists, place all records in one tree and use C21 for the batch. |
| C81 | The circuits that are built say exactly what a valid transfer, mint or freeze is, and depend only on the size | Model the calls of the circuit builder one by one: a state with variables, values, gates and public variables, gadgets of jf as gates with their meaning. Two induction principles over programs: one for what the gates say about any assignment, one for the layout being the same for values of the same sizes. Read values for the witness back from any assignment. |
| C82 | A key made from a dummy witness proves and accepts exactly the valid transactions of its size | Model the dummy witnesses and the functions that build a circuit for preprocessing, with the Merkle tree the freeze dummy fills. Prove that the dummy has the size asked for, use C81, and derive the laws of the proof system for the three relations from those of one for gates. |
| C83 | A universal parameter of the computed size is enough | Model compute_universal_param_size over the circuits as they are built, with the domain of a layout as parameter; the layouts of all witnesses of one shape are equal (C81, C82), so the sizes are. Preprocessing with a sufficient parameter is a law about jf-plonk. |
| C84 | Keys keep their promises: signing, encrypting, storing freezer keys | Byte format of FreezerKeyPair as the pair of a scalar format and the point format of C71; round trip, truncation and exactness by composition. The last clause is FALSE: the derived deserializer does not compare the halves (C84_pair_false); what holds is that a freeze note is generated with such a pair only for records of the policy of the secret half, never for those of the public half (C84_generate_partial, C84_locked). |
| C85 | The circuits enforce the relations of the specification document | SpecDoc.lean transcribes the relations of the document, apart from the model. Iff theorems between them and the circuit relations; the differences are named (TransferGap, MintGap); corollaries for accepted and generated notes; negations for every environment; conservation follows from the documented relations alone. |
| C86 | A note discloses nothing but its public parts | SpecPrivate.lean: idealised hiding of commitments and zero knowledge as hypotheses, renamings of blinding factors, the conditions of a request that are not about the tree. Two requests with equal nullifiers, commitments and message have equal public inputs, hence equal proofs up to a renaming of the prover's randomness; completeness (C48, C53, C54) gives both notes. |
| C87 | Whatever can be issued can be paid with | Negation for policies with a freezer and no viewer (declared and minted, never transferred); exact characterisation among transfers that meet all other conditions; the same transfers satisfy the circuit; on the reference ledger minted units can be paid on or frozen after any later history. |
| C88 | Values survive serde, and a text of one kind is never read as another | `Model/Serde.lean`: bincode field by field over the canonical formats of `Model/Wire.lean`, tagged blobs as length-prefixed canonical bytes, text as an external injective function of tag and bytes; round trips by combinators; tags pairwise distinct; memos re-proved with the concrete bincode instead of the assumed round trip; panics characterised; decimal amounts by induction on the digits |
| C89 | All wallets together hold what was issued, no more and no less | `SpecTogether.lean`: several worlds of C59 over one history; a held record is the created record at its position (commitment collisions of this history excluded), positions of different wallets differ because owners do, and a spent position has the nullifier of its owner published (C10, C58); the sum over held positions is subtracted from the books of C58 position by position. The negation extends the forgery of C58 by the wallet that decrypts it |
| C90 | A transfer builder that chooses the tree depth itself | `Model/Depth.lean`: the loop with its starting exponent (floating point) as a parameter. Induction along the loop; the power of three cut to eight bits is compared with its exponent for the 39 exponents that matter. False beyond 27 records, because the power and not the exponent is taken as depth |
| C91 | A viewer who is shown everything can keep books | `SpecBooks.lean`: what the memos of a history say about an address. From the history invariant of C58/C73, the policies of C75 and the exact memos of C39/C65: per transaction, what is shown is what is moved; induction over the history. False as stated (threshold, addresses off the curve, forged memos of other assets): `C91_forged_false`; the rest as `C91_books_partial`, `C91_legible`. |
| C92 | Payments are possible at every time | From C38 (window), C76 (a ready coin can be spent) and the expiry check of batch verification. False from 2^20 on (`C92_false`); `C92_exact` says exactly when payments are possible. |
| C93 | What a wallet counts as coins can be paid with, and only the owner takes it away | World/Follower of C59 and C89, C73_spender for the taker, C75_honest for genuine definitions; the negation by the forgery of C75 (`poison`), the wallet of C59 and the freezing theorem of C76. False (`C93_false`). |
| C94 | A record under an issuer's credentials is moved only by an owner whom the issuer has admitted | C73_spender names the spent record, C04_partial the credential, the batch check the time. False (`C94_false`, by C76 with a self-signed credential); `C94_partial` under the missing check. |
| C95 | A transaction that is passed on stays what its author made | Batch acceptance gives key, public inputs and message (C51); the key is taken by the numbers of inputs and outputs, which closes the gap of C27; C43 for the message, C36 for the memos, C61 for the arrival. False (`C95_false`): neither validator nor wallet checks the memo signature. |
| C96 | A wallet that waits for its payments pays out exactly what it has | Induction over the payments. One step: the scan lemmas of C59 give exactly which records are held after the block; the totals then follow by permutation of duplicate-free lists; C61 makes the next payment. The collisions excluded are stated for the final history only (`Apart`, `Tidy`). |
| C97 | What the benchmarks time are valid transactions, and their batch is not a block | The builders are instances of the builders of C80 with fixed amounts; the batch by C21, the refusal by C51 (a mint note repeats its nullifier). |
| C98 | Each column of a benchmark table shows the quantity of its heading | Splitting at dashes inverts joining with dashes if no part has a dash; numbers have none. Induction over the list of titles. False for settings with a dash (`C98_shift_false`). |
| C99 | Payments in several assets are booked to the right accounts | Common description of native and other payments (`Sent`), exact set of records after the block from C59/C96 lemmas, permutation of the two sides of the account, induction over the payments. The last sentence is false: witness with a fee that no single native record covers. |
| C100 | Mints, freezes and payments of one wallet are booked to the right accounts | Mints and freezes as notes with one coin of the wallet (`OneCoin`), exact set of records after the block as in C99, permutation of the two sides of the account, induction over the acts. The last sentence is false: no single native record covers the fee. |
| C101 | the order in which transactions come, and the blocks they come in, make no difference to what anybody holds | Define what a transaction brings a key, independently of its position (`brings`), and runs of blocks (`InBlocks`). Induct on the blocks, with the changes still awaited as a relation between the wallet and the list awaited at the beginning, to get the exact set of records held after a run; list it with positions, show that the positions increase, and forget them. |
| C102 | the books of a wallet are right on a busy ledger, also when some of what it does comes to nothing | Histories as an inductive relation (`Busy`) with lists of what was made, what was settled and what others brought. Every act is `Whole`: its nullifiers, outputs, memos and an equation for each asset. Invariant: each coin of an attempt is held or went with a settled act; the change is awaited or its first output is in a block. Per block, C101_account with the labels of the transactions; freshness from the validation of the block; sum over the labels; induction over the history. |
| C103 | An attempt stays open until it expires or something else takes one of its inputs | On the histories of C102. C72 says that a transaction stays valid until one of its nullifiers is spent or it expires; the invariant of C102 says that a coin of an attempt is held (then its nullifier is fresh) or went with a settled act (then it is spent). For settling, the block goes through by `insertBlock_iff` and is scanned by `world_scans`. At most one rival: the coins of the settled acts have no duplicates. |
| C104 | Freezing and releasing move exactly the listed records in and out of the accounts | Books of a block with one transaction from C101_account, given exactly which held records the transaction spends. For a freeze note these are the coin (freezer only) and the listed records that are held, because owner and freezer derive the same nullifier (C09); the memos bring the listed records of this owner if the request releases, and nothing if it freezes. C64_accepted_partial is weakened to ask for different nullifiers only of native coins, so that it covers a freezer who freezes records of their own. |
| C105 | The accounts of a wallet whose owner also freezes and releases records of their own | Induction over the history; one act by C100 (payments, mints) or C104 (freezes and releases, whoever owns the records). |
