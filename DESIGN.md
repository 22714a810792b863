# Formal model of Alzymologist/substrate-parser — design

Lean 4.33.0, Lake project in `lean/`. No axioms of our own; every theorem depends
at most on `propext`, `Classical.choice`, `Quot.sound`.

## Layout

* `Verif/Model/*` — the program, function by function, each definition citing
  `/repo/src` file and lines. Everything is a total computable Lean function.
* `Verif/Spec/*` — independent specifications (SCALE encoding relation, compact
  encoding, era layout, decimal numbers, ...). They do not mention the model's
  helper functions.
* `Verif/Proof/*` — lemmas.
* `Verif/Props/*` — the property theorems (one per claim or group), each with a
  concrete `example` showing that its hypotheses are met by a non-trivial case.
* `Verif/Real/*` — the metadata of an actual chain as Lean terms (generated), and the checks the kernel runs on it.
* `Verif/Witness/*` — every theorem named in `MANIFEST.json` applied to concrete,
  non-trivial data: all its hypotheses hold at once. `tools/witnesses.py` lists
  theorems that no `example` applies (none), `tools/citations.py` definitions of the
  model without a citation of `/repo` (none).

## How the code is modelled

* **Bytes** are `List UInt8`; a buffer is a byte list together with a set of
  failing reads (`fault position length`), which models external memory. `usize`
  is `Nat`; `Model/Device` and `Model/DeviceTx` have the same code once more with
  machine words, and C59 relates the two.
* **Registry** is an arbitrary deterministic partial function from ids to types
  with finite domain (`PortableRegistry` is the instance "list lookup").
* **Outcomes** are `Except Fail α`, `Fail = err e | panic | fuel`. `panic`
  stands for every reachable `expect`/`unwrap`/index of the Rust code; `fuel`
  for running out of the recursion bound. Both are proved unreachable.
* **`&mut position`** is threaded as a returned `Nat`, dropped on errors;
  `Model/Position` has the decoder once more with the position as a state that
  survives errors, and C63 relates the two; `Model/PosDevice` has it with the memory as
  a second state (C87).
* **Recursion** of `decode_with_type` (through `decode_fields`,
  `decode_elements_set`, `decode_variant`) is open recursion plus fuel; the
  public `decode` uses fuel `(unread bytes)*(types+1)+types+1`, and it is proved
  that this is always enough and that more fuel never changes the result.

## Plan per property

| id | what is modelled | how it is proved |
|----|------------------|------------------|
| C01 | decoder, `Encodes` relation (Spec) | induction on fuel, case per type definition |
| C02 | same | induction on the `Enc` derivation; types with values are well-founded (`enc_grounded`), from which a ranking for the cycle check (`exists_falling`) |
| C03 | decoder with fuel, husk loop | measure (unread bytes, free type ids) decreases |
| C04 | panics as outcome values | induction on fuel |
| C05 | decoder | corollary of the simulation / soundness lemma |
| C06, C09 | two buffers | one simulation lemma: success transfers to any buffer agreeing on the consumed range; for C09 also a step-by-step simulation of all outcomes (`Tame`) |
| C07 | two buffers | C06 + C05 |
| C08 | two hints | relational induction on fuel |
| C10 | `decode_all_as_type` | case analysis |
| C11–C13 | `find_compact`, codec's compact decoder | arithmetic, list induction |
| C14, C15 | `Era` codec, `special_case_era` | arithmetic |
| C16 | predicate on output trees | induction on fuel |
| C17 | compact flag | from C01 (spec has no such rule) + error theorem |
| C18 | `pick_variant` | list induction |
| C19 | `wrap_sequence` | list induction |
| C20, C21 | bit sequences, 32-bit replacement | list induction; C21: exact condition of agreement, refuting witnesses |
| C22–C24, C29 | `MarkedData`, `decode_as_call`, `parse_transaction` | from C01/C05/C06 |
| C25–C28 | `decode_extensions_unmarked`, `check_extensions` | list induction |
| C30, C31 | `decode_as_unchecked_extrinsic` | case analysis; C31: naive claim refuted, exact statement proved |
| C32–C34 | `storage_data.rs` with abstract hash functions | list induction |
| C35, C36 | `printing_balance.rs` | decimal digit lists, arithmetic |
| C37–C39 | `cards.rs`, cards | mutual induction on the parsed tree |
| C47 | `cards.rs`, shown text | list lemmas on characters; naive claim refuted by a witness |
| C48 | `Info`, docs and names in the output | same induction as C01 with annotated values |
| C49 | `Spec.TrueOf`: when an error is a true report (own spec over bytes and registry, not over the decoder) | induction on the nesting bound; every call keeps: types seen contain the current one (C03's cycle list), and the compact above can hold only what the current type can hold; negative facts come from completeness of the leaf readers; failing memory through the exact form of C09 |
| C50 | `Spec.Firm` values, `Spec.NamesDistinct`, `Spec.SignaturesDistinct` over the encoding relation `Spec.Enc` | induction on one encoding and inversion of the other one; then soundness (C01). Refutations show the need of each proviso |
| C51 | relation `Alike` (same successes) on results with different error types; `SameRuntime` for a pair of V14 and V15 metadata | `Alike` is kept by bind and error maps; through every function up to the entry points |
| C52 | `Spec.cardLines` of the card model, `Spec.Faithful` for the printers of other crates, the annotation relation `Spec.Shown` of C48 | `Reads`: the lines of a tree are a code that can be read back, even when followed by other lines; induction on `Shown` with inversion of the second tree, number and hex printing are injective; then C48 and C50 |
| C53 | `Spec.Shortened`: a relation between two registries; all functions of the model are run with both | `Sub`: simulation of the recursive decoder, level by level; the swallowed look-ahead of the signature recognition is shown to agree whenever the shortened run succeeds; the rest composes |
| C54 | all entry points that decode calls | shift invariance (C06) carried through the entry points, marks from C22 |
| C55 | `decodeF R b n`: at most `n` nested calls; `Spec.edDepth` of the outcome | measure of C03 (unread bytes, unseen types); induction on `n` for the depth; induction on the list for the lower bound |
| C56 | `Spec.TrueOfExtensions`, `TrueOfCall`, `TrueOfTransaction`, `TrueOfExtrinsic`, `TrueOfStorage`: one constructor per error, with what must hold of the data | every `?` keeps the property (`Honor`), C49 for the decoder, soundness for what precedes the error, fault-tameness for the memory |
| C40, C41 | hints | case analysis / decoder lemmas |
| C57 | `Model/Device`: the decoder once more over a memory state `σ` (`Dev σ α := σ → Res α × σ`), errors discarded by recognition keep the state; `Spec.Flaky`, `Spec.Steady`, `EncLoose` | induction on nesting (same measure as C03) with "ends with an encoded value or an error"; steady memory: simulation |
| C58 | `Spec.unlabelled`, `Labels`, `SameButLabels` | induction on the encoding: every part is read or the memory fails; labelled readings have plain ones |
| C59 | `Word` (`usize` with its arithmetic) in `Model/Device` and `Model/DeviceTx`, the functions above the decoder once more over a memory state | simulation: every sum stays within the data, except the length prefixes; those by cases |
| C60 | `Model/DeviceTx` over `Spec.Flaky` memory; `Spec/DeviceTx`: `IsCallLoose`, `ItemsLoose`, `StorageLoose` … (as in `Spec/Transaction`, `Spec/Storage` with `EncLoose`); `LabelFree` | postconditions through the monad (`SatO`), panics listed; watched extensions are label-free, so the byte-level checks of C26–C28 carry over |
| C61 | `AgreesBut`, `SameTransaction`, `SameExtrinsic`, `StorageButLabels`; `Regular` registries | relational simulation between the run on failing memory and the model on fixed memory (`AgreeO`), from C58 in both directions |
| C62 | `Renumbered`, `Seen`, `moved`: renumbered registries and outcomes | simulation `Sim` of the two decoders, step by step, with two recursion bounds; lifted to transactions, extrinsics, storage, V14/V15 |
| C63 | `Model/Position`: the decoder with the position as a state, kept on errors; `Located`, `Forward`: where an error leaves it | `Keeps`: same outcome as the main model, forward, located; compositional over binds, induction on the recursion bound |
| C64 | `Model/ErrorText`: `error_text` of every error type; texts of `BufferError` and of external errors are parameters; `Spec/ErrorText`: `Clear`, `TellsApart` | heads of texts differ pairwise before either ends (finite table, `decide +kernel`); numbers and hashes end at a character of another kind; the version is the digits before the last dot |
| C65 | `Spec/Weight`: sizes of outcomes; `Budget R sz K`: what a type may show before the next enum or vector; `SolidVectors`: no empty encodings of vector elements | every byte pays `2 * K`; induction over the runs, where each non-empty run keeps `K` back to pay for the wrapping of the element it may be (`LightRel`); `ranked_budget` computes `K`; `takesBytes_sound` for the check |
| C66 | `Spec/Cost`: a meter on the memory (`Metered`, `metered`); `Toll R sz K`: what the accesses for a type may cost before the next enum or vector | on the device model; a potential argument (`Pays`): every byte consumed pays `2 * K`, also for what fails after it; the loops of compacts and husks are bounded by the type alone; fuel is shown not to count, as decoding with more fuel costs the same (`Below`) |
| C67 | `Model/Target32`: the decoder with the 32-bit branch for bit sequences, the functions above it with the decoder as argument; `Spec/Target32`: `HasU64Bits`, `NoMsb0U64Bits`, `NarrowRes`, `OrPanic` | simulation of the two decoders; `patch_lsb0`: what the replacement keeps of the last element is a prefix |
| C68 | the decoder on two buffers, one the beginning of the other; `Spec/Growth`: `AtEnd`, `AsksUpTo` | `decode_grown`: simulation of the two runs, which agree or the shorter one stops with an error that asks for bytes of the longer one; with C63 (positions) and C49 (errors true) |
| C69 | `Spec/Base58`: the SS58 format (external contract), checksum arbitrary; `ShowsBits` | big-endian numbers and base-58 digits by induction; leading zeros counted; then `ss58_faithful` makes C52 free of assumptions on the printing of keys |
| C70 | `Spec/Shift`: errors and outcomes moved by a number of bytes; `Behind`: the same data further on | the run on the moved data is the moved run, equation by equation through every function (`Carried`); the recursion bounds of both runs are equal |
| C71 | `Spec/OneVersion`: two metadata with the same extensions (up to type numbers, `Renumbered` of C62), all else different | C62 for the extensions alone, then what `check_extensions` collects does not depend on what it is compared with |
| C72 | `Spec/Inside`: `Answers lo hi` (a memory that answers inside the range), `Blocked j` (a memory that withholds one byte) | relation between two runs, function by function (`Proof/Inside`): a success that ends before `hi` is a success of the other; and an invariant of one run (`Proof/Touched`): no success passes over the withheld byte |
| C73 | `Spec/Typed`: the values of a type, without a word about bytes | induction on the value's typing: choose encodings of the parts (existence of a bit packing included), then completeness (C02); conversely soundness (C01) and forgetting the bytes |
| C74 | `Spec/Encoder`: an executable encoder, recursion bounded by a depth | the encoder computes the relation `Enc` (sound by induction on the depth; total on values of the type, by induction on their typing, from some depth on), then C01, C02, C50, C73. The encoder is run in the conformance tests: every call decoded there is encoded again and gives the same bytes |
| C75 | `Spec/Proper`, `Spec/Payload`: proper transactions, said of types and values only. `Spec/Wallet`: a program that checks and writes them | what is shown for an extension determines how it counts (from the shape of shown data, C48), so acceptance of shown data (C26–C28) is properness of values; soundness and completeness of transactions (C29) turned into an equivalence on values; the wallet computes both, run in the conformance tests on the crate's transactions: it writes the same bytes |
| C76 | `Spec/Node`: programs that write extrinsics and storage keys from values | soundness and completeness (C30, C32, C33) turned into statements on values, with the encoder of C74; the node is run in the conformance tests on the crate's extrinsics and storage entries |
| C77 | `Spec/Stored`: a program that computes the key from what is shown | soundness (C32, C33) and uniqueness of encodings (C50) with the encoder of C74; the prefix: decoding at positions from 32 on is decoding of the data behind them (C70) |
| C78 | `Spec/Pieces`: calls one after another | induction on the number of nested calls: the value told depends on the context only through the compact mark; induction on `husk_type`: what it finds is decoded like the element type, what it refuses is refused with the same error |
| C79 | `Spec/Names`: registries equal up to names; values with names replaced | simulation between the two runs, step by step: contexts that agree in the compact mark and the ids checked; induction on the number of nested calls |
| C80 | `Spec/TxPieces`: the calls and the judgement as a program on values | hints do not change values (C08); what is collected from the trees is what counts by type and name (lemmas of C75); induction on the list of extensions |
| C81 | `Spec/Hostile`: memory with arbitrary answers; `Model/Device`, `Model/DeviceTx` | induction on the fuel of the decoder: postconditions of every function for arbitrary answers (`Proof/Hostile*`) |
| C82 | `Real/Westend*`: the metadata as Lean terms, generated by `tools/gen_westend.py`; `Spec/Westend`: the layout of its transactions | the kernel runs the checkers of C62 on all types; general theorems instantiated; layout from the metadata by inversion of `Enc` (`Proof/Inversion`, `Proof/Westend`) |
| C83 | `Spec/Westend`: the bytes of a transfer and of a signed extrinsic | C75, C76 instantiated, types of the call and the extrinsic by inversion |
| C84 | `Spec/Submitted`: what is signed and what is sent, from the same parts | C75 and C76: extensions of a payload split into the tuple of an extrinsic and what is added; Westend instance from C82 |
| C85 | `Spec/Screen`: the lines, with nothing of the crate but the balance text; that text by `Money` | inversion of what `Shown` says of each of the 16 types involved (`Proof/ShownInversion`, `Proof/Screen`); converse by C82 `westend_signs` on the payload built |
| C86 | `Spec/Batch`: orders (an inductive type nested through lists), their bytes, values and lines | mutual induction on the order: `order_iff` (bytes), `order_lines` (lines) over the inversions of C82 and C85 |
| C87 | `Model/PosDevice`: position and memory both as states, kept on errors; `Ahead`, `Located`, `LocatedCallD` | `KeepsD`, parametric in where positions go and errors stand; one induction, three instances: memory of any kind, untrusted, flaky (`Facts`) |
| C88 | `Model/Codec`: the derived decoders; `Spec/Codec`: encodings | field by field, from the compact codec (C11, C12) and the UTF-8 lemma |
| C89 | `Spec/Retry`: counting memories, repeated calls; on `Model/Device`, `Model/DeviceTx` | `Proof/Repaired`: the same program on the memory and on its reliable version does the same until the first failure; then C59, C61 and induction on the attempts |
| C90 | `Spec/Upgrade`: metadata with more variants; on `Model/Decode` and the callers | `Proof/Upgrade`: the two runs in parallel, induction on fuel; recognition of calls, signatures and cycles is the same as long as the older metadata knows the index; with other numbers: through the older registry renumbered (C62) |
| C91 | `Real/Polkadot*`: the metadata as Lean terms, generated by `tools/gen_polkadot.py`; `Spec/Polkadot`: the layout of its transactions | as C82: checkers run by the kernel, general theorems instantiated, layout by inversion of `Enc` (`Proof/Layout`, for any list of types; `Proof/Polkadot`) |
| C92 | `Spec/Accounts`: bytes, value and lines of an account, the storage key | key and value by the soundness and completeness of storage entries and inversion of `Enc` (`Proof/Accounts`, for any list of types with this layout); lines by inversion of `Shown` (`Proof/AccountScreen`) |
| C93 | `Spec/PolkadotScreen`, `Spec/Screen`: the lines | the tree by inversion of `Shown` (`Proof/PolkadotScreen`, in part for any list of types), the lines by evaluation of the cards; uniqueness from C91 |
| C94 | `Spec/Printed`: the printed text, displays without texts, names without line breaks | a line without text and a line with one differ within the first line (labels), so the cards agree one by one (`Proof/Printed`); line breaks of a rightly annotated tree are in its texts only, by induction on `Shown`; then C52; checks of the names of both chains by kernel evaluation |
| C95 | `Spec/Printed`: cards printed as one line each | parallel induction on the two annotated trees (`Proof/PrintedReads`), with the printed rest on both sides: the first cards of both agree up to a line break; if the other text had one, its continuation would be printed in place of a later card, so that what is left for the rest of the other display is a proper part of the rest, which the depth of the cards rules out (`Late`: every tree is a card with deeper ones below) |
| C96 | `Spec/Quoted`: somewhere in the value (`Says`, `MaySay`), on some card (`Quotes`) | structural induction on the data (`Proof/Quoted`): the cards of each part quote texts of that part; UTF-8 of bytes as in C37; with `Tidy` (C94) for the lines |
| C97 | `Spec/Remark`: bytes, value and lines of a remark | the call as in C91; the list of bytes from its encoding (`Layout.byteList_iff`) and its tree from what is shown (`byteList_shown`); lines as in C93, uniqueness by C52 and C95; with line breaks in the message by cutting the lines of the extensions from the end (`Proof/RemarkLines`): only their first begins with `Er`, and 32 bytes of hash are shorter than they are |
| C42, C43 | `traits.rs` V14/V15 | list induction |
| C44 | `husk_type` | induction on husk steps |
| C45 | resolve errors | case analysis |
| C46 | zero-size elements | explicit family, induction on count |

## Trusted base

* Lean's kernel. Axioms: `AXIOMS.md` lists, for every theorem named in `MANIFEST.json`,
  the axioms it depends on (produced by `tools/axioms.sh`); they are at most `propext`,
  `Classical.choice` and `Quot.sound`. No axioms of our own, no compiled code.
* The reading of the Rust source recorded in the comments of `Verif/Model` (the code was
  not built or run here). `Verif/Props/BalanceTests.lean` replays the crate's own unit
  tests of `printing_balance.rs` on the model; "Conformance with the crate's tests" below is about the others.
* For C82 to C86, C91 to C95 and C97: `tools/gen_westend.py` and `tools/gen_polkadot.py`, which turn `/repo/for_tests/westend9111` and
  `/repo/for_tests/polkadot1003003_v15` into the Lean terms of `Verif/Real/Westend*.lean` and `Verif/Real/Polkadot*.lean`
  (without documentation texts); `tools/conformance.py` compares them with the metadata as decoded by the conformance harness.
* The contracts of external crates stated below (their sources are not in `/repo`; they
  are modelled from their documentation).

### Contracts of external crates

* `external-memory-tools`: `read_slice(pos, n)` gives the `n` bytes at `pos` or fails:
  `OutOfRange` if `pos` is past the end, `DataTooShort` if the slice does not fit,
  external error if the memory fails. `limit_length(n)` cuts the data. The content does
  not change while parsing; failures are deterministic per range, except in C57, C58, C60, C61 and C66,
  where any access may fail at any time, and in C81, where any access may yield anything of the right length.
* `parity-scale-codec`: compact integers in canonical form only (each mode only for the
  values that need it), `PerThing`s: plain decoding rejects values above the maximum,
  compact decoding saturates; `bool` only 0 and 1; `BitVec` at most `0x1fff_ffff` bits,
  padding bits not looked at.
* `bitvec` on 32-bit targets: `from_vec` panics above `0x1fff_ffff` bits; `split_off(at)`
  panics if `at` is past the end.
* `scale-info`: `PortableRegistry::resolve` is a list lookup. The modelled registry is any
  deterministic function with finite domain.
* `String::from_utf8`, `char::from_u32`: Lean's `String` (UTF-8 validation) and
  `Char` (Unicode scalar values); integers print as decimal numerals; `hex::encode` is
  lower-case, two digits per byte.
* Hash functions (`blake2`, `twox`) are arbitrary functions with the output lengths of
  the code; base58 addresses, identicons and `Display` of bit vectors are arbitrary
  functions (parameters of the model), so the theorems hold whatever they are. C52 needs them
  to be injective; C69 proves this of the SS58 format (with any checksum) and of every text that
  shows bits in order.

### What is modelled, file by file

| file | modelled | not modelled |
|------|----------|--------------|
| `compacts.rs` | `find_compact`, `get_compact` | — |
| `decoding_sci.rs` | all functions, incl. the 32-bit patch | identity of error texts in `TypeFailure` beyond the names used |
| `decoding_sci_ext.rs` | all functions | — |
| `additional_types.rs` | `Era` with its codec | derived `Debug`, `Clone`, `Eq` |
| `special_indicators.rs`, `special_types.rs` | all | — |
| `propagated.rs` | `Checker`, `Propagated`, `SpecialtySet` | — |
| `unchecked_extrinsic.rs` | `decode_as_unchecked_extrinsic` | — |
| `storage_data.rs` | all | the hash functions themselves |
| `traits.rs` | lookups of V14/V15 metadata: call type, extrinsic type and parameters, extensions, name and version, version printing; derived codecs of `SignedExtensionMetadata`, `SpecNameVersion`, `ExtrinsicTypeParams` | generic trait plumbing |
| `printing_balance.rs` | all | — |
| `cards.rs` | cards of parsed data, of calls, of transactions, `show`, `show_with_docs` | the identicon generator and the SS58 encoder (other crates; parameters) |
| `lib.rs` | `parse_transaction`, `parse_transaction_unmarked`, `decode_all_as_type`, `decode_as_call`, …; derived codec of `ShortSpecs` (C88) | re-exports, documentation |
| `error.rs` | error constructors with their positions and ids, texts of `Display` | texts of `BufferError` and of errors of external memories (other crates; parameters) |

### Simplifications (also in the comments of the definitions)

* `usize` is `Nat` in the main model. `Model/Device` and `Model/DeviceTx` compute with machine
  words of any width; C59 proves that the outcomes are the same, with one exception on 32-bit
  targets (finding 16).
* The main model has the code for 64-bit targets. `Model/Target32` has the code for 32-bit targets; C67 compares them.
  It assumes of the crate `bitvec` that on 32-bit targets vectors of `0x1fff_ffff` bits and more are refused.
* Stack depth and memory are not modelled; recursion is, and it is proved to terminate.
* The value of `&mut position` after an error is modelled in `Model/Position` (reads that fail
  as in `Buf.fault`) and in `Model/PosDevice` (memory of any kind, with machine words).
* Transient faults (a memory that fails on one access and answers on the next) are modelled
  in `Model/Device`, `Model/DeviceTx` and `Model/PosDevice` only.
* `panic` stands for `expect`, `unwrap`, slicing and indexing; in `printing_balance` it is
  `none`.

## Conformance with the crate's tests

`Verif/Test/Conformance.lean` (run with `lean --run`; nothing depends on it) reads the metadata in `/repo/for_tests`
(V14 and V15, from the SCALE bytes), runs the model on the inputs of the tests in `/repo/src/tests.rs` and prints the
outcome; `python3 tools/conformance.py` extracts inputs and expected texts from that file and compares. All 25 tests
(and the example in the documentation, `src/lib.rs:152-484`) agree, character by character, among them whole transactions with real metadata, storage entries, unchecked extrinsics
and the tests of errors. The tests inside `src/decoding_sci.rs` (bit sequences) are examples in `Props/BitPatch.lean`. The calls and values decoded there are also
encoded again by the encoder of C74 and give the same bytes (15 checks), and the transactions accepted there are written again by the wallet of C75,
from the values shown, and give the same bytes (14 checks); extrinsics and storage entries likewise by the node of C76
(3 checks, one with three ignored bytes, see finding 1). This is evidence that the model is a faithful reading of the code, not a proof of anything.

## Assumptions on registries

Some theorems assume something of the registry: `EmptyArraysGrounded` (elements of zero-length arrays do not contain
themselves without an enum or a vector in between; C02 and what rests on it), `Ranked` (no type does; C65, C66 and some
theorems on errors), `NamesDistinct`, `IndicesDistinct`, `LeavesNameless`, `SignaturesDistinct`, `NoCompactArray`, `LabelFree` for
the extensions, `SolidVectors` (elements of vectors take bytes), no bit sequences with `u64` store. `Spec/Checkers.lean` has a program for each, `Props/Checkers.lean` proves the programs right
(`emptyArrays_check`, `ranked_check`, `namesDistinct_check`, ...), and the harness runs them on the metadata in `/repo/for_tests`: all pass,
except `Ranked` on `westmint9270_spoiled_digest`, which was spoiled on purpose. `PalletsNonempty` fails for 8 of 10;
it is therefore assumed nowhere (C58 and C61 state what happens without it).

## Findings

Facts about the code found while proving; each one that contradicts a natural expectation
is proved as a refutation or stated in a theorem.

1. `decode_as_unchecked_extrinsic` never checks that all data was used
   (`decodeUncheckedExtrinsic_tail`, `decodeUncheckedExtrinsic_not_all_used`). It happens in the crate's own test
   `unchecked_extrinsic_2` (which asserts the signature only): the extrinsic seems to be written for a runtime with one
   more extension than the metadata has; its call, `0a 04 00 36988c…eb3a 00`, is shown as `00 0a` of the pallet
   `System` with the "code hash" `040036988c…413a`, and the last three bytes `eb3a00` are ignored. The check of C76 found this; `Witness/Polkadot.lean` proves it.
2. 32-bit patch for `u64` bit sequences: drops half an element if the half that comes
   first is zero in the last chunk: panic on valid data, or wrong bits
   (`patch_loses`, `patch_misreads`, exact condition `patch_agrees_iff`).
3. `show` prints texts raw: line breaks in data give lines that look like cards, and two
   different values of one type can be shown as the same text (`show_forged`). Displays without texts, or with texts of one line each only, are safe from this (C94, C95); C96 tells from the data which displays these are. Remarks on Polkadot are safe from it with any line breaks (C97).
4. The cycle check rejects some inhabited types, e.g. a struct with a field `[Self; 0]`.
   Compact `PerThing` saturates, so its encoding is not unique. Padding bits of bit
   sequences are ignored. How `Vec<Vec<u8>>` is represented depends on its first element.
5. `find_compact` has a dead branch (`total_len - position == i`).
6. `check_extensions` only looks at top-level data or at single-field composites.
7. A vector of zero-size elements yields up to `2^32` output elements from five bytes (C46).
8. Decoding a zero-size type at a position past the end of data succeeds.
9. `MultiSignature` variants whose field type has path `sp_core::*::Signature` are not
   recognized by the indicator (only `sp_core::*::…` paths it lists).
10. Storage keys: the second read of the checked key part is followed by an `expect`: it
    panics if the external memory fails exactly there (`decodeStorageEntry_panics`).
11. `process_extrinsic_type_params`: a later parameter with the same name and no type
    erases an earlier one; parameters of a husked wrapper are lost.
12. Cards: empty structs and tuples give no cards; call and event cards drop the info of
    the outer type.

13. An enum without variants is read from no data (`decode` of an uninhabited type succeeds); so metadata shortened
    to an empty enum decode differently from the full metadata (example beside C53).
14. There is no recursion limit: `n` bytes can make about `n` nested calls (`decode_nesting_unbounded`), so a long
    payload of a recursive type can exhaust the stack (stack use itself is not modelled).
15. A failed access while an enum is being recognised as a call, event or signature is forgotten: a transient failure
    makes the same data show as a plain enum instead of a call (example beside `scripted_flaky`); for a pallet with an
    empty list of calls it makes data acceptable that are rejected on reliable memory (example `emptyPallet`; 8 of the 10
    chains in `for_tests` list such pallets). Nothing worse can happen (C57, C58).
16. On 32-bit targets a length prefix near `u32::MAX` overflows `usize` in `MarkedData::mark` (`lib.rs:584`) and in
    `decode_as_unchecked_extrinsic` (`unchecked_extrinsic.rs:93-105`): five bytes make them panic if overflow checks are
    on. Without the checks `mark` still reports `CutSignable`, and extrinsics are rejected with an error that is not true
    of the data (`SomeDataNotUsedBlob`). Nothing is accepted wrongly (`markD_overflow`, `decodeUncheckedExtrinsicD_overflow`,
    `decodeUncheckedExtrinsicD_success`).
17. A transient failure of the memory is reported as something else in places: in `MarkedData::mark` as `CutSignable`
    and in the length prefix of an extrinsic as `FormatNoCompact` (the error is dropped by `map_err(|_| …)`), and in
    recognition of the call type as `NotACall` or `UnexpectedCallTy`, all of which speak of the data. No data is
    accepted wrongly because of it (C60, C61).
18. `decode_as_storage_entry` only counts the first 32 bytes of a key. This is documented ("Prefix content **is not**
    checked here"); what it means is `storage_prefix_ignored`: a key of another entry with the same hashers is shown alike.
19. If the content of the memory may change between reads (C81), what is shown need not have been in it at any time. Two
    places where the crate reads the same bytes twice: `find_compact` reads a growing slice and uses `decode`, not
    `decode_all`, so that a changed first byte yields a shorter compact and the rest of the slice is skipped; and
    `check_hash!` decodes the key part from one read and hashes another, so that the hash does not vouch for the value
    shown (and the `expect` there panics if the second read fails, item 10). Concrete cases: `Witness/Hostile.lean`.
20. A failed `decode_as_type_at_position` leaves `*position` somewhere inside the value (C63, C87). If the failure was one
    of the memory and the caller repeats the call with the same `&mut position`, it may get a wrong value and no error
    (`carryOn_wrong`: `(2, 3)` for `(1, 2)`). With the position set back, repeating is safe (C89).
