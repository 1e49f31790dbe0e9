# Formal model of gtp-rs in Lean 4

## What is modelled and how

The Rust crate in `/repo` is a codec library: every public entry point is a function from a
value to bytes (`marshal`) or from bytes to `Result<value, error>` (`unmarshal`).  There is no
I/O, no concurrency, no `unsafe` and no global state, so the whole crate is expressible as total
functions.

* Bytes are `UInt8`, buffers are `List UInt8`; `u16/u32/u64` are `UInt16/UInt32/UInt64`.
* `&mut Vec<u8>` becomes a returned list (appended bytes for IEs, the new buffer for messages).
* A Rust call has four outcomes and all are data: `R.ok v`, `R.err e`, `R.panic`, `R.diverge`.
  Indexing `buffer[i]` and slicing `buffer[i..j]` out of range give `R.panic`.
* Arithmetic on `u8`/`u16` that can overflow takes a build mode: in `Mode.debug` overflow is
  `R.panic`, in `Mode.release` it wraps.  Theorems quantify over both modes unless they say so.
* Loops become structural recursion, `for` loops become folds.  A loop whose termination is not
  syntactically evident (IE list decoder, extension header chain) gets a fuel argument and a
  separate outcome `R.diverge` for running out of it; termination is then a theorem
  ("with fuel = buffer length + 1 the outcome is never `diverge`") or, where the code really can
  loop forever, a refutation.
* Rust `String`s are lists of `Char`; `as_bytes` is UTF-8 encoding, `byte as char` is Latin-1.

## Trusted base

* Lean 4.33.0 kernel.  Axioms used by the theorems: `propext`, `Classical.choice`, `Quot.sound`
  only (checked by `#print axioms`); no own axioms, no `sorry`, no `native_decide`, no `bv_decide`.
* The faithfulness of the reading of the Rust source (each definition cites file and lines).
* Simplifications: `usize` is `Nat` (no overflow at 2^64); memory exhaustion and stack overflow
  are not modelled (grouped IEs recurse once per nesting level; only C81 limits the number of nested calls); the order in which two panics
  or a panic and an error would occur inside one expression is irrelevant and not modelled;
  derived `Clone/PartialEq/Debug` are taken at face value; doc tests and examples are not modelled.

## Which parts of the code are modelled

| code | model | remarks |
|------|-------|---------|
| gtpv1/utils.rs, gtpv2/utils.rs | `Verif/Utils.lean` | all functions that are used |
| gtpv1/errors.rs, gtpv2/errors.rs | `Verif/V1/Err.lean`, `Verif/V2/Header.lean`, `Verif/ErrText.lean` | the enumerations and their texts |
| gtpv2/header.rs | `Verif/V2/Header.lean` | |
| gtpv2/messages/ies/*.rs (146 kinds) | `Verif/V2/Ies/*.lean`, `Group.lean`, `IE.lean` | every `impl IEs`: `marshal`, `unmarshal`, `len` |
| gtpv2/messages/ies/ie.rs, groupedie.rs | `Verif/V2/IE.lean`, `Decoder.lean` | `encoder`, `decoder`, `marshal` |
| gtpv2/messages/*.rs (83 messages) | `Verif/V2/Msg/*.lean` | structures, `default`, `marshal`, `unmarshal`, `tovec`, `fromvec` |
| gtpv1/gtpu (header, extension headers, IEs, 6 messages) | `Verif/U/*.lean` | |
| gtpv1/gtpc/header.rs, extensionheaders | `Verif/C1/{ExtHdr,Header}.lean` | |
| gtpv1/gtpc/messages/ies/*.rs (49 kinds) | `Verif/C1/Ies/*.lean`, `Kind.lean` | every `impl IEs` |
| gtpv1/gtpc/messages/*.rs (20 messages) | `Verif/C1/{MsgBase,Msgs,Simple}.lean`, `Verif/C1/Msgs/*.lean` | |

Not modelled: `examples/`, `gtpv2/messages/configurationtransfertunnel.rs` (not part of any `mod.rs`),
the output of the `dbg!` in msinfochangenotifreq.rs, accessor functions that only clone a field.

The regular part of the code is transcribed by scripts that check the shape of the source before they write a definition
(`scripts/gen_*.py`, `msg_parse.py`); the generated modules are committed and are what is checked. The scripts stop with an
error when a source file departs from the expected shape; irregular files are written by hand.

Simplifications, besides those above:

* GTPv2-C IEs: the mutual recursion through grouped IEs is opened and tied with fuel; `decodeF_fuel` shows that the fuel does not
  matter, `IE.marshal_eq` that three levels of nesting are all that the types allow.
* GTPv2-C messages: `fromvec` is a fold over the decoded IEs with one Boolean per mandatory slot, as in the code; the state is a
  generated structure.
* GTPv1-C messages: 16 of the 20 decoders are the same loop over the buffer with a different `match`. The loop is written once over a
  table of arms (`Desc`), the tables are generated. The hash table `msg_hash` is a function from type to counter, the cursor is
  represented by the rest of the buffer. Arms differ in what they return on error and how the counter selects the field; both are in
  the table.

The specifications that compare with 3GPP documents (tables of types and presence, layouts of headers, figures of C74 and C75) were written
without a copy of the documents at hand. They do not use the encoders and decoders, but a disagreement can in principle lie in the
transcription; the disagreements found are listed below with the octets, so that they can be looked up.

## Validation of the model against the repository's tests

`scripts/gen_tests.py` reads every `#[test]` function of the crate and turns each comparison into an `example` about the model,
checked by kernel evaluation: 890 comparisons from 872 test functions, all translated (`Verif/Tests/*.lean`). They are evidence that the
reading of the Rust source is right, not proofs of properties. The values are computed from the Rust text alone; the model only
supplies names of fields and constructors.

Four of the 890 expectations are false of the model, and of the code: the last comparison of `mcc_mnc_encode_test` and of
`mcc_mnc_decode_test`, in both gtpv1/utils.rs and gtpv2/utils.rs, expects `[0x13, 0x00, 0x21]` for MCC 310, MNC 012. The code computes
`[0x13, 0x20, 0x10]` (the order of 3GPP TS 24.008) and decodes `[0x13, 0x00, 0x21]` to MNC 120. These four are recorded with `≠`.

## Layout

* `Verif/Basic.lean` outcome type, build mode, byte access, big-endian integers; `Verif/Str.lean` strings.
* `Verif/Utils.lean` TBCD, MCC/MNC, length patching.
* `Verif/V2/...` GTPv2-C, `Verif/U/...` GTPv1-U, `Verif/C1/...` GTPv1-C.
* `Verif/Props/...` the property theorems; names start with the property id (`Gtp.Props.C01_...`; GTPv1-C in `Gtp.Props.C1`).
* `Verif/Tests/...` the repository's own unit tests, run on the model (see below).
* `scripts/` generators, `seeded/LOG.jsonl` record of the mutation tests.

## Properties

The list with full statements is `properties.jsonl`.  Status and theorem names: `MANIFEST.json`.

| id | modelled | how |
|----|----------|-----|
| C01-C03 | gtpv2/header.rs | case split on T flag / priority, byte-level computation; necessity of the condition in Props/HeaderExact.lean |
| C04, C05 | utils.rs (both copies are identical) | induction on digit list; arithmetic over digits |
| C06, C07, C08, C37 | every file under gtpv2/messages/ies | one model per IE, round trip with tail, length, panic freedom; then one theorem over the sum type. The exact panic condition of a debug build: `Kind.Crash` (V2/Crash.lean, scripts/gen_panic.py) is a condition on the octets for each kind; `R.Safe` is computed by equations, so that the condition of a decoder comes out by rewriting (V2/PanicBase.lean, PanicHard.lean, PanicKinds.lean, PanicArm.lean); the sequence by induction over the buffers that the decoder reaches (V2/Panic.lean); theorems in Props/Panic.lean. The six MM contexts as chains of stages: V2/PanicMm.lean. The same for a release build, where `length + 4` wraps: below 65532 both builds agree (`K.same`), from 65532 on `Kind.WrapCrash` is the condition for a panic and `Kind.Spin` the one for a size of 0, on which the loop stands still (V2/WrapBase.lean, WrapHard.lean, WrapKinds.lean, WrapCrash.lean, WrapArm.lean, scripts/gen_wrap.py; sequences in V2/PanicRelease.lean; theorems in Props/Release.lean) The converse of the round trip, that only well-formed values survive it: V2/Exact.lean, by inspecting the decoders of the 18 kinds with a condition beyond the length, then `Stable`; Props/Exact.lean. MM contexts: V2/MmExact.lean follows the cursor stage by stage (a stage consumes at least the octets written for the field, so a cursor once too far stays too far and the last field is missing); V2/MmExactEps.lean for the EPS security context, where stages can also fall short, so that the values outside `WF` that survive are named (`Bare`, `Blank`); Props/MmExact.lean |
| C09-C13 | ie.rs encoder/decoder | induction over the IE list / the buffer |
| C14-C22, C38, C39 | gtpv2/messages | per message: `fromvec` of `tovec`, invariant of the fold; then one theorem over all 83 types |
| C23 | utils.rs set_msg_length | append lemma for IEs, refutation for messages |
| C24 | grouped IE files | via C09 and slot lemmas |
| C25-C28 | gtpv1/gtpu/header.rs, extensionheaders | per header kind round trip, chain induction; refutations where the code is wrong. The exact conditions for a panic and for an endless loop in a release build are inductive predicates on the chain (Props/ChainRelease.lean, both protocols). Necessary and sufficient conditions for the round trip of a header and for its computed size: Props/HeaderExact.lean, both protocols |
| C29-C33 | gtpv1/gtpu/messages | direct; panic conditions as iff (for Error Indication an inductive predicate on the body, Props/UErrInd.lean); the same for a panic and for an endless loop in release builds (Props/URelease.lean); which messages survive, exactly, from C80 and the exact header round trips (Props/UExact.lean) |
| C34, C40-C42 | gtpv1/gtpc/header.rs, extensionheaders | as C25-C28; every flag combination round trips here |
| C35, C43-C46 | gtpv1/gtpc/messages/ies | per IE, then one theorem over the 49 kinds; that only well-formed values survive: C1/Exact.lean and Props/CExact.lean |
| C36, C47-C56 | gtpv1/gtpc/messages | one loop over tables; a separate stateless parser (`Parsed`) and field assignment (`Prescribed`) as specification; refinement in both directions; the exact conditions for a panic and for an endless loop are two small inductive descriptions over the octets (`Fails`, `Spins` in `Props/CPanic.lean`; `C52_panics_iff`, `C53_diverges_iff`, both builds) |
| C57 | the three header.rs, extensionheaders | a separate octet-by-octet layout as specification, equality for every value |
| C58 | impl Default | generated `Kind.dflt` (`scripts/gen_defaults.py`), kernel computation over all kinds and message types |
| C59 | ies/*.rs, ie.rs | `R.Errs`: the errors of every decoder (`scripts/gen_ieerr.py`), then induction over the buffer |
| C60 | ies/*.rs, utils.rs | `IE.setLength` (`scripts/gen_setlen.py`), case analysis over the kinds, `tliv` overwrites the length |
| C61 | ies/*.rs, ie.rs | `X.stable` for every kind (`scripts/gen_stable.py`): a decoded value satisfies `WF` once its length is set; `deep_WF` (`scripts/gen_deep.py`) extends this to grouped IEs by induction on the nesting; then C09 |
| C62 | messages/*.rs | the decoded fields with their lengths set satisfy the hypotheses of C14 (`select_fits`, `deep_WF`), then C14 |
| C63 | gtpc ies/*.rs, gtpv1 utils.rs | `Kind.setLength` (`scripts/gen_c1_stable.py`), case analysis over the kinds, `set_tlv_ie_length` overwrites the length |
| C64 | gtpc ies/*.rs | `X.stable` for every kind (`scripts/gen_c1_stable.py`): a decoded value satisfies `WF` once its length is set; then C35 |
| C65 | gtpc messages/*.rs | an invariant of the decoding loop (`Inv`), also when the `u8` counter of a type wraps: every field was decoded from its own type, or is the second GSN address with its default value, and no field has a gap in front of it; so the message with its lengths set is `Regular`; then C36 |
| C66 | ies/*.rs of both protocols | tables of the exceptions, checked over all kinds by evaluation; the round trip by C60 and C63 |
| C67 | gtpc/header.rs, gtpu/header.rs, extension headers | `CHeaderAt`, `UHeaderAt` describe a header by positions and flag bits, `CChain`, `UChain` a chain inductively; equivalence with the decoder |
| C68 | the three header decoders and all messages | error for the version as an equivalence; transfer to messages through `>>=`; first octet of the encoders |
| C69 | gtpu header and messages | what a decoded header satisfies (from C67); then the round trips C25, C29, C30 for the message with its lengths set |
| C70 | all IE decoders, groups, `decoder` | a relation `Par` between two runs on buffers that differ in octet 3 (V2/ParBase.lean); one lemma per kind, generated by gen_instance.py (V2/Instance.lean); the loop by its first step |
| C71 | all IE decoders, groups, `decoder` | a relation `Ext` (whatever the first run accepts, the second accepts) between the runs on `b` and `b ++ r` (V2/ExtBase.lean); one lemma per kind, generated by gen_append.py (V2/Append.lean); sequences by induction |
| C72 | all IE decoders, groups | `Ext` between the runs on `b` and on its declared part, for the kinds that have the property (V2/Own.lean); for all other types a table of witnesses that the kernel evaluates |
| C73 | the decoders of all 49 GTPv1-C element kinds | as C71 and C72, generated by gen_c1_append.py (C1/Append.lean, C1/Own.lean); witnesses for the other kinds |
| C74 | `marshal` of all IE kinds but the MM contexts 107 and 108 (the figures of their later fields were not at hand) and those whose coding another specification gives | FigureSpec.lean writes the figures of TS 29.274 chapter 8 down as rows (fields of an octet, numbers, digits, PLMNs, octets) without reference to the encoders; Figure.lean compares kind by kind and proves for which values the octets differ; GroupedRead.lean: grouped IEs by induction over their nesting, from C95; MmFigure.lean: MM contexts with a GSM or UMTS key |
| C75 | `marshal` of all GTPv1-C IE kinds but Charging Characteristics | CFigureSpec.lean has the figures of TS 29.060 chapter 7.7 in the same notation; CFigure.lean compares kind by kind, exact condition |
| C76 | `unmarshal` of the 43 GTPv2-C IE types with spare bits at fixed places, the decoder | Spare.lean lists the used bits per octet; V2/Spare.lean proves kind by kind that the decoder has the same outcome with the spare bits cleared |
| C77 | `unmarshal` of the 14 GTPv1-C IE kinds with spare bits | CSpare.lean lists the used bits per octet and proves kind by kind that the decoder has the same outcome with the spare bits cleared |
| C78 | `marshal` of the six GTPv1-U messages and their IEs | UFigure.lean writes the messages of TS 29.281 down with `num` of Layout.lean; equality of the octets if and only if the copied type fields are right |
| C79 | `unmarshal` of all 83 GTPv2-C message types with the loop over the IEs | MsgExact.lean: `ReadAs` puts header, IE sequence (`Spells`), mandatory fields and fields together; equivalence from C02, C16-C20 and inversion of the loop; the two types that deviate have their own exact statement |
| C80 | `unmarshal` of the six GTPv1-U messages and their IEs | UAccept.lean: the condition on the octets behind the header is written down for each message (`privSpec`, `ItemAt`, `IndItems`), equivalence by inversion and by induction over the loop of the Error Indication; the same for release builds, where sums wrap around (`privSpecR`, `ItemAtR`, `IndItemsR`, Props/UAcceptRelease.lean) |
| C81 | `InformationElement::decoder` with a stack of limited size (`onStack`) | Stack.lean: induction on the size of the stack and the length of the buffer; `Nests` is the depth read off the octets |
| C82 | the calls of `InformationElement::decoder`, counted (`Calls`) | Stack.lean: induction over the calls, with C11 for grouped IEs and Short.lean (no IE is decoded from fewer than four octets) |
| C83 | `unmarshal` of the four GTPv1-C messages without a loop | CAccept.lean: `PrivateIn` is a relation between the octets and the outcome of reading a private extension, shown to be the function of the code; per message the condition behind the header for acceptance and for a panic, by cases |
| C84 | message type constants | MsgSpec.lean has table 6.1-1 of TS 29.274; MsgTable.lean compares it with the codecs, all 83 of them |
| C85 | `unmarshal` of the GTPv2-C messages | `Reads`/`Frames` say which IEs, with type octets, the octets of a message are; from C16, with the check (over the whole finite table) that the mandatory fields of the crate and the mandatory rows of the standard are in correspondence |
| C86 | `unmarshal` of the GTPv2-C messages | from C79: an IE that arrives for a field is held by it; the check that each row has such a field; for the rows without, no field takes the IE |
| C87 | the 16 GTPv1-C messages with a loop | CTable.lean: the tables of TS 29.060, compared with the arms of the decoders and the order of the encoders; from C47 and `decode_elements` |
| C88 | `Iterator for dyn Messages` (commons.rs) | `Msg.next`; what `n` calls yield, by induction on `n`; the loop ends iff `tovec` is empty |
| C89 | `get_type`, `is_empty` | PostType.lean (generated): the type field that each decoder sets; aggregated over `unmKind`, compared with the octet for all 256 types; `is_empty` from `unmKind_length` |
| C90 | decoders against the figures of TS 29.274 | C74 (encoder = figure) with C06_exact (exact round trips) and C70 (the fourth octet decides the instance only); the deviating kinds one by one; grouped IEs from C94 and the decoding of their members (GroupedRead.lean); MM contexts 103 to 106 exactly (MmFigure.lean, MmExact.lean) |
| C91 | decoders against the figures of TS 29.060 | C75 with C35_exact; IMSIs, time zones and subscriber numbers one by one |
| C92 | `is_empty` of GTPv1 elements and extension headers (C1/Empty.lean generated, U/Empty.lean) | Empty1.lean: inversion of each decoder down to its length field |
| C93 | `impl Display` of the errors (ErrText.lean) | ErrText.lean: the first eleven characters tell the constructors apart, the digits spell the type |
| C94 | `From<GroupedIe>` of the nine grouped IEs, `GroupedIe::unmarshal` (V2/IE.lean, V2/Group.lean) | Members.lean (generated): each field as a filter over the members, by induction on the members; Grouped.lean (generated): tables of TS 29.274, acceptance as an equivalence, members kept, origin of every member of the value. `_partial`: see below |
| C95 | `to_vec` of the nine grouped IEs, `GroupedIe::marshal` (V2/IE.lean) | GroupedWrite.lean: the members written are a permutation of the fields. `_partial`: four fields are never written, see below |
| C96 | header, IE decoder and message decoders of GTPv2-C together | Peer.lean: what a peer writes is described by figures and tables only; C84, C85, C86, C90 and C94 put together. `_partial`: what those exclude |
| C97 | header, element decoders and message decoders of GTPv1-C together | CPeer.lean: figures (C75, C91), header octets (C57), the tables (C87) and the reading of C47 (`Parsed`, `Prescribed`) put together; IMSIs of fewer than 15 digits are included, although the encoder writes them differently. `_partial`: a private extension in front of something else, time zones, and APN Restriction, with which every message is rejected (`C97_violation`) |
| C98 | header and message decoders of the three protocols | Unused.lean: two buffers with the same decoded header and the same octets behind it give the same result; the header decoders bit by bit (C02 for GTPv2-C). `_partial`: GTPv1-U without the flag S, where the unused fields are evaluated (`C98_u_evaluated`, `C98_u_violation`) |
| C99 | decoders of GTPv1-U | UPeer.lean: the figures of TS 29.281 §5 with spare bits and unused fields (`UExtDrawn`, `UHeadDrawn`, `USent`), independent of the encoder; the header by induction over the chain, the messages by `u_same` of C98 and C30, three of them directly. `_partial`: the limits `Takes`; `C99_exact` shows that in debug builds nothing outside them is understood |
| C100 | `is_empty` of the parts of GTPv2-C IEs (V2/Empty.lean) | EmptyPart.lean: each decoder unfolded on explicit octets or inverted; the PLMN by its six digits (`plmn_zero`: what is no decimal digit is dropped by `mcc_mnc_decode`). `_partial`: 15 parts; `C100_exact`: the condition of the other ten |

No property had to be dropped as inexpressible.

## Where the code violates a property

Each of these is proved as a negation with a concrete witness next to a `_partial` theorem that
states what does hold, or is excluded by a well-formedness condition that is stated with the definition of the IE.

### GTPv2-C information elements

* C06/C12: `TraceReference` is written with type 83 (Serving Network), the decoder expects 115;
  type 169 (TWAN Identifier) is decoded as Action Indication; `Uli::marshal` writes its `t` field.
* C08/C22: an IE whose declared length is 65532..65535 makes `length + 4` overflow (panic in debug; in release the check passes).
  In release builds a declared length of 65532 of APN (71), F-TEID (87), Complete Request Message (116), F-Container (118),
  FQ-CSID (132), FQDN (136), LDN (151), Remote UE IP Information (193) or Extended Trace Information makes the decoder loop forever
  (C10); of no other type (`C10_stands_still_kinds_iff`).
* C08: short declared lengths make these types panic: 71, 77, 86, 87, 90, 91, 103-108, 129, 136, 142, 159, 162, 175, 177, 184, 186, 192,
  205, 206, 212, 215, 254, 255; `TwanId::unmarshal` on `[169,0,2,0,1,0]`; grouped IEs, `Unknown` and `MmContext` on the empty buffer;
  `Fcontainer::Unknown` panics when an empty one is encoded.
* C11: fixed-size IEs ignore the declared length; several others use it for `len()` without comparing it with the buffer; `Mei::len` is
  always 12; `Rai::len` is 6 although 7 octets are written; FQ-CSID may read past its declared length.
  `ownPace` in Props/Pace.lean lists the 78 types after which decoding goes on at a wrong octet.
* C13: an unknown IE loses its type octet (it becomes 0), its instance is not masked; a zero-length unknown IE aborts decoding.
* C24: a bearer context drops `bss_container` and `transaction_id` when encoding; load and overload control keep only the last
  `ApnRelativeCapacity`/`Apn`; `PdnConnections` ignores `pgw_change_info` and `up_security_policy`; missing mandatory members silently get
  defaults.
* `Fteid` with neither address writes flags 0xC0; `HeaderCompressionConfiguration` decodes into a default that already contains an element;
  `TargetId` (en-gNB) swaps flag bits and its `len()` is off; `SourceId`/`TargetId` with spare octet: `len()` off by one;
  `TargetType::MacroEnbIdentifier` is never written.
* MM contexts: an absent optional octet string moves the cursor too far; the UMTS quintuplet contexts reject an absent IOV counter;
  in the EPS security context the octet of an absent extended access restriction is not skipped, so that some contexts with absent
  fields survive because two such mistakes cancel (`C06_eps_bare`, `C06_eps_blank`);
  `higher_than_16_mbps = false` at the end of the buffer panics on its own encoding; in the EPS context absent `ext_access_res` and
  `apn_rate_controls` are not skipped, the latter swallow the rest; the number of vectors is truncated by `(len as u8) << 5`.
* Presence Reporting Area Information without `add_prai` encodes 8 octets, the decoder needs 12.
* Values that are normalised: EPC timer, throttling, metric, EBI, time zone, PDU numbers, RAB context, S1-U data forwarding EBI, remote UE
  IPv6 address, maximum packet loss rate, transaction id, secondary RAT usage, monitoring event, ULI, MBMS service areas (empty list),
  ECGI list (none and empty), unknown values of enumerations.
* C58: the defaults of 20 IE kinds (`v2Rejected`) are not accepted by the decoder of their kind, mostly because their body is empty and a
  declared length of 0 is rejected.
* C59: an error about a Trace Reference names type 83, one about type 169 names 168; a location cut short in a ULI and an unknown IE whose
  length does not fit name type 0.
* C61: a relayed message can change. Names are read as Latin-1 and written as UTF-8 (APN, FQDN, PGW FQDN, APN relative capacity, LDN,
  node identifier): every octet above 127 becomes two. Identities without digits are written with an empty body, which is rejected.
  The CSG identity is masked when written but not when read. An MM context without capabilities is written in a form that is read
  differently. A presence reporting area without a second one is written in 8 octets and
  rejected. More than 63 extended macro eNodeBs are cut when written. A trace reference is written with type 83. The BSS
  container and the transaction identifier of a bearer context are not written. A PGW change info and a V2X information without known
  members are written with an empty body, and are rejected.
* C94: a grouped IE is accepted without its mandatory members, and a default takes their place: a bearer context without EBI becomes bearer
  0 (`5d 0005 00 03 0001 00 07`). Only PC5 QoS Parameters asks for a PC5 QoS flow. Load control and overload control keep the last of
  their APNs (the vector is created anew in every iteration), a PDN connection the first presence reporting area. A packet flow id in a bearer
  context, PGW change info and UP security policy in a PDN connection are dropped. Sequence number, metric, timer, remote user id and
  remote UE address are taken from members of any instance, the last one wins.
* C95: BSS container and transaction identifier of a bearer context, PGW change info and UP security policy of a PDN connection are not written.
* The unit tests for MCC 310/MNC 012 (`[0x13,0x00,0x21]`) disagree with the code and with TS 24.008.

### GTPv2-C messages

* C62: messages with a fixed body offset of 12 accept a header without TEID, skip the first four octets of the body, and are sent on
  with an 8-octet header, so the next node reads IEs from the wrong place.
* C64: an IMSI, IMEI or MSISDN with fewer digits than its octets can hold is written with fewer octets; a CSG identity of more than 27 bits
  loses its upper bits; an APN with octets above 127 is written as UTF-8; a list of 254 or more extension header types overflows the length.
* C65: a Create PDP Context Response with common flags and a charging gateway address arrives in ascending order, is written with the address
  first, and is rejected by the next node. A fixed extension header with a length other than 1 is written with that length but with two octets
  of contents, and the next node does not find the end of the chain.
* C66: the length field of 46 GTPv2-C and three GTPv1-C defaults is not the length of the encoding (`v2Length`, `lengths` in Props/Blank.lean); mostly
  it is 0. The default of the kinds in `v2Altered` and `rejected` is not decoded to itself.
* C67: a GTPv1-U header with E or PN but without S gets a sequence number, an N-PDU number and a chain of extension headers (gtpu/header.rs:260-295);
  a long PDCP PDU number whose length octet is 1 takes its last octet from what follows; in release builds the length octet counts modulo 64.
* C69: an extension header of fixed contents with another length octet is decoded and written back with that octet but the standard size, so the
  next decoder reads past it; an Echo Request or End Marker that ends with its header gets the length 0 and is rejected.
* C70: grouped IEs (groupedie.rs:42), unknown IEs (unknown.rs:42) and nine others (cmi.rs:83, extendedtraceinfo.rs:94, nodetype.rs:83, ptmsi.rs:60,
  sourceid.rs:213, targetid.rs:702, tmgi.rs:56, two MBMS elements) keep the spare half of octet 4 as part of the instance; such an IE fits no slot.
* C71: Target and Source Identification, MDT Configuration, the Presence Reporting Area IEs and the MM contexts look at the end of the whole
  buffer (targetid.rs:37, sourceid.rs:39, mdtconfiguration.rs:204-226, praa.rs:319, prai.rs:120), so what follows them changes or breaks them.
* C72: for 114 IE types a length field that is too small is not noticed: the fields are read from the next IE
  (`[3, 0, 0, 0]` is a Recovery whose value is the type octet of the IE behind it).
* C73: no GTPv1-C decoder of a fixed-size TLV element compares the length field with the fields it reads; Private Extension and Extension
  Header Type List read to the end of the buffer (privateextension.rs:50, extensionheadertypelist.rs:44).
* C74: UE Time Zone is written as sign and binary number instead of the swapped decimal digits of TS 23.040 (uetimezone.rs:49-53; UTC+1 becomes
  04 instead of 40); Trace Reference has the type of Serving Network (83 instead of 115, tracereference.rs:11); an F-TEID without address has
  both address flags (fteid.rs:100); a transaction identifier from 7 on is written without the extension marks (transactionid.rs); home eNodeB
  identities take three octets instead of four (targetid.rs, praa.rs); ULI writes its type field (uli.rs), so that a changed one is sent.
* C75: the MS Time Zone is written as the UE Time Zone of C74. An IMSI below 15 digits is not filled up to the eight octets that the element has
  by its type, so that the receiver takes the next element for the rest of the number. Every encoder but that of Recovery writes the type
  field of the structure, whatever it is.
* C76: twelve decoders compare or store whole octets whose upper bits are spare. PAA, ARP, SPI, HeNB Information Reporting,
  CN Operator Selection Entity, Paging and Service Information and UP Function Selection Indication Flags reject the IE, and with it the
  message, when a spare bit is set; PDN Type, F-Container and CMI take it for another value; UCI and CSG ID keep the spare bits as part of
  the CSG ID.
* C77: Teardown Ind is only accepted as 0xfe or 0xff, SPI and UP Function Selection Indication Flags only as 0 or 1, CN Operator Selection
  Entity only from 0 to 3, although the other bits of these octets are spare; UCI keeps the spare bits as part of the CSG ID.
* C80: an Echo Response with fewer octets than announced is accepted, octets behind the announced end of a Supported Extension Headers
  Notification are added to its list, those of an Error Indication are taken for elements.
  In release builds a list or a private extension of almost 65536 octets is accepted with none of them there.
* C81: every grouped IE may contain every other, and itself; the members are decoded before those of a wrong type are thrown away. 65,000
  octets of bearer contexts in each other, in any message, make the decoder call itself 16,000 times; there is no limit in the code and
  the stack of a thread is not unlimited.
* C84: three message types are wrong. `DL_DATA_NOTIF` is 179 (TS 29.274: 176), `PGW_RESTART_NOTIF` is 180 (179), `STOP_PAGING_IND` is 164 (73). A peer takes a Downlink
  Data Notification for a PGW Restart Notification, and the messages of a peer are refused.
* C85: RAN Information Relay wants an F-Cause in the field `bss_container` and refuses messages with the F-Container that the standard requires; Trace Session Deactivation wants a Trace
  Information instead of the Trace Reference; ISR Status Indication takes a TWAN Identifier (169) for the Action Indication (168), since both type octets are decoded as the latter;
  Identification Response is accepted without a Cause (C16).
* C86: Create Session Response has no field for bearer contexts marked for removal (instance 1); Delete Bearer Request keeps one of the EBIs to be deleted, so that the other bearers
  stay; Downlink Data Notification keeps one EBI; lists of Presence Reporting Area Action and Information are cut to one (10 messages); no message has a field for the TWAN Identifier.
* C88: iterating over a message never ends unless it has no IEs: `next` calls `tovec` anew each time and pops the last IE of the fresh list.
* C89: `get_type` of a decoded Trace Reference is 83 (Serving Network), of a TWAN Identifier 168, and of an IE of an unknown type 0; the received type of an unknown IE is lost.
* C90: octets as the figure has them that are misread: a home eNodeB identity 7 in the area 9 is read as 0 in the area 1792 and the next IE is looked for one octet early; one hour east is read as 16 hours; the transaction identifier 9 as 137; F-TEIDs without address, presence reporting areas without further areas and actions with a home eNodeB are rejected; so are an MM context with a UMTS key without IOV counter, and one without equipment identity.
* C91: a GTPv1-C MSISDN of at most 14 digits (that is, any E.164 number but the longest) at the end of a message makes the decoder panic; otherwise the octets behind it become digits.
* C92: a GTPv1-C element of fixed size that declares the length 0 is decoded from octets that are not its own, and `is_empty` holds of the result; in GTPv1-U a restart counter, TEID, address or PDCP number of 0 is called empty.
* C97: a GTPv1-C message with an APN Restriction, which a Create PDP Context Response normally has, is rejected as a whole: `len` of the element is 2 instead of 4 (apnrestriction.rs:91), and
  the decoder goes on in the middle of it.
* C98: a G-PDU with E but without S, as every gNB sends it (PDU session container), gets the unused octets 9 to 11 as sequence number and N-PDU number; with PN alone the unused octet 12 is taken
  for the type of an extension header, and if it is not 0 the first octets of the T-PDU are lost (`31 ff 000c 00000001 0000 05 40 01 45 46 00 ...`).
* C99: the usual End Marker (no flags, no elements, length 0) is rejected; the six spare bits in front of the 18 bits of a long PDCP PDU number become part of the number (longpdcppdunumber.rs:49); see C98 for
  the G-PDU without a sequence number.
* C100: `is_empty` forgets `smenb` of an extended macro eNodeB identifier (commons.rs:401), the length of a gNodeB identifier (targetid.rs:288) and `old_ncc` (commons.rs:1271); a target of the variant `MacroEnbIdentifier` or of an unknown type is always empty (targetid.rs:647); a received en-gNB identifier never is, because its decoder wants both codes.
* C16: MBMS Session Start Request reports type 139 when 142 is missing (mbmssessionstartreq.rs:240); Create Forwarding Tunnel Response
  reports 90 when Cause is missing (createforwardingtunnelresp.rs:109); Forward Relocation Request reports IMSI when the F-TEID is missing
  (forwardrelocationreq.rs:502); Create Indirect Data Forwarding Tunnel Response reports 0 when both are missing (:133); Identification
  Response does not check its mandatory Cause; Create Session Request checks by the `t` field of the IEs.
* C20: 13 types keep the last IE for one of their slots (`C20_violation_types`).
* C14: Modify Bearer Command keeps only the first bearer context.
* C18: Version Not Supported Indication does not check the length.
* C22: 80 message types panic on a header with T = 0 and length 4..7 (`C22_violation_count`).
* C23: encoding into a non-empty buffer overwrites octets 2..3 of the old contents.
* C38: type code 180 is used for PGW Restart Notification and its Acknowledge, 164 for Resume Notification and Stop Paging Indication
  (TS 29.274: 73); Downlink Data Notification has 179 (TS 29.274: 176).
* C58: the defaults of 21 message types (`v2MsgRejected`) are rejected by their own decoder.

### GTPv1-U

* C25: headers with (S, PN, E) = (0,0,1), (0,1,1), (0,1,0) come back with all optional fields present; for (0,1,0) extension headers are
  parsed although E = 0; an announced length of 0 is rejected.
* C26: `length * 4` overflows `u8` in extension headers (debug: panic; release: panic or endless loop); a chain that is cut short panics.
* C27: a "no more" header inside the list is counted as one octet.
* C29: payloads of 65528..65535 octets panic in both builds; an empty payload is rejected; so are an Echo Request and an End Marker without
  optional parts (C30).
* C32: a G-PDU panics when the announced length ends inside the header; a private extension of length 1 in a buffer of four octets panics;
  type lists of 254/255 entries overflow; 256 TEIDs in an Error Indication overflow (debug) and a private extension of length 65533 loops
  forever (release).
* C33: Echo Request and End Marker never check the announced length, Echo Response tolerates three missing octets, release builds accept
  truncated messages when the length is 65528 or more.

### GTPv1-C

* C40: as C26; C41: a header that ends behind the sequence number (10 octets) is accepted although `len()` says 12.
* C36: `ApnRestriction::len()` is 2 instead of 4, so every message with an APN restriction is rejected by its own decoder
  (Create Request/Response, Update Response, Update Request from the GGSN); Create and Update PDP Context Response write the Charging
  Gateway Address (251) before elements with lower codes and are then rejected; a user plane address without control plane address comes
  back as the latter; the default TEID carries the wrong type for a PDU Notification Request.
* C35/C43: an MSISDN always reads 8 digit octets; private extension and extension header type list swallow what follows;
  `EndUserAddress` and `PrivateExtension` panic with length 1 in four octets, `GGSNBackOffTime` with two or three octets, `Apn` when its labels
  do not fill the declared length.
* C46: six kinds account for the declared length without comparing it with the buffer.
* C47: 256 elements of one type overflow a counter: panic in debug, in release the 257th NSAPI becomes the linked NSAPI.
* C48: one GSN address is enough where two are mandatory; failures of the QoS profile in responses are reported as mandatory although it is
  optional, of the TEID in PDU Notification Request as optional although it is mandatory.
* C50: release builds accept truncated messages from length 65528; Echo Request and Version Not Supported never check.
* C51: all decoders read to the end of the buffer, beyond the announced length.
* C52: Update PDP Context Request panics (`unwrap`) on a malformed first GSN address; every message type panics on a private extension of
  length 1; Echo Request and Supported Extension Headers Notification panic on a header of 10 octets with S = 1.
* C53: in release builds every message type with a loop spins on a private extension of length 65533.
* C55: encoding into a non-empty buffer overwrites octets 2..3.
* C58: the defaults of 9 IE kinds and 5 message types are rejected by their own decoder.
