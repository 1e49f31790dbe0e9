{"id": "C01", "title": "GTPv2-C header round trip", "statement": "Encoding a GTPv2-C header and decoding the produced bytes, followed by anything, returns exactly the same header (message type, piggyback flag, message priority, length, TEID, sequence number).", "quantifier": "for every header whose fields fit the wire format (24-bit sequence number, 4-bit priority, priority only together with a TEID, length the decoder accepts) and every byte string that follows it", "why_tests_cant": "2^90 headers times arbitrary tails; tests sample a handful of captures.", "anchors": ["src/gtpv2/header.rs: Gtpv2Header::{marshal,unmarshal,get_length}"]}
{"id": "C02", "title": "GTPv2-C header decoding is total and precise", "statement": "Header decoding never panics; it succeeds exactly when the version is 2, enough bytes are present for the form announced by the T flag and the length field covers the rest of the header; otherwise it returns the documented error.", "quantifier": "for every byte string", "why_tests_cant": "The domain is all byte strings; the acceptance condition is an iff.", "anchors": ["src/gtpv2/header.rs: Gtpv2Header::{marshal,unmarshal,get_length}"]}
{"id": "C03", "title": "GTPv2-C header re-encoding is faithful", "statement": "Re-encoding a decoded header reproduces the bytes it was decoded from whenever the spare bits were zero.", "quantifier": "for every accepted byte string with zero spare bits", "why_tests_cant": "Infinite input space; needs both directions of the codec.", "anchors": ["src/gtpv2/header.rs: Gtpv2Header::{marshal,unmarshal,get_length}"]}
{"id": "C04", "title": "TBCD digit strings survive encode/decode", "statement": "Packing a string of decimal digits as TBCD and unpacking it gives the same digits; the packed form has ceil(n/2) octets and odd lengths are padded with the filler nibble.", "quantifier": "for every digit string of every length", "why_tests_cant": "Unbounded length, parity-dependent padding.", "anchors": ["src/gtpv2/utils.rs: tbcd_encode, tbcd_decode", "src/gtpv1/utils.rs: tbcd_encode, tbcd_decode"]}
{"id": "C05", "title": "MCC/MNC survive encode/decode", "statement": "Packing an MCC/MNC pair into the 3-octet PLMN identity and unpacking it returns the same MCC, MNC and MNC-length flag.", "quantifier": "for every MCC 0..999, every two-digit MNC 0..99 and three-digit MNC 0..999", "why_tests_cant": "About 1.1 million pairs in two encodings; unit tests use two or three PLMNs.", "anchors": ["src/gtpv2/utils.rs: mcc_mnc_encode, mcc_mnc_decode", "src/gtpv1/utils.rs: mcc_mnc_encode, mcc_mnc_decode"]}
{"id": "C06", "title": "GTPv2-C information elements round trip", "statement": "For every supported IE kind, decoding the encoding of an IE returns the IE unchanged, whatever bytes follow it in the message.", "quantifier": "for every IE kind, every well-formed value of that kind and every following byte string", "why_tests_cant": "Every value of about 140 IE types with an arbitrary tail; existing tests use one literal per type and no tail.", "anchors": ["src/gtpv2/messages/ies/*.rs: IEs::{marshal,unmarshal}", "src/gtpv2/messages/ies/ie.rs: InformationElement::{marshal,encoder,decoder}"]}
{"id": "C07", "title": "IE length field is correct", "statement": "The two length octets of every encoded IE equal the number of octets that follow its 4-octet header.", "quantifier": "for every IE kind and every value whose body fits in 16 bits", "why_tests_cant": "Depends on every value and list length.", "anchors": ["src/gtpv2/utils.rs: set_tliv_ie_length", "src/gtpv2/messages/ies/*.rs: IEs::marshal"]}
{"id": "C08", "title": "IE decoding never panics", "statement": "Decoding an IE from a byte string returns a value or an error; it never panics (index out of range, slice bounds, arithmetic overflow).", "quantifier": "for every IE kind, every byte string, in debug and in release builds", "why_tests_cant": "Malformed inputs are unbounded; a single panic is a remote crash.", "anchors": ["src/gtpv2/messages/ies/*.rs: IEs::unmarshal", "src/gtpv2/utils.rs: check_tliv_ie_buffer"]}
{"id": "C09", "title": "IE sequence round trip", "statement": "Decoding the concatenated encodings of a list of IEs returns the same list in the same order.", "quantifier": "for every list of well-formed IEs of any length", "why_tests_cant": "Unbounded sequences; needs the per-IE consumption to match exactly.", "anchors": ["src/gtpv2/messages/ies/ie.rs: InformationElement::{marshal,encoder,decoder}"]}
{"id": "C10", "title": "IE sequence decoding terminates", "statement": "Decoding a buffer of IEs always finishes; each decoded IE consumes at least one octet.", "quantifier": "for every byte string, including grouped IEs nested to any depth", "why_tests_cant": "Non-termination cannot be observed by finite tests.", "anchors": ["src/gtpv2/messages/ies/ie.rs: InformationElement::{marshal,encoder,decoder}", "src/gtpv2/messages/ies/groupedie.rs"]}
{"id": "C11", "title": "IE decoding respects the declared length", "statement": "After an IE has been decoded the decoder continues exactly (declared length + 4) octets later, so that octets of one IE are never parsed as the next.", "quantifier": "for every byte string in which an IE is decoded successfully", "why_tests_cant": "Quantifies over all declared lengths and all IE kinds.", "anchors": ["src/gtpv2/messages/ies/*.rs: IEs::len", "src/gtpv2/messages/ies/ie.rs: InformationElement::{marshal,encoder,decoder}"]}
{"id": "C12", "title": "IE type dispatch is consistent", "statement": "The type octet written for an IE of some kind is a type octet for which the decoder selects the same kind.", "quantifier": "for every IE kind and every value", "why_tests_cant": "A cross-cutting property over two tables in different files with about 140 rows; existing tests never combine them.", "anchors": ["src/gtpv2/messages/ies/ie.rs: InformationElement::{marshal,encoder,decoder}"]}
{"id": "C13", "title": "Unknown IEs are skipped, not fatal", "statement": "An IE of unsupported type with a consistent length is carried as an opaque element with its value intact and does not disturb decoding of its neighbours.", "quantifier": "for every unsupported type, every value of it and all surrounding IEs", "why_tests_cant": "All type values times all payloads times all contexts.", "anchors": ["src/gtpv2/messages/ies/unknown.rs", "src/gtpv2/messages/ies/ie.rs: InformationElement::{marshal,encoder,decoder}"]}
{"id": "C14", "title": "GTPv2-C message round trip", "statement": "Encoding a message into an empty buffer and decoding it returns the same message.", "quantifier": "for every supported message type and every well-formed message", "why_tests_cant": "Optional IEs make exponentially many shapes; tests cover one or two each.", "anchors": ["src/gtpv2/messages/*.rs: Messages::{marshal,unmarshal,tovec,fromvec}"]}
{"id": "C15", "title": "GTPv2-C message length field is correct", "statement": "The header length field of every encoded message equals the total number of octets minus four.", "quantifier": "for every message type and every message of at most 65539 octets", "why_tests_cant": "Depends on all combinations of optional IEs and their sizes.", "anchors": ["src/gtpv2/utils.rs: set_msg_length", "src/gtpv2/messages/*.rs: Messages::{marshal,unmarshal,tovec,fromvec}"]}
{"id": "C16", "title": "Missing mandatory IEs are reported", "statement": "If a mandatory IE is absent from an otherwise decodable message then decoding fails with MessageMandatoryIEMissing naming the type of a missing mandatory IE; if all are present no such error is reported.", "quantifier": "for every message type and every list of IEs", "why_tests_cant": "All subsets, orders and multiplicities of IEs.", "anchors": ["src/gtpv2/messages/*.rs: Messages::{marshal,unmarshal,tovec,fromvec}"]}
{"id": "C17", "title": "Wrong message type is rejected", "statement": "Decoding bytes as a message of type T when the header carries another type fails with MessageIncorrectMessageType and never yields a message.", "quantifier": "for every message type and every byte string with a valid header of another type", "why_tests_cant": "All pairs of types and all bodies.", "anchors": ["src/gtpv2/messages/*.rs: Messages::{marshal,unmarshal,tovec,fromvec}"]}
{"id": "C18", "title": "Truncated messages are rejected", "statement": "If the buffer is shorter than the length announced in the header, decoding fails; it never returns a message built from a truncated body.", "quantifier": "for every message type and every byte string", "why_tests_cant": "All truncation points of all messages.", "anchors": ["src/gtpv2/messages/*.rs: Messages::{marshal,unmarshal,tovec,fromvec}"]}
{"id": "C19", "title": "Octets after the announced length do not matter", "statement": "Decoding a buffer that holds a complete message followed by further octets (padding or a piggybacked message) gives the same result as decoding the message alone.", "quantifier": "for every message type, every byte string and every suffix", "why_tests_cant": "Unbounded suffixes.", "anchors": ["src/gtpv2/messages/*.rs: Messages::{marshal,unmarshal,tovec,fromvec}"]}
{"id": "C20", "title": "Duplicate IEs: the first one counts", "statement": "When several IEs of the same type and instance are present and the message has a single place for them, the first one is kept and the later ones are ignored.", "quantifier": "for every message type, every slot and every list of IEs", "why_tests_cant": "All multiplicities and positions.", "anchors": ["src/gtpv2/messages/*.rs: Messages::{marshal,unmarshal,tovec,fromvec}"]}
{"id": "C21", "title": "IE order does not matter across slots", "statement": "Reordering IEs that belong to different slots of a message does not change the decoded message.", "quantifier": "for every message type and every permutation that keeps the relative order within each slot", "why_tests_cant": "Factorially many permutations.", "anchors": ["src/gtpv2/messages/*.rs: Messages::{marshal,unmarshal,tovec,fromvec}"]}
{"id": "C22", "title": "GTPv2-C message decoding never panics", "statement": "Decoding any byte string as any message returns a value or an error, never a panic.", "quantifier": "for every message type and every byte string, in debug and release builds", "why_tests_cant": "Robustness against arbitrary network input.", "anchors": ["src/gtpv2/messages/*.rs: Messages::{marshal,unmarshal,tovec,fromvec}", "src/gtpv2/messages/ies/ie.rs: InformationElement::{marshal,encoder,decoder}"]}
{"id": "C23", "title": "Encoding appends", "statement": "Encoding an IE appends to the output buffer and leaves what is already there unchanged; likewise for messages.", "quantifier": "for every IE, every message and every prior buffer content", "why_tests_cant": "All prior contents.", "anchors": ["src/gtpv2/utils.rs: set_msg_length, set_tliv_ie_length", "src/gtpv2/messages/*.rs: Messages::{marshal,unmarshal,tovec,fromvec}"]}
{"id": "C24", "title": "Grouped IEs round trip", "statement": "Encoding a grouped IE (bearer context, load/overload control, PDN connection, remote UE context, ...) and decoding it returns the same members.", "quantifier": "for every grouped IE kind and every well-formed member list", "why_tests_cant": "Nested lists with optional members.", "anchors": ["src/gtpv2/messages/ies/groupedie.rs", "src/gtpv2/messages/ies/{bearercontext,loadcontrolinfo,overloadcontrolinfo,pdnconnections,remoteuecontext,scefpdnconnections,v2xinformation,pc5qosparameters,pgwchangeinfo}.rs"]}
{"id": "C25", "title": "GTPv1-U header round trip", "statement": "Encoding a GTPv1-U header (with any combination of sequence number, N-PDU number and extension headers) and decoding it returns the same header.", "quantifier": "for every header value", "why_tests_cant": "Eight flag combinations times chains of extension headers of any length.", "anchors": ["src/gtpv1/gtpu/header.rs: Gtpv1Header::{marshal,unmarshal,get_header_size}"]}
{"id": "C26", "title": "GTPv1-U header decoding never panics and terminates", "statement": "Decoding a GTPv1-U header from any byte string returns a header or an error after finitely many steps without panicking.", "quantifier": "for every byte string, in debug and release builds", "why_tests_cant": "Chains of extension headers are unbounded; non-termination is not testable.", "anchors": ["src/gtpv1/gtpu/header.rs: Gtpv1Header::{marshal,unmarshal,get_header_size}", "src/gtpv1/gtpu/extensionheaders/*.rs"]}
{"id": "C27", "title": "GTPv1-U header size", "statement": "The computed header size equals the number of octets the encoder writes.", "quantifier": "for every header value", "why_tests_cant": "All extension-header chains.", "anchors": ["src/gtpv1/gtpu/header.rs: Gtpv1Header::{marshal,unmarshal,get_header_size}"]}
{"id": "C28", "title": "GTPv1-U extension header chain round trip", "statement": "A chain of extension headers is decoded back in the same order with the same contents; every extension header occupies a multiple of four octets and the chain ends with type 0.", "quantifier": "for every list of well-formed extension headers", "why_tests_cant": "Unbounded chains with eleven header kinds.", "anchors": ["src/gtpv1/gtpu/extensionheaders/*.rs"]}
{"id": "C29", "title": "G-PDU payload is preserved", "statement": "Encoding and decoding a G-PDU returns exactly the original payload octets.", "quantifier": "for every payload and every header with sequence number present or no optional field", "why_tests_cant": "Payloads of any content and length.", "anchors": ["src/gtpv1/gtpu/messages/gpdu.rs"]}
{"id": "C30", "title": "GTPv1-U path-management messages round trip", "statement": "Echo Request, Echo Response, Error Indication, End Marker and Supported Extension Headers Notification decode to what was encoded.", "quantifier": "for every well-formed message of these types", "why_tests_cant": "All values of their IEs and optional private extensions.", "anchors": ["src/gtpv1/gtpu/messages/*.rs"]}
{"id": "C31", "title": "GTPv1-U length field is correct", "statement": "The length field of every encoded GTPv1-U message equals the number of octets after the mandatory 8-octet header.", "quantifier": "for every GTPv1-U message of at most 65543 octets", "why_tests_cant": "All message sizes.", "anchors": ["src/gtpv1/utils.rs: set_length", "src/gtpv1/gtpu/messages/*.rs"]}
{"id": "C32", "title": "GTPv1-U message decoding never panics", "statement": "Decoding any byte string as any GTPv1-U message returns a value or an error.", "quantifier": "for every byte string", "why_tests_cant": "Robustness against arbitrary network input.", "anchors": ["src/gtpv1/gtpu/messages/*.rs", "src/gtpv1/gtpu/ies/*.rs"]}
{"id": "C33", "title": "Truncated GTPv1-U messages are rejected", "statement": "If the buffer is shorter than announced by the length field, decoding fails.", "quantifier": "for every GTPv1-U message type and every byte string", "why_tests_cant": "All truncation points.", "anchors": ["src/gtpv1/gtpu/messages/*.rs"]}
{"id": "C34", "title": "GTPv1-C header round trip", "statement": "Encoding and decoding a GTPv1-C header returns the same header.", "quantifier": "for every GTPv1-C header", "why_tests_cant": "All flag combinations and extension headers.", "anchors": ["src/gtpv1/gtpc/header.rs"]}
{"id": "C35", "title": "GTPv1-C information elements round trip", "statement": "For every supported GTPv1-C IE kind decoding an encoded IE returns the IE, whatever follows.", "quantifier": "for every IE kind, every well-formed value and every tail", "why_tests_cant": "All values of all kinds.", "anchors": ["src/gtpv1/gtpc/messages/ies/*.rs"]}
{"id": "C36", "title": "GTPv1-C messages round trip", "statement": "Encoding a GTPv1-C message and decoding it returns the same message.", "quantifier": "for every supported message and every well-formed value", "why_tests_cant": "All combinations of optional IEs.", "anchors": ["src/gtpv1/gtpc/messages/*.rs"]}
{"id": "C37", "title": "Encoding is injective on IEs", "statement": "Two different well-formed IEs of the same kind never have the same encoding, and no encoding is a proper prefix of another.", "quantifier": "for every IE kind and every pair of values", "why_tests_cant": "Pairs of values; follows from the tail-robust round trip.", "anchors": ["src/gtpv2/messages/ies/*.rs"]}
{"id": "C38", "title": "Message type codes are distinct", "statement": "No two GTPv2-C message types share a type code, so that the type octet determines how a message is decoded.", "quantifier": "for every pair of message types", "why_tests_cant": "A table property across 83 files; nothing in the tests compares files.", "anchors": ["src/gtpv2/messages/*.rs: the type constants"]}
{"id": "C39", "title": "Message encodings identify messages", "statement": "Two well-formed messages of the same type with the same octets are equal up to the length field of the header; messages of types with different codes never have the same octets, and each is rejected by the decoder of the other.", "quantifier": "for every pair of message types and every pair of well-formed messages", "why_tests_cant": "Pairs of values over all message types.", "anchors": ["src/gtpv2/messages/*.rs: Messages::{marshal,unmarshal,tovec,fromvec}"]}
{"id": "C40", "title": "GTPv1-C header decoding never panics and terminates", "statement": "Decoding a GTPv1-C header from any byte string returns a header or an error after finitely many steps without panicking.", "quantifier": "for every byte string, in debug and release builds", "why_tests_cant": "Chains of extension headers are unbounded; non-termination is not testable.", "anchors": ["src/gtpv1/gtpc/header.rs: Gtpv1Header::{marshal,unmarshal,len}", "src/gtpv1/gtpc/extensionheaders/*.rs"]}
{"id": "C41", "title": "GTPv1-C header size", "statement": "The header size reported by len() equals the number of octets the encoder writes.", "quantifier": "for every header value", "why_tests_cant": "All extension-header chains; the message decoders use len() to find the first IE.", "anchors": ["src/gtpv1/gtpc/header.rs: Gtpv1Header::{marshal,unmarshal,len}"]}
{"id": "C42", "title": "GTPv1-C extension header chain round trip", "statement": "A chain of GTPv1-C extension headers is decoded back in the same order with the same contents; every extension header occupies a multiple of four octets and the chain ends with type 0.", "quantifier": "for every list of well-formed extension headers", "why_tests_cant": "Unbounded chains.", "anchors": ["src/gtpv1/gtpc/extensionheaders/*.rs"]}
{"id": "C43", "title": "GTPv1-C IE decoding never panics", "statement": "Decoding any byte string as any GTPv1-C information element returns a value or an error, never a panic or an endless loop.", "quantifier": "for every IE kind and every byte string, in debug and release builds", "why_tests_cant": "Robustness against arbitrary network input; the tests only decode well-formed octets.", "anchors": ["src/gtpv1/gtpc/messages/ies/*.rs"]}
{"id": "C44", "title": "GTPv1-C IE length field and len()", "statement": "The length octets of an encoded information element hold the number of octets behind them, and len() is the number of octets written.", "quantifier": "for every IE kind and every value", "why_tests_cant": "All values; a wrong len() only shows when another IE follows.", "anchors": ["src/gtpv1/gtpc/messages/ies/*.rs"]}
{"id": "C45", "title": "GTPv1-C IE encodings identify values", "statement": "Two different well-formed IEs of the same kind never have the same encoding, no encoding is a proper prefix of another, and the first octet tells the kind.", "quantifier": "for every IE kind and every pair of values", "why_tests_cant": "Pairs of values.", "anchors": ["src/gtpv1/gtpc/messages/ies/*.rs"]}
{"id": "C46", "title": "Decoded GTPv1-C IEs lie inside the buffer", "statement": "When decoding an information element succeeds, the number of octets that len() accounts for it is at least two and at most the size of the buffer.", "quantifier": "for every IE kind and every byte string", "why_tests_cant": "All byte strings; the message decoders advance by len().", "anchors": ["src/gtpv1/gtpc/messages/ies/*.rs"]}
{"id": "C47", "title": "A decoded GTPv1-C message is what its elements prescribe", "statement": "A buffer is accepted as a message of some type exactly when it is a header of this type followed by information elements with known types in ascending order and all mandatory types among them; the i-th element of each type is then in the i-th field for this type, further ones are ignored, and fields without element have their default.", "quantifier": "for every message type with a loop over elements and every byte string", "why_tests_cant": "An iff over all byte strings; tests decode a few captures.", "anchors": ["src/gtpv1/gtpc/messages/*.rs: Messages::{marshal,unmarshal}"]}
{"id": "C48", "title": "GTPv1-C messages without a mandatory IE are rejected", "statement": "A message is only accepted when every element that 3GPP TS 29.060 lists as mandatory is there; otherwise decoding fails with MessageMandatoryIEMissing.", "quantifier": "for every message type and every byte string", "why_tests_cant": "All subsets of elements.", "anchors": ["src/gtpv1/gtpc/messages/*.rs: Messages::{marshal,unmarshal}"]}
{"id": "C49", "title": "GTPv1-C elements out of order or of unknown type are rejected", "statement": "An element whose type code is lower than that of its predecessor, or that the message type does not know, makes decoding fail with MessageInvalidMessageFormat, whatever follows it.", "quantifier": "for every message type, every preceding list of elements and every following byte string", "why_tests_cant": "All orders and all type octets.", "anchors": ["src/gtpv1/gtpc/messages/*.rs: Messages::{marshal,unmarshal}"]}
{"id": "C50", "title": "Truncated GTPv1-C messages are rejected", "statement": "If the buffer is shorter than announced by the length field, decoding fails.", "quantifier": "for every message type and every byte string, in debug and release builds", "why_tests_cant": "All truncation points.", "anchors": ["src/gtpv1/gtpc/messages/*.rs: Messages::{marshal,unmarshal}"]}
{"id": "C51", "title": "Octets behind the announced length of a GTPv1-C message do not matter", "statement": "Decoding a message followed by further octets gives the same result as decoding the message alone.", "quantifier": "for every message type, every message and every suffix", "why_tests_cant": "Unbounded suffixes.", "anchors": ["src/gtpv1/gtpc/messages/*.rs: Messages::{marshal,unmarshal}"]}
{"id": "C52", "title": "GTPv1-C message decoding never panics", "statement": "Decoding any byte string as any GTPv1-C message returns a value or an error, never a panic.", "quantifier": "for every message type and every byte string, in debug and release builds", "why_tests_cant": "Robustness against arbitrary network input.", "anchors": ["src/gtpv1/gtpc/messages/*.rs: Messages::{marshal,unmarshal}", "src/gtpv1/gtpc/messages/ies/*.rs"]}
{"id": "C53", "title": "GTPv1-C message decoding terminates", "statement": "Decoding any byte string as any GTPv1-C message ends.", "quantifier": "for every message type and every byte string, in debug and release builds", "why_tests_cant": "Non-termination cannot be observed by finite tests.", "anchors": ["src/gtpv1/gtpc/messages/*.rs: Messages::{marshal,unmarshal}"]}
{"id": "C54", "title": "GTPv1-C message types are checked", "statement": "A buffer whose type octet is not the one of the message type is never accepted, and the type codes are those of 3GPP TS 29.060.", "quantifier": "for every message type and every byte string", "why_tests_cant": "All pairs of types and all bodies.", "anchors": ["src/gtpv1/gtpc/messages/*.rs: Messages::{marshal,unmarshal}"]}
{"id": "C55", "title": "GTPv1-C message encoding: length field and layout", "statement": "An encoded message is its header, with the number of octets behind the first eight in the length field, followed by the encodings of its elements in the order of the fields; the buffer it is appended to is left unchanged.", "quantifier": "for every message type, every message and every prior buffer", "why_tests_cant": "All combinations of optional elements and their sizes.", "anchors": ["src/gtpv1/gtpc/messages/*.rs: Messages::{marshal,unmarshal}", "src/gtpv1/utils.rs: set_length"]}
{"id": "C56", "title": "GTPv1-C message encodings identify messages", "statement": "Two messages of a type that have the same octets are equal, up to the length field of the header.", "quantifier": "for every message type and every pair of well-formed messages", "why_tests_cant": "Pairs of values.", "anchors": ["src/gtpv1/gtpc/messages/*.rs: Messages::{marshal,unmarshal}"]}
{"id": "C57", "title": "Header octets are those of the specification", "statement": "The octets written for a GTPv1-U, GTPv1-C or GTPv2-C header and for each extension header are, position by position, those prescribed by 3GPP TS 29.281, 29.060 and 29.274: flags, type, length, TEID, sequence number, N-PDU number, extension chain and spare octets.", "quantifier": "for every header value, without restriction", "why_tests_cant": "A round trip does not see spare octets or two errors that cancel; tests compare a few headers.", "anchors": ["src/gtpv1/gtpu/header.rs", "src/gtpv1/gtpu/extensionheaders/*.rs", "src/gtpv1/gtpc/header.rs", "src/gtpv1/gtpc/extensionheaders/*.rs", "src/gtpv2/header.rs"]}
{"id": "C58", "title": "Default values are consistent", "statement": "The default value of every IE carries the type code of its kind and instance 0 and is dispatched to this kind; encoding the default of an IE or message, decoding and encoding it again gives the same octets; the default of every message carries its type code and has a TEID where the message needs one.", "quantifier": "for every IE kind and every message type", "why_tests_cant": "A property across some 250 Default implementations; the tests override the interesting fields.", "anchors": ["src/**: impl Default"]}
{"id": "C59", "title": "Decoding errors name the IE at fault", "statement": "When decoding a sequence of IEs fails, the error is IEInvalidLength(t) or IEIncorrect(t) where t is the type octet of an IE at which decoding failed.", "quantifier": "for every byte string, every IE kind and every nesting", "why_tests_cant": "All ways of failing in 146 decoders; the tests check a handful of errors.", "anchors": ["src/gtpv2/messages/ies/*.rs: unmarshal", "src/gtpv2/messages/ie.rs: decoder"]}
{"id": "C60", "title": "The length of an IE is computed when it is encoded", "statement": "The octets written for an IE do not depend on its length field; the two length octets hold the number of octets behind the fourth (modulo 65536); an IE that is well-formed up to its length field is decoded with that length and otherwise unchanged.", "quantifier": "for every IE of every kind, every value of the length field and every tail", "why_tests_cant": "Callers may leave any value in the field; tests set the right one.", "anchors": ["src/gtpv2/utils.rs: set_tliv_ie_length", "src/gtpv2/messages/ies/*.rs: marshal"]}
{"id": "C61", "title": "What has been decoded can be sent on", "statement": "The IEs that are decoded from a buffer, when encoded and decoded again, are the same IEs except that the length fields are those of the encoding; another round changes nothing.", "quantifier": "for every byte string that can be decoded, in debug and release builds", "why_tests_cant": "All byte strings, also those that no encoder writes (spare bits, superfluous octets, other character sets); tests decode what they have encoded.", "anchors": ["src/gtpv2/messages/ies/*.rs", "src/gtpv2/messages/ie.rs: decoder, encoder"]}
{"id": "C62", "title": "A decoded message can be sent on", "statement": "A message that was decoded into its struct is encoded to octets that the next node decodes to the same header, except that the length is that of the new encoding, and to the same fields, with the lengths of the IEs set; encoding once more gives the same octets.", "quantifier": "for every message type and every byte string that can be decoded as it, in debug and release builds", "why_tests_cant": "All byte strings that a sender can produce for all message types, with superfluous, repeated and unknown IEs; tests decode and encode fixed examples and compare the octets.", "anchors": ["src/gtpv2/messages/*.rs: marshal, unmarshal, tovec, fromvec"]}
{"id": "C63", "title": "The length of a GTPv1-C element is computed when it is encoded", "statement": "The octets written for a GTPv1-C element do not depend on its length field; an element that is well-formed up to its length field is decoded with the length of the encoding and otherwise unchanged.", "quantifier": "for every element of every kind, every value of the length field and every tail", "why_tests_cant": "Callers may leave any value in the field; tests set the right one.", "anchors": ["src/gtpv1/utils.rs: set_tlv_ie_length", "src/gtpv1/gtpc/messages/ies/*.rs: marshal"]}
{"id": "C64", "title": "A decoded GTPv1-C element can be encoded again", "statement": "An element that is decoded from a buffer, encoded and decoded again, is the same element except that the length field is that of the encoding, and keeps its type octet; another round changes nothing.", "quantifier": "for every kind of element and every byte string that can be decoded as it, in debug and release builds", "why_tests_cant": "All byte strings, also those that no encoder writes; tests decode what they have encoded.", "anchors": ["src/gtpv1/gtpc/messages/ies/*.rs: marshal, unmarshal"]}
{"id": "C65", "title": "A decoded GTPv1-C message can be sent on", "statement": "A GTPv1-C message that was decoded is encoded to octets that the next node decodes to the same header, except that the length is that of the new encoding, and to the same fields, with the lengths of the elements set; encoding once more gives the same octets.", "quantifier": "for every message type and every byte string that can be decoded as it, in debug and release builds, with any number of elements of a type", "why_tests_cant": "All byte strings that a sender can produce for all message types, including more than 256 elements of a type; tests decode and encode fixed examples.", "anchors": ["src/gtpv1/gtpc/messages/*.rs: marshal, unmarshal"]}
{"id": "C66", "title": "Default values are blank", "statement": "Behind type and length the octets of a default element are 0; its type field is the code of its kind and its length field the length that is written; the decoder returns the default, with the computed length.", "quantifier": "for every kind of element of GTPv2-C and GTPv1-C, in debug and release builds, whatever follows", "why_tests_cant": "A caller that sets some fields sends the defaults of all others; tests set every field they look at.", "anchors": ["src/gtpv2/messages/ies/*.rs: Default", "src/gtpv1/gtpc/messages/ies/*.rs: Default"]}
{"id": "C67", "title": "GTPv1 headers are read from their octets", "statement": "A GTPv1-C or GTPv1-U header is decoded from a buffer exactly if the buffer starts with it: version 1, protocol type 1, type, length and TEID at their positions, sequence number, N-PDU number and chain of extension headers exactly if their flag is set, each extension header with the contents that its length octet announces.", "quantifier": "for every byte string and every header value, with chains of any length", "why_tests_cant": "An equivalence over all byte strings; a round trip only covers buffers that the encoder writes.", "anchors": ["src/gtpv1/gtpc/header.rs: unmarshal", "src/gtpv1/gtpu/header.rs: unmarshal", "src/gtpv1/*/extensionheaders/*.rs: unmarshal"]}
{"id": "C68", "title": "The version octet decides", "statement": "A buffer of at least eight octets is rejected with HeaderVersionNotSupported exactly if version (and protocol type) are not those of the decoder; what a decoder accepts has its version, so no buffer is accepted by decoders of two versions; the encoders write the version of their protocol.", "quantifier": "for every byte string, every message type of GTPv2-C, GTPv1-C and GTPv1-U and every message, in debug and release builds", "why_tests_cant": "All byte strings and all pairs of decoders.", "anchors": ["src/gtpv2/header.rs", "src/gtpv1/gtpc/header.rs", "src/gtpv1/gtpu/header.rs"]}
{"id": "C69", "title": "A GTPv1-U message can be sent on", "statement": "A decoded GTPv1-U message that is encoded again, a G-PDU also with another TEID, is decoded by the next node to the same message: same payload and information elements, same optional header fields and extension headers, and the lengths of what was sent.", "quantifier": "for every byte string that a debug build decodes, all six message types, every new TEID, whatever follows the message, decoded again in debug or release builds", "why_tests_cant": "All received byte strings with arbitrary chains of extension headers and arbitrary payloads.", "anchors": ["src/gtpv1/gtpu/header.rs", "src/gtpv1/gtpu/messages", "src/gtpv1/gtpu/extensionheaders"]}
{"id": "C70", "title": "The fourth octet of a GTPv2-C IE is its instance and nothing else", "statement": "The lower half of an IE's fourth octet is its instance; the spare upper half is ignored on receipt, and the octet has no influence on how anything else of the IE or of the rest of the buffer is decoded.", "quantifier": "for every IE type, every length, every body, every remainder of the buffer and every two values of the octet", "why_tests_cant": "A relation between the runs of two hundred decoders on pairs of inputs that differ in one octet, each with any body.", "anchors": ["src/gtpv2/messages/ies/*.rs: unmarshal (every `ins: InformationElement::get_ins / buffer[3]`)", "src/gtpv2/messages/ies/groupedie.rs:42", "src/gtpv2/messages/ies/unknown.rs:42", "src/gtpv2/messages/ies/ie.rs: InformationElement::{marshal,encoder,decoder}"]}
{"id": "C71", "title": "Octets behind an IE do not change it", "statement": "An IE, or a sequence of IEs that fills its buffer, that is accepted on its own is accepted as the same IEs of the same lengths when other octets follow it; those are then decoded as they are alone.", "quantifier": "for every IE type, every buffer it is accepted from and every continuation; for every sequence of IEs", "why_tests_cant": "A relation between the runs of two hundred decoders on a buffer and on each of its infinitely many continuations.", "anchors": ["src/gtpv2/messages/ies/*.rs: unmarshal (every use of `buffer.len()`)", "src/gtpv2/messages/ies/targetid.rs:37", "src/gtpv2/messages/ies/sourceid.rs:39", "src/gtpv2/messages/ies/mdtconfiguration.rs:204-226", "src/gtpv2/messages/ies/prai.rs:120", "src/gtpv2/messages/ies/ie.rs: InformationElement::{marshal,encoder,decoder}"]}
{"id": "C72", "title": "An IE is decoded from the octets it declares as its own", "statement": "Whether an IE is accepted, and as what, depends only on its header and on the octets that its length field declares; none of the octets of the next IE is read.", "quantifier": "for every IE type, every declared length, every body of that length and every continuation", "why_tests_cant": "The property speaks about all continuations of all bodies; where it fails a test needs the one malformed length field that the decoder does not check.", "anchors": ["src/gtpv2/messages/ies/*.rs: unmarshal (every `check_tliv_ie_buffer` and every fixed-size read)", "src/gtpv2/messages/ies/ie.rs: InformationElement::{marshal,encoder,decoder}"]}
{"id": "C73", "title": "A GTPv1-C element is decoded from its own octets", "statement": "What a GTPv1-C information element is decoded to depends only on its own octets (the fixed size of an element without length field, else header and declared length); the elements behind it have no influence.", "quantifier": "for every element kind, every buffer and every continuation", "why_tests_cant": "Relates the runs of 49 decoders on a buffer and on all its continuations; where it fails, a test would need the one length field that is not checked.", "anchors": ["src/gtpv1/gtpc/messages/ies/*.rs: unmarshal", "src/gtpv1/gtpc/messages/ies/privateextension.rs:41-57", "src/gtpv1/gtpc/messages/ies/extensionheadertypelist.rs:38-49", "src/gtpv1/utils.rs: check_tlv_ie_buffer"]}
{"id": "C74", "title": "The octets of an IE are those of the figure in TS 29.274", "statement": "For every IE whose values have room in the fields of the specification, the marshalled octets are the type, the length and the octets of the figure that TS 29.274 chapter 8 has for it: every field at its place, spare bits 0, enumerations with the code points of the specification, optional fields announced by their flags.", "quantifier": "for all 130 IE kinds that have a figure of their own and all values that fit", "why_tests_cant": "A figure covers all values of all fields; the unit tests have one value each, taken from the encoder's point of view, and round trips cannot notice an encoder and a decoder that are wrong in the same way.", "anchors": ["src/gtpv2/messages/ies/*.rs: marshal", "src/gtpv2/messages/ies/uetimezone.rs:44-57", "src/gtpv2/messages/ies/tracereference.rs:11", "src/gtpv2/messages/ies/fteid.rs:96-101", "src/gtpv2/messages/ies/transactionid.rs", "src/gtpv2/messages/ies/targetid.rs", "src/gtpv2/messages/ies/praa.rs", "src/gtpv2/messages/ies/uli.rs:59-115"]}
{"id": "C75", "title": "The octets of a GTPv1-C IE are those of the figure in TS 29.060", "statement": "For every GTPv1-C IE whose values have room in the fields of the specification, the marshalled octets are the type, for types from 128 on the length, and the octets of the figure that TS 29.060 chapter 7.7 has for it: every field at its place, spare bits with the value of the specification, enumerations with its code points, an IMSI filled up to eight octets.", "quantifier": "for all 48 IE kinds that have a figure and all values that fit", "why_tests_cant": "A figure covers all values of all fields; the unit tests have one value each, taken from the encoder's point of view, and round trips cannot notice an encoder and a decoder that are wrong in the same way.", "anchors": ["src/gtpv1/gtpc/messages/ies/*.rs: marshal", "src/gtpv1/gtpc/messages/ies/imsi.rs: marshal", "src/gtpv1/gtpc/messages/ies/mstimezone.rs:32-44"]}
{"id": "C76", "title": "Spare bits of an IE are not evaluated by the receiver", "statement": "Two GTPv2-C IEs that differ only in bits that the figures of TS 29.274 chapter 8 show as spare are decoded to the same outcome: the same value, the same error or the same panic; and a sequence of IEs in which spare bits of one are changed is decoded to the same list.", "quantifier": "for all pairs of octet sequences that differ in spare bits only, all 43 IE types with spare bits at fixed places, both build modes", "why_tests_cant": "The spare bits of one IE have up to 2^30 settings next to all values of its fields; the unit tests only have the zero the encoder writes, and a round trip never sets a spare bit.", "anchors": ["src/gtpv2/messages/ies/*.rs: unmarshal", "src/gtpv2/messages/ies/paa.rs", "src/gtpv2/messages/ies/arp.rs", "src/gtpv2/messages/ies/uci.rs"]}
{"id": "C77", "title": "Spare bits of a GTPv1-C IE are not evaluated by the receiver", "statement": "Two GTPv1-C IEs that differ only in bits that the figures of TS 29.060 chapter 7.7 show as spare, be they sent as zeros or as ones, are decoded to the same outcome: the same value, the same error or the same panic.", "quantifier": "for all pairs of octet sequences that differ in spare bits only, all 14 IE kinds with spare bits, both build modes", "why_tests_cant": "The unit tests only have the spare bits the encoder writes, and a round trip never changes one; the property compares all settings of the spare bits next to all values of the fields.", "anchors": ["src/gtpv1/gtpc/messages/ies/*.rs: unmarshal", "src/gtpv1/gtpc/messages/ies/teardownind.rs", "src/gtpv1/gtpc/messages/ies/spi.rs", "src/gtpv1/gtpc/messages/ies/uci.rs"]}
{"id": "C78", "title": "The octets of a GTPv1-U message are those of TS 29.281", "statement": "A GTPv1-U message of any of the six kinds, encoded into an empty buffer, has the octets that TS 29.281 gives it if and only if its public type fields have the values of the specification: the header of the figure with the message type of table 6.1-1 and the number of octets behind the first eight as length, then the information elements in ascending order of their types, each with type, length and value as in chapter 8.", "quantifier": "for all messages of the six kinds: all headers with any chain of extension headers, all values of all fields, all payloads", "why_tests_cant": "The message is composed from a header with optional parts, a length that is patched in afterwards, and optional elements; unit tests have one composition per message, and round trips cannot notice an encoder and a decoder that agree on a wrong layout.", "anchors": ["src/gtpv1/gtpu/messages/*.rs: marshal", "src/gtpv1/gtpu/messages/ies/*.rs: marshal", "src/gtpv1/utils.rs:198-202"]}
{"id": "C79", "title": "Which buffers are accepted as a GTPv2-C message", "statement": "A buffer is accepted as a message y of some type exactly when it begins with a header of this type, announces at most the octets that are there, has from the end of the header to the announced end a sequence of IEs each of which its decoder accepts and which end where the next begins, has the IEs of all mandatory fields among them, and y has this header and in each field the IEs that arrived for it (the first, the last or all, by kind of field).", "quantifier": "for every message type, every byte string and every message", "why_tests_cant": "An iff over all byte strings and messages; the other properties give single necessary or sufficient conditions.", "anchors": ["src/gtpv2/messages/*.rs: Messages::{marshal,unmarshal,tovec,fromvec}", "src/gtpv2/messages/ies/ie.rs: InformationElement::{marshal,encoder,decoder}"]}
{"id": "C80", "title": "Which buffers are accepted as a GTPv1-U message", "statement": "A buffer is accepted as a GTPv1-U message exactly when it starts with a header of its type, has the announced octets, and has behind the header the information elements of the message: the octets up to the announced end for a G-PDU, a recovery counter for an Echo Response, a type list of 1 to 253 octets for a Supported Extension Headers Notification, and elements in ascending order of their types with a TEID and a peer address among them for an Error Indication; the fields of the message are read from these octets and the first element of a type counts.", "quantifier": "for every byte string and every message of the six types", "why_tests_cant": "An iff over all byte strings; tests decode one capture per type.", "anchors": ["src/gtpv1/gtpu/messages/*.rs: unmarshal", "src/gtpv1/gtpu/messages/ies/*.rs: unmarshal"]}
{"id": "C81", "title": "The stack that decoding takes is bounded", "statement": "The number of nested calls of InformationElement::decoder does not depend on the received octets: there is a number of calls that is enough for every buffer that a message can carry, and it does not exceed the nesting that the protocol has (three levels).", "quantifier": "for every byte string and every amount of stack", "why_tests_cant": "A test has a handful of levels at most; stack exhaustion needs thousands and kills the process instead of returning an error.", "anchors": ["src/gtpv2/messages/ies/ie.rs:481-1525", "src/gtpv2/messages/ies/groupedie.rs:37-58"]}
{"id": "C82", "title": "The work that decoding takes is linear", "statement": "Decoding a sequence of IEs, members of grouped IEs at every depth included, calls the decoder of a single IE at most once for every octet of the buffer whenever it ends at all, and in debug builds at most once for every four octets, a rest counted as four.", "quantifier": "for every byte string and every way in which decoding ends", "why_tests_cant": "Counting calls over all inputs is a statement about the loop and its recursion, not about any result that a test could compare.", "anchors": ["src/gtpv2/messages/ies/ie.rs:481-1525", "src/gtpv2/messages/ies/groupedie.rs:37-58"]}
{"id": "C83", "title": "The GTPv1-C messages without a loop, on every byte string", "statement": "Echo Request, Echo Response, Version Not Supported and Supported Extension Headers Notification: a buffer is accepted exactly if it starts with a header of that type and the octets behind it meet the condition written down for the message, the result is the one written down there, and the decoder panics exactly under the stated conditions.", "quantifier": "for every byte string, in debug and release builds", "why_tests_cant": "Exact acceptance is a statement about all octets; the panics are at lengths (ten octets of a header of twelve, a length field of 65,533) that no captured message has.", "anchors": ["src/gtpv1/gtpc/messages/echoreq.rs:43-60", "src/gtpv1/gtpc/messages/echoresp.rs:50-84", "src/gtpv1/gtpc/messages/versionnotsupported.rs:33-43", "src/gtpv1/gtpc/messages/supportedexthdrnotification.rs:43-71"]}
{"id": "C84", "title": "The message types of GTPv2-C are those of TS 29.274", "statement": "Every message structure of the crate is sent and accepted under the message type that table 6.1-1 of TS 29.274 gives to the message of its name.", "quantifier": "for all 83 message types", "why_tests_cant": "Round-trip tests use the constant of the crate on both sides; a wrong constant is a consistent one.", "anchors": ["src/gtpv2/messages/downlinkdatanotification.rs:10", "src/gtpv2/messages/pgwrestartnotification.rs:10", "src/gtpv2/messages/stoppagingindication.rs:10"]}
{"id": "C85", "title": "A GTPv2-C message is accepted exactly if the mandatory IEs of TS 29.274 are there", "statement": "A complete message of a type, all of whose IEs can be decoded, is accepted exactly if it contains every IE that the table of clause 7 of TS 29.274 calls mandatory for this message, with the instance given there.", "quantifier": "for every message type, for all octets", "why_tests_cant": "The tests give the decoder the IEs that the decoder wants; whether the standard wants others shows only against its tables, and for every combination of IEs.", "anchors": ["src/gtpv2/messages/raninformationrelay.rs:87-112", "src/gtpv2/messages/tracesessiondeactivation.rs:72-87", "src/gtpv2/messages/isrstatusindication.rs:81-101", "src/gtpv2/messages/identificationresp.rs:124-175"]}
{"id": "C86", "title": "The IEs of TS 29.274 that a GTPv2-C message carries are in the result", "statement": "An IE of an accepted message that the table of clause 7 lists for the message is in the result of decoding: every one of them where the table allows several with the same type and instance, and otherwise the one if there is only one.", "quantifier": "for every message type, every row of its table, and all octets", "why_tests_cant": "An IE that is skipped leaves no trace in the result, and the round-trip tests start from messages that have no field for it.", "anchors": ["src/gtpv2/messages/deletebearerreq.rs:174-259", "src/gtpv2/messages/createsessionresp.rs:285-470", "src/gtpv2/messages/createsessionreq.rs:425-733"]}
{"id": "C87", "title": "The GTPv1-C messages are those of the tables of TS 29.060", "statement": "Each of the 16 messages with a table of information elements has the message type of TS 29.060; accepts only elements of the types that its table lists, each as the element that the list of types says; has in the result as many elements of a type as the table has rows for it, the first ones received; sends its elements in the order of the table; and accepts every list of well-formed elements of the table in ascending order with the mandatory ones.", "quantifier": "for every message type, all octets and all messages", "why_tests_cant": "The agreement is with 16 tables of up to 39 rows, and for all combinations of rows; the tests have one or two messages for each type.", "anchors": ["src/gtpv1/gtpc/messages/createpdpctxreq.rs:10-1100", "src/gtpv1/gtpc/messages/createpdpctxresp.rs:10-800", "src/gtpv1/gtpc/messages/updatepdpctxreq.rs:10-900"]}
{"id": "C88", "title": "Iterating over a GTPv2-C message yields its IEs and ends", "statement": "A loop over a message (`Iterator for dyn Messages`) yields every IE of the message once and then ends.", "quantifier": "for every message type, all messages, and any number of calls", "why_tests_cant": "No test iterates over a message; that the loop does not end cannot be seen in finitely many calls.", "anchors": ["src/gtpv2/messages/commons.rs:15-25"]}
{"id": "C89", "title": "The accessors of a decoded GTPv2-C IE say what was received", "statement": "`get_type` of a decoded IE is the type octet that was received, and `is_empty` holds exactly if the IE came with the length 0.", "quantifier": "for all buffers and every IE in them", "why_tests_cant": "The accessors read a field that the decoder fills with a constant; the tests never compare it with the octet for all 256 types.", "anchors": ["src/gtpv2/messages/ies/tracereference.rs:60-90", "src/gtpv2/messages/ies/ie.rs:481-1525", "src/gtpv2/messages/ies/specialiewithtypeext.rs:78-90"]}
{"id": "C90", "title": "A GTPv2-C IE written as TS 29.274 has it is understood", "statement": "An IE that a peer writes as the figure of TS 29.274 has it, whatever the spare bits of the fourth octet, is decoded as the value that was meant, whatever follows it.", "quantifier": "for every IE kind with a figure, all values, instances and following octets, debug and release builds", "why_tests_cant": "The tests decode octets that the crate itself would write; a peer's encoding differs just where the encoder deviates, and no test has a home eNodeB identity or a time zone taken from a capture.", "anchors": ["src/gtpv2/messages/ies/targetid.rs:1-330", "src/gtpv2/messages/ies/uetimezone.rs:30-75", "src/gtpv2/messages/ies/transactionid.rs:1-90", "src/gtpv2/messages/ies/fteid.rs:60-130"]}
{"id": "C91", "title": "A GTPv1-C element written as TS 29.060 has it is understood", "statement": "An element that a peer writes as the figure of TS 29.060 has it is decoded as the value that was meant, whatever follows it.", "quantifier": "for every kind with a figure, all values and following octets, debug and release builds", "why_tests_cant": "The tests decode what the crate itself writes, and their MSISDN is followed by enough octets.", "anchors": ["src/gtpv1/gtpc/messages/ies/msisdn.rs:45-73", "src/gtpv1/gtpc/messages/ies/imsi.rs:33-47", "src/gtpv1/gtpc/messages/ies/mstimezone.rs:46-65"]}
{"id": "C92", "title": "An element is called empty exactly if it came without a value", "statement": "`is_empty` of a decoded GTPv1 information element or extension header holds exactly if it was received with a declared length of 0, and no value is then read for it.", "quantifier": "for all 49 kinds of GTPv1-C elements, the GTPv1-U elements and extension headers, all buffers, debug and release builds", "why_tests_cant": "The crate has no test of `is_empty`; a value of 0 and a length of 0 both look like a default.", "anchors": ["src/gtpv1/gtpc/messages/ies/commonflags.rs:95-97", "src/gtpv1/gtpc/messages/ies/imsi.rs:52-54", "src/gtpv1/gtpu/header.rs:99-112", "src/gtpv1/gtpu/messages/ies/recovery.rs:48-50"]}
{"id": "C93", "title": "The text of an error tells which error it is", "statement": "Two errors of the same protocol with the same text are the same error; the only number in the text of a GTPv2-C error is the IE or message type that the error carries, and there is none if it carries no type.", "quantifier": "for all errors of both protocols, with all 256 types", "why_tests_cant": "No test looks at a text; the two enumerations are written out twice and a copied line is not noticed.", "anchors": ["src/gtpv1/errors.rs:30-58", "src/gtpv2/errors.rs:26-54"]}
{"id": "C94", "title": "A grouped IE has the members that it was sent with", "statement": "The value decoded from a grouped IE of GTPv2-C contains every member that TS 29.274 lists for it (all of them where several are allowed), nothing else, and a grouped IE that lacks a mandatory member is rejected.", "quantifier": "for all nine kinds of grouped IEs and all octets, in debug and release builds", "why_tests_cant": "The tests decode one complete sample per grouped IE; they have no IE with a member missing, none with an unexpected instance, and none with several members in the lists of load and overload control.", "anchors": ["src/gtpv2/messages/ies/bearercontext.rs:65-155", "src/gtpv2/messages/ies/loadcontrolinfo.rs:42-75", "src/gtpv2/messages/ies/overloadcontrolinfo.rs:45-78", "src/gtpv2/messages/ies/pdnconnections.rs:87-223", "src/gtpv2/messages/ies/pgwchangeinfo.rs:45-88", "src/gtpv2/messages/ies/pc5qosparameters.rs:41-74", "src/gtpv2/messages/ies/remoteuecontext.rs:41-66", "src/gtpv2/messages/ies/scefpdnconnections.rs:43-81", "src/gtpv2/messages/ies/v2xinformation.rs:43-81"]}
{"id": "C95", "title": "A grouped IE is written with all that it contains", "statement": "The octets of a grouped IE of GTPv2-C are its type, the number of octets behind the header, the instance and the octets of each IE in its fields, each written once; no field is left out.", "quantifier": "for all values of the nine kinds of grouped IEs, nested ones included", "why_tests_cant": "The tests compare the octets of one sample per grouped IE, and most optional fields are empty in it; a field that to_vec does not mention is not noticed.", "anchors": ["src/gtpv2/messages/ies/bearercontext.rs:171-224", "src/gtpv2/messages/ies/pdnconnections.rs:242-332", "src/gtpv2/messages/ies/groupedie.rs:27-35", "src/gtpv2/messages/ies/loadcontrolinfo.rs:97-109", "src/gtpv2/messages/ies/pgwchangeinfo.rs:107-120"]}
{"id": "C96", "title": "A GTPv2-C message that a peer writes as TS 29.274 has it is understood", "statement": "A message with the header of clause 5, IEs as the figures of clause 8 have them (grouped ones with their members, at any depth) in any order, and all IEs that the table of the message calls mandatory, is accepted; TEID, sequence number, priority and piggybacking flag of the result are those that were written, and every IE that the table lists is in the result.", "quantifier": "for all message types, all values and orders of the IEs, all spare bits of header and fourth octets, whatever follows the message, in debug and release builds", "why_tests_cant": "A test decodes one capture per message; the order of the IEs, the spare bits and the combinations are those of that capture.", "anchors": ["src/gtpv2/header.rs:51-110", "src/gtpv2/messages/ies/ie.rs:481-1525", "src/gtpv2/messages/ies/groupedie.rs:27-60", "src/gtpv2/messages/createsessionreq.rs:160-190"]}
{"id": "C97", "title": "A GTPv1-C message that a peer writes as TS 29.060 has it is understood", "statement": "A message with the header of clause 6, elements as the figures of clause 7.7 have them, in ascending order of their types and from the table of the message, the mandatory ones among them, is accepted; the header of the result is the one that was written, and of each type the result has the elements that were written, as many as the table has rows.", "quantifier": "for all message types with elements, all headers with or without sequence number, N-PDU number and extension headers, all values of the elements, in debug and release builds", "why_tests_cant": "The tests decode one capture for each message type.", "anchors": ["src/gtpv1/gtpc/header.rs:132-240", "src/gtpv1/gtpc/messages/createpdpctxreq.rs:10-1100", "src/gtpv1/gtpc/messages/deletepdpctxreq.rs:60-220"]}
{"id": "C98", "title": "Spare bits and unused fields of a header are not evaluated by the receiver", "statement": "Two messages that differ only in spare bits of the header, or in fields of the header that its flags declare unused (priority octet of GTPv2-C, sequence number, N-PDU number and extension header type of GTPv1), are decoded with the same result.", "quantifier": "for all message types of the three protocols, all header octets and all bodies, in debug and release builds; the result may be a message, an error or a panic", "why_tests_cant": "Captures have zeros there; the unused octets take 2^32 values.", "anchors": ["src/gtpv2/header.rs:51-102", "src/gtpv1/gtpc/header.rs:132-185", "src/gtpv1/gtpu/header.rs:193-300"]}
{"id": "C99", "title": "A GTPv1-U message that a peer writes as TS 29.281 has it is understood", "statement": "Octets that are a message as TS 29.281 draws it, with any spare bits, any contents of the fields whose flag is not set and any chain of extension headers (known or not), are decoded to the message they stand for.", "quantifier": "for all six message types, all values of the fields, all chains of extension headers of any length, all spare bits and unused octets, in debug and release builds", "why_tests_cant": "Tests decode what the crate itself has encoded, with zeros in all spare and unused places, and have one extension header at most.", "anchors": ["src/gtpv1/gtpu/header.rs:193-300", "src/gtpv1/gtpu/extensionheaders", "src/gtpv1/gtpu/messages"]}
{"id": "C100", "title": "A received part of an information element is called empty exactly if its octets carry nothing", "statement": "The function is_empty of an identity, identifier, authentication vector or other part of a GTPv2-C information element holds of a received part exactly if its PLMN has no digit other than zero and all its other octets are zero.", "quantifier": "for all 25 parts with a function is_empty, and for all octets that the decoder of the part accepts", "why_tests_cant": "is_empty of parts is not called in the tests, and most parts have many fields that it could forget.", "anchors": ["src/gtpv2/messages/ies/commons.rs:54-1272", "src/gtpv2/messages/ies/targetid.rs:75-649", "src/gtpv2/messages/ies/sourceid.rs:73-158"]}
