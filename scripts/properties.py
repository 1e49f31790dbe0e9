import json
P=[]
def p(id,title,st,q,why,anch): P.append(dict(id=id,title=title,statement=st,quantifier=q,why_tests_cant=why,anchors=anch))
H2="src/gtpv2/header.rs: Gtpv2Header::{marshal,unmarshal,get_length}"
IE2="src/gtpv2/messages/ies/ie.rs: InformationElement::{marshal,encoder,decoder}"
U2="src/gtpv2/utils.rs"
MS2="src/gtpv2/messages/*.rs: Messages::{marshal,unmarshal,tovec,fromvec}"
p("C01","GTPv2-C header round trip","Encoding a GTPv2-C header and decoding the produced bytes, followed by anything, returns exactly the same header (message type, piggyback flag, message priority, length, TEID, sequence number).","for every header whose fields fit the wire format (24-bit sequence number, 4-bit priority, priority only together with a TEID, length the decoder accepts) and every byte string that follows it","2^90 headers times arbitrary tails; tests sample a handful of captures.",[H2])
p("C02","GTPv2-C header decoding is total and precise","Header decoding never panics; it succeeds exactly when the version is 2, enough bytes are present for the form announced by the T flag and the length field covers the rest of the header; otherwise it returns the documented error.","for every byte string","The domain is all byte strings; the acceptance condition is an iff.",[H2])
p("C03","GTPv2-C header re-encoding is faithful","Re-encoding a decoded header reproduces the bytes it was decoded from whenever the spare bits were zero.","for every accepted byte string with zero spare bits","Infinite input space; needs both directions of the codec.",[H2])
p("C04","TBCD digit strings survive encode/decode","Packing a string of decimal digits as TBCD and unpacking it gives the same digits; the packed form has ceil(n/2) octets and odd lengths are padded with the filler nibble.","for every digit string of every length","Unbounded length, parity-dependent padding.",["src/gtpv2/utils.rs: tbcd_encode, tbcd_decode","src/gtpv1/utils.rs: tbcd_encode, tbcd_decode"])
p("C05","MCC/MNC survive encode/decode","Packing an MCC/MNC pair into the 3-octet PLMN identity and unpacking it returns the same MCC, MNC and MNC-length flag.","for every MCC 0..999, every two-digit MNC 0..99 and three-digit MNC 0..999","About 1.1 million pairs in two encodings; unit tests use two or three PLMNs.",["src/gtpv2/utils.rs: mcc_mnc_encode, mcc_mnc_decode","src/gtpv1/utils.rs: mcc_mnc_encode, mcc_mnc_decode"])
p("C06","GTPv2-C information elements round trip","For every supported IE kind, decoding the encoding of an IE returns the IE unchanged, whatever bytes follow it in the message.","for every IE kind, every well-formed value of that kind and every following byte string","Every value of about 140 IE types with an arbitrary tail; existing tests use one literal per type and no tail.",["src/gtpv2/messages/ies/*.rs: IEs::{marshal,unmarshal}",IE2])
p("C07","IE length field is correct","The two length octets of every encoded IE equal the number of octets that follow its 4-octet header.","for every IE kind and every value whose body fits in 16 bits","Depends on every value and list length.",["src/gtpv2/utils.rs: set_tliv_ie_length","src/gtpv2/messages/ies/*.rs: IEs::marshal"])
p("C08","IE decoding never panics","Decoding an IE from a byte string returns a value or an error; it never panics (index out of range, slice bounds, arithmetic overflow).","for every IE kind, every byte string, in debug and in release builds","Malformed inputs are unbounded; a single panic is a remote crash.",["src/gtpv2/messages/ies/*.rs: IEs::unmarshal","src/gtpv2/utils.rs: check_tliv_ie_buffer"])
p("C09","IE sequence round trip","Decoding the concatenated encodings of a list of IEs returns the same list in the same order.","for every list of well-formed IEs of any length","Unbounded sequences; needs the per-IE consumption to match exactly.",[IE2])
p("C10","IE sequence decoding terminates","Decoding a buffer of IEs always finishes; each decoded IE consumes at least one octet.","for every byte string, including grouped IEs nested to any depth","Non-termination cannot be observed by finite tests.",[IE2,"src/gtpv2/messages/ies/groupedie.rs"])
p("C11","IE decoding respects the declared length","After an IE has been decoded the decoder continues exactly (declared length + 4) octets later, so that octets of one IE are never parsed as the next.","for every byte string in which an IE is decoded successfully","Quantifies over all declared lengths and all IE kinds.",["src/gtpv2/messages/ies/*.rs: IEs::len",IE2])
p("C12","IE type dispatch is consistent","The type octet written for an IE of some kind is a type octet for which the decoder selects the same kind.","for every IE kind and every value","A cross-cutting property over two tables in different files with about 140 rows; existing tests never combine them.",[IE2])
p("C13","Unknown IEs are skipped, not fatal","An IE of unsupported type with a consistent length is carried as an opaque element with its value intact and does not disturb decoding of its neighbours.","for every unsupported type, every value of it and all surrounding IEs","All type values times all payloads times all contexts.",["src/gtpv2/messages/ies/unknown.rs",IE2])
p("C14","GTPv2-C message round trip","Encoding a message into an empty buffer and decoding it returns the same message.","for every supported message type and every well-formed message","Optional IEs make exponentially many shapes; tests cover one or two each.",[MS2])
p("C15","GTPv2-C message length field is correct","The header length field of every encoded message equals the total number of octets minus four.","for every message type and every message of at most 65539 octets","Depends on all combinations of optional IEs and their sizes.",["src/gtpv2/utils.rs: set_msg_length",MS2])
p("C16","Missing mandatory IEs are reported","If a mandatory IE is absent from an otherwise decodable message then decoding fails with MessageMandatoryIEMissing naming the type of a missing mandatory IE; if all are present no such error is reported.","for every message type and every list of IEs","All subsets, orders and multiplicities of IEs.",[MS2])
p("C17","Wrong message type is rejected","Decoding bytes as a message of type T when the header carries another type fails with MessageIncorrectMessageType and never yields a message.","for every message type and every byte string with a valid header of another type","All pairs of types and all bodies.",[MS2])
p("C18","Truncated messages are rejected","If the buffer is shorter than the length announced in the header, decoding fails; it never returns a message built from a truncated body.","for every message type and every byte string","All truncation points of all messages.",[MS2])
p("C19","Octets after the announced length do not matter","Decoding a buffer that holds a complete message followed by further octets (padding or a piggybacked message) gives the same result as decoding the message alone.","for every message type, every byte string and every suffix","Unbounded suffixes.",[MS2])
p("C20","Duplicate IEs: the first one counts","When several IEs of the same type and instance are present and the message has a single place for them, the first one is kept and the later ones are ignored.","for every message type, every slot and every list of IEs","All multiplicities and positions.",[MS2])
p("C21","IE order does not matter across slots","Reordering IEs that belong to different slots of a message does not change the decoded message.","for every message type and every permutation that keeps the relative order within each slot","Factorially many permutations.",[MS2])
p("C22","GTPv2-C message decoding never panics","Decoding any byte string as any message returns a value or an error, never a panic.","for every message type and every byte string, in debug and release builds","Robustness against arbitrary network input.",[MS2,IE2])
p("C23","Encoding appends","Encoding an IE appends to the output buffer and leaves what is already there unchanged; likewise for messages.","for every IE, every message and every prior buffer content","All prior contents.",["src/gtpv2/utils.rs: set_msg_length, set_tliv_ie_length",MS2])
p("C24","Grouped IEs round trip","Encoding a grouped IE (bearer context, load/overload control, PDN connection, remote UE context, ...) and decoding it returns the same members.","for every grouped IE kind and every well-formed member list","Nested lists with optional members.",["src/gtpv2/messages/ies/groupedie.rs","src/gtpv2/messages/ies/{bearercontext,loadcontrolinfo,overloadcontrolinfo,pdnconnections,remoteuecontext,scefpdnconnections,v2xinformation,pc5qosparameters,pgwchangeinfo}.rs"])
HU="src/gtpv1/gtpu/header.rs: Gtpv1Header::{marshal,unmarshal,get_header_size}"
p("C25","GTPv1-U header round trip","Encoding a GTPv1-U header (with any combination of sequence number, N-PDU number and extension headers) and decoding it returns the same header.","for every header value","Eight flag combinations times chains of extension headers of any length.",[HU])
p("C26","GTPv1-U header decoding never panics and terminates","Decoding a GTPv1-U header from any byte string returns a header or an error after finitely many steps without panicking.","for every byte string, in debug and release builds","Chains of extension headers are unbounded; non-termination is not testable.",[HU,"src/gtpv1/gtpu/extensionheaders/*.rs"])
p("C27","GTPv1-U header size","The computed header size equals the number of octets the encoder writes.","for every header value","All extension-header chains.",[HU])
p("C28","GTPv1-U extension header chain round trip","A chain of extension headers is decoded back in the same order with the same contents; every extension header occupies a multiple of four octets and the chain ends with type 0.","for every list of well-formed extension headers","Unbounded chains with eleven header kinds.",["src/gtpv1/gtpu/extensionheaders/*.rs"])
p("C29","G-PDU payload is preserved","Encoding and decoding a G-PDU returns exactly the original payload octets.","for every payload and every header with sequence number present or no optional field","Payloads of any content and length.",["src/gtpv1/gtpu/messages/gpdu.rs"])
p("C30","GTPv1-U path-management messages round trip","Echo Request, Echo Response, Error Indication, End Marker and Supported Extension Headers Notification decode to what was encoded.","for every well-formed message of these types","All values of their IEs and optional private extensions.",["src/gtpv1/gtpu/messages/*.rs"])
p("C31","GTPv1-U length field is correct","The length field of every encoded GTPv1-U message equals the number of octets after the mandatory 8-octet header.","for every GTPv1-U message of at most 65543 octets","All message sizes.",["src/gtpv1/utils.rs: set_length","src/gtpv1/gtpu/messages/*.rs"])
p("C32","GTPv1-U message decoding never panics","Decoding any byte string as any GTPv1-U message returns a value or an error.","for every byte string","Robustness against arbitrary network input.",["src/gtpv1/gtpu/messages/*.rs","src/gtpv1/gtpu/ies/*.rs"])
p("C33","Truncated GTPv1-U messages are rejected","If the buffer is shorter than announced by the length field, decoding fails.","for every GTPv1-U message type and every byte string","All truncation points.",["src/gtpv1/gtpu/messages/*.rs"])
p("C34","GTPv1-C header round trip","Encoding and decoding a GTPv1-C header returns the same header.","for every GTPv1-C header","All flag combinations and extension headers.",["src/gtpv1/gtpc/header.rs"])
p("C35","GTPv1-C information elements round trip","For every supported GTPv1-C IE kind decoding an encoded IE returns the IE, whatever follows.","for every IE kind, every well-formed value and every tail","All values of all kinds.",["src/gtpv1/gtpc/messages/ies/*.rs"])
p("C36","GTPv1-C messages round trip","Encoding a GTPv1-C message and decoding it returns the same message.","for every supported message and every well-formed value","All combinations of optional IEs.",["src/gtpv1/gtpc/messages/*.rs"])
p("C37","Encoding is injective on IEs","Two different well-formed IEs of the same kind never have the same encoding, and no encoding is a proper prefix of another.","for every IE kind and every pair of values","Pairs of values; follows from the tail-robust round trip.",["src/gtpv2/messages/ies/*.rs"])
p("C38","Message type codes are distinct","No two GTPv2-C message types share a type code, so that the type octet determines how a message is decoded.","for every pair of message types","A table property across 83 files; nothing in the tests compares files.",["src/gtpv2/messages/*.rs: the type constants"])
p("C39","Message encodings identify messages","Two well-formed messages of the same type with the same octets are equal up to the length field of the header; messages of types with different codes never have the same octets, and each is rejected by the decoder of the other.","for every pair of message types and every pair of well-formed messages","Pairs of values over all message types.",[MS2])
HC="src/gtpv1/gtpc/header.rs: Gtpv1Header::{marshal,unmarshal,len}"
EC="src/gtpv1/gtpc/extensionheaders/*.rs"
p("C40","GTPv1-C header decoding never panics and terminates","Decoding a GTPv1-C header from any byte string returns a header or an error after finitely many steps without panicking.","for every byte string, in debug and release builds","Chains of extension headers are unbounded; non-termination is not testable.",[HC,EC])
p("C41","GTPv1-C header size","The header size reported by len() equals the number of octets the encoder writes.","for every header value","All extension-header chains; the message decoders use len() to find the first IE.",[HC])
p("C42","GTPv1-C extension header chain round trip","A chain of GTPv1-C extension headers is decoded back in the same order with the same contents; every extension header occupies a multiple of four octets and the chain ends with type 0.","for every list of well-formed extension headers","Unbounded chains.",[EC])
IC="src/gtpv1/gtpc/messages/ies/*.rs"
p("C43","GTPv1-C IE decoding never panics","Decoding any byte string as any GTPv1-C information element returns a value or an error, never a panic or an endless loop.","for every IE kind and every byte string, in debug and release builds","Robustness against arbitrary network input; the tests only decode well-formed octets.",[IC])
p("C44","GTPv1-C IE length field and len()","The length octets of an encoded information element hold the number of octets behind them, and len() is the number of octets written.","for every IE kind and every value","All values; a wrong len() only shows when another IE follows.",[IC])
p("C45","GTPv1-C IE encodings identify values","Two different well-formed IEs of the same kind never have the same encoding, no encoding is a proper prefix of another, and the first octet tells the kind.","for every IE kind and every pair of values","Pairs of values.",[IC])
p("C46","Decoded GTPv1-C IEs lie inside the buffer","When decoding an information element succeeds, the number of octets that len() accounts for it is at least two and at most the size of the buffer.","for every IE kind and every byte string","All byte strings; the message decoders advance by len().",[IC])
MC="src/gtpv1/gtpc/messages/*.rs: Messages::{marshal,unmarshal}"
p("C47","A decoded GTPv1-C message is what its elements prescribe","A buffer is accepted as a message of some type exactly when it is a header of this type followed by information elements with known types in ascending order and all mandatory types among them; the i-th element of each type is then in the i-th field for this type, further ones are ignored, and fields without element have their default.","for every message type with a loop over elements and every byte string","An iff over all byte strings; tests decode a few captures.",[MC])
p("C48","GTPv1-C messages without a mandatory IE are rejected","A message is only accepted when every element that 3GPP TS 29.060 lists as mandatory is there; otherwise decoding fails with MessageMandatoryIEMissing.","for every message type and every byte string","All subsets of elements.",[MC])
p("C49","GTPv1-C elements out of order or of unknown type are rejected","An element whose type code is lower than that of its predecessor, or that the message type does not know, makes decoding fail with MessageInvalidMessageFormat, whatever follows it.","for every message type, every preceding list of elements and every following byte string","All orders and all type octets.",[MC])
p("C50","Truncated GTPv1-C messages are rejected","If the buffer is shorter than announced by the length field, decoding fails.","for every message type and every byte string, in debug and release builds","All truncation points.",[MC])
p("C51","Octets behind the announced length of a GTPv1-C message do not matter","Decoding a message followed by further octets gives the same result as decoding the message alone.","for every message type, every message and every suffix","Unbounded suffixes.",[MC])
p("C52","GTPv1-C message decoding never panics","Decoding any byte string as any GTPv1-C message returns a value or an error, never a panic.","for every message type and every byte string, in debug and release builds","Robustness against arbitrary network input.",[MC,IC])
p("C53","GTPv1-C message decoding terminates","Decoding any byte string as any GTPv1-C message ends.","for every message type and every byte string, in debug and release builds","Non-termination cannot be observed by finite tests.",[MC])
p("C54","GTPv1-C message types are checked","A buffer whose type octet is not the one of the message type is never accepted, and the type codes are those of 3GPP TS 29.060.","for every message type and every byte string","All pairs of types and all bodies.",[MC])
p("C55","GTPv1-C message encoding: length field and layout","An encoded message is its header, with the number of octets behind the first eight in the length field, followed by the encodings of its elements in the order of the fields; the buffer it is appended to is left unchanged.","for every message type, every message and every prior buffer","All combinations of optional elements and their sizes.",[MC,"src/gtpv1/utils.rs: set_length"])
p("C56","GTPv1-C message encodings identify messages","Two messages of a type that have the same octets are equal, up to the length field of the header.","for every message type and every pair of well-formed messages","Pairs of values.",[MC])
p("C57","Header octets are those of the specification","The octets written for a GTPv1-U, GTPv1-C or GTPv2-C header and for each extension header are, position by position, those prescribed by 3GPP TS 29.281, 29.060 and 29.274: flags, type, length, TEID, sequence number, N-PDU number, extension chain and spare octets.","for every header value, without restriction","A round trip does not see spare octets or two errors that cancel; tests compare a few headers.",["src/gtpv1/gtpu/header.rs","src/gtpv1/gtpu/extensionheaders/*.rs","src/gtpv1/gtpc/header.rs","src/gtpv1/gtpc/extensionheaders/*.rs","src/gtpv2/header.rs"])
p("C58","Default values are consistent","The default value of every IE carries the type code of its kind and instance 0 and is dispatched to this kind; encoding the default of an IE or message, decoding and encoding it again gives the same octets; the default of every message carries its type code and has a TEID where the message needs one.","for every IE kind and every message type","A property across some 250 Default implementations; the tests override the interesting fields.",["src/**: impl Default"])
p("C59","Decoding errors name the IE at fault","When decoding a sequence of IEs fails, the error is IEInvalidLength(t) or IEIncorrect(t) where t is the type octet of an IE at which decoding failed.","for every byte string, every IE kind and every nesting","All ways of failing in 146 decoders; the tests check a handful of errors.",["src/gtpv2/messages/ies/*.rs: unmarshal","src/gtpv2/messages/ie.rs: decoder"])
p("C60","The length of an IE is computed when it is encoded","The octets written for an IE do not depend on its length field; the two length octets hold the number of octets behind the fourth (modulo 65536); an IE that is well-formed up to its length field is decoded with that length and otherwise unchanged.","for every IE of every kind, every value of the length field and every tail","Callers may leave any value in the field; tests set the right one.",["src/gtpv2/utils.rs: set_tliv_ie_length","src/gtpv2/messages/ies/*.rs: marshal"])
p("C61","What has been decoded can be sent on","The IEs that are decoded from a buffer, when encoded and decoded again, are the same IEs except that the length fields are those of the encoding; another round changes nothing.","for every byte string that can be decoded, in debug and release builds","All byte strings, also those that no encoder writes (spare bits, superfluous octets, other character sets); tests decode what they have encoded.",["src/gtpv2/messages/ies/*.rs","src/gtpv2/messages/ie.rs: decoder, encoder"])
p("C62","A decoded message can be sent on","A message that was decoded into its struct is encoded to octets that the next node decodes to the same header, except that the length is that of the new encoding, and to the same fields, with the lengths of the IEs set; encoding once more gives the same octets.","for every message type and every byte string that can be decoded as it, in debug and release builds","All byte strings that a sender can produce for all message types, with superfluous, repeated and unknown IEs; tests decode and encode fixed examples and compare the octets.",["src/gtpv2/messages/*.rs: marshal, unmarshal, tovec, fromvec"])
p("C63","The length of a GTPv1-C element is computed when it is encoded","The octets written for a GTPv1-C element do not depend on its length field; an element that is well-formed up to its length field is decoded with the length of the encoding and otherwise unchanged.","for every element of every kind, every value of the length field and every tail","Callers may leave any value in the field; tests set the right one.",["src/gtpv1/utils.rs: set_tlv_ie_length","src/gtpv1/gtpc/messages/ies/*.rs: marshal"])
p("C64","A decoded GTPv1-C element can be encoded again","An element that is decoded from a buffer, encoded and decoded again, is the same element except that the length field is that of the encoding, and keeps its type octet; another round changes nothing.","for every kind of element and every byte string that can be decoded as it, in debug and release builds","All byte strings, also those that no encoder writes; tests decode what they have encoded.",["src/gtpv1/gtpc/messages/ies/*.rs: marshal, unmarshal"])
p("C65","A decoded GTPv1-C message can be sent on","A GTPv1-C message that was decoded is encoded to octets that the next node decodes to the same header, except that the length is that of the new encoding, and to the same fields, with the lengths of the elements set; encoding once more gives the same octets.","for every message type and every byte string that can be decoded as it, in debug and release builds, with any number of elements of a type","All byte strings that a sender can produce for all message types, including more than 256 elements of a type; tests decode and encode fixed examples.",["src/gtpv1/gtpc/messages/*.rs: marshal, unmarshal"])
p("C66","Default values are blank","Behind type and length the octets of a default element are 0; its type field is the code of its kind and its length field the length that is written; the decoder returns the default, with the computed length.","for every kind of element of GTPv2-C and GTPv1-C, in debug and release builds, whatever follows","A caller that sets some fields sends the defaults of all others; tests set every field they look at.",["src/gtpv2/messages/ies/*.rs: Default","src/gtpv1/gtpc/messages/ies/*.rs: Default"])
p("C67","GTPv1 headers are read from their octets","A GTPv1-C or GTPv1-U header is decoded from a buffer exactly if the buffer starts with it: version 1, protocol type 1, type, length and TEID at their positions, sequence number, N-PDU number and chain of extension headers exactly if their flag is set, each extension header with the contents that its length octet announces.","for every byte string and every header value, with chains of any length","An equivalence over all byte strings; a round trip only covers buffers that the encoder writes.",["src/gtpv1/gtpc/header.rs: unmarshal","src/gtpv1/gtpu/header.rs: unmarshal","src/gtpv1/*/extensionheaders/*.rs: unmarshal"])
p("C68","The version octet decides","A buffer of at least eight octets is rejected with HeaderVersionNotSupported exactly if version (and protocol type) are not those of the decoder; what a decoder accepts has its version, so no buffer is accepted by decoders of two versions; the encoders write the version of their protocol.","for every byte string, every message type of GTPv2-C, GTPv1-C and GTPv1-U and every message, in debug and release builds","All byte strings and all pairs of decoders.",["src/gtpv2/header.rs","src/gtpv1/gtpc/header.rs","src/gtpv1/gtpu/header.rs"])
p("C69","A GTPv1-U message can be sent on","A decoded GTPv1-U message that is encoded again, a G-PDU also with another TEID, is decoded by the next node to the same message: same payload and information elements, same optional header fields and extension headers, and the lengths of what was sent.","for every byte string that a debug build decodes, all six message types, every new TEID, whatever follows the message, decoded again in debug or release builds","All received byte strings with arbitrary chains of extension headers and arbitrary payloads.",["src/gtpv1/gtpu/header.rs","src/gtpv1/gtpu/messages","src/gtpv1/gtpu/extensionheaders"])
p("C70","The fourth octet of a GTPv2-C IE is its instance and nothing else","The lower half of an IE's fourth octet is its instance; the spare upper half is ignored on receipt, and the octet has no influence on how anything else of the IE or of the rest of the buffer is decoded.","for every IE type, every length, every body, every remainder of the buffer and every two values of the octet","A relation between the runs of two hundred decoders on pairs of inputs that differ in one octet, each with any body.",["src/gtpv2/messages/ies/*.rs: unmarshal (every `ins: InformationElement::get_ins / buffer[3]`)","src/gtpv2/messages/ies/groupedie.rs:42","src/gtpv2/messages/ies/unknown.rs:42",IE2])
p("C71","Octets behind an IE do not change it","An IE, or a sequence of IEs that fills its buffer, that is accepted on its own is accepted as the same IEs of the same lengths when other octets follow it; those are then decoded as they are alone.","for every IE type, every buffer it is accepted from and every continuation; for every sequence of IEs","A relation between the runs of two hundred decoders on a buffer and on each of its infinitely many continuations.",["src/gtpv2/messages/ies/*.rs: unmarshal (every use of `buffer.len()`)","src/gtpv2/messages/ies/targetid.rs:37","src/gtpv2/messages/ies/sourceid.rs:39","src/gtpv2/messages/ies/mdtconfiguration.rs:204-226","src/gtpv2/messages/ies/prai.rs:120",IE2])
p("C72","An IE is decoded from the octets it declares as its own","Whether an IE is accepted, and as what, depends only on its header and on the octets that its length field declares; none of the octets of the next IE is read.","for every IE type, every declared length, every body of that length and every continuation","The property speaks about all continuations of all bodies; where it fails a test needs the one malformed length field that the decoder does not check.",["src/gtpv2/messages/ies/*.rs: unmarshal (every `check_tliv_ie_buffer` and every fixed-size read)",IE2])
p("C73","A GTPv1-C element is decoded from its own octets","What a GTPv1-C information element is decoded to depends only on its own octets (the fixed size of an element without length field, else header and declared length); the elements behind it have no influence.","for every element kind, every buffer and every continuation","Relates the runs of 49 decoders on a buffer and on all its continuations; where it fails, a test would need the one length field that is not checked.",["src/gtpv1/gtpc/messages/ies/*.rs: unmarshal","src/gtpv1/gtpc/messages/ies/privateextension.rs:41-57","src/gtpv1/gtpc/messages/ies/extensionheadertypelist.rs:38-49","src/gtpv1/utils.rs: check_tlv_ie_buffer"])
p("C74","The octets of an IE are those of the figure in TS 29.274","For every IE whose values have room in the fields of the specification, the marshalled octets are the type, the length and the octets of the figure that TS 29.274 chapter 8 has for it: every field at its place, spare bits 0, enumerations with the code points of the specification, optional fields announced by their flags.","for all 130 IE kinds that have a figure of their own and all values that fit","A figure covers all values of all fields; the unit tests have one value each, taken from the encoder's point of view, and round trips cannot notice an encoder and a decoder that are wrong in the same way.",["src/gtpv2/messages/ies/*.rs: marshal","src/gtpv2/messages/ies/uetimezone.rs:44-57","src/gtpv2/messages/ies/tracereference.rs:11","src/gtpv2/messages/ies/fteid.rs:96-101","src/gtpv2/messages/ies/transactionid.rs","src/gtpv2/messages/ies/targetid.rs","src/gtpv2/messages/ies/praa.rs","src/gtpv2/messages/ies/uli.rs:59-115"])
p("C75","The octets of a GTPv1-C IE are those of the figure in TS 29.060","For every GTPv1-C IE whose values have room in the fields of the specification, the marshalled octets are the type, for types from 128 on the length, and the octets of the figure that TS 29.060 chapter 7.7 has for it: every field at its place, spare bits with the value of the specification, enumerations with its code points, an IMSI filled up to eight octets.","for all 48 IE kinds that have a figure and all values that fit","A figure covers all values of all fields; the unit tests have one value each, taken from the encoder's point of view, and round trips cannot notice an encoder and a decoder that are wrong in the same way.",["src/gtpv1/gtpc/messages/ies/*.rs: marshal","src/gtpv1/gtpc/messages/ies/imsi.rs: marshal","src/gtpv1/gtpc/messages/ies/mstimezone.rs:32-44"])
p("C76","Spare bits of an IE are not evaluated by the receiver","Two GTPv2-C IEs that differ only in bits that the figures of TS 29.274 chapter 8 show as spare are decoded to the same outcome: the same value, the same error or the same panic; and a sequence of IEs in which spare bits of one are changed is decoded to the same list.","for all pairs of octet sequences that differ in spare bits only, all 43 IE types with spare bits at fixed places, both build modes","The spare bits of one IE have up to 2^30 settings next to all values of its fields; the unit tests only have the zero the encoder writes, and a round trip never sets a spare bit.",["src/gtpv2/messages/ies/*.rs: unmarshal","src/gtpv2/messages/ies/paa.rs","src/gtpv2/messages/ies/arp.rs","src/gtpv2/messages/ies/uci.rs"])
p("C77","Spare bits of a GTPv1-C IE are not evaluated by the receiver","Two GTPv1-C IEs that differ only in bits that the figures of TS 29.060 chapter 7.7 show as spare, be they sent as zeros or as ones, are decoded to the same outcome: the same value, the same error or the same panic.","for all pairs of octet sequences that differ in spare bits only, all 14 IE kinds with spare bits, both build modes","The unit tests only have the spare bits the encoder writes, and a round trip never changes one; the property compares all settings of the spare bits next to all values of the fields.",["src/gtpv1/gtpc/messages/ies/*.rs: unmarshal","src/gtpv1/gtpc/messages/ies/teardownind.rs","src/gtpv1/gtpc/messages/ies/spi.rs","src/gtpv1/gtpc/messages/ies/uci.rs"])
p("C78","The octets of a GTPv1-U message are those of TS 29.281","A GTPv1-U message of any of the six kinds, encoded into an empty buffer, has the octets that TS 29.281 gives it if and only if its public type fields have the values of the specification: the header of the figure with the message type of table 6.1-1 and the number of octets behind the first eight as length, then the information elements in ascending order of their types, each with type, length and value as in chapter 8.","for all messages of the six kinds: all headers with any chain of extension headers, all values of all fields, all payloads","The message is composed from a header with optional parts, a length that is patched in afterwards, and optional elements; unit tests have one composition per message, and round trips cannot notice an encoder and a decoder that agree on a wrong layout.",["src/gtpv1/gtpu/messages/*.rs: marshal","src/gtpv1/gtpu/messages/ies/*.rs: marshal","src/gtpv1/utils.rs:198-202"])
p("C79","Which buffers are accepted as a GTPv2-C message","A buffer is accepted as a message y of some type exactly when it begins with a header of this type, announces at most the octets that are there, has from the end of the header to the announced end a sequence of IEs each of which its decoder accepts and which end where the next begins, has the IEs of all mandatory fields among them, and y has this header and in each field the IEs that arrived for it (the first, the last or all, by kind of field).","for every message type, every byte string and every message","An iff over all byte strings and messages; the other properties give single necessary or sufficient conditions.",[MS2,IE2])
p("C80","Which buffers are accepted as a GTPv1-U message","A buffer is accepted as a GTPv1-U message exactly when it starts with a header of its type, has the announced octets, and has behind the header the information elements of the message: the octets up to the announced end for a G-PDU, a recovery counter for an Echo Response, a type list of 1 to 253 octets for a Supported Extension Headers Notification, and elements in ascending order of their types with a TEID and a peer address among them for an Error Indication; the fields of the message are read from these octets and the first element of a type counts.","for every byte string and every message of the six types","An iff over all byte strings; tests decode one capture per type.",["src/gtpv1/gtpu/messages/*.rs: unmarshal","src/gtpv1/gtpu/messages/ies/*.rs: unmarshal"])
p("C81","The stack that decoding takes is bounded","The number of nested calls of InformationElement::decoder does not depend on the received octets: there is a number of calls that is enough for every buffer that a message can carry, and it does not exceed the nesting that the protocol has (three levels).","for every byte string and every amount of stack","A test has a handful of levels at most; stack exhaustion needs thousands and kills the process instead of returning an error.",["src/gtpv2/messages/ies/ie.rs:481-1525","src/gtpv2/messages/ies/groupedie.rs:37-58"])
p("C82","The work that decoding takes is linear","Decoding a sequence of IEs, members of grouped IEs at every depth included, calls the decoder of a single IE at most once for every octet of the buffer whenever it ends at all, and in debug builds at most once for every four octets, a rest counted as four.","for every byte string and every way in which decoding ends","Counting calls over all inputs is a statement about the loop and its recursion, not about any result that a test could compare.",["src/gtpv2/messages/ies/ie.rs:481-1525","src/gtpv2/messages/ies/groupedie.rs:37-58"])
p("C83","The GTPv1-C messages without a loop, on every byte string","Echo Request, Echo Response, Version Not Supported and Supported Extension Headers Notification: a buffer is accepted exactly if it starts with a header of that type and the octets behind it meet the condition written down for the message, the result is the one written down there, and the decoder panics exactly under the stated conditions.","for every byte string, in debug and release builds","Exact acceptance is a statement about all octets; the panics are at lengths (ten octets of a header of twelve, a length field of 65,533) that no captured message has.",["src/gtpv1/gtpc/messages/echoreq.rs:43-60","src/gtpv1/gtpc/messages/echoresp.rs:50-84","src/gtpv1/gtpc/messages/versionnotsupported.rs:33-43","src/gtpv1/gtpc/messages/supportedexthdrnotification.rs:43-71"])
p("C84","The message types of GTPv2-C are those of TS 29.274","Every message structure of the crate is sent and accepted under the message type that table 6.1-1 of TS 29.274 gives to the message of its name.","for all 83 message types","Round-trip tests use the constant of the crate on both sides; a wrong constant is a consistent one.",["src/gtpv2/messages/downlinkdatanotification.rs:10","src/gtpv2/messages/pgwrestartnotification.rs:10","src/gtpv2/messages/stoppagingindication.rs:10"])
p("C85","A GTPv2-C message is accepted exactly if the mandatory IEs of TS 29.274 are there","A complete message of a type, all of whose IEs can be decoded, is accepted exactly if it contains every IE that the table of clause 7 of TS 29.274 calls mandatory for this message, with the instance given there.","for every message type, for all octets","The tests give the decoder the IEs that the decoder wants; whether the standard wants others shows only against its tables, and for every combination of IEs.",["src/gtpv2/messages/raninformationrelay.rs:87-112","src/gtpv2/messages/tracesessiondeactivation.rs:72-87","src/gtpv2/messages/isrstatusindication.rs:81-101","src/gtpv2/messages/identificationresp.rs:124-175"])
p("C86","The IEs of TS 29.274 that a GTPv2-C message carries are in the result","An IE of an accepted message that the table of clause 7 lists for the message is in the result of decoding: every one of them where the table allows several with the same type and instance, and otherwise the one if there is only one.","for every message type, every row of its table, and all octets","An IE that is skipped leaves no trace in the result, and the round-trip tests start from messages that have no field for it.",["src/gtpv2/messages/deletebearerreq.rs:174-259","src/gtpv2/messages/createsessionresp.rs:285-470","src/gtpv2/messages/createsessionreq.rs:425-733"])
p("C87","The GTPv1-C messages are those of the tables of TS 29.060","Each of the 16 messages with a table of information elements has the message type of TS 29.060; accepts only elements of the types that its table lists, each as the element that the list of types says; has in the result as many elements of a type as the table has rows for it, the first ones received; sends its elements in the order of the table; and accepts every list of well-formed elements of the table in ascending order with the mandatory ones.","for every message type, all octets and all messages","The agreement is with 16 tables of up to 39 rows, and for all combinations of rows; the tests have one or two messages for each type.",["src/gtpv1/gtpc/messages/createpdpctxreq.rs:10-1100","src/gtpv1/gtpc/messages/createpdpctxresp.rs:10-800","src/gtpv1/gtpc/messages/updatepdpctxreq.rs:10-900"])
p("C88","Iterating over a GTPv2-C message yields its IEs and ends","A loop over a message (`Iterator for dyn Messages`) yields every IE of the message once and then ends.","for every message type, all messages, and any number of calls","No test iterates over a message; that the loop does not end cannot be seen in finitely many calls.",["src/gtpv2/messages/commons.rs:15-25"])
p("C89","The accessors of a decoded GTPv2-C IE say what was received","`get_type` of a decoded IE is the type octet that was received, and `is_empty` holds exactly if the IE came with the length 0.","for all buffers and every IE in them","The accessors read a field that the decoder fills with a constant; the tests never compare it with the octet for all 256 types.",["src/gtpv2/messages/ies/tracereference.rs:60-90","src/gtpv2/messages/ies/ie.rs:481-1525","src/gtpv2/messages/ies/specialiewithtypeext.rs:78-90"])
p("C90","A GTPv2-C IE written as TS 29.274 has it is understood","An IE that a peer writes as the figure of TS 29.274 has it, whatever the spare bits of the fourth octet, is decoded as the value that was meant, whatever follows it.","for every IE kind with a figure, all values, instances and following octets, debug and release builds","The tests decode octets that the crate itself would write; a peer's encoding differs just where the encoder deviates, and no test has a home eNodeB identity or a time zone taken from a capture.",["src/gtpv2/messages/ies/targetid.rs:1-330","src/gtpv2/messages/ies/uetimezone.rs:30-75","src/gtpv2/messages/ies/transactionid.rs:1-90","src/gtpv2/messages/ies/fteid.rs:60-130"])
p("C91","A GTPv1-C element written as TS 29.060 has it is understood","An element that a peer writes as the figure of TS 29.060 has it is decoded as the value that was meant, whatever follows it.","for every kind with a figure, all values and following octets, debug and release builds","The tests decode what the crate itself writes, and their MSISDN is followed by enough octets.",["src/gtpv1/gtpc/messages/ies/msisdn.rs:45-73","src/gtpv1/gtpc/messages/ies/imsi.rs:33-47","src/gtpv1/gtpc/messages/ies/mstimezone.rs:46-65"])
p("C92","An element is called empty exactly if it came without a value","`is_empty` of a decoded GTPv1 information element or extension header holds exactly if it was received with a declared length of 0, and no value is then read for it.","for all 49 kinds of GTPv1-C elements, the GTPv1-U elements and extension headers, all buffers, debug and release builds","The crate has no test of `is_empty`; a value of 0 and a length of 0 both look like a default.",["src/gtpv1/gtpc/messages/ies/commonflags.rs:95-97","src/gtpv1/gtpc/messages/ies/imsi.rs:52-54","src/gtpv1/gtpu/header.rs:99-112","src/gtpv1/gtpu/messages/ies/recovery.rs:48-50"])
p("C93","The text of an error tells which error it is","Two errors of the same protocol with the same text are the same error; the only number in the text of a GTPv2-C error is the IE or message type that the error carries, and there is none if it carries no type.","for all errors of both protocols, with all 256 types","No test looks at a text; the two enumerations are written out twice and a copied line is not noticed.",["src/gtpv1/errors.rs:30-58","src/gtpv2/errors.rs:26-54"])
p("C94","A grouped IE has the members that it was sent with","The value decoded from a grouped IE of GTPv2-C contains every member that TS 29.274 lists for it (all of them where several are allowed), nothing else, and a grouped IE that lacks a mandatory member is rejected.","for all nine kinds of grouped IEs and all octets, in debug and release builds","The tests decode one complete sample per grouped IE; they have no IE with a member missing, none with an unexpected instance, and none with several members in the lists of load and overload control.",["src/gtpv2/messages/ies/bearercontext.rs:65-155","src/gtpv2/messages/ies/loadcontrolinfo.rs:42-75","src/gtpv2/messages/ies/overloadcontrolinfo.rs:45-78","src/gtpv2/messages/ies/pdnconnections.rs:87-223","src/gtpv2/messages/ies/pgwchangeinfo.rs:45-88","src/gtpv2/messages/ies/pc5qosparameters.rs:41-74","src/gtpv2/messages/ies/remoteuecontext.rs:41-66","src/gtpv2/messages/ies/scefpdnconnections.rs:43-81","src/gtpv2/messages/ies/v2xinformation.rs:43-81"])
p("C95","A grouped IE is written with all that it contains","The octets of a grouped IE of GTPv2-C are its type, the number of octets behind the header, the instance and the octets of each IE in its fields, each written once; no field is left out.","for all values of the nine kinds of grouped IEs, nested ones included","The tests compare the octets of one sample per grouped IE, and most optional fields are empty in it; a field that to_vec does not mention is not noticed.",["src/gtpv2/messages/ies/bearercontext.rs:171-224","src/gtpv2/messages/ies/pdnconnections.rs:242-332","src/gtpv2/messages/ies/groupedie.rs:27-35","src/gtpv2/messages/ies/loadcontrolinfo.rs:97-109","src/gtpv2/messages/ies/pgwchangeinfo.rs:107-120"])
p("C96","A GTPv2-C message that a peer writes as TS 29.274 has it is understood","A message with the header of clause 5, IEs as the figures of clause 8 have them (grouped ones with their members, at any depth) in any order, and all IEs that the table of the message calls mandatory, is accepted; TEID, sequence number, priority and piggybacking flag of the result are those that were written, and every IE that the table lists is in the result.","for all message types, all values and orders of the IEs, all spare bits of header and fourth octets, whatever follows the message, in debug and release builds","A test decodes one capture per message; the order of the IEs, the spare bits and the combinations are those of that capture.",["src/gtpv2/header.rs:51-110","src/gtpv2/messages/ies/ie.rs:481-1525","src/gtpv2/messages/ies/groupedie.rs:27-60","src/gtpv2/messages/createsessionreq.rs:160-190"])
p("C97","A GTPv1-C message that a peer writes as TS 29.060 has it is understood","A message with the header of clause 6, elements as the figures of clause 7.7 have them, in ascending order of their types and from the table of the message, the mandatory ones among them, is accepted; the header of the result is the one that was written, and of each type the result has the elements that were written, as many as the table has rows.","for all message types with elements, all headers with or without sequence number, N-PDU number and extension headers, all values of the elements, in debug and release builds","The tests decode one capture for each message type.",["src/gtpv1/gtpc/header.rs:132-240","src/gtpv1/gtpc/messages/createpdpctxreq.rs:10-1100","src/gtpv1/gtpc/messages/deletepdpctxreq.rs:60-220"])
p("C98","Spare bits and unused fields of a header are not evaluated by the receiver","Two messages that differ only in spare bits of the header, or in fields of the header that its flags declare unused (priority octet of GTPv2-C, sequence number, N-PDU number and extension header type of GTPv1), are decoded with the same result.","for all message types of the three protocols, all header octets and all bodies, in debug and release builds; the result may be a message, an error or a panic","Captures have zeros there; the unused octets take 2^32 values.",["src/gtpv2/header.rs:51-102","src/gtpv1/gtpc/header.rs:132-185","src/gtpv1/gtpu/header.rs:193-300"])
p("C99","A GTPv1-U message that a peer writes as TS 29.281 has it is understood","Octets that are a message as TS 29.281 draws it, with any spare bits, any contents of the fields whose flag is not set and any chain of extension headers (known or not), are decoded to the message they stand for.","for all six message types, all values of the fields, all chains of extension headers of any length, all spare bits and unused octets, in debug and release builds","Tests decode what the crate itself has encoded, with zeros in all spare and unused places, and have one extension header at most.",["src/gtpv1/gtpu/header.rs:193-300","src/gtpv1/gtpu/extensionheaders","src/gtpv1/gtpu/messages"])
p("C100","A received part of an information element is called empty exactly if its octets carry nothing","The function is_empty of an identity, identifier, authentication vector or other part of a GTPv2-C information element holds of a received part exactly if its PLMN has no digit other than zero and all its other octets are zero.","for all 25 parts with a function is_empty, and for all octets that the decoder of the part accepts","is_empty of parts is not called in the tests, and most parts have many fields that it could forget.",["src/gtpv2/messages/ies/commons.rs:54-1272","src/gtpv2/messages/ies/targetid.rs:75-649","src/gtpv2/messages/ies/sourceid.rs:73-158"])

open('/verif/properties.jsonl','w').write('\n'.join(json.dumps(x,ensure_ascii=False) for x in P)+'\n')
print(len(P))
