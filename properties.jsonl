{"id": "C01", "title": "BER decode is memory safe and never over-consumes", "statement": "Decoding any byte string as a BER TLV finishes, reads only bytes inside the given buffer, and on success the reported consumed count is at least 2 and at most the buffer length, and the reported value is a contiguous slice of the input lying entirely inside the consumed bytes, immediately after the header. On failure it reports an error and never an impossible consumed count.", "quantifier": "every byte string of every length, including truncated headers, over-long tags, lengths larger than the buffer and arbitrarily nested indefinite-length encodings", "why_tests_cant": "a test tries a handful of buffers; the bound must hold for all 256^n inputs and for every nesting depth of indefinite lengths", "anchors": ["src/iso8825_ber.c: iso8825_ber_tag_decode, iso8825_ber_decode"]}
{"id": "C02", "title": "BER definite-form round trip", "statement": "If a tag whose identifier octets fit the library limit (1 to 4 octets) and a value are encoded in definite form with any permitted length encoding (short form, or long form with 1 to 4 length octets, minimal or not), and followed by arbitrary trailing bytes, then decoding returns exactly that tag, class/constructed flags, length and value, and consumes exactly the encoding.", "quantifier": "every tag of 1-4 identifier octets, every value whose length fits the chosen length form, every suffix", "why_tests_cant": "unit tests exercise a few tags and lengths; the encoder/decoder agreement has to hold for every tag shape x length form x value x suffix", "anchors": ["src/iso8825_ber.c: iso8825_ber_decode, iso8825_ber_tag_decode", "src/iso8825_ber.h: struct iso8825_tlv_t"]}
{"id": "C03", "title": "BER iteration yields exactly the encoded sequence and always ends", "statement": "Iterating a concatenation of definite-form BER encodings yields exactly those objects in order and then end-of-data; and for any byte string whatsoever iteration stops after at most half as many objects as there are bytes, either with end-of-data or with an error, never re-reading or skipping a byte between consecutive objects.", "quantifier": "every sequence (any length) of encodable objects; every byte string", "why_tests_cant": "number of objects and the position of a malformed one are unbounded", "anchors": ["src/iso8825_ber.c: iso8825_ber_itr_init, iso8825_ber_itr_next"]}
{"id": "C04", "title": "Indefinite-length contents end at their own end-of-contents marker", "statement": "When an indefinite-length constructed object is decoded, its value is exactly the objects up to (and not including) the end-of-contents octets that belong to it, and iteration continues after those end-of-contents octets with the next sibling.", "quantifier": "every well-formed definite/indefinite nesting and every following sibling", "why_tests_cant": "nesting depth and mix of forms is unbounded; the sample used by tests has no sibling after an indefinite object", "anchors": ["src/iso8825_ber.c: iso8825_ber_decode, iso8825_ber_itr_next"]}
{"id": "C05", "title": "EMV TLV parsing yields the primitive leaves in document order", "statement": "Parsing the definite-form encoding of any forest of BER objects into an EMV list succeeds and appends exactly the primitive leaves, in depth-first document order with their tags and values, after whatever the list already contained; constructed objects themselves never appear.", "quantifier": "every forest of any depth and width, every prior list content", "why_tests_cant": "trees are unbounded in depth and width; order and completeness of leaves cannot be settled by samples", "anchors": ["src/emv_tlv.c: emv_tlv_parse, emv_tlv_list_push"]}
{"id": "C06", "title": "EMV TLV parsing of arbitrary input is safe, monotone and classifies errors", "statement": "Parsing any byte string as EMV TLV data terminates without out-of-bounds access; the return value is success, the positive 'malformed data' outcome or (only on allocation failure) an internal error; whatever happens the previous list content is kept unchanged as a prefix, and every newly added field is a tag/value pair whose value is a slice of the input.", "quantifier": "every byte string, every prior list", "why_tests_cant": "arbitrary malformed input and nesting; tests sample a few", "anchors": ["src/emv_tlv.c: emv_tlv_parse"]}
{"id": "C07", "title": "Object identifier decoding never writes outside its result", "statement": "Decoding an ASN.1 object identifier writes only inside the result structure and returns the sub-identifiers given by X.690 8.19 (first octets split as 40*X+Y, base-128 big-endian groups) for every input accepted.", "quantifier": "every byte string up to any length", "why_tests_cant": "overflow depends on the count of sub-identifiers, unbounded by the type", "anchors": ["src/iso8825_ber.c: iso8825_ber_oid_decode", "src/iso8825_ber.h: struct iso8825_oid_t"]}
{"id": "C08", "title": "EMV TLV list is a FIFO sequence under any history of operations", "statement": "Any sequence of push, pop, append, clear, is-empty, find and duplicate-check calls on EMV TLV lists behaves exactly like the same operations on mathematical sequences: push appends at the end, pop removes the first, append moves all of the other list to the end and empties the other, find returns the first entry with the tag, duplicate-check is true exactly when some tag occurs twice. The list structure stays well formed (ends consistent, no sharing between lists, no leaked or freed nodes reachable) after every operation.", "quantifier": "every finite history of operations on any number of lists", "why_tests_cant": "histories are unbounded; pointer-ends consistency (front/back) breaks only after particular sequences", "anchors": ["src/emv_tlv.c: emv_tlv_list_push, emv_tlv_list_pop, emv_tlv_list_append, emv_tlv_list_clear, emv_tlv_list_find, emv_tlv_list_has_duplicate, emv_tlv_list_is_empty"]}
{"id": "C09", "title": "Format n encoding round trip", "statement": "Encoding an unsigned 32-bit integer as EMV format n in a buffer of any size and decoding it again gives back the integer whenever the buffer has at least as many digits as the number, and in general the number modulo 10^(2 x buffer length); the buffer is always entirely filled with valid decimal digit nibbles, left padded with zeros.", "quantifier": "every 32-bit value and every buffer length >= 1", "why_tests_cant": "2^32 values x unbounded lengths", "anchors": ["src/emv_tlv.c: emv_uint_to_format_n, emv_format_n_to_uint"]}
{"id": "C10", "title": "Format n decoding returns the decimal number written in the field", "statement": "Decoding an EMV format n field either reports a parse error because some nibble is not a decimal digit, or returns the number spelled by the digits.", "quantifier": "every byte string of every length (fields such as 9F02 have 12 digits)", "why_tests_cant": "the digits-to-integer claim is over all lengths; overflow only shows beyond 32 bits", "anchors": ["src/emv_tlv.c: emv_format_n_to_uint", "src/emv_strings.c: emv_format_n_get_string"]}
{"id": "C11", "title": "Format b encoding round trip", "statement": "Encoding an unsigned 32-bit integer as EMV format b (big-endian binary) and decoding it again gives the integer when the buffer has at least enough bytes, and the integer modulo 256^len otherwise; decoding refuses more than 4 bytes and never loses information for 1 to 4 bytes (decode then encode is the identity).", "quantifier": "every 32-bit value and buffer length; every byte string of 1-4 bytes", "why_tests_cant": "2^32 values and byte strings", "anchors": ["src/emv_tlv.c: emv_uint_to_format_b, emv_format_b_to_uint"]}
{"id": "C12", "title": "Character-set filters keep exactly the permitted characters in order", "statement": "Converting an ans field for display keeps exactly the permitted characters (non-control: 0x20-0x7E and 0xA0-0xFF; alphanumeric-space: digits, letters and space), in order, drops all others, stops at the output capacity, always NUL-terminates and never writes outside the output buffer.", "quantifier": "every input string and every output buffer size", "why_tests_cant": "interaction of skipping and capacity is over all strings and sizes", "anchors": ["src/emv_tlv.c: emv_format_ans_to_non_control_str, emv_format_ans_to_alnum_space_str"]}
{"id": "C13", "title": "Format b to hexadecimal string", "statement": "Converting binary data to a hex string writes exactly two uppercase hex digits per byte, NUL terminated, never outside the output buffer, and decoding the hex gives back the bytes; when the buffer is too small it is refused or truncated without overflow.", "quantifier": "every byte string and every output size", "why_tests_cant": "all lengths/boundary sizes", "anchors": ["src/emv_tlv.c: emv_format_b_to_str"]}
{"id": "C14", "title": "DOL decode/iterate round trip", "statement": "Iterating the encoding of any list of (tag, length) pairs yields exactly those pairs in order and then end-of-data; for any byte string iteration terminates, stays in bounds and consumes every byte exactly once unless it reports an error.", "quantifier": "every list of entries with 1-4 octet tags and 1-octet lengths; every byte string", "why_tests_cant": "unbounded number of entries", "anchors": ["src/emv_dol.c: emv_dol_decode, emv_dol_itr_init, emv_dol_itr_next"]}
{"id": "C15", "title": "DOL data length equals the sum of requested lengths", "statement": "The computed data length of any valid DOL is the sum of its entries' lengths, and building data with a buffer of at least that size always succeeds, reports exactly that length, and writes only that many bytes; with a smaller buffer it reports that the buffer is too small and never writes outside of it.", "quantifier": "every DOL, every pair of ICC and terminal lists, every buffer size", "why_tests_cant": "unbounded DOLs and data; boundary between sizes", "anchors": ["src/emv_dol.c: emv_dol_compute_data_length, emv_dol_build_data"]}
{"id": "C16", "title": "DOL data follows the EMV Book 3 5.4 placement rules", "statement": "For each DOL entry, in order, the built data contains: all zeros if the field is unknown; otherwise the field value itself when lengths agree; if the requested length is shorter, the rightmost bytes for numeric terminal fields and the leftmost bytes otherwise; if longer, the value left-padded with zeros for numeric terminal fields and right-padded with zeros otherwise. A field present in the first source takes precedence over the same field in the second.", "quantifier": "every DOL, every content of the two data sources", "why_tests_cant": "the rule's four cases x format x every length combination", "anchors": ["src/emv_dol.c: emv_dol_build_data", "src/emv_tlv.c: emv_tlv_is_terminal_format_n"]}
{"id": "C17", "title": "Building PDOL data at the call site cannot fail", "statement": "During application initiation, once the PDOL length has been computed and checked to fit, the GET PROCESSING OPTIONS data is always built successfully, it is the byte 0x83, the exact BER length of the rest (one octet, or 0x81 and one octet) and the data the PDOL asks for, and the total is at most 255 bytes.", "quantifier": "every PDOL returned by a card, every terminal/ICC data", "why_tests_cant": "unbounded card-controlled PDOLs", "anchors": ["src/emv.c: emv_initiate_application_processing", "src/emv_dol.c: emv_dol_compute_data_length, emv_dol_build_data"]}
{"id": "C18", "title": "AFL iteration accepts exactly well-formed AFLs", "statement": "Iterating an Application File Locator yields all entries in order and then end-of-data exactly when the AFL is well formed (length a multiple of 4 and at most 252; in each entry low three bits of byte 1 zero, SFI 1-30, first record non-zero, last >= first, authenticated-record count no greater than the number of records); otherwise it yields the well-formed prefix and then an error.", "quantifier": "every byte string", "why_tests_cant": "4-byte entries are 2^32 and any number of them up to 63", "anchors": ["src/emv_fields.c: emv_afl_itr_init, emv_afl_itr_next"]}
{"id": "C19", "title": "CVM list parsing", "statement": "Parsing a CVM List yields amounts X and Y as big-endian integers and then every 2-byte CV rule in order exactly when the length is 10..252 and even; all other lengths are rejected; never reads out of bounds.", "quantifier": "every byte string", "why_tests_cant": "2^32 amounts, any number of rules", "anchors": ["src/emv_fields.c: emv_cvmlist_itr_init, emv_cvmlist_itr_next"]}
{"id": "C20", "title": "AID classification by registered provider and product prefix", "statement": "For every AID of 5-16 bytes the reported scheme is the one registered for its RID and the reported product is that of the longest listed product prefix; unknown RIDs are reported as unknown; every listed RID is recognised with success.", "quantifier": "every AID of every length", "why_tests_cant": "16^32 AIDs; order of prefix tables matters", "anchors": ["src/emv_fields.c: emv_aid_get_info"]}
{"id": "C21", "title": "IAD format recognition is a total deterministic classification", "statement": "Every Issuer Application Data string is assigned exactly one format, decided only by its length and leading bytes as documented per scheme, without reading outside the data.", "quantifier": "every byte string of 0..32 bytes and beyond", "why_tests_cant": "format rules overlap; totality over all strings", "anchors": ["src/emv_fields.c: emv_iad_get_format"]}
{"id": "C22", "title": "APDU case classification follows ISO 7816-3", "statement": "A command APDU is classified as case 1, 2S, 3S, 4S, 2E, 3E or 4E exactly according to ISO 7816-3 12.1.3, from its length and C5..C7, without reading outside the command.", "quantifier": "every byte string", "why_tests_cant": "extended-length cases have 2^16 lengths", "anchors": ["src/iso7816_apdu.h: iso7816_apdu_case"]}
{"id": "C23", "title": "TTL never overflows the caller's response buffer", "statement": "Whatever the card answers and in whatever sequence, an exchange writes only inside the caller's response buffer (of at least 2 bytes) and the reported response length never exceeds the given capacity.", "quantifier": "every command, every capacity >= 2, every (finite or infinite) sequence of reader responses in character or APDU mode", "why_tests_cant": "adversarial card: unbounded sequences of procedure bytes, 61xx and 6Cxx", "anchors": ["src/emv_ttl.c: emv_ttl_trx"]}
{"id": "C24", "title": "TTL transmits only the caller's command bytes", "statement": "Whatever the card answers, the terminal only ever transmits the command header, the command's own data bytes in order and at most once, or a GET RESPONSE/re-issued header; it never reads or transmits memory outside the C-APDU.", "quantifier": "every command APDU, every sequence of reader responses", "why_tests_cant": "depends on adversarial interleavings of procedure bytes with 61xx/6Cxx", "anchors": ["src/emv_ttl.c: emv_ttl_trx"]}
{"id": "C25", "title": "TTL exchange reports exactly the data and status the card sent", "statement": "In a successful exchange the response is the concatenation, in order, of the data the card sent across all GET RESPONSE rounds followed by the final status; the separately reported SW1-SW2 equals those last two bytes; for a case 1/3 command no data is returned.", "quantifier": "every successful exchange with any number of 61xx/6Cxx rounds", "why_tests_cant": "any number of rounds and chunk sizes", "anchors": ["src/emv_ttl.c: emv_ttl_trx"]}
{"id": "C26", "title": "TTL exchange termination", "statement": "An exchange ends after a number of card responses bounded in terms of the command and response buffer sizes.", "quantifier": "every card behaviour", "why_tests_cant": "liveness against infinite adversarial behaviour cannot be tested", "anchors": ["src/emv_ttl.c: emv_ttl_trx"]}
{"id": "C27", "title": "TTL command wrappers build well-formed short APDUs", "statement": "SELECT, SELECT NEXT, READ RECORD and GET PROCESSING OPTIONS issue exactly the ISO/EMV APDU for their parameters (class, instruction, P1-P2, Lc, data, Le=0), which the APDU classifier recognises as the intended case, and reject out-of-range parameters without talking to the card; returned data is the response without SW1-SW2 and never exceeds the caller's capacity.", "quantifier": "every DF name, SFI, record number and GPO data", "why_tests_cant": "all parameter combinations and lengths 0..2^64", "anchors": ["src/emv_ttl.c: emv_ttl_select_by_df_name, emv_ttl_select_by_df_name_next, emv_ttl_read_record, emv_ttl_get_processing_options"]}
{"id": "C28", "title": "Reading an SFI requests exactly the records of the range, in order, once each", "statement": "Reading records first..last of an SFI issues READ RECORD for first, first+1, ..., last in that order, once each, stopping at the first failure, and terminates.", "quantifier": "every SFI, every 8-bit range, every card behaviour", "why_tests_cant": "8-bit counter wrap-around at 255 occurs only for one range end; card behaviour is adversarial", "anchors": ["src/emv_tal.c: emv_tal_read_sfi_records"]}
{"id": "C29", "title": "An accepted record in SFI 1-10 is a single record template", "statement": "Whenever reading application data succeeds, every record read from SFI 1 to 10 consists of exactly one template 70 covering the whole record, and the fields added are exactly the primitive data objects inside; failure adds nothing that was not on a card record.", "quantifier": "every record content (0..256 bytes) from any card", "why_tests_cant": "all byte strings; off-by-one in the template length check", "anchors": ["src/emv_tal.c: emv_tal_read_sfi_records"]}
{"id": "C30", "title": "Reading all AFL records collects exactly the AFL's records in order", "statement": "When reading application data by AFL succeeds, the READ RECORD commands issued are exactly the records enumerated by the AFL in order, and the collected data is the concatenation of the parsed records; an invalid AFL entry or card error makes it fail with the documented error and no success outcome.", "quantifier": "every AFL, every card behaviour", "why_tests_cant": "any number of entries and records", "anchors": ["src/emv_tal.c: emv_tal_read_afl_records, emv_tal_read_sfi_records"]}
{"id": "C31", "title": "GET PROCESSING OPTIONS result is format independent", "statement": "When GPO succeeds, AIP and AFL are reported and in the list; a format 1 response (80) and the format 2 response (77) carrying the same AIP and AFL give the same AIP and AFL; on failure no AIP/AFL is reported.", "quantifier": "every GPO response from any card", "why_tests_cant": "all response strings, both formats", "anchors": ["src/emv_tal.c: emv_tal_get_processing_options"]}
{"id": "C32", "title": "Candidate applications always match a supported AID", "statement": "After building the candidate list from the PSE or by list of AIDs, every candidate's AID equals a supported AID, or starts with a supported AID that permits partial matching; and an application returned by the PSE that matches is never dropped.", "quantifier": "every supported list and every card directory content", "why_tests_cant": "unbounded directories and AID lists", "anchors": ["src/emv_tal.c: emv_tal_read_pse, emv_tal_parse_aef_record, emv_tal_find_supported_apps", "src/emv_app.c: emv_app_is_supported"]}
{"id": "C33", "title": "PSE directory reading terminates", "statement": "Reading the payment system directory terminates for every card and reads records 1, 2, 3, ... until the card reports 'record not found'.", "quantifier": "every card behaviour including one that always returns a record", "why_tests_cant": "infinite card behaviour, 8-bit record counter", "anchors": ["src/emv_tal.c: emv_tal_read_pse"]}
{"id": "C34", "title": "Candidate list priority sort", "statement": "Sorting the candidate list gives a permutation ordered by ascending application priority with 'no priority' (0) last, and applications of equal priority keep their card order.", "quantifier": "every candidate list of every length", "why_tests_cant": "all permutations and priority ties", "anchors": ["src/emv_app.c: emv_app_list_sort_priority, emv_app_list_insert, emv_app_list_push_front"]}
{"id": "C35", "title": "Removing a candidate by index removes exactly that one", "statement": "Removing index i returns the i-th application and leaves all others in order, with the list still able to accept pushes at the end; an index past the end changes nothing. Any history of push, pop, push-front, insert, remove and clear behaves like the same history on sequences.", "quantifier": "every history of operations and every index", "why_tests_cant": "unbounded histories; end-pointer corner cases", "anchors": ["src/emv_app.c: emv_app_list_remove_index, emv_app_list_push, emv_app_list_pop"]}
{"id": "C36", "title": "AID matching rule", "statement": "An application is supported by a list of AIDs exactly when some list entry equals its AID, or some entry with partial matching allowed is a proper or equal prefix of it.", "quantifier": "every AID and every list", "why_tests_cant": "all byte strings and lists", "anchors": ["src/emv_app.c: emv_app_is_supported"]}
{"id": "C37", "title": "Application display name fits and is printable", "statement": "The display name extracted for an application is always NUL terminated inside its 33-byte field and is chosen as: preferred name when the issuer code table is supported and present, otherwise application label, otherwise the AID in hex.", "quantifier": "every combination of label, preferred name, code table index and AID from a card", "why_tests_cant": "all strings up to any card-supplied length", "anchors": ["src/emv_app.c: emv_app_extract_display_name"]}
{"id": "C38", "title": "Cardholder selection requirement", "statement": "Cardholder application selection is required exactly when the candidate list has more than one application, or its only application requires confirmation.", "quantifier": "every candidate list", "why_tests_cant": "all lists", "anchors": ["src/emv_app.c: emv_app_list_selection_is_required"]}
{"id": "C39", "title": "Application selection never selects something the card rejected", "statement": "Selecting candidate i either selects exactly that application (its FCI parsed from the card's answer, AID identical) or removes it from the candidate list and asks the caller to try again (or, when none is left, to stop); a failed exchange, a blocked card or an AID too short to be sent ends the session with nothing selected; other candidates keep their order; every rejection strictly shrinks the list so retrying terminates.", "quantifier": "every candidate list, index, and card answer", "why_tests_cant": "histories of repeated selections against adversarial cards", "anchors": ["src/emv.c: emv_select_application", "src/emv_tal.c: emv_tal_select_app"]}
{"id": "C40", "title": "Read application data accepts exactly complete non-redundant data", "statement": "Reading application data succeeds exactly when all AFL records are read and parsed, no field occurs twice among them, and expiry date, PAN, CDOL1 and CDOL2 are present; then the transaction's ICC data is the old data followed by the new fields. In every other outcome the transaction's ICC data is unchanged.", "quantifier": "every transaction state and card behaviour", "why_tests_cant": "all record contents and orders", "anchors": ["src/emv.c: emv_read_application_data"]}
{"id": "C41", "title": "Application initiation may be retried without dangling data", "statement": "After application initiation fails or succeeds, calling any context function again never uses freed data, and AIP/AFL reported in the context are always fields of the current ICC data.", "quantifier": "every sequence of select / initiate / read calls and card answers", "why_tests_cant": "depends on histories of calls", "anchors": ["src/emv.c: emv_initiate_application_processing, emv_select_application, emv_read_application_data", "src/emv_tal.c: emv_tal_get_processing_options"]}
{"id": "C42", "title": "Outcome mapping of candidate list building", "statement": "Building the candidate list succeeds only with a non-empty list sorted by priority; a card that answers the SELECT of a first (or only) occurrence with 6A81 always yields 'card blocked', a failed exchange (or an unreadable directory file identifier, or a supported AID that cannot be sent) 'card error', and no supported application 'not accepted'.", "quantifier": "every card behaviour", "why_tests_cant": "adversarial card answers across PSE and AID-list phases", "anchors": ["src/emv.c: emv_build_candidate_list"]}
{"id": "C43", "title": "ATR interface bytes are parsed within bounds for every ATR", "statement": "Parsing any ATR of 2 to 33 bytes reads interface bytes only inside the ATR storage, and the interface-byte presence reported for each i is exactly what the chain of Y indicators says.", "quantifier": "every byte string of length 0..33 and beyond", "why_tests_cant": "256^33 ATRs", "anchors": ["src/iso7816.c: iso7816_atr_parse"]}
{"id": "C44", "title": "ATR historical bytes are parsed within bounds", "statement": "Parsing the historical bytes of any ATR reads only inside the ATR, and the reported historical byte range lies inside the ATR.", "quantifier": "every ATR", "why_tests_cant": "depends on a particular category byte together with a small count", "anchors": ["src/iso7816.c: iso7816_atr_parse, iso7816_atr_parse_historical_bytes", "src/iso7816_compact_tlv.c: iso7816_compact_tlv_itr_next"]}
{"id": "C45", "title": "ATR checksum is enforced whenever required", "statement": "An accepted ATR whose interface bytes announce any protocol other than T=0 has a TCK making the XOR of all bytes from T0 to TCK zero; a corrupted single byte in an accepted checksummed ATR (other than TS) is never accepted with the same structure.", "quantifier": "every ATR and every single byte corruption", "why_tests_cant": "256^33 x positions", "anchors": ["src/iso7816.c: iso7816_atr_parse"]}
{"id": "C46", "title": "ATR timing parameters are computed exactly", "statement": "For every accepted ATR, Fi/Di are the ISO 7816-3 table values, work waiting time is WI*960*Fi/.. etu per standard, guard time follows N (with N=255 meaning the protocol minimum), and block/character waiting times follow BWI/CWI without overflow.", "quantifier": "every TA1, TC1, TC2, TA3, TB3 combination", "why_tests_cant": "2^40 combinations and overflow corner cases", "anchors": ["src/iso7816.c: iso7816_atr_compute_gt, iso7816_atr_compute_wt, iso7816_atr_parse_TA1"]}
{"id": "C47", "title": "EMV ATR acceptance", "statement": "An ATR is accepted for EMV exactly when it satisfies the EMV Level 1 Contact rules for TS, T0, TA1.., TB1, TC1, TD1, TA2, TB2, TC2, TD2, TA3, TB3, TC3 as documented; in particular a T=1 ATR is accepted only with TB3 present, BWI <= 4, CWI <= 5, IFSC in 16..254.", "quantifier": "every ATR accepted by the ISO 7816 parser", "why_tests_cant": "all interface byte combinations", "anchors": ["src/emv.c: emv_atr_parse"]}
{"id": "C48", "title": "COMPACT-TLV iteration", "statement": "Iterating COMPACT-TLV data yields exactly the encoded (tag, value) sequence, stays in bounds and terminates for every byte string.", "quantifier": "every byte string and every encoded sequence", "why_tests_cant": "unbounded", "anchors": ["src/iso7816_compact_tlv.c: iso7816_compact_tlv_decode, iso7816_compact_tlv_itr_next"]}
{"id": "C49", "title": "String list builder never overflows and keeps whole entries", "statement": "Adding any sequence of strings to a newline-delimited list writes only inside the buffer and keeps it NUL terminated after each addition; as long as everything fits the content is exactly each string followed by a newline; when it does not fit only a final truncation happens and every later addition that cannot fit leaves the content unchanged.", "quantifier": "every buffer size and every sequence of strings", "why_tests_cant": "all size boundaries and sequences", "anchors": ["src/emv_strings.c: emv_str_list_init, emv_str_list_add", "src/iso7816_strings.c: iso7816_str_list_add"]}
{"id": "C50", "title": "Date and time stringification is memory safe and exact", "statement": "Stringifying any 3-byte date (or time) yields 20YY-MM-DD (or hh:mm:ss) of its digits, or a parse error when a nibble is not decimal, writing only inside its buffers.", "quantifier": "every byte string and every output size", "why_tests_cant": "all values; stack overflow invisible to assertions", "anchors": ["src/emv_strings.c: emv_date_get_string, emv_time_get_string"]}
{"id": "C51", "title": "Compressed numeric string conversions are inverse", "statement": "Packing a decimal string as EMV format cn and stringifying it gives back the string whenever it fits; stringifying a valid cn field and repacking it gives the same field; conversions write only inside their buffers.", "quantifier": "every decimal string and buffer size; every byte string", "why_tests_cant": "unbounded lengths, odd/even digit counts, padding", "anchors": ["src/emv_strings.c: emv_str_to_format_cn, emv_format_cn_get_string"]}
{"id": "C52", "title": "Numeric string packing round trip", "statement": "Packing a decimal string as EMV format n right-justifies it with leading zeros, keeps the last digits when it is too long, and the packed field denotes the same number when it fits.", "quantifier": "every decimal string and buffer size", "why_tests_cant": "unbounded lengths, odd/even digit counts", "anchors": ["src/emv_strings.c: emv_str_to_format_n"]}
{"id": "C53", "title": "Integer to decimal string", "statement": "Converting an unsigned 32-bit integer to a decimal string writes its canonical decimal representation (no leading zeros) NUL terminated, or reports an error, and never writes outside the output buffer.", "quantifier": "every 32-bit value and every buffer size", "why_tests_cant": "2^32 values x sizes", "anchors": ["src/emv_strings.c: emv_uint_to_str, emv_amount_get_string, emv_format_n_get_string"]}
{"id": "C54", "title": "Track 2 stringification respects the output size", "statement": "Stringifying track 2 equivalent data writes one character per nibble up to the first padding nibble, NUL terminated, and never outside the output buffer.", "quantifier": "every byte string and every output size", "why_tests_cant": "all sizes", "anchors": ["src/emv_strings.c: emv_track2_equivalent_data_get_string"]}
{"id": "C55", "title": "Alphabetic/alphanumeric validation", "statement": "Stringifying a format a / an / ans field succeeds exactly when the field is non-empty, fits with its terminator and all characters belong to the format's set, and then the string equals the field.", "quantifier": "every byte string and every output size", "why_tests_cant": "all strings", "anchors": ["src/emv_strings.c: emv_format_a_get_string, emv_format_an_get_string, emv_format_ans_only_space_get_string, emv_format_ans_ccs_get_string"]}
{"id": "C56", "title": "Command APDU description reads only the command", "statement": "Describing a command APDU of any length never reads outside the command bytes.", "quantifier": "every command of every length", "why_tests_cant": "short and malformed commands from untrusted issuer scripts", "anchors": ["src/emv_strings.c: emv_capdu_get_string", "src/iso7816_strings.c: iso7816_capdu_get_string"]}
{"id": "C57", "title": "Third party data description reads only the field", "statement": "Describing Mastercard third party data of any length never reads outside the field.", "quantifier": "every byte string", "why_tests_cant": "boundary length/flag combination", "anchors": ["src/emv_strings.c: emv_mastercard_third_party_data_get_string_list"]}
{"id": "C58", "title": "Simple ISO 8859 conversion is memory safe and preserves ASCII", "statement": "Converting ISO 8859-1 text to UTF-8 writes only inside the output buffer, keeps the output NUL terminated valid UTF-8 whose decoding is a prefix of the input text, the whole input when the buffer is large enough.", "quantifier": "every string and every output size", "why_tests_cant": "boundary when a two-byte character meets the end of the buffer", "anchors": ["src/iso8859_simple.c: iso8859_to_utf8"]}
{"id": "C59", "title": "Reader property lookup reads only the reader's property list", "statement": "Looking up a reader property in the property list supplied by the reader never reads outside of that list, and returns the value of the first matching well-formed property.", "quantifier": "every property list supplied by a reader and every requested property", "why_tests_cant": "malformed device data", "anchors": ["src/pcsc.c: pcsc_reader_get_property"]}
{"id": "C60", "title": "Status word predicates partition the status space", "statement": "For every SW1-SW2, the normal/warning/error predicates are mutually exclusive, success implies normal, and exactly the documented SW1 values belong to each.", "quantifier": "all 65536 status words", "why_tests_cant": "full table, plus relation between several predicates", "anchors": ["src/iso7816_apdu.h: iso7816_sw1sw2_is_success, iso7816_sw1sw2_is_normal, iso7816_sw1sw2_is_warning, iso7816_sw1sw2_is_error"]}
{"id": "C61", "title": "Decoding a data object succeeds only on an encoded object", "statement": "Whenever decoding one data object from a buffer succeeds, the buffer starts with the encoding of an object with exactly the reported tag, class bits and contents, occupying exactly the reported number of bytes (definite form), or with an indefinite-form constructed object; and every buffer that starts with a definite-form object is decoded so.", "quantifier": "every byte string of every length", "why_tests_cant": "the set of accepted inputs is infinite; tests show single accepted and rejected inputs only", "anchors": ["src/iso8825_ber.c: iso8825_ber_decode"]}
{"id": "C62", "title": "Parsing fields succeeds only on a sequence of complete objects", "statement": "Whenever parsing a buffer into a field list reports success, the whole buffer is a sequence of complete objects, nested to any depth, and the fields added are exactly the primitive objects in document order.", "quantifier": "every byte string, every nesting depth, every previous list content, every allocation failure pattern", "why_tests_cant": "converse of the round trip: no malformed input is ever accepted, for unbounded nesting", "anchors": ["src/emv_tlv.c: emv_tlv_parse"]}
{"id": "C63", "title": "Application initiation sends what the PDOL asks for and reports why it failed", "statement": "Initiating a freshly selected application clears the ICC data, sends at most one command - GET PROCESSING OPTIONS with exactly the data the PDOL asks for, from transaction parameters, configuration and terminal data in this order - and succeeds exactly when the card answers 9000 with AIP and AFL in a valid format; then the ICC data is the FCI fields followed by the answer's fields. In every other outcome the ICC data is empty, the application stays selected and the result tells why (conditions of use not satisfied exactly for 6985).", "quantifier": "every selected application, PDOL, terminal data and card answer", "why_tests_cant": "unbounded card-controlled PDOLs and answers combined with all terminal data", "anchors": ["src/emv.c: emv_initiate_application_processing"]}
{"id": "C64", "title": "The records read are those of the AFL in the GET PROCESSING OPTIONS answer", "statement": "In a transaction in which selection, initiation and reading succeed, the READ RECORD commands sent are exactly those enumerated by the AFL in the answer to GET PROCESSING OPTIONS.", "quantifier": "every card, every transaction", "why_tests_cant": "a card can plant fields in earlier answers; tests use well-behaved cards", "anchors": ["src/emv.c: emv_initiate_application_processing, emv_read_application_data", "src/emv_tlv.c: emv_tlv_list_find_const"]}
{"id": "C65", "title": "All ICC data comes from the card's answers", "statement": "At any time, after any sequence of calls, every field in the ICC data and in the selected application has a value that occurs literally in an answer of the card; after a successful transaction the ICC data is exactly the FCI fields, then the GET PROCESSING OPTIONS fields, then the record fields in AFL order.", "quantifier": "every sequence of calls, every card", "why_tests_cant": "histories of calls against adversarial cards", "anchors": ["src/emv.c: emv_select_application, emv_initiate_application_processing, emv_read_application_data"]}
{"id": "C66", "title": "ATR acceptance is exactly the grammar", "statement": "An ATR without TD4 is accepted exactly when it is TS (3B or 3F), a chain of interface bytes without reserved values, the K announced historical bytes in an understood category, and, if a protocol other than T=0 is announced, a TCK that makes the XOR of all bytes after TS zero; nothing else is accepted and nothing that conforms is refused.", "quantifier": "every byte string", "why_tests_cant": "acceptance is a predicate on 256^33 strings; tests only ever sample a few cards", "anchors": ["src/iso7816.c: iso7816_atr_parse"]}
{"id": "C67", "title": "SELECT commands are described exactly", "statement": "The description of a SELECT command with a short data field is SELECT, the requested occurrence and the requested file identifier or name - as text when every character is printable, otherwise as two hexadecimal digits per byte - truncated to the output buffer; selecting the master file is described as such.", "quantifier": "every SELECT command with 1 to 255 bytes of data, every output size of at least 4", "why_tests_cant": "identifiers of every length up to the limits of the internal buffers", "anchors": ["src/iso7816_strings.c: iso7816_capdu_get_string"]}
{"id": "C68", "title": "Reader features come from the reader's feature list", "statement": "For whatever bytes a reader reports as its feature list, feature queries read only that list; a list that is not a sequence of six byte entries has no features; otherwise a feature is reported as available exactly when an entry carries its tag, and the control code used for it is the big-endian value of the first such entry.", "quantifier": "every byte string reported by a reader, every feature", "why_tests_cant": "malformed device data of every length", "anchors": ["src/pcsc.c: pcsc_reader_has_feature, pcsc_reader_populate_features, pcsc_reader_get_feature"]}
{"id": "C69", "title": "Card type is decided by ATR form and UID request, and the ATR is delivered for contact cards only", "statement": "Connecting reports a contactless card exactly when the ATR has the form 3B 8n 80 01 ... of PC/SC contactless cards and the UID request is answered with a UID and 9000; a contact card exactly when the ATR has another form or the request is refused with 6A81; an error otherwise. The ATR is delivered only for a contact card, and is the one of the connected card.", "quantifier": "every ATR, every answer to the UID request, every earlier state of the reader", "why_tests_cant": "states left over from earlier connections; arbitrary ATRs", "anchors": ["src/pcsc.c: pcsc_reader_connect, pcsc_reader_disconnect, pcsc_reader_get_atr"]}
{"id": "C70", "title": "Descriptions of flag fields show exactly the set bits", "statement": "The descriptions of Terminal Verification Results, Transaction Status Information, Application Interchange Profile, Application Usage Control, Card Transaction Qualifiers and Terminal Risk Management Data refuse any field of the wrong length without touching the output; for the right length they read only the field, and the NUL terminated output holds, in table order, exactly the lines of the bits that are set.", "quantifier": "every field value of every length, every output size", "why_tests_cant": "TVR alone has 2^40 values; a mask off by one bit shows for one value pattern only", "anchors": ["src/emv_strings.c: emv_tvr_get_string_list, emv_tsi_get_string_list, emv_aip_get_string_list, emv_app_usage_control_get_string_list, emv_ctq_get_string_list, emv_terminal_risk_management_data_get_string_list", "src/emv_fields.h"]}
{"id": "C71", "title": "Different bit fields have different descriptions", "statement": "Two values of such a field (and of Terminal Capabilities, Additional Terminal Capabilities, Terminal Transaction Qualifiers, Enhanced Contactless Reader Capabilities) with the same description agree in every bit that is not reserved: no two assigned bits share a line, none is silently dropped.", "quantifier": "every pair of field values", "why_tests_cant": "pairs of values cannot be enumerated; a copied string or duplicated mask goes unnoticed", "anchors": ["src/emv_strings.c: the bit field description functions"]}
{"id": "C72", "title": "Descriptions of capabilities, qualifiers and indicators follow their tables", "statement": "The descriptions of Terminal Type, Terminal Capabilities, Additional Terminal Capabilities, Terminal Transaction Qualifiers, Form Factor Indicator, Enhanced Contactless Reader Capabilities and Cryptogram Information Data refuse a wrong length, read only the field, always give at least one line, and give exactly the lines that the field's table assigns to its bits and to its bit groups, in table order.", "quantifier": "every field value of every length, every output size", "why_tests_cant": "2^32 and 2^40 field values; multi-bit groups next to single bits", "anchors": ["src/emv_strings.c: emv_term_type_get_string_list, emv_term_caps_get_string_list, emv_addl_term_caps_get_string_list, emv_ttq_get_string_list, emv_visa_form_factor_indicator_get_string_list, emv_amex_enh_cl_reader_caps_get_string_list, emv_cid_get_string_list"]}
{"id": "C73", "title": "CVM List and CVM Results are described rule by rule", "statement": "The description of a CVM List with two amounts and 1 to 122 rules has exactly one line per rule, in order, giving the condition (with the list's own amounts in decimal), the method and whether the next rule applies on failure; any other length is refused without touching the output. CVM Results of 3 bytes give exactly the three lines method, condition, result; other lengths are refused. Only the field is read and only the output is written.", "quantifier": "every amount, every number and every value of the rules, every output size, every content of the local arrays", "why_tests_cant": "2^64 amounts times rule sequences of any length", "anchors": ["src/emv_strings.c: emv_cvm_list_get_string_list, emv_cvm_results_get_string_list, emv_cvm_code_get_string, emv_cvm_cond_code_get_string"]}
{"id": "C74", "title": "Application File Locator description", "statement": "A well-formed AFL is described by one line per entry, in order, with its short file identifier, its record or range of records, and the number of records for offline data authentication; a malformed one gives a non-zero code and the output is either unchanged or empty, never a partial description.", "quantifier": "every AFL, every output size", "why_tests_cant": "sequences of up to 63 entries; malformed entry at any position", "anchors": ["src/emv_strings.c: emv_afl_get_string_list"]}
{"id": "C75", "title": "Application Selection Registered Proprietary Data description", "statement": "A sequence of entries (two byte identifier, length, data) is accepted whatever the data, and described by one line per entry in order; anything that is not such a sequence gives a non-zero code, and is never read past its end.", "quantifier": "every byte string, every output size", "why_tests_cant": "length bytes inside card data steer the reads", "anchors": ["src/emv_strings.c: emv_asrpd_get_string_list"]}
{"id": "C76", "title": "Reference currency and language preference descriptions", "statement": "Whatever the table of currencies or languages: a field made of two byte codes is described by one line per code in order, its name in the table or Unknown; languages are found whatever the case of their letters; a currency code that is not decimal ends the description with a non-zero code after the lines of the codes before it; odd lengths are refused without touching the output.", "quantifier": "every table, every field, every output size, every content of the local arrays", "why_tests_cant": "tables are outside the code and can have any names, also long or empty ones", "anchors": ["src/emv_strings.c: emv_app_reference_currency_get_string_list, emv_language_preference_get_string_list, emv_currency_numeric_code_get_string, emv_language_alpha2_code_get_string"]}
{"id": "C77", "title": "Issuer Application Data is described by its format", "statement": "Issuer Application Data of 1 to 32 bytes is described with the lines of the one format it has: the application, the format, key index and cryptogram version with their values, then for every assigned bit or bit group of the card verification results exactly the line its table gives, counters in decimal. Code 0, or -1 with a single line for data of no valid format; longer data is refused with the output untouched. Only the data is read and only the output is written.", "quantifier": "every byte string, every format, every output size", "why_tests_cant": "2^256 values over ten formats with overlapping detection rules", "anchors": ["src/emv_strings.c: emv_iad_get_string_list and its append functions"]}
{"id": "C78", "title": "Issuer Authentication Data description", "statement": "Issuer Authentication Data of 8 to 32 bytes, and only such, gives code 0 and the lines of its kind: cryptogram and alphanumeric response code, cryptogram and M/Chip response code, or cryptogram, one line per assigned bit of the Card Status Update and the amount of proprietary data. Every accepted value has a terminated description. Only the data is read and only the output is written.", "quantifier": "every byte string, every output size, every content of the local array", "why_tests_cant": "kinds are guessed from overlapping byte patterns", "anchors": ["src/emv_strings.c: emv_issuer_auth_data_get_string_list, emv_csu_append_string_list"]}
{"id": "C79", "title": "Authorisation Response Code description", "statement": "Two alphanumeric characters, and nothing else, are accepted when the output has at least three bytes: the output is the code, followed from ten bytes on by the description of the table for that code, cut to fit, always terminated. Everything else that is not empty gives a non-zero code and an empty string; an empty field a negative code and an output left as it was. No code has two descriptions.", "quantifier": "every code, every output size", "why_tests_cant": "65536 codes times output sizes, truncation at any position", "anchors": ["src/emv_strings.c: emv_auth_response_code_get_string, emv_arc_get_desc, emv_auth_response_code_map"]}
{"id": "C80", "title": "One byte codes are named by their tables", "statement": "Transaction type, account type, POS entry mode and contactless reader capabilities of one byte: an assigned code gives code 0 and its name, cut to the output and padded with zeros; any other value is refused with code 1 and the output untouched; without an output nothing is done. Within one table different codes have different names.", "quantifier": "every byte, every output size and content", "why_tests_cant": "256 values times every output size, truncation at any position", "anchors": ["src/emv_strings.c: emv_transaction_type_get_string, emv_account_type_get_string, emv_pos_entry_mode_get_string, emv_amex_cl_reader_caps_get_string"]}
{"id": "C81", "title": "Application identifiers and looked up codes are named", "statement": "An application identifier of 5 to 16 bytes is described by the name of the longest registered prefix it starts with; without one it is refused and the output untouched; other lengths are refused. Merchant category codes and numeric country codes of two decimal bytes and letter codes of the right length give the name in the table, cut to the output, or an empty string if the table has none; everything else is refused with the output untouched.", "quantifier": "every byte string, every table, every output size", "why_tests_cant": "overlapping prefixes of different lengths; tables are outside the code", "anchors": ["src/emv_strings.c: emv_aid_get_string, emv_mcc_get_string, emv_country_alpha2_code_get_string, emv_country_alpha3_code_get_string, emv_country_numeric_code_get_string"]}
{"id": "C82", "title": "Textual and numeric fields are shown as they are", "statement": "Field information for a field of characters shows exactly its characters when they all belong to the character set of the field, the field is not longer than its maximum and the output can hold the longest field; compressed numeric fields show exactly their digits without padding; numeric fields show their number. Everything else gives a non-zero code and an empty string.", "quantifier": "every textual or numeric tag, every value, every output size", "why_tests_cant": "combinations of character sets, length limits and output sizes; numbers up to 12 digits", "anchors": ["src/emv_strings.c: emv_tlv_get_info, emv_tlv_value_get_string"]}
{"id": "C83", "title": "Field information names every declared field", "statement": "Every tag the library declares has a name containing the words of its identifier; name and format depend on the tag alone, except for 9F66, 9F6D and 9F6E, which are told apart by length and mandatory bits in a way that does not depend on the order of the checks. Any other tag gives code 1, no name and an empty string. Constructed fields are named and never shown. Data object lists and tag lists are recognisable by their format. A dedicated file name is shown by the name of its application, unless it is the PSE or PPSE, which are shown as they are; a country unknown to the tables is shown by its letters.", "quantifier": "every tag number, every value, every output", "why_tests_cant": "all tag numbers and values; several meanings of one tag depend on single bits", "anchors": ["src/emv_strings.c: emv_tlv_get_info", "src/emv_tags.h"]}
{"id": "C84", "title": "Field information is memory safe for every field", "statement": "Asking for the information of any field, with any tag, value and output size, reads only the value, writes only the output and leaves a terminated string in an output of three bytes or more.", "quantifier": "every tag number, every value of every length, every output size and content, every lookup table, every content of local arrays", "why_tests_cant": "dispatches to over forty decoders, each with its own length and size checks", "anchors": ["src/emv_strings.c: emv_tlv_get_info and all functions called by it"]}
{"id": "C85", "title": "Every status word is put into words", "statement": "Any two status bytes give a text, cut to the output and terminated: the kind of status (normal, warning, error or unknown), then the meaning ISO 7816-4 assigns to the word, with numbers carried in the word (remaining bytes, counter, expected length) in decimal. Without an output nothing is written and no text is returned.", "quantifier": "all 65536 status words, every output size and content", "why_tests_cant": "65536 words times every output size; truncation at any position", "anchors": ["src/iso7816_strings.c: iso7816_sw1sw2_get_string"]}
{"id": "C86", "title": "Life cycle status, card service data and card capabilities are put into words", "statement": "A life cycle status byte gives the words of the only ISO 7816-4 pattern it fits and Proprietary if it fits none. Card service data and card capabilities give exactly one line per assigned bit or bit group, in order, as far as the bytes are present; empty capabilities are refused with the output untouched, an undefined channel assignment gives a negative code. Nothing but the bytes is read and nothing but the output written.", "quantifier": "every byte, every capabilities value of any length, every output size and content", "why_tests_cant": "2^24 capabilities times output sizes", "anchors": ["src/iso7816_strings.c: iso7816_lcs_get_string, iso7816_card_service_data_get_string_list, iso7816_card_capabilities_get_string_list"]}
{"id": "C87", "title": "ATR descriptions name the interface bytes that are present", "statement": "For every accepted ATR: the description of T0 and of a present TDi lists exactly the interface bytes of the set it announces, with the number of historical bytes or the protocol type; TS and the category indicator are described as ISO 7816 assigns them; an absent TDi has no description. Texts are cut to the output and terminated, an output of size 0 is not touched, and nothing else is written.", "quantifier": "every accepted ATR, every output size and content", "why_tests_cant": "combinations of presence bits over up to four sets; truncation at any position", "anchors": ["src/iso7816.c: iso7816_atr_TS_get_string, iso7816_atr_T0_get_string, iso7816_atr_TDi_get_string, iso7816_atr_T1_get_string"]}
{"id": "C88", "title": "ATR interface byte descriptions give the values of the interface bytes", "statement": "For every accepted ATR the descriptions of TAi, TBi and TCi (i from 1 to 4) exist, are computed without dividing by zero, and give the values ISO 7816-3 assigns to these bytes or their defaults: transmission factors and the largest bit rate, mode, programming voltage, guard and waiting times, card classes and clock stop, SPU usage, information field size, error detection code. Texts are cut to the output and terminated.", "quantifier": "every accepted ATR, every output size and content", "why_tests_cant": "all values of up to twelve interface bytes in every combination", "anchors": ["src/iso7816.c: iso7816_atr_TAi_get_string, iso7816_atr_TBi_get_string, iso7816_atr_TCi_get_string"]}
{"id": "C89", "title": "BER data is listed object by object", "statement": "The listing of well-formed BER data consists of one line per object, in document order, each indented by its depth, with the tag, the length and, for a primitive object, all bytes of the contents, text in quotes for string types and the numbers in braces for object identifiers. Nothing is left out and nothing is added.", "quantifier": "every well-formed BER document of any nesting and size, every prefix and start depth", "why_tests_cant": "unbounded nesting and any mixture of primitive and constructed objects", "anchors": ["tools/print_helpers.c: print_ber_buf, print_ber_buf_internal"]}
{"id": "C90", "title": "The listing of malformed data shows where it goes wrong", "statement": "Every byte string either is a document or has a unique first place where no object can be read; in the latter case the listing shows all objects before that place, the offset of that place from the start of the data, and exactly the bytes from there on. The listing always ends and reads only the data.", "quantifier": "every byte string", "why_tests_cant": "the place may be at any depth inside any number of containers", "anchors": ["tools/print_helpers.c: print_ber_buf, print_ber_buf_internal"]}
{"id": "C91", "title": "Padding after the objects is recognised", "statement": "When asked for, bytes after the last object that are the padding of a DES or AES block are shown as padding instead of an error; when not asked for, nothing is taken for padding.", "quantifier": "every document, every amount of padding", "why_tests_cant": "every combination of total length, block size and padding method", "anchors": ["tools/print_helpers.c: print_ber_buf, print_emv_buf"]}
{"id": "C92", "title": "EMV data is listed field by field with names and meanings", "statement": "The listing of EMV data consists of the lines of its fields in document order: tag, name, length and bytes of each, then text in quotes, other descriptions in parentheses, lists of descriptions one per line with a bullet, and the entries of data object lists and tag lists; for malformed data additionally the place and the remaining bytes. The listing ends, reads only the data and stays inside its arrays. A list of fields is listed field by field.", "quantifier": "every byte string, every content of the local arrays, every lookup table", "why_tests_cant": "unbounded nesting of fields, each dispatching to one of over forty decoders", "anchors": ["tools/print_helpers.c: print_emv_buf, print_emv_tlv, print_emv_tlv_list"]}
{"id": "C93", "title": "Data object lists and tag lists are listed entry by entry", "statement": "The listing of a data object list names, in order, the tag, the name and the requested length of every entry; that of a tag list the tag and the name of every tag. The names are those of the fields. Nothing but the list is read. In a listing of EMV data the lists appear below the fields CDOL1, CDOL2, PDOL and DDOL, and the SDA tag list, one level deeper than these.", "quantifier": "every byte string taken as a list", "why_tests_cant": "lists of any number of entries with tags of one to four bytes", "anchors": ["tools/print_helpers.c: print_emv_dol, print_emv_tag_list"]}
{"id": "C94", "title": "The listing of an ATR shows every byte with its meaning", "statement": "The listing of an accepted ATR shows the whole ATR, TS, T0, and for each of the four sets the interface bytes that are present, each once, with its number, value and meaning; for the first two sets also the defaults of the absent ones; then the historical bytes, the status indicator and the check byte. An ATR without check byte has none listed. Nothing but the stored ATR is read.", "quantifier": "every accepted ATR, every content of the local arrays", "why_tests_cant": "all combinations of up to twelve optional interface bytes and fifteen historical bytes", "anchors": ["tools/print_helpers.c: print_atr"]}
{"id": "C95", "title": "The listing of historical bytes shows every object with its meaning", "statement": "The historical bytes of an accepted ATR are listed by their category: free format in hexadecimal; data objects one per line with name, tag, length and bytes, in order, card service data and card capabilities followed by one line per statement they make. What is listed for an object depends only on that object, and only initialised memory is printed.", "quantifier": "every accepted ATR with historical bytes, every content of the local array", "why_tests_cant": "every sequence of objects that fits in fifteen bytes", "anchors": ["tools/print_helpers.c: print_atr_historical_bytes", "src/iso7816_compact_tlv.c: iso7816_compact_tlv_tag_get_string"]}
{"id": "C96", "title": "Commands, responses, applications and events are listed completely", "statement": "Every command and response is listed in hexadecimal, a command followed by its description and a response by the words for its status word; nothing outside the command or response is read. An application is listed with its identifier, display name, priority and confirmation flag. An event is passed on exactly when a function is set, its source is selected and its level is enabled; its text is cut to 1023 bytes; it is printed after the names of its source and level according to the type of its data.", "quantifier": "every command, response, application, event, configuration, and content of the local arrays", "why_tests_cant": "APDUs of any length and content, every mask, level and type", "anchors": ["tools/print_helpers.c: print_capdu, print_rapdu, print_sw1sw2, print_emv_app, print_emv_debug, print_emv_debug_verbose", "src/emv_debug.c: emv_debug_init, emv_debug_internal"]}
{"id": "C97", "title": "The decoder's input is the bytes written", "statement": "The argument of emv-decode gives exactly the bytes it writes as pairs of hexadecimal digits, in capitals or small letters and with white space anywhere before a digit; text with another character and text with an odd number of digits are refused; the argument - gives the whole of standard input. Nothing is written outside the buffer, whatever its size. Hexadecimal text of any bytes is read back.", "quantifier": "every argument, every content of standard input, every buffer", "why_tests_cant": "arguments of any length and content", "anchors": ["tools/emv-decode.c: parse_hex, load_from_file, argp_parser_helper"]}
{"id": "C98", "title": "Codes are looked up in the installed documents", "statement": "After initialisation with JSON documents of the expected form, looking up a country, currency or language code gives the name of the first entry with that code, looking up a merchant category the text of the last entry with that number, and a code no entry has gives NULL. A missing document or one of another form gives the error code of that document; what was loaded before it stays available, and nothing else is. Whatever the documents, lookups are defined and return C strings.", "quantifier": "every document, every path, every code, every number of initialisations", "why_tests_cant": "documents of any size and shape, repeated initialisation", "anchors": ["src/isocodes_lookup.cpp: isocodes_init, build_country_list, build_currency_list, build_language_list, isocodes_lookup_*", "src/mcc_lookup.cpp: mcc_init, mcc_lookup", "src/emv_strings.c: emv_strings_init"]}
{"id": "C99", "title": "The decoder shows a field's description, or says why not", "statement": "For every kind of field emv-decode is asked to decode, input of another length than the field has is answered by one message on standard error naming the field and the length and nothing on standard output; input of the right length is shown on standard output by the lines the value calls for, in order and complete; ATRs, status words, lists and BER or EMV data are shown by their listing. Only initialised memory is printed.", "quantifier": "every kind of field, every input, every content of the local arrays", "why_tests_cant": "every input of every length; uninitialised arrays hold different contents in every run", "anchors": ["tools/emv-decode.c: main"]}
{"id": "C100", "title": "The decoder shows the names of codes and the text of code pages", "statement": "For a country, currency or language code of the right length emv-decode shows the name the code has, or else that of the number it spells, or else says it is unknown or invalid; a code of another length is refused. ISO 8859 text is shown in UTF-8 whatever its length. The exit status tells whether decoding was possible.", "quantifier": "every code, every table, every text, every result of the initialisation", "why_tests_cant": "every argument, tables of any content, text of any length", "anchors": ["tools/emv-decode.c: main", "src/iso8859_simple.c: iso8859_to_utf8"]}
{"id": "C101", "title": "Third party data are described part by part", "statement": "Mastercard third party data are described by the name of the country, the name of the unique identifier, the device type with its name unless the unique identifier's top bit is set, and the proprietary data: the product of a fleet or transit card with one line per statement its bits make, or that they are not used. A country no table names and an identifier or product not in the specification are shown as unknown. All lines are shown when they fit the output.", "quantifier": "every byte string, every country table, every output", "why_tests_cant": "every country, identifier, device, product and bit combination", "anchors": ["src/emv_strings.c: emv_mastercard_third_party_data_get_string_list, emv_mastercard_device_type_get_string"]}
{"id": "C102", "title": "Initialisation finds every reader", "statement": "When the PC/SC service lists readers, initialisation succeeds and gives exactly these readers, in order, each with its name; an index beyond the last gives no reader. Each reader is asked for its features once. When the service cannot be reached or the readers cannot be listed, initialisation fails and leaves no context. What was allocated is freed exactly once, by the failing call or by the release; releasing nothing does nothing.", "quantifier": "every list of names, every answer of the service and of the readers, every content of fresh memory", "why_tests_cant": "any number of readers with names of any length, failures of every call", "anchors": ["src/pcsc.c: pcsc_init, pcsc_release, pcsc_get_reader_count, pcsc_get_reader, pcsc_reader_get_name"]}
{"id": "C103", "title": "What a reader reports is known afterwards", "statement": "A reader that can be connected is asked over that connection only, with control codes it lists itself, and disconnected afterwards; no other connection is touched. Exactly the features it lists are available, and its PIN, display and TLV properties are known exactly when it lists them and reports them with the right size. A reader that cannot be connected or reports no proper list has no features and no properties.", "quantifier": "every answer of the reader to every request, every content of local variables", "why_tests_cant": "feature lists of any content, failures at every step", "anchors": ["src/pcsc.c: pcsc_reader_populate_features, pcsc_reader_get_feature, pcsc_reader_has_feature, pcsc_reader_get_property"]}
{"id": "C104", "title": "Waiting for a card gives a reader that has one", "statement": "Waiting watches the reader asked for, or all readers, and no other. The result is 0 exactly when the service then reports a card; the index given is that of the first reader with a card, and one that was asked for. When there is no card the result tells so and the same readers can be waited for again.", "quantifier": "every number of readers, every index, every answer of the service, every sequence of waits", "why_tests_cant": "every combination of readers and states, repeated waits", "anchors": ["src/pcsc.c: pcsc_wait_for_card"]}
{"id": "C105", "title": "Data are sent only to a connected card", "statement": "Whatever calls connect, exchange and disconnect in whatever order and whatever the service answers, data are sent only over a connection that was made and not ended, exactly as given and once per call; answers are received completely and within the buffer. A failing attempt to connect leaves no connection behind.", "quantifier": "every sequence of calls, every answer of the service", "why_tests_cant": "histories of any length with failures at every step", "anchors": ["src/pcsc.c: pcsc_reader_connect, pcsc_reader_disconnect, pcsc_reader_trx, pcsc_reader_internal_get_uid"]}
{"id": "C106", "title": "The reader listing shows every reader with what it reports", "statement": "emv-tool lists every reader in order by its number and name, then one line with the features that have a name, if any, one line with the properties, if any is known - LCD dimensions, PIN sizes and USB identification, separated by commas - and one line with the state. The features and properties are those the reader reports. Without readers nothing is listed.", "quantifier": "every number of readers, every name, feature list, property list and state", "why_tests_cant": "every combination of features and property values, any number of readers", "anchors": ["tools/emv-tool.c: print_pcsc_readers, pcsc_get_reader_state_string", "src/pcsc.c: pcsc_reader_has_feature, pcsc_reader_get_property, pcsc_reader_get_state"]}
{"id": "C107", "title": "The state of a reader is shown by its most important bit", "statement": "The text for a reader state is that of the first that applies of: status unavailable, no card, unresponsive card, unpowered card, card present; other bits do not matter. A state none applies to and a state that cannot be obtained are shown as unknown.", "quantifier": "every state", "why_tests_cant": "all combinations of 32 state bits", "anchors": ["tools/emv-tool.c: pcsc_get_reader_state_string, print_pcsc_readers", "src/pcsc.c: pcsc_reader_get_state"]}
{"id": "C108", "title": "The command line sets the values it names", "statement": "A transaction type given as two decimal digits is taken as the byte with these digits, amounts given in decimal digits up to 4294967295 as that number. Debug sources given by name, in any case and separated by commas, turn on the events of exactly these sources and ALL those of every source; a debug level given by name is set. Anything else is refused with a message that names the option. Of repeated options the last one counts; other settings keep their values.", "quantifier": "every sequence of options with every argument text", "why_tests_cant": "arguments of any content and length, any sequence of options", "anchors": ["tools/emv-tool.c: argp_parser_helper"]}
{"id": "C109", "title": "The terminal data are those of the command line and the clock", "statement": "Before a transaction the kernel is given, with enough memory, the transaction type, the amounts in binary and decimal form, the date and time of the clock in decimal digits, the sequence counter and the fixed configuration, each once and in the format the field has; amounts of zero are given like any other. The supported applications are exactly those of the list, matched exactly or as a prefix as the list says. A field without memory is left out and the others are as before.", "quantifier": "every command line, every date and time, every content of local arrays, every failure of allocation", "why_tests_cant": "all amounts up to 4294967295, every date, allocation failures", "anchors": ["tools/emv-tool.c: emv_txn_load_params, emv_txn_load_config"]}
{"id": "C110", "title": "A transaction tries each candidate at most once and ends", "statement": "The tool builds the candidate list, then selects and starts one candidate at a time. One that is refused or declined is followed by another as long as one is left and never tried again; every other failure ends the transaction with its text. After an application is started its data are read, and what is shown are exactly the fields of the answers of the card to SELECT, GET PROCESSING OPTIONS and the records the AFL lists, in this order, and the terminal data. A transaction never runs into undefined behaviour.", "quantifier": "every card, every answer of the cardholder, every terminal data, every failure of allocation", "why_tests_cant": "cards with any number of applications refusing at every step", "anchors": ["tools/emv-tool.c: main", "src/emv.c: emv_build_candidate_list, emv_select_application, emv_initiate_application_processing, emv_read_application_data"]}
{"id": "C111", "title": "The cardholder chooses by number", "statement": "When there are several candidates or one needs confirmation, the tool lists each with its number from 1 and its name and asks for a number. A line with the number of a candidate chooses this candidate, every other line is refused with a message and the question is asked again.", "quantifier": "every candidate list, every input", "why_tests_cant": "input of any length and content, any number of candidates", "anchors": ["tools/emv-tool.c: main", "src/emv_app.c: emv_app_list_selection_is_required"]}
{"id": "C112", "title": "Every code has its text", "statement": "Each error and outcome code the kernel returns has a text, which tells the cardholder the outcome as the specification words it (not accepted, try again, card error, card blocked), and the tool shows it as an error exactly when the code is negative; no call of the kernel returns a code without a text.", "quantifier": "every code, every call of the kernel", "why_tests_cant": "all 32-bit codes", "anchors": ["src/emv.c: emv_error_get_string, emv_outcome_get_string", "tools/emv-tool.c: main"]}
{"id": "C113", "title": "A transaction is the bytes exchanged with the reader", "statement": "Over a reader in APDU mode every command of a transaction is transmitted as its command APDU and followed exactly by the GET RESPONSE commands and repetitions the card's status bytes ask for; its result is the data of all its answers in order and the status reported. The functions of the kernel do over these bytes what they do over results of commands, so a completed transaction shows exactly the fields contained in the bytes the reader delivered. No sequence of answers leads to undefined behaviour.", "quantifier": "every sequence of byte strings or failures the reader delivers, every terminal data, every input", "why_tests_cant": "answers of any number and content, interleaved with 61xx, 6Cxx and warnings at every command", "anchors": ["src/emv_ttl.c: emv_ttl_trx", "src/emv_tal.c", "src/emv.c", "tools/emv-tool.c: main"]}
{"id": "C114", "title": "A run of the tool: what it says, what it sends and what it leaves", "statement": "A run lists the readers, asks for a card and takes the first reader that has one. It sends commands only to a contact card whose ATR is accepted, over one connection, by the protocol of the card; apart from the request for a UID these are the commands of the transaction. It prints for each thing it meets the line for it, and that the card is deactivated only after a transaction completed with the bytes the card answered. When it ends the memory for the readers is freed, the context of the service released and the card disconnected, and the status tells whether it failed. It never runs into undefined behaviour.", "quantifier": "every command line, every behaviour of the service, the readers, the card and the input, every content of uninitialised memory", "why_tests_cant": "all combinations of failures of the service, readers and card", "anchors": ["tools/emv-tool.c: main", "src/pcsc.c"]}
{"id": "C115", "title": "The tree of the viewer shows where each field is in the data", "statement": "Any data are read in exactly one way: fields and their contents, up to the end, to padding or to the first place where no field can be read. The tree has one item for each, in the order of the data; the bytes at the place an item names are those of its field, the items follow one another without gap or overlap from the start to the number of bytes reported, and an item lies below exactly the items whose bytes enclose it. Everything is reported as read exactly when the data are.", "quantifier": "every data below 2 GiB, with and without padding", "why_tests_cant": "all byte strings, nesting of any depth", "anchors": ["viewer/emvtreeview.cpp: parseData, EmvTreeView::populateItems"]}
{"id": "C116", "title": "Items of the viewer show the name and value of their field", "statement": "With decoding, an item shows the tag, name and value of its field, in quotation marks for text formats; without, the tag, length and bytes. Below a primitive field are its bytes and, of a value with several parts, the list of these, of a data object list the tags, names and lengths asked for and of a tag list the tags and names. Nothing is read or written outside of the data and the arrays for texts.", "quantifier": "every field of any tag, length and value", "why_tests_cant": "every tag and value, lists of any length", "anchors": ["viewer/emvtreeitem.cpp: EmvTreeItem::setTlv, buildSimpleFieldString, buildDecodedFieldString, addValueStringList, addValueDol, addValueTagList, addValueRaw, EmvTreeItem::render"]}
{"id": "C117", "title": "Padding in the viewer", "statement": "When padding is to be ignored, the padding of DES and AES blocks after the fields is one item and nothing is invalid; the viewer and emv-decode agree about it. Otherwise no item is padding.", "quantifier": "every data, every padding method of ISO 9797-1 and PKCS #7", "why_tests_cant": "data and padding of any length", "anchors": ["viewer/emvtreeview.cpp: parseData", "tools/print_helpers.c: print_buf"]}
{"id": "C118", "title": "Switching decoding on and off", "statement": "Whatever is shown and switched before, the tree displays the last data as if they had just been read with the present decoding, and with the padding setting of the time they were read; decoding makes no difference to which items there are and to their places.", "quantifier": "every sequence of new data and changes of the two settings", "why_tests_cant": "histories of any length", "anchors": ["viewer/emvtreeview.cpp: EmvTreeView::setDecodeFields, EmvTreeView::populateItems", "viewer/emvtreeitem.cpp: EmvTreeItem::render"]}
{"id": "C119", "title": "The viewer reads the text as hexadecimal", "statement": "Every text stands for exactly one byte string: the bytes written in hexadecimal digits at its start, white space anywhere left out. The tree shows the fields of these bytes, and when not all of the text is used up by them, what follows the last byte read (white space left out) is shown as invalid data; there is no such item exactly when the whole text is digits of data read to the end.", "quantifier": "every text of any number of lines and any characters", "why_tests_cant": "all texts, all 65536 characters", "anchors": ["viewer/emv-viewer-mainwindow.cpp: EmvViewerMainWindow::parseData"]}
{"id": "C120", "title": "How the characters of the text appear", "statement": "A character of a byte that was read appears as part of a tag or of padding when tags are emphasised and the byte is part of one, and plain otherwise; behind the bytes that were read a digit appears invalid, and another character as no digit. White space appears plain. The digits of the selected bytes, and no other characters, are marked as selected. No character appears in two ways, and nothing is undefined.", "quantifier": "every text, every setting of emphasis and padding, every selection", "why_tests_cant": "all texts, white space and line ends at every place", "anchors": ["viewer/emvhighlighter.cpp: EmvHighlighter::parseBlocks, EmvHighlighter::highlightBlock"]}
{"id": "C121", "title": "The window of the viewer shows its text", "statement": "Whatever happened before, the text and the check boxes are as the user left them last; every character appears as the present text demands with the present settings; and when no update is pending, the tree has the items of the present text with the present settings of padding and decoding. A change of the text or of the padding always makes an update pending, and the update clears it.", "quantifier": "every start, every sequence of edits, changes of the check boxes, pressed items and expiries of the timer", "why_tests_cant": "histories of any length, every text", "anchors": ["viewer/emv-viewer-mainwindow.cpp: on_dataEdit_textChanged, on_updateTimer_timeout, on_tagsCheckBox_stateChanged, on_paddingCheckBox_stateChanged, on_decodeCheckBox_stateChanged", "viewer/emvhighlighter.cpp"]}
{"id": "C122", "title": "Pressing an item of the viewer", "statement": "Pressing an item of the tree marks exactly the digits of the bytes of this item, wherever white space and line ends are, and shows the name of its field; pressing another item shows the legal text. Only the digits of an item that was pressed are ever marked.", "quantifier": "every window in every state, every item", "why_tests_cant": "all texts and trees, all histories", "anchors": ["viewer/emv-viewer-mainwindow.cpp: on_treeView_itemPressed", "viewer/emvhighlighter.cpp: EmvHighlighter::highlightBlock"]}
{"id": "C123", "title": "How the viewer starts", "statement": "A window starts with the check boxes as they were when the last one was closed, and unchecked if there was none; --tlv gives it a text to be decoded, --ber one that is not decoded, which overrides the saved check box; --tlv comes before --ber. There is no window when the strings cannot be initialised.", "quantifier": "all saved settings, all values of the options", "why_tests_cant": "all texts given as options, all combinations of settings", "anchors": ["viewer/emv-viewer.cpp: main", "viewer/emv-viewer-mainwindow.cpp: EmvViewerMainWindow::EmvViewerMainWindow, loadSettings, saveSettings"]}
{"id": "C124", "title": "The viewer never does anything undefined", "statement": "No sequence of edits, settings, pressed items and updates makes the window read uninitialised memory, read or write outside of an array, or run forever, whichever lines the toolkit highlights before it signals a change and whatever data these lines keep.", "quantifier": "every start, every sequence of events with any texts", "why_tests_cant": "histories of any length, every text", "anchors": ["viewer/emv-viewer-mainwindow.cpp", "viewer/emvhighlighter.cpp", "viewer/emvtreeview.cpp", "viewer/emvtreeitem.cpp"]}
{"id": "C125", "title": "What the command line of emv-decode asks for", "statement": "Every command line is read in exactly one way as options and inputs. With one decoding option, the last input is decoded, as hexadecimal data or from standard input, or looked up as it is for countries, currencies and languages, wherever the option stands; the last path of each kind is used. The first option that is refused, shows a text or is a second decoding option ends the program before any input is read; the first input that is not data is refused with the reason; so is a command line without input. Only the order of options among themselves and of inputs among themselves counts.", "quantifier": "every command line of any number of words, every standard input, with and without POSIXLY_CORRECT", "why_tests_cant": "command lines of any length, abbreviated options, values in every form", "anchors": ["tools/emv-decode.c: argp_options, argp_parser_helper, main"]}
{"id": "C126", "title": "Options, exit status and answers of emv-decode", "statement": "Each option is found by its full name; one with the number of a field decodes that field, and the same as its name in words; --iso8859-n selects page n, for 1 to 15 without 12 and no other number. The exit status is 0, 1 exactly for no words, 64 for what is refused or 2 when the files of codes are refused, and only with 0 and 1 is anything written to standard output. A code of a country, currency, language or merchant category is answered with the name in the files of codes.", "quantifier": "every option, every number, every command line, all files of codes of the expected form", "why_tests_cant": "all numbers of pages, all command lines, files of any size", "anchors": ["tools/emv-decode.c: argp_options, argp_parser_helper, main", "src/isocodes_lookup.cpp", "src/mcc_lookup.cpp"]}
{"id": "C127", "title": "emv-decode never does anything undefined", "statement": "Whatever the command line, standard input and the files of codes, the program does not read uninitialised memory, read or write outside of an array, or run forever.", "quantifier": "every command line, every standard input, every data, all files of codes", "why_tests_cant": "data and command lines of any length, every content of memory", "anchors": ["tools/emv-decode.c: main, argp_parser_helper", "tools/print_helpers.c", "src/emv_strings.c"]}
{"id": "C128", "title": "What the words of the command line of emv-tool do", "statement": "Every command line is read in exactly one way as options and other words; each option is found by its name, with its value in the same word or in the next. Options are handled in their order: the first one that is unknown or refused ends the program with a message and status 64, the first one that asks for help, usage or the version with that text and status 0. Then another word, wherever it stands, ends it with status 64. Only when all words are accepted options does the program go on, with their values and the last paths given, to the readers. Without words it shows the help with status 1. Whatever the words, memory and the service are released, and nothing undefined is done.", "quantifier": "every command line of any number of words, with and without POSIXLY_CORRECT, every behaviour of the service and the card", "why_tests_cant": "command lines of any length, abbreviated options, values in every form", "anchors": ["tools/emv-tool.c: argp_options, argp_parser_helper, main"]}
{"id": "C129", "title": "Conversion to UTF-8 with a library of characters", "statement": "In the builds that use iconv or boost, pages 1 to 15 without 12 can be converted, and every other page and empty arguments are refused. The text written is always inside of the output array and terminated; it is the characters of the input in their order, whole if it fits; for a printable text of page 1 the result is the same with all three builds.", "quantifier": "all pages, all inputs and output arrays of any length and content, whatever the characters of the pages are", "why_tests_cant": "arrays of any size and old content, texts of any length", "anchors": ["src/iso8859_iconv.c: iso8859_to_utf8", "src/iso8859_boost.cpp: iso8859_to_utf8"]}
{"id": "C130", "title": "The display name with a library of characters", "statement": "In every build the display name of an application is terminated inside of its 33 bytes and holds the preferred name, in the page the issuer code table names, or else the label or the AID, and a preferred name is shown in whole characters.", "quantifier": "all combinations of fields, of any content and length, all pages, whatever the characters of the pages are", "why_tests_cant": "names in every page, all combinations of missing and malformed fields", "anchors": ["src/emv_app.c: emv_app_extract_display_name", "src/iso8859_iconv.c", "src/iso8859_boost.cpp"]}
{"id": "C131", "title": "Every block of memory has one owner", "statement": "After any sequence of calls that fill the lists of the context, build the candidate list, select an application, initiate its processing, read its data, reset or clear, in any order and whatever allocations fail and the card answers, no memory was used or released after its release, each allocated block belongs to the context or the list of applications, and to only one place in them; when both are cleared nothing is allocated any more.", "quantifier": "every sequence of calls of any length, every subset of allocations failing, every answer of the card, any number of fields and applications", "why_tests_cant": "failing allocations at every place of every sequence of calls", "anchors": ["src/emv.c: emv_ctx_reset, emv_ctx_clear, emv_build_candidate_list, emv_select_application, emv_initiate_application_processing, emv_read_application_data", "src/emv_tal.c", "src/emv_app.c: emv_app_free, emv_app_create_from_pse, emv_app_create_from_fci", "src/emv_tlv.c: emv_tlv_list_push, emv_tlv_list_clear"]}
{"id": "C132", "title": "The debug events show what happened", "statement": "Debug events do not change what the library does. During the exchange of a command they show the command, each transmission before it is sent and its answer after it is received, and at the end the response exactly if one is returned. Selecting, initiating and reading applications, every command is announced directly before it is sent, with its name or numbers, and encoded data shown are those of the answer just received. A call of the kernel that does not return 0 says why at last; a call that returns 0 reports no error of the kernel, and a successful selection or initiation none at all. No event shows anything but what the card and the terminal sent.", "quantifier": "every command, every behaviour of the reader and the card, every context, every list of candidates, every subset of allocations failing", "why_tests_cant": "every sequence of answers, of any number of records and transmissions", "anchors": ["src/emv_debug.h", "src/emv_ttl.c: emv_ttl_trx", "src/emv_tal.c", "src/emv.c: emv_build_candidate_list, emv_select_application, emv_initiate_application_processing, emv_read_application_data"]}
{"id": "C133", "title": "The reason given for refusing an ATR is true", "statement": "Checking an ATR for EMV reports the parsed ATR and, if the ATR is then refused, exactly one error, which names the first of the faults in the order of its interface bytes; an ATR with any fault is refused and an accepted one has none. An ATR that cannot be parsed is only reported as such. The events do not change the decision.", "quantifier": "every sequence of bytes", "why_tests_cant": "every combination of interface bytes and faults", "anchors": ["src/emv.c: emv_atr_parse", "src/emv_debug.h: emv_debug_atr_info, emv_debug_error"]}
{"id": "C134", "title": "The reasons reported are the reasons", "statement": "When a call of the terminal application layer fails, its last event is an error, in words that belong to the result it returns, with the status, length or number of the last answer of the card where the words contain one. When a call of the kernel that talks to the card fails, the last event of the layer below is the reason for the result the kernel returns. While the candidate list is built, each application found by its AID is followed by the verdict whether it is supported, and the list has as many applications as were said to be supported.", "quantifier": "every command, every behaviour of the card, every context, every list of candidates, every subset of allocations failing", "why_tests_cant": "each of the ways to fail at each position of a conversation with any number of records", "anchors": ["src/emv_tal.c", "src/emv.c: emv_build_candidate_list, emv_select_application, emv_initiate_application_processing, emv_read_application_data"]}
{"id": "C135", "title": "Records for offline data authentication", "statement": "When the records of an AFL are read with success, all records of each entry were read in order, each is announced, and exactly the records designated for offline data authentication are reported as used for it: their template content for files 1 to 10, verbatim for files 11 to 30. If a record designated for it is not in a template, this is reported and the result says that offline data authentication has failed; no record is reported as used from then on.", "quantifier": "every AFL, every sequence of answers of the card, every subset of allocations failing", "why_tests_cant": "AFLs with any number of entries and records, invalid records at every position", "anchors": ["src/emv_tal.c: emv_tal_read_afl_records, emv_tal_read_sfi_records"]}
{"id": "C136", "title": "The debug output of a transaction", "statement": "Whatever the card answers, the debug output of emv-tool is defined. It consists of the lines of exactly the events asked for by source and level, in their order: each with its source, or its time, source and level, then its text, the data of messages and transmissions in hexadecimal, commands and responses with their description, and fields with their listing. Asking for more only adds lines; when nothing is asked for, nothing is printed.", "quantifier": "every command of at least four bytes, every behaviour of the reader and the card, every context and list of candidates, every setting of sources and level, any content of the memory used", "why_tests_cant": "every sequence of answers with fields of any content, with every setting", "anchors": ["tools/emv-tool.c: main", "tools/print_helpers.c: print_emv_debug, print_emv_debug_verbose", "src/emv_debug.c: emv_debug_internal", "src/emv_ttl.c: emv_ttl_trx", "src/emv_tal.c", "src/emv.c: emv_build_candidate_list, emv_select_application, emv_initiate_application_processing, emv_read_application_data"]}
{"id": "C137", "title": "The report of a directory", "statement": "Reading the directory of a card (PSE) reports the selection of the directory and, if it is not read, the reason: no answer, the status, no file number or an invalid one. Otherwise its records are read from the first to the one the card does not have. Of each record everything is reported: the status of one that cannot be read; one that is not encoded or not in a template; and of each entry in the template, in order, that it is unexpected, invalid, supported or not supported. The applications returned are those reported as supported, in this order.", "quantifier": "every sequence of answers of the card, any number of records and entries, every list of supported applications", "why_tests_cant": "directories of any number of records with every mixture of entries", "anchors": ["src/emv_tal.c: emv_tal_read_pse, emv_tal_parse_aef_record"]}
{"id": "C138", "title": "The report of a successful transaction", "statement": "A selection that succeeds reports the command with the name of the application and the answer. An initiation that succeeds reports the PDOL of the application if it has one, the command with its data, the response, and the AIP and the AFL if the response is of format 1. Reading the data with success reports each record and its use for offline data authentication. Nothing else is reported.", "quantifier": "every context, every list of candidates, every sequence of answers of the card, every subset of allocations failing", "why_tests_cant": "every PDOL, response, AFL and sequence of records", "anchors": ["src/emv_tal.c: emv_tal_select_app, emv_tal_get_processing_options, emv_tal_read_afl_records", "src/emv.c: emv_select_application, emv_initiate_application_processing, emv_read_application_data"]}
{"id": "C139", "title": "Debug events reach the application that asked for them", "statement": "In every program, each debug event is passed exactly to the function of the last initialisation before it, if the source of the event is selected there and its level is not above the level asked for; with its source, level, type and data and up to 1023 bytes of its text. Without function nothing is called. The time passed on is that of the clock in microseconds, is printed in ten digits, and later events have later times.", "quantifier": "every sequence of initialisations and events of any length, every time of the clock", "why_tests_cant": "every interleaving of initialisations and events; times that wrap", "anchors": ["src/emv_debug.c: emv_debug_init, emv_debug_internal", "tools/print_helpers.c: print_emv_debug_verbose"]}
{"id": "C140", "title": "Commands are described exactly", "statement": "READ RECORD is described by the short file identifier, the record and which records are read, PUT DATA by the field or file, and every other known interindustry instruction by its name; proprietary GET DATA by the field asked for and the other EMV instructions by their name. The text is cut to the output and always terminated. READ RECORD and PUT DATA commands which do not have data, or ask for data, as they should are not described; a command without description leaves an empty string and gives a code telling whether the class, the EMV instruction or the interindustry instruction is unknown.", "quantifier": "every command of case 1 or 2, or of case 3 or 4 with a short data field, other than SELECT (C67); every output of at least 4 bytes", "why_tests_cant": "2^32 headers, times bodies and output sizes", "anchors": ["src/iso7816_strings.c: iso7816_capdu_get_string, iso7816_capdu_read_record_get_string, iso7816_capdu_put_data_get_string", "src/emv_strings.c: emv_capdu_get_string, emv_capdu_get_data_get_string"]}
{"id": "C141", "title": "The viewer and emv-decode show the same of the same data", "statement": "For the same data and the same setting about padding, emv-decode lists a line for each item of the tree of the viewer, in the same order, as deep as the item and with the same tag and name. Both take the same bytes as padding. Both give up at the same byte or not at all; emv-decode then gives that place, the code of the error and the remaining bytes.", "quantifier": "all data below 2^31 bytes, any nesting, all previous contents of the arrays for texts", "why_tests_cant": "two programs which take apart the same data with separate code, over unboundedly many trees and error positions", "anchors": ["tools/print_helpers.c: print_ber_buf, print_emv_buf", "viewer/emvtreeview.cpp: EmvTreeView::populateItems, parseData", "viewer/emvtreeitem.cpp"]}
{"id": "C142", "title": "What memory held before does not show", "statement": "The code, name, format and text that emv_tlv_get_info gives for a field depend on the field and the tables of codes alone: not on what the output array held before, nor on what the arrays held that the library declares without a value. So do the listings of EMV data, of lists of fields and of BER data, and what a window of the viewer shows after any events; the viewer and the listings describe a field alike.", "quantifier": "all fields and data, all previous contents of all arrays, all sequences of events, outputs of at least three bytes, whenever no memory error occurs (C84)", "why_tests_cant": "the leftovers of the stack are not under the control of a test, and a byte of them may show in one of unboundedly many inputs only", "anchors": ["src/emv_strings.c: emv_tlv_get_info", "tools/print_helpers.c: print_ber_buf, print_emv_buf, print_emv_tlv_list", "viewer/emvtreeitem.cpp: EmvTreeItem::setTlv"]}
{"id": "C143", "title": "Nested data need a bounded amount of stack", "statement": "Decoding, parsing, listing and viewing data call themselves for nested data. A fixed number of stack frames is enough for all data. Half as many frames as the data have bytes, and two more, are always enough: the outcome is then the same as with a stack without limit. Well-formed data of definite lengths need exactly one frame for each level of nesting and two more. 130 frames are enough for the data of any answer of a card (at most 256 bytes).", "quantifier": "every data of every length and nesting, every number of free frames", "why_tests_cant": "Running out of stack needs data nested thousands of levels deep; a test can try some depth with one compiler, not show how many frames any data can take.", "anchors": ["src/iso8825_ber.c:84-202 iso8825_ber_decode", "src/emv_tlv.c:240-272 emv_tlv_parse", "tools/print_helpers.c:339-662 print_ber_buf, print_emv_buf", "viewer/emvtreeview.cpp:33-149", "viewer/emvhighlighter.cpp:62-239"]}
{"id": "C144", "title": "Reading nested data takes time in proportion to their length", "statement": "The number of calls of iso8825_ber_decode that parsing, listing or viewing data makes (the calls it makes of itself included) is at most twice the number of bytes, and one more, whatever the bytes: no nesting of objects of definite or indefinite length makes it grow faster. Decoding one object makes at most as many calls as there are bytes, or one if there are none, and at most as many as bytes are consumed. When all lengths are definite each object is decoded exactly once, and the end of the data and of each constructed object looked at once. Marking a text in the viewer makes at most one call for each character that is no white space, and one more.", "quantifier": "every byte string of every length and nesting, every outcome", "why_tests_cant": "A test measures some inputs; data that make the work grow faster than their length would have to be found among all nestings.", "anchors": ["src/iso8825_ber.c:84-264 iso8825_ber_decode, iso8825_ber_itr_next", "src/emv_tlv.c:240-272 emv_tlv_parse", "tools/print_helpers.c:339-662 print_ber_buf, print_emv_buf", "viewer/emvtreeview.cpp:33-149", "viewer/emvhighlighter.cpp:62-239"]}
{"id": "C145", "title": "A card is told only what it asks for, and all of that", "statement": "Two runs of the same transaction with the same card, the same supported applications and the same input, but with different terminal configuration and transaction parameters, send the card the same commands, print the same and end the same if the two give the same bytes for every entry of the PDOLs among the card's answers: no field a card does not ask for reaches it or decides anything. For emv-tool: the amount matters only to cards that ask for 9F02 or 81, the other amount for 9F03 or 9F04, the type for 9C, the date for 9A, the time for 9F21. Conversely, initiating an application with a proper PDOL sends different commands as soon as the bytes for one entry differ. Leftovers of memory never matter.", "quantifier": "all cards (any answers below 16 MB), all configurations and parameters, all inputs of the cardholder, all PDOLs, all leftovers", "why_tests_cant": "It is a statement about pairs of runs: a test compares a run with expected bytes, and cannot vary all fields the card did not ask for over all cards at once.", "anchors": ["src/emv.c:emv_initiate_application_processing", "src/emv.c:emv_select_application", "src/emv.c:emv_read_application_data", "src/emv_dol.c:emv_dol_build_data", "tools/emv-tool.c:emv_txn_load_params", "tools/emv-tool.c:main"]}
{"id": "C146", "title": "More data at the end do not change what was read", "statement": "For all byte strings a and b. If iso8825_ber_decode decodes an object at the start of a, then it decodes the same object with the same return value at the start of a followed by b, also for objects of indefinite length. The objects that the BER iterator yields for a are the first that it yields for a followed by b; when a can be read to its end, they are followed by exactly the objects of b, and the final code is that for b. The same holds of the entries that emv_dol_itr_next yields, of the objects that iso7816_compact_tlv_itr_next yields, and of the fields that emv_tlv_parse appends to any list: parsing a and then b is the same as parsing a followed by b, provided that the former succeeds, and the fields taken from data that are cut off are the first of those in the whole. The rows that emv-viewer shows for a stay the first rows for a followed by b, unless it looks for padding: then a row can disappear.", "quantifier": "all byte strings a and b, all lists, all behaviours of the allocator, all settings of the viewer", "why_tests_cant": "the place where data are cut off, the nesting there and what follows are unbounded; a decoder that looks at what lies behind an object agrees with this on every input that ends with the object", "anchors": ["src/iso8825_ber.c:84-264 iso8825_ber_decode, iso8825_ber_itr_next", "src/emv_tlv.c:240-272 emv_tlv_parse", "src/emv_dol.c:28-99 emv_dol_decode, emv_dol_itr_next", "src/iso7816_compact_tlv.c:24-88", "viewer/emvtreeview.cpp:33-149"]}
{"id": "C147", "title": "Searching by AIDs finds exactly the supported applications of the card", "statement": "Take a card without a directory (or one that is not usable) that has any list of applications and selects them by the beginning of their AID as ISO 7816-4 says: SELECT gives the first application whose AID begins with the name, SELECT NEXT the next one after the one selected last, 6A82 if there is none, and 6283 if it is blocked. Then emv_build_candidate_list ends, and its candidates are for each supported AID exactly the applications that are not blocked and whose AID equals the supported one or, if the terminal permits partial selection for it, begins with it; each with the fields of its file control information; the outcome is that there are none only if there is none. At most one command for each supported AID and one more for each application that begins with it are sent.", "quantifier": "all cards with any number of applications, all file control informations and AIDs, all lists of supported AIDs of 5 to 16 bytes, partial or exact", "why_tests_cant": "the number, names and order of the applications and of the supported AIDs are unbounded; a test plays one card", "anchors": ["src/emv_tal.c:297-452 emv_tal_find_supported_apps", "src/emv.c:334-396 emv_build_candidate_list", "src/emv_app.c emv_app_create_from_fci"]}
{"id": "C148", "title": "The directory and the list of AIDs lead to the same candidates, each of which can be selected", "statement": "Take a card as in C147, which selects its applications by the beginning of their AID. If it also has a directory (payment system environment) that lists its applications that are not blocked, in any order and over any records, emv_build_candidate_list gives the same outcome and candidates with the same AIDs as when the card has no directory. Selecting any candidate with emv_select_application makes it the selected application with the fields of its file control information; only when it has become blocked is it refused, with the outcome to try another candidate, or that there are none left.", "quantifier": "all cards with any number of applications, all directories, all lists of supported AIDs of 5 to 16 bytes, all candidate lists and contexts", "why_tests_cant": "it compares two runs against every card; the applications, directories and supported AIDs are unbounded", "anchors": ["src/emv_tal.c:51-216 emv_tal_read_pse", "src/emv_tal.c:297-540 emv_tal_find_supported_apps, emv_tal_select_app", "src/emv.c:334-488 emv_build_candidate_list, emv_select_application", "src/emv_app.c:284-316 emv_app_is_supported"]}
{"id": "C149", "title": "A proper card is read completely", "statement": "Take an application of a card that answers as EMV says: SELECT with its file control information (which holds no AFL), GET PROCESSING OPTIONS with an AIP and an AFL in format 1 or 2, and READ RECORD for each record of the AFL with a proper record; the records give the four mandatory fields, and no field twice. Then for every candidate with its AID emv_select_application, emv_initiate_application_processing and emv_read_application_data all succeed. The commands are exactly: SELECT with its AID, GET PROCESSING OPTIONS with exactly the data its PDOL asks for, and the READ RECORDs of the AFL in order. The ICC data are then exactly the fields of the file control information, of the options and of the records, in this order, each with its value unchanged. emv-tool, when this candidate is chosen, ends with these data and displays exactly them. A card without directory of which the terminal supports exactly this application is thus always read, whatever else is on it. So is an application that the directory of a card lists, among any others, when it is chosen: the directory is read record by record to its end, and then nothing but the application's own commands is sent.", "quantifier": "all applications with any fields, PDOLs, AFLs of up to 63 entries and records, both formats, all configurations, parameters, leftovers and inputs", "why_tests_cant": "it says that nothing is lost, added or refused on any proper card; the numbers and values of fields, entries and records are unbounded, a test plays one card", "anchors": ["src/emv.c:398-640 emv_select_application, emv_initiate_application_processing, emv_read_application_data", "src/emv_tal.c emv_tal_get_processing_options, emv_tal_read_afl_records", "tools/emv-tool.c:730-930 main"]}
{"id": "C150", "title": "Nothing of an earlier transaction gets into the next one", "statement": "Take two contexts with the same configuration, supported applications and transaction parameters, but with whatever ICC data, terminal data and selected application earlier calls left in them. An application that makes any calls of emv_ctx_reset, emv_build_candidate_list, emv_select_application, emv_initiate_application_processing and emv_read_application_data in order (initiating after selecting, reading after initiating) and gives up after the first that fails gets the same codes and candidates and sends the card the same commands with both, whatever the card answers; after a successful initiation the contexts are equal in all respects. So a transaction as emv-tool makes it is the same, with the same output, after any number of earlier transactions with other cards, complete or not, as in a new context. The earlier data stay in the context until the next initiation or reset; reading without initiating takes the AFL of the earlier application.", "quantifier": "all sequences of calls, all contexts, all cards and inputs, all behaviours of the allocator, any number of earlier transactions", "why_tests_cant": "it compares runs after all possible histories; a test begins with a new context", "anchors": ["src/emv.c:65-92 emv_ctx_reset, emv_ctx_clear", "src/emv.c:334-806", "tools/emv-tool.c:791-908"]}
{"id": "C151", "title": "A proper card is read completely over a reader, at once or in parts", "statement": "When the reader (in APDU mode) delivers the answer to a command at once, after one request to repeat the command with the right length (6Cxx), or in any number of parts each announcing the next (61xx), then what is transmitted is the command's APDU, the repetition with exactly that length, and one GET RESPONSE per further part with exactly the length announced; the caller gets the data of all parts in order, and the status of the last. A warning without data in answer to a command with data is followed by GET RESPONSE, with the length the warning tells (6202 to 6280) or 00; the caller gets the data of all parts and the warning as status. Hence a transaction over such a reader makes the same calls with the same results as with a card answering each command at once, and a card that offers an application and answers properly is read completely: the transaction ends with all its data.", "quantifier": "For all commands of a transaction (selection by name or next occurrence, record reads, processing options), all numbers and sizes of parts up to 256 bytes in all, all final statuses other than 61xx and 6Cxx, all warnings, all transactions, all such cards.", "why_tests_cant": "Cards deliver the same data in countless divisions; tests use a few fixed scripts with one GET RESPONSE, so that a wrong offset or length in a later part, or a status taken from an earlier part, goes unseen.", "anchors": ["src/emv_ttl.c:32-689 emv_ttl_trx and the command functions", "src/emv_tal.c emv_tal_*", "src/emv.c emv_build_candidate_list, emv_select_application, emv_initiate_application_processing, emv_read_application_data", "tools/emv-tool.c:791-908"]}
{"id": "C152", "title": "A command has the same result in TPDU mode as in APDU mode", "statement": "Over a reader in TPDU mode with a T=0 card that asks for the data of a command at once (procedure byte INS), that may want a command without data repeated with the right length (6Cxx), and that delivers its answer in any number of parts (61xx), each with data preceded by the instruction byte: what is transmitted is the header, then the data exactly, the header with the length wanted, and one GET RESPONSE per further part with the length announced. The caller gets the data of all parts in order without the instruction bytes, and the last status - the same as over a reader in APDU mode delivering the same parts; hence a whole transaction is the same in both modes.", "quantifier": "For all commands of a transaction, all numbers and sizes of parts up to 256 bytes in all, all final statuses other than 61xx, 6Cxx and warnings without data, all transactions.", "why_tests_cant": "It relates two protocols over all divisions of all answers; the tests replay single scripts per mode and compare neither.", "anchors": ["src/emv_ttl.c:79-424 emv_ttl_trx", "src/emv_ttl.c:426-689 the command functions", "src/emv_tal.c emv_tal_*", "tools/emv-tool.c:791-908"]}
{"id": "C153", "title": "An application that cannot be used does not keep the others from being used", "statement": "When applications chosen first cannot be used - the card refuses to select them with any status but 6A81, or selects them and answers 6985 (conditions of use not satisfied) to GET PROCESSING OPTIONS - the next choice is offered among the candidates left. If then an application is chosen that answers properly, emv-tool ends with exactly its data as if the others had not been tried: the ICC data and terminal data are its own, and no field of the others is kept. The commands are those of building the list, one SELECT (and one GET PROCESSING OPTIONS) for each of the others, and those of this application; none is tried twice, and none is lost: those tried and those left are together the candidates. If all are refused, each has been selected exactly once and the outcome is 3 (not accepted).", "quantifier": "For all candidate lists, any number of unusable applications in any order and for either reason, all ways of choosing, all proper applications, configurations and transaction parameters, all memory contents.", "why_tests_cant": "A test plays one card with one refusal; left-over data of a refused application, or giving up too early, show only for particular sequences of refusals.", "anchors": ["src/emv.c:398-709 emv_select_application, emv_initiate_application_processing", "src/emv_tal.c:454-540 emv_tal_select_app", "src/emv_tal.c:543-720 emv_tal_get_processing_options", "tools/emv-tool.c:812-908"]}
{"id": "C154", "title": "A failure of the reader ends the transaction", "statement": "Once an exchange with the card fails - the reader reports an error, gives no response, or its response is malformed - no further command is sent: the function in progress returns the outcome 1 (card error), whichever function it is, and emv-tool prints this outcome as its last line and ends. In particular when a transmission fails there is no retransmission and nothing else is transmitted afterwards, whatever the reader would answer then, in APDU and in TPDU mode; and the failure is never taken for the end of a list of applications or records, or for an application that cannot be used.", "quantifier": "For all cards, terminal data, choices, memory contents and behaviours of the allocator; failures of any kind at any point of the transaction, before or after any number of commands and follow-ups.", "why_tests_cant": "The failure can strike at any of the exchanges of any transaction; tests inject none or a few, and a loop that takes a failure for the end of its records looks like success.", "anchors": ["src/emv_ttl.c:122-170 emv_ttl_trx", "src/emv_ttl.c:426-689 the command functions", "src/emv_tal.c:57-944 emv_tal_*", "src/emv.c:334-806", "tools/emv-tool.c:791-908"]}
{"id": "C155", "title": "How the supported AIDs are listed does not matter", "statement": "Two lists of supported AIDs that permit the same AIDs - the same entries in another order, entries repeated, entries for AIDs that an entry for their beginning permits already - lead to the same commands and, in the same order, the same candidates from the directory of a card, whatever the card answers; and to the same applications, each as often, and the same outcome, when the list is searched entry by entry because there is no directory.", "quantifier": "For all pairs of such lists, all cards and answers.", "why_tests_cant": "It compares two configurations over all cards; tests have one configuration with fixed cards.", "anchors": ["src/emv_app.c:284-316 emv_app_is_supported", "src/emv_tal.c:51-452 emv_tal_read_pse, emv_tal_parse_aef_record, emv_tal_find_supported_apps", "src/emv.c:334-396 emv_build_candidate_list"]}
{"id": "C156", "title": "Lack of memory is reported, never hidden", "statement": "Whenever memory runs out while an application is initiated or its data are read, the function returns -1 (internal error) having sent a part of the commands it would have sent; initiation then leaves no data of the card in the context, and reading leaves the context as it was. Such a lack of memory is never reported as a fault of the card, an outcome of the application or a reason to try another application; emv-tool prints the internal error as its last line. In every other case the function does exactly what it does with unlimited memory, and so does a whole transaction of emv-tool if the candidates could be found and selected with the memory there is: no field of a completed transaction is missing.", "quantifier": "For all behaviours of the allocator during initiation and reading, all cards, terminal data, choices and memory contents.", "why_tests_cant": "Each of the allocations of each transaction may fail; a field that is dropped silently shows only when just that one fails.", "anchors": ["src/emv_tlv.c:60-272 emv_tlv_list_push, emv_tlv_parse", "src/emv_tal.c:543-944 emv_tal_get_processing_options, emv_tal_read_sfi_records, emv_tal_read_afl_records", "src/emv.c:490-806 emv_initiate_application_processing, emv_read_application_data", "tools/emv-tool.c:812-908"]}
{"id": "C157", "title": "A blocked card is left alone", "statement": "Once the card answers 6A81 (card blocked, or SELECT not supported) to the selection of the directory or of an application - in the search or after the choice of the cardholder - no further command is sent, even if candidates are left: the function in progress returns the outcome 2 (card blocked), and emv-tool prints this outcome as its last line and ends.", "quantifier": "For all cards, terminal data, choices, memory contents and behaviours of the allocator; at any selection of a transaction, after any number of commands.", "why_tests_cant": "The answer can come at any of the selections of any transaction, after refusals of other applications; tests have it at one place.", "anchors": ["src/emv_tal.c:51-540 emv_tal_read_pse, emv_tal_find_supported_apps, emv_tal_select_app", "src/emv.c:334-488 emv_build_candidate_list, emv_select_application", "tools/emv-tool.c:791-870"]}
{"id": "C158", "title": "Lack of memory during application selection is reported", "statement": "Whenever memory runs out while the list of candidates is built or an application is selected, the function returns -1 (internal error), so that no application is missing silently. Whatever allocations fail, nothing is made up: each candidate is one that the card's answers give with unlimited memory, those of a directory in the same order and after the same commands, and a selection either is that with unlimited memory or leaves no application selected.", "quantifier": "For all behaviours of the allocator at each call, all cards, lists of supported AIDs, candidates and choices.", "why_tests_cant": "Each allocation of each entry of the directory, of each answer of the search and of the selected application may fail; tests have memory.", "anchors": ["src/emv_app.c:38-144 emv_app_create_from_pse, emv_app_create_from_fci", "src/emv_tal.c:51-540 emv_tal_read_pse, emv_tal_parse_aef_record, emv_tal_find_supported_apps, emv_tal_select_app", "src/emv.c:334-488 emv_build_candidate_list, emv_select_application"]}
