{"id": "C01", "title": "Every delivered UBX message was really received", "statement": "Whenever got_ubx(cls,id,msg) is called on a listener, the bytes fed to UBX::read_cb so far end in a complete UBX frame B5 62 cls id len payload ck_a ck_b with 1<=len<=2048 and a correct Fletcher checksum, and the first len bytes of msg are exactly that payload.", "quantifier": "all byte streams fed to read_cb from construction, all listener sets", "why_tests_cant": "the set of byte streams is infinite and adversarial (noise, truncated frames, nested headers)", "anchors": ["src/parsers/ubx.cpp:UBX::read_cb", "src/parsers/ubx.cpp:UBX::decode_message"]}
{"id": "C02", "title": "Every well-formed UBX frame is delivered", "statement": "If no message is in progress, feeding the bytes of any well-formed UBX frame with payload length 1..2048 calls got_ubx exactly once on every subscribed listener, with that class, id and payload, and read_cb returns true exactly on the last byte and false on all the others; the parser is idle again afterwards.", "quantifier": "all idle parser states, classes, ids, payloads of 1..2048 bytes", "why_tests_cant": "2^16384 payloads, every prior history", "anchors": ["src/parsers/ubx.cpp:UBX::read_cb"]}
{"id": "C03", "title": "send_message / read_cb round trip", "statement": "The bytes UBX::send_message writes to the serial port for class, id and a payload of 1..2048 bytes, fed to another idle UBX parser, deliver exactly that class, id and payload.", "quantifier": "all classes, ids, payloads of length 1..2048, all idle receiver states", "why_tests_cant": "every payload value and length", "anchors": ["src/parsers/ubx.cpp:UBX::send_message", "src/parsers/ubx.cpp:UBX::read_cb", "src/parsers/ubx.cpp:UBX::calculate_checksum"]}
{"id": "C04", "title": "Chunking does not matter", "statement": "The callbacks made, the bytes written and the resulting parser state depend only on the concatenation of the buffers passed to UBLOX::read_cb (and RTCM::read_cb), not on how the stream was cut into buffers.", "quantifier": "all streams and all ways of cutting them", "why_tests_cant": "all partitions of all streams", "anchors": ["src/ublox.cpp:UBLOX::read_cb", "src/parsers/rtcm.cpp:RTCM::read_cb"]}
{"id": "C05", "title": "UBX framing never writes outside its message buffer", "statement": "No byte stream makes the UBX framing state machine store outside the 2048-byte message buffer or compute a checksum over bytes outside it.", "quantifier": "all byte streams", "why_tests_cant": "adversarial length fields at every alignment", "anchors": ["src/parsers/ubx.cpp:UBX::read_cb", "include/UBLOX/parsers/ubx_defs.h:BUFFER_SIZE"]}
{"id": "C06", "title": "The UBX parser always comes back to idle", "statement": "From any state reachable by feeding bytes, after at most 2055 further bytes the parser has been idle (ready to recognise a new frame) at least once.", "quantifier": "all reachable states and all continuations", "why_tests_cant": "liveness over every history; needs the parser not to wedge", "anchors": ["src/parsers/ubx.cpp:UBX::read_cb"]}
{"id": "C07", "title": "Zero-length UBX frames do not break reception", "statement": "A well-formed UBX frame with an empty payload (legal UBX) is delivered, or at least does not prevent later frames from being delivered.", "quantifier": "all classes, ids, and all streams following the frame", "why_tests_cant": "the failure is permanent: no finite continuation shows it", "anchors": ["src/parsers/ubx.cpp:UBX::read_cb (GOT_LENGTH2 case)"]}
{"id": "C08", "title": "Oversized UBX headers are rejected at once", "statement": "A header whose length field exceeds 2048 delivers nothing, stores nothing into the message buffer, counts exactly one error and leaves the parser idle on the very byte that completed the length field.", "quantifier": "all idle states, classes, ids, lengths 2049..65535", "why_tests_cant": "every length and history", "anchors": ["src/parsers/ubx.cpp:UBX::read_cb (GOT_LENGTH1 case)"]}
{"id": "C09", "title": "The UBX checksum is the 8-bit Fletcher checksum", "statement": "calculate_checksum returns ck_a = sum of the bytes and ck_b = position-weighted sum of the bytes (both mod 256) of class, id, length (little endian) and payload, and depends only on the first len bytes of the message buffer.", "quantifier": "all classes, ids, lengths up to 2048 and buffers", "why_tests_cant": "all buffers", "anchors": ["src/parsers/ubx.cpp:UBX::calculate_checksum"]}
{"id": "C10", "title": "Corruption of a UBX frame is detected", "statement": "If one byte of a well-formed frame (class, id, payload or checksum) is replaced by a different byte, or two adjacent different bytes among class, id and payload are exchanged, then feeding the damaged frame to an idle parser delivers nothing.", "quantifier": "all frames, positions and replacement values", "why_tests_cant": "all frames x all corruptions", "anchors": ["src/parsers/ubx.cpp:UBX::decode_message", "src/parsers/ubx.cpp:UBX::calculate_checksum"]}
{"id": "C11", "title": "Subscription-exact dispatch", "statement": "For each accepted frame exactly the listeners that subscribed to that (class,id) pair are called, each once, in registration order, and no other listener is called; subscribing to one pair never subscribes to another.", "quantifier": "all listener lists, subscription histories and accepted frames", "why_tests_cant": "all subscription sets", "anchors": ["include/UBLOX/parsers/ubx.h:UBXListener::subscribe", "include/UBLOX/parsers/ubx.h:UBXListener::subscribed", "src/parsers/ubx.cpp:UBX::decode_message"]}
{"id": "C12", "title": "Message and error counters are exact", "statement": "num_messages_received() equals the number of read_cb calls that returned true (mod 2^32), and the error counter equals the number of frames rejected for length or checksum (mod 2^32).", "quantifier": "all byte streams", "why_tests_cant": "all histories", "anchors": ["src/parsers/ubx.cpp:UBX::num_messages_received", "src/parsers/ubx.cpp:UBX::decode_message"]}
{"id": "C13", "title": "parsing_message() is accurate", "statement": "parsing_message() is true exactly when a start sequence B5 62 has been recognised and the frame it opened has been neither completed nor abandoned.", "quantifier": "all byte streams", "why_tests_cant": "all histories", "anchors": ["src/parsers/ubx.cpp:UBX::parsing_message", "src/parsers/rtcm.cpp:RTCM::parsing_message"]}
{"id": "C14", "title": "Listeners see only the received payload", "statement": "The message object handed to got_ubx depends only on the frame just received (bytes beyond its payload do not leak from earlier messages).", "quantifier": "all pairs of consecutive frames", "why_tests_cant": "depends on arbitrary earlier history", "anchors": ["src/parsers/ubx.cpp:UBX::read_cb", "src/parsers/ubx.cpp:UBX::decode_message"]}
{"id": "C15", "title": "Version report is decoded faithfully", "statement": "After a MON-VER frame whose extension block contains PROTVER=<major>.<minor> (1-4 digit major, 1-4 digit minor) and MOD=<name> (name up to 9 characters), major_version(), minor_version() and module_name() are exactly those values and get_version() reports success.", "quantifier": "all version numbers, module names, extension rows and surrounding bytes", "why_tests_cant": "all strings", "anchors": ["src/parsers/ubx.cpp:UBX::version_cb", "src/parsers/ubx.cpp:UBX::extract_version_string", "src/parsers/ubx.cpp:UBX::extract_module_name", "include/UBLOX/parsers/ubx_defs.h:MON_VER_t"]}
{"id": "C16", "title": "Version parsing is memory safe", "statement": "No MON-VER frame, whatever its content, makes the version parser read or write outside its buffers.", "quantifier": "all MON-VER payloads", "why_tests_cant": "adversarial payloads; overruns may be silent", "anchors": ["src/parsers/ubx.cpp:UBX::extract_version_string", "src/parsers/ubx.cpp:UBX::extract_module_name", "src/parsers/ubx.cpp:UBX::version_cb"]}
{"id": "C17", "title": "get_version handshake", "statement": "get_version() returns true if and only if a MON-VER frame completes after the call began and before it returns, returns within the timeout of a monotone clock, and a stale answer received before the call never counts.", "quantifier": "all schedules of the reader thread against the polling loop", "why_tests_cant": "all interleavings", "anchors": ["src/parsers/ubx.cpp:UBX::get_version"]}
{"id": "C18", "title": "wait_for_response handshake", "statement": "wait_for_response() returns true if and only if an ACK-ACK frame completes after the call began and before the loop exits; an answer that arrived before the call is not counted.", "quantifier": "all schedules of the reader thread against the polling loop", "why_tests_cant": "all interleavings", "anchors": ["src/parsers/ubx.cpp:UBX::wait_for_response"]}
{"id": "C19", "title": "Connection set-up is all or nothing", "statement": "The UBLOX constructor polls the version at most MAX_NUM_TRIES-1 = 2 times, throws if and only if every poll failed, writes no configuration if it throws, and otherwise writes exactly the documented configuration sequence.", "quantifier": "all outcomes of the version polls, all protocol versions", "why_tests_cant": "all schedules of answers", "anchors": ["src/ublox.cpp:UBLOX::UBLOX", "include/UBLOX/ublox.h:MAX_NUM_TRIES"]}
{"id": "C20", "title": "Everything the driver writes to the receiver is a well-formed UBX frame", "statement": "The bytes written to the serial port by any sequence of configuration calls are a concatenation of well-formed UBX frames (correct length and checksum), one per command, in call order.", "quantifier": "all sequences of configuration calls with all arguments", "why_tests_cant": "all argument values and sequences", "anchors": ["src/parsers/ubx.cpp:UBX::send_message", "src/parsers/ubx.cpp:UBX::configure", "src/parsers/ubx.cpp:UBX::enable_message", "src/parsers/ubx.cpp:UBX::set_nav_rate"]}
{"id": "C21", "title": "Configuration commands carry exactly their arguments", "statement": "The payload written by configure, get_configuration, enable_message, set_nav_rate, set_dynamic_mode, disable_nmea and start_survey_in is determined by the call's arguments and the protocol version alone, with the documented little-endian field layout; nothing leaks from earlier messages.", "quantifier": "all arguments and all previous contents of the outgoing buffer", "why_tests_cant": "depends on arbitrary earlier history", "anchors": ["src/parsers/ubx.cpp:UBX::configure", "src/parsers/ubx.cpp:UBX::start_survey_in", "include/UBLOX/parsers/ubx_defs.h:CFG_VALSET_t"]}
{"id": "C22", "title": "Every forwarded RTCM message was really received intact", "statement": "Whenever got_rtcm(buf,size) is called, the bytes fed to the RTCM parser end in exactly those size bytes, which form an RTCM3 frame: D3, 10-bit length equal to size-6 (1..1018), payload, and the CRC-24Q of everything before it.", "quantifier": "all byte streams", "why_tests_cant": "adversarial streams", "anchors": ["src/parsers/rtcm.cpp:RTCM::read_cb", "src/parsers/rtcm.cpp:RTCM::decode", "src/parsers/rtcm.cpp:RTCM::check_crc"]}
{"id": "C23", "title": "Every well-formed RTCM frame is delivered verbatim", "statement": "If the RTCM parser is idle, feeding the bytes of any RTCM3 frame with payload length 1..1018 (any reserved bits) calls got_rtcm exactly once on every listener, on the last byte, with exactly the frame's bytes, and leaves the parser idle.", "quantifier": "all idle states, all payloads of 1..1018 bytes", "why_tests_cant": "all payloads and histories", "anchors": ["src/parsers/rtcm.cpp:RTCM::read_cb", "src/parsers/rtcm.cpp:RTCM::decode"]}
{"id": "C24", "title": "The RTCM parser never writes outside its buffer", "statement": "No byte stream makes RTCM::read_cb store outside its 1024-byte buffer.", "quantifier": "all byte streams", "why_tests_cant": "adversarial length fields; overruns may be silent", "anchors": ["src/parsers/rtcm.cpp:RTCM::read_cb", "include/UBLOX/parsers/rtcm.h:BUFFER_SIZE"]}
{"id": "C25", "title": "The RTCM parser always comes back to idle", "statement": "From any reachable state, after at most 1029 further bytes the RTCM parser has been idle at least once.", "quantifier": "all reachable states and continuations", "why_tests_cant": "liveness over every history", "anchors": ["src/parsers/rtcm.cpp:RTCM::read_cb"]}
{"id": "C26", "title": "new_data() reports each parsed RTCM message once", "statement": "new_data() returns true if and only if a valid message completed since the previous call to new_data().", "quantifier": "all interleavings of read_cb and new_data calls", "why_tests_cant": "all histories", "anchors": ["src/parsers/rtcm.cpp:RTCM::new_data", "src/parsers/rtcm.cpp:RTCM::decode"]}
{"id": "C27", "title": "crc24 computes CRC-24Q", "statement": "crc24(buf,len) is the remainder of buf(x)*x^24 divided by x^24+x^23+x^18+x^17+x^14+x^11+x^10+x^7+x^6+x^5+x^4+x^3+x+1 over GF(2), for every buffer; the result is below 2^24 and every table lookup is in bounds.", "quantifier": "all buffers of all lengths", "why_tests_cant": "all buffers", "anchors": ["src/crc.cpp:crc24", "include/UBLOX/crc.h"]}
{"id": "C28", "title": "CRC-protected RTCM frames: guaranteed error detection", "statement": "Damage confined to any 24 consecutive bits, any odd number of flipped bits, and any two flipped bits of a valid RTCM frame are never accepted as a valid CRC.", "quantifier": "all frames and all error patterns of these kinds", "why_tests_cant": "all frames x all error patterns", "anchors": ["src/crc.cpp:crc24", "src/parsers/rtcm.cpp:RTCM::check_crc"]}
{"id": "C29", "title": "Invalid RTCM headers and bad CRCs deliver nothing and do not wedge the parser", "statement": "A zero-length RTCM header and a frame with a wrong CRC deliver nothing, and the parser is idle immediately afterwards so the next well-formed frame is delivered.", "quantifier": "all idle states, headers, payloads, wrong CRCs", "why_tests_cant": "all frames and histories", "anchors": ["src/parsers/rtcm.cpp:RTCM::read_cb"]}
{"id": "C30", "title": "Base station: mixed stream is demultiplexed losslessly", "statement": "On a configured base with both parsers idle, for any sequence of well-formed UBX frames (payload 1..2048) and RTCM frames (payload 1..1018) in any order, every UBX frame is delivered to its subscribers and every RTCM frame is written verbatim to the RTK link, each exactly once and in order, whatever bytes the payloads contain.", "quantifier": "all sequences of frames of both kinds with all payloads", "why_tests_cant": "all interleavings, payloads containing the other protocol's sync bytes", "anchors": ["src/ublox.cpp:UBLOX::read_cb", "src/ublox.cpp:UBLOX::got_rtcm"]}
{"id": "C31", "title": "A message in progress is not disturbed by the other protocol", "statement": "While a UBX message is in progress no byte reaches the RTCM parser, and on a base while an RTCM message is in progress no byte reaches the UBX parser.", "quantifier": "all device states and bytes", "why_tests_cant": "all states", "anchors": ["src/ublox.cpp:UBLOX::read_cb"]}
{"id": "C32", "title": "RTK link traffic only where configured", "statement": "Only a base writes RTCM to the RTK link, and it writes nothing else; a rover writes to the receiver exactly the bytes that arrive on the RTK link, in order; an unconfigured device writes nothing to either because of received data.", "quantifier": "all histories of received buffers and RTK buffers", "why_tests_cant": "all histories", "anchors": ["src/ublox.cpp:UBLOX::got_rtcm", "src/ublox.cpp:UBLOX::config_rover", "src/ublox.cpp:UBLOX::config_base"]}
{"id": "C33", "title": "Base to rover end to end", "statement": "Every RTCM frame produced by the base's receiver in a well-formed mixed stream reaches the rover's receiver unmodified, in order, exactly once, if the link delivers the written buffers in order.", "quantifier": "all mixed streams of frames", "why_tests_cant": "composition over all streams", "anchors": ["src/ublox.cpp:UBLOX::got_rtcm", "src/ublox.cpp:UBLOX::config_rover"]}
{"id": "C34", "title": "Configuring a base twice does not duplicate traffic", "statement": "Each RTCM frame is written to the RTK link exactly once however many times config_base was called.", "quantifier": "all numbers of config_base calls, all frames", "why_tests_cant": "all call histories", "anchors": ["src/ublox.cpp:UBLOX::config_base", "src/parsers/rtcm.cpp:RTCM::registerListener"]}
{"id": "C35", "title": "getBit reads exactly the requested big-endian bit field", "statement": "getBit<len>(buf,pos) (len 1..56) and getBit(buf,pos,len) (len 1..32) return the number whose binary digits are bits pos..pos+len-1 of buf, most significant bit of each byte first, and read only the bytes containing those bits.", "quantifier": "all buffers, positions and lengths", "why_tests_cant": "all alignments x lengths x contents", "anchors": ["include/UBLOX/bit_tools.h:getBit"]}
{"id": "C36", "title": "Signed getBit is two's complement", "statement": "getBit<len,Signed> and getBit<Signed>(buf,pos,len) return the two's complement value of the bit field: v if the top bit is clear, v - 2^len otherwise.", "quantifier": "all buffers, positions and lengths", "why_tests_cant": "all contents", "anchors": ["include/UBLOX/bit_tools.h:getBit"]}
{"id": "C37", "title": "setBit writes exactly the requested field", "statement": "setBit<len>(buf,pos,data) makes bits pos..pos+len-1 equal to the low len bits of data and changes no other bit and no byte outside the field.", "quantifier": "all buffers, positions, lengths 1..32, data", "why_tests_cant": "all alignments x contents", "anchors": ["include/UBLOX/bit_tools.h:setBit"]}
{"id": "C38", "title": "setBit / getBit round trip", "statement": "After setBit of a value at a field, getBit of that field returns the value mod 2^len, and getBit of any disjoint field is unchanged.", "quantifier": "all buffers, fields, values", "why_tests_cant": "all alignments", "anchors": ["include/UBLOX/bit_tools.h:getBit", "include/UBLOX/bit_tools.h:setBit"]}
{"id": "C39", "title": "GLONASS sign-magnitude fields", "statement": "getBitGlo<len>(buf,pos) is minus the magnitude in the len-1 bits after pos if bit pos is set, and that magnitude otherwise.", "quantifier": "all buffers, positions, lengths", "why_tests_cant": "all contents", "anchors": ["include/UBLOX/bit_tools.h:getBitGlo"]}
{"id": "C40", "title": "BitField assignment and reading are inverse", "statement": "Assigning a value to a BitField<first,size> and reading it back gives the value mod 2^size, for both byte orders.", "quantifier": "all buffers, values, field positions and sizes", "why_tests_cant": "all alignments", "anchors": ["include/UBLOX/bitfield.h:BitField"]}
{"id": "C41", "title": "UTCTime addition and subtraction are exact", "statement": "Adding or subtracting two normalised UTCTimes gives the exact sum/difference in nanoseconds, (a+b)-b and (a-b)+b denote a, and a - a is zero.", "quantifier": "all normalised times", "why_tests_cant": "all values", "anchors": ["src/utctime.cpp:UTCTime::operator+", "src/utctime.cpp:UTCTime::operator-"]}
{"id": "C42", "title": "UTCTime results are normalised", "statement": "Every UTCTime produced from normalised operands by +, - and the constructors has 0 <= nsec < 10^9.", "quantifier": "all normalised operands", "why_tests_cant": "boundary nsec = 10^9", "anchors": ["src/utctime.cpp:UTCTime::wrapNsec"]}
{"id": "C43", "title": "UTCTime ordering is chronological", "statement": "<, > and == on normalised UTCTimes are exactly the comparisons of the instants in nanoseconds; < is a strict total order.", "quantifier": "all times", "why_tests_cant": "all pairs/triples", "anchors": ["src/utctime.cpp:UTCTime::operator<", "src/utctime.cpp:UTCTime::operator>", "src/utctime.cpp:UTCTime::operator=="]}
{"id": "C44", "title": "GPS week/time-of-week conversion", "statement": "fromGPS(week,tow_ms) denotes the instant 315964818 s + week*604800 s + tow_ms ms after the epoch, to the millisecond, and GpsWeek() of it is week for every week 0..3549 and tow_ms 0..604799999, without integer overflow.", "quantifier": "all weeks and times of week", "why_tests_cant": "all weeks x milliseconds", "anchors": ["src/utctime.cpp:UTCTime::fromGPS", "src/utctime.cpp:UTCTime::GpsWeek"]}
{"id": "C45", "title": "GLONASS week/time-of-week conversion", "statement": "fromGlonass(week,tow_ms) denotes week*604800 s + tow_ms ms - 3 h, to the millisecond, and GlonassWeek()/GlonassDayOfWeek() invert it.", "quantifier": "all weeks and times of week", "why_tests_cant": "all weeks x milliseconds", "anchors": ["src/utctime.cpp:UTCTime::fromGlonass", "src/utctime.cpp:UTCTime::GlonassWeek", "src/utctime.cpp:UTCTime::GlonassDayOfWeek"]}
{"id": "C46", "title": "GLONASS time of day is resolved against a reference", "statement": "fromGlonassTimeOfDay(ref,tod) is the instant closest to ref whose Moscow time of day is tod.", "quantifier": "all references and times of day", "why_tests_cant": "all references", "anchors": ["src/utctime.cpp:UTCTime::fromGlonassTimeOfDay", "include/UBLOX/utctime.h"]}
{"id": "C47", "title": "t + n and t += n agree", "statement": "For an integer number of seconds n, t + n (t - n) equals the value of t after t += n (t -= n) and preserves the sub-second part.", "quantifier": "all times and integers", "why_tests_cant": "all values", "anchors": ["src/utctime.cpp:UTCTime::operator+(int)", "src/utctime.cpp:UTCTime::operator-(int)"]}
{"id": "C48", "title": "GPS ephemeris decoding is exact", "statement": "For all ephemeris parameter values, when the three GPS subframes encoding them per IS-GPS-200 arrive for a satellite, the ephemeris callback receives exactly those values (week+2048, sign-extended raw values times the scale factors), the satellite id and GPS constellation.", "quantifier": "all parameter values, parity bits, TOW and unused bits, prior state of the satellite entry", "why_tests_cant": "2^500 encodings", "anchors": ["src/parsers/nav.cpp:NavParser::decodeGPS", "src/parsers/nav.cpp:decodeGPSSubframe1", "src/parsers/nav.cpp:decodeGPSSubframe2", "src/parsers/nav.cpp:decodeGPSSubframe3"]}
{"id": "C49", "title": "A GPS ephemeris is only reported from one consistent data set", "statement": "Every GPS ephemeris callback happens on a subframe for which subframes 1, 2 and 3 of that satellite have all arrived since the previous callback for it, and all three carry the same issue of data.", "quantifier": "all histories of SFRBX messages", "why_tests_cant": "all histories", "anchors": ["src/parsers/nav.cpp:NavParser::decodeGPS"]}
{"id": "C50", "title": "GPS parity and status bits are ignored", "statement": "The result of decoding a GPS subframe does not depend on the 6 parity bits or the 2 unused top bits of any word, nor on the uninitialised working buffer.", "quantifier": "all words and all values of the ignored bits", "why_tests_cant": "all contents", "anchors": ["src/parsers/nav.cpp:NavParser::decodeGPS"]}
{"id": "C51", "title": "Satellites do not disturb each other", "statement": "Processing a message from one satellite never changes what is stored or later reported for a different satellite (different constellation or different id).", "quantifier": "all histories of SFRBX messages of several satellites", "why_tests_cant": "all interleavings", "anchors": ["src/parsers/nav.cpp:NavParser::convertUBX"]}
{"id": "C52", "title": "GLONASS Hamming check: guaranteed detection", "statement": "gloTest accepts every valid 85-bit GLONASS string, rejects every valid string with any single data bit or any two bits flipped, and ignores the padding bits after bit 85.", "quantifier": "all strings and all one- and two-bit error patterns", "why_tests_cant": "2^85 strings", "anchors": ["src/parsers/nav.cpp:gloTest"]}
{"id": "C53", "title": "A GLONASS ephemeris comes from a single frame", "statement": "Every GLONASS ephemeris callback happens on a string 4, and strings 1, 2 and 3 of that satellite were received with the same time mark with no string of a different time mark in between.", "quantifier": "all histories of SFRBX messages", "why_tests_cant": "all histories", "anchors": ["src/parsers/nav.cpp:NavParser::decodeGlonass", "src/parsers/nav.cpp:decodeGlonassString"]}
{"id": "C54", "title": "Reported GLONASS times are within half a day of GPS time", "statement": "If the GPS reference times since the latest strings 1 and 2 of a GLONASS frame arrived differ by less than half a day, the reported toe and tof are the instants closest to the present reference (within 12 hours of it) that have the transmitted times of day.", "quantifier": "all strings and reference times after the epoch", "why_tests_cant": "all times", "anchors": ["src/parsers/nav.cpp:decodeGlonassString", "src/parsers/nav.cpp:decodeGlonassFrame1", "src/parsers/nav.cpp:decodeGlonassFrame2"]}
{"id": "C55", "title": "GLONASS ephemeris decoding is exact", "statement": "For all parameter values, when strings 1-4 encoding them per the GLONASS ICD arrive with one time mark, the callback receives exactly those values (sign-magnitude raw values times the scale factors), frequency number freqId-7 and satellite id.", "quantifier": "all parameter values and unused bits", "why_tests_cant": "2^300 encodings", "anchors": ["src/parsers/nav.cpp:decodeGlonassFrame1", "src/parsers/nav.cpp:decodeGlonassFrame2", "src/parsers/nav.cpp:decodeGlonassFrame3", "src/parsers/nav.cpp:decodeGlonassFrame4"]}
{"id": "C56", "title": "GLONASS data is ignored until it can be dated and attributed", "statement": "No GLONASS message is decoded and no callback made while the GPS reference time is unset, or for the unknown satellite id 255.", "quantifier": "all GLONASS messages and states", "why_tests_cant": "all histories", "anchors": ["src/parsers/nav.cpp:NavParser::decodeGlonass"]}
{"id": "C57", "title": "Galileo pages are accepted only with a correct CRC", "statement": "decodeGalileo stores page data only if both halves are nominal (not alert) pages, in even/odd order, and the CRC-24Q over the 4 padding bits and the 114+82 protected bits equals the transmitted one; otherwise nothing changes.", "quantifier": "all page contents", "why_tests_cant": "all pages", "anchors": ["src/parsers/nav.cpp:NavParser::decodeGalileo"]}
{"id": "C58", "title": "A Galileo ephemeris is only reported from one consistent issue of data", "statement": "Every Galileo ephemeris callback has word types 0..4 in place, word 0 time field 2 and equal IODnav in words 1-4, and reports exactly the values encoded in those words.", "quantifier": "all histories of SFRBX messages", "why_tests_cant": "all histories", "anchors": ["src/parsers/nav.cpp:NavParser::decodeGalileo", "src/parsers/nav.cpp:NavParser::decode_gal_inav"]}
{"id": "C59", "title": "Galileo decoding is memory safe", "statement": "No Galileo SFRBX message makes the decoder access memory outside its page store.", "quantifier": "all messages with all satellite ids 0..255", "why_tests_cant": "adversarial ids; silent corruption", "anchors": ["src/parsers/nav.cpp:NavParser::decodeGalileo", "src/parsers/nav.cpp:subfrm"]}
{"id": "C60", "title": "GPS decoding is free of undefined behaviour", "statement": "No GPS SFRBX message makes decodeGPS read or write outside its buffers or overflow an integer.", "quantifier": "all messages and satellite states", "why_tests_cant": "all contents", "anchors": ["src/parsers/nav.cpp:NavParser::decodeGPS"]}
{"id": "C61", "title": "SFRBX handling is free of undefined behaviour", "statement": "Processing any SFRBX message from any constellation is free of undefined behaviour (in particular no function with a result flows off its end).", "quantifier": "all SFRBX messages", "why_tests_cant": "UB may be invisible in any given build", "anchors": ["src/parsers/nav.cpp:NavParser::convertUBX", "src/parsers/nav.cpp:NavParser::decodeBeidou", "src/parsers/nav.cpp:decodeGlonassFrame1", "include/UBLOX/parsers/nav.h:operator<<"]}
{"id": "C62", "title": "convertUBX tells the caller whether an ephemeris was reported", "statement": "convertUBX returns true if and only if the message completed an ephemeris and the callbacks were called.", "quantifier": "all messages and states", "why_tests_cant": "all histories", "anchors": ["src/parsers/nav.cpp:NavParser::convertUBX", "src/parsers/nav.cpp:decodeGPS", "src/parsers/nav.cpp:decodeGlonass"]}
{"id": "C63", "title": "NMEA reader: framing and memory safety", "statement": "NMEA::read_cb never stores outside its 82-byte buffer, and returns true exactly on the newline ending a sentence that began with $G.", "quantifier": "all byte streams", "why_tests_cant": "all streams", "anchors": ["src/parsers/nmea.cpp:NMEA::read_cb"]}
{"id": "C64", "title": "Log replay reproduces the recorded stream", "statement": "Replaying a log delivers to each listener, in order, exactly the recorded bytes, in chunks of at most 14 bytes; together with C04 the callbacks are those of the live session.", "quantifier": "all recorded streams", "why_tests_cant": "all lengths and contents", "anchors": ["src/examples/logger.h:Logger::play", "src/examples/logger.h:Logger::read_cb"]}
{"id": "C65", "title": "Constellation and signal tables are unambiguous", "statement": "sigId maps distinct (gnssId,sigId) pairs it knows to distinct codes and everything else to -1; sysId maps every satellite number to at most one constellation.", "quantifier": "all integers", "why_tests_cant": "unbounded domain", "anchors": ["include/UBLOX/parsers/ubx_defs.h:sigId", "include/UBLOX/parsers/ubx_defs.h:sysId"]}
{"id": "C66", "title": "ROS node: combined ECEF message is published once per epoch", "statement": "The combined ECEF message is published exactly when position, velocity and PVT of the same epoch have all arrived, and carries all three velocity components.", "quantifier": "all interleavings of POSECEF, VELECEF, PVT messages", "why_tests_cant": "all interleavings", "anchors": ["src/ros/ublox_ros.cpp:pvtCB", "src/ros/ublox_ros.cpp:posECEFCB", "src/ros/ublox_ros.cpp:velECEFCB"]}
{"id": "C67", "title": "ROS node: carrier frequency of an observation", "statement": "For each raw measurement the published carrier frequency is that of the measurement's signal (GPS L1/L2, Galileo E1, QZSS L1, GLONASS with its frequency slot freqId-7).", "quantifier": "all measurements", "why_tests_cant": "all combinations", "anchors": ["src/ros/ublox_ros.cpp:obsCB", "include/UBLOX/parsers/ubx_defs.h:sigId", "msg/Observation.msg"]}
{"id": "C68", "title": "MSM header decoding stays in bounds", "statement": "Decoding an MSM header with zero-initialised counters lists exactly the satellites and signals whose mask bits are set, in increasing order, and never writes outside its arrays; it returns -1 exactly when there are more than 64 cells and otherwise the number of cell bits set.", "quantifier": "all message contents", "why_tests_cant": "2^96 masks", "anchors": ["include/UBLOX/parsers/msm.h:MSM::decodeHeader"]}
{"id": "C69", "title": "Scale factors match the interface documents", "statement": "Every scale constant P2_n used by the decoders is 2^-n to a relative accuracy better than 10^-14.", "quantifier": "all scale constants", "why_tests_cant": "exact rational comparison", "anchors": ["include/UBLOX/parsers/nav.h:P2_43", "include/UBLOX/parsers/msm.h:P2_10"]}
{"id": "C70", "title": "Device never corrupts memory on any receiver stream", "statement": "No byte stream from the receiver makes the whole driver (framing, version parsing, RTCM, ephemeris decoding) perform undefined behaviour.", "quantifier": "all byte streams and roles", "why_tests_cant": "adversarial streams", "anchors": ["src/ublox.cpp:UBLOX::read_cb"]}
{"id": "C71", "title": "UTCTime plus or minus a number of seconds given as double", "statement": "Adding or subtracting a double number of seconds moves the instant by exactly that many (whole) nanoseconds, and constructing a UTCTime from a double denotes it to the nanosecond.", "quantifier": "all times and all representable numbers of seconds, negative ones included", "why_tests_cant": "all values", "anchors": ["src/utctime.cpp:UTCTime::operator+", "src/utctime.cpp:UTCTime::UTCTime", "include/UBLOX/utctime.h:UTCTime"]}
{"id": "C72", "title": "Whole device recovers after any garbage", "statement": "Whatever bytes the receiver has sent, after a bounded number of further bytes the device is between messages and the next well-formed frame of either protocol is delivered.", "quantifier": "all received histories and all continuations", "why_tests_cant": "every garbage prefix", "anchors": ["src/ublox.cpp:UBLOX::read_cb", "src/parsers/ubx.cpp:UBX::read_cb"]}
{"id": "C73", "title": "A device that is not a base is a plain UBX driver", "statement": "On a device that was never configured as base, RTCM content in the receiver's stream has no influence: listeners see exactly the UBX frames the UBX grammar finds in the whole byte stream, and nothing is written to any RTK link.", "quantifier": "all histories without config_base and all streams", "why_tests_cant": "all streams mixing both protocols", "anchors": ["src/ublox.cpp:UBLOX::read_cb"]}
{"id": "C74", "title": "Reconfiguring the role stops the old traffic", "statement": "After reconfiguring a device (base to rover, rover to base, rover to another link), traffic of the previous role stops: a former base writes nothing to the old link, data arriving on a link that is no longer the configured one is not sent to the receiver.", "quantifier": "all configuration histories and all later traffic", "why_tests_cant": "all histories", "anchors": ["src/ublox.cpp:UBLOX::config_base", "src/ublox.cpp:UBLOX::config_rover"]}
{"id": "C75", "title": "Role configuration sends exactly the documented messages", "statement": "config_rover sends exactly the seven CFG-VALSET messages switching the RTCM outputs off, config_base for a moving base the seven switching them on; for a stationary base these, the survey-in settings, and a CFG-TMODE3 survey-in request whose unused fields are zero.", "quantifier": "all device histories and interfaces", "why_tests_cant": "independent of everything sent and received before", "anchors": ["src/ublox.cpp:UBLOX::config_base", "src/ublox.cpp:UBLOX::config_rover"]}
{"id": "C76", "title": "NMEA sentences are reported exactly as received", "statement": "Each NMEA sentence ($G...CR LF, up to the 82 characters the standard allows) received is reported once, at its last byte, as exactly its own bytes, whatever was received before it.", "quantifier": "all prior byte streams and all sequences of sentences", "why_tests_cant": "unbounded histories; the effect of stale buffer contents", "anchors": ["src/parsers/nmea.cpp:NMEA::read_cb", "include/UBLOX/parsers/nmea.h:NMEA"]}
{"id": "C77", "title": "Serial data reaches every listener, in order", "statement": "Every buffer received on a serial interface goes unchanged to the registered callback (the one registered last) and then to every listener in order of registration, once per registration.", "quantifier": "all registration orders and all buffers", "why_tests_cant": "all registration histories", "anchors": ["include/UBLOX/serial_interface.h:SerialInterface"]}
{"id": "C78", "title": "Message structures show the documented fields", "statement": "For every payload of NAV-PVT, NAV-RELPOSNED, NAV-POSECEF, NAV-VELECEF, NAV-SVIN, RXM-SFRBX and RXM-RAWX, each field read through the union member has the value the protocol specification gives to those payload bytes, sign included.", "quantifier": "all payloads and all documented fields", "why_tests_cant": "all payload values", "anchors": ["include/UBLOX/parsers/ubx_defs.h:NAV_PVT_t", "include/UBLOX/parsers/ubx_defs.h:NAV_SVIN_t", "include/UBLOX/parsers/ubx_defs.h:RXM_RAWX_t"]}
{"id": "C79", "title": "ROS node: PositionVelocityTime", "statement": "For every NAV-PVT message the node publishes one PositionVelocityTime with the documented date, time, flags, position (degrees, metres), velocity and accuracies (SI units).", "quantifier": "all node states and all payloads", "why_tests_cant": "all payload values", "anchors": ["src/ros/ublox_ros.cpp:pvtCB"]}
{"id": "C80", "title": "ROS node: RelPos", "statement": "For every NAV-RELPOSNED message the node publishes one RelPos whose coarse and high-precision parts add up to the documented relative position in metres, with the documented accuracies, and heading and heading accuracy in radians.", "quantifier": "all payloads", "why_tests_cant": "all payload values", "anchors": ["src/ros/ublox_ros.cpp:relposCB", "msg/RelPos.msg"]}
{"id": "C81", "title": "ROS node: SurveyStatus", "statement": "For every NAV-SVIN message the node publishes one SurveyStatus with the documented duration, observation count, accuracy and flags, and whose coarse and high-precision parts add up to the documented mean position in metres.", "quantifier": "all payloads", "why_tests_cant": "all payload values", "anchors": ["src/ros/ublox_ros.cpp:svinCB", "msg/SurveyStatus.msg"]}
{"id": "C82", "title": "ROS node: raw observations are published", "statement": "For every RXM-RAWX message the node publishes one observation vector with one element per measurement, carrying its satellite, signal strength, lock time and observables.", "quantifier": "all payloads", "why_tests_cant": "all numbers of measurements", "anchors": ["src/ros/ublox_ros.cpp:obsCB"]}
{"id": "C83", "title": "convertUBX converts every measurement", "statement": "convertUBX turns an RXM-RAWX message announcing n measurements into exactly n observations, the i-th carrying the fields of measurement i.", "quantifier": "all payloads", "why_tests_cant": "all numbers of measurements", "anchors": ["src/obs.cpp:convertUBX"]}
{"id": "C84", "title": "Half-cycle indicator of phase observations", "statement": "The loss-of-lock indicator of an observation says half-cycle ambiguity exactly when there is a phase measurement whose tracking status reports an unresolved or subtracted half cycle.", "quantifier": "all measurements", "why_tests_cant": "all status bytes and phases", "anchors": ["src/obs.cpp:convertUBX", "src/ros/ublox_ros.cpp:obsCB"]}
{"id": "C85", "title": "ROS node receives what it subscribes to", "statement": "The node, once constructed, is handed every NAV-PVT, NAV-POSECEF, NAV-VELECEF and RXM-RAWX message (and NAV-SVIN on a base, NAV-RELPOSNED on a rover) the receiver sends, and every ephemeris, so that they are published.", "quantifier": "all construction schedules, parameters and later traffic", "why_tests_cant": "all received streams", "anchors": ["src/ros/ublox_ros.cpp:UBLOX_ROS::UBLOX_ROS"]}
{"id": "C86", "title": "Rover example: status line", "statement": "The rover example reports RTK, moving-base, float, fixed and valid solution exactly when the corresponding bit of the NAV-RELPOSNED flags is set.", "quantifier": "all flag words", "why_tests_cant": "2^32 flag words", "anchors": ["src/examples/rover.cpp:relposned_callback"]}
{"id": "C87", "title": "Nobody is called who did not ask", "statement": "A UBX listener is called only with messages of a class and id it has subscribed to, and only after it has been registered; ephemeris callbacks are called only if registered; an RTK link is written to only if config_base was called with it.", "quantifier": "all device histories and all events", "why_tests_cant": "all interleavings of registration, configuration and traffic", "anchors": ["src/ublox.cpp:UBLOX::read_cb", "src/parsers/ubx.cpp:UBX::read_cb", "include/UBLOX/ublox.h:UBLOX"]}
{"id": "C88", "title": "MSM5 decoding reports success", "statement": "Decoding an MSM5 message whose header has at most 64 cells reads inside the message object and reports success (returns a non-negative number); it returns -1 exactly for more cells.", "quantifier": "all objects, masks and clocks", "why_tests_cant": "2^96 masks and the undefined behaviour of a missing return does not fail reproducibly", "anchors": ["include/UBLOX/parsers/msm.h:MSM5::decode"]}
{"id": "C89", "title": "NMEA::new_data reports received sentences", "statement": "A call of NMEA::new_data returns true exactly when a sentence has been received since the previous call (or since construction).", "quantifier": "all interleavings of NMEA::read_cb, NMEA::restart and NMEA::new_data calls", "why_tests_cant": "all histories", "anchors": ["src/parsers/nmea.cpp:NMEA::new_data", "include/UBLOX/parsers/nmea.h:NMEA"]}
{"id": "C90", "title": "ROS node: ephemeris messages carry the reported ephemeris unchanged", "statement": "For every ephemeris the navigation decoder reports (GPS, Galileo or GLONASS), the Ephemeris / GlonassEphemeris message the ROS node builds from it carries every orbit, clock, health, accuracy and issue-of-data value and both time stamps exactly: no value is truncated or wrapped by a narrower message member.", "quantifier": "every history of subframe messages, callback registrations and reasonable reference times, in every build mode; every reported ephemeris", "why_tests_cant": "the narrowing is harmless only because of the range every decoded field has in every history; a test sees single values", "anchors": ["src/ros/ublox_ros.cpp: UBLOX_ROS::ephCB, gephCB", "msg/Ephemeris.msg", "msg/GlonassEphemeris.msg", "src/parsers/nav.cpp: decode functions"]}
{"id": "C91", "title": "UTCTime::toSec is accurate and order preserving", "statement": "For every normalised time from 1970 to 2038, toSec returns the number of seconds to within 120 ns, UTCTime(t.toSec()) is t to within 376 ns, and toSec never reverses the order of two times, in IEEE double arithmetic.", "quantifier": "all normalised times with seconds below 2^31 (order: below 2^52)", "why_tests_cant": "rounding errors depend on every bit of the operands; no sample covers them", "anchors": ["src/utctime.cpp:UTCTime::toSec", "src/utctime.cpp:UTCTime::UTCTime"]}
{"id": "C92", "title": "Raw observations carry the time of measurement", "statement": "The time stamp given to the observations of a raw measurement message (by the library's convertUBX and by the ROS node) is the GPS time of the measurement contained in the message, to the millisecond.", "quantifier": "all raw measurement messages, all GPS weeks and times of week", "why_tests_cant": "the time of week is a double; all values", "anchors": ["src/obs.cpp:convertUBX", "src/ros/ublox_ros.cpp:UBLOX_ROS::obsCB", "src/utctime.cpp:UTCTime::fromGPS"]}
{"id": "C93", "title": "Numbers published by the ROS node are right to double precision and lossless", "statement": "In IEEE double arithmetic, every floating-point number in a published PositionVelocityTime, RelPos or (non-negative) survey position is the documented value of the received field with a relative error of at most 2^-50, and rounding it at the documented resolution gives back exactly the integer the receiver sent.", "quantifier": "all payloads of the three messages", "why_tests_cant": "all 2^32 values of every field and all roundings", "anchors": ["src/ros/ublox_ros.cpp: UBLOX_ROS::pvtCB, relposCB, svinCB", "msg/PositionVelocityTime.msg", "msg/RelPos.msg", "msg/SurveyStatus.msg"]}
{"id": "C94", "title": "A recorded log can be replayed through a newly created device", "statement": "Opening a readable log, creating a device on it and replaying the log delivers the recorded bytes to the device's parsers and listeners; creating the device does not fail because the bytes are not yet being replayed.", "quantifier": "every log content (also empty or missing), every way time passes while the device is being created, and every previous content of the parsers' memory", "why_tests_cant": "The outcome depends on what arrives during timed waits; a test can only try some waits, and none with the real timing of every host.", "anchors": ["/repo/src/examples/read_log.cpp: main", "/repo/src/examples/logger.h: Logger::play, Logger::write", "/repo/src/ublox.cpp: UBLOX::UBLOX", "/repo/src/parsers/ubx.cpp: UBX::get_version"]}
{"id": "C95", "title": "The numbers of a reported ephemeris are faithful in double arithmetic", "statement": "In IEEE double arithmetic, every floating-point member of an ephemeris handed to a callback is a finite number within a relative 10^-14 of the interface document's value (transmitted integer times scale factor), and dividing it by the scale factor and rounding gives back the transmitted integer. The harmonic coefficients, the root of the semi-major axis and, for GLONASS, position, velocity, acceleration and clock bias are exact.", "quantifier": "every history of subframe messages, callback registrations and reference times; every reported GPS, Galileo or GLONASS ephemeris and every floating-point member", "why_tests_cant": "2^32 values of every member, and every history that may leave a member from an earlier message", "anchors": ["src/parsers/nav.cpp: decode functions", "include/UBLOX/parsers/nav.h: P2_5 .. P2_59, PI"]}
{"id": "C96", "title": "Signed fields of MSM5 messages keep their sign", "statement": "The rates, fine pseudoranges, fine phase ranges and fine rates an MSM5 decoder stores are the signed numbers of the message, and the members are left alone for the most negative number, which means no data.", "quantifier": "all values of the four fields", "why_tests_cant": "2^22 values; the tests of the repository never decode an MSM message", "anchors": ["include/UBLOX/parsers/msm.h: MSM5::decode, MSM::getBits"]}
{"id": "C97", "title": "Printing a time shows its UTC calendar date; distinct seconds print differently", "statement": "For every UTCTime whose seconds are within about 41 million years of 1970, streaming it with operator<< writes exactly `year/month/day hour:minute:second` (decimal, unpadded) of the one Gregorian UTC date and time of day whose POSIX second it is, and two such times print alike exactly if they have the same whole second (nanoseconds are not shown). Outside that range the print is undefined because an unused week number does not fit an int.", "quantifier": "every UTCTime, every gmtime that meets POSIX", "why_tests_cant": "all 64-bit second counts cannot be enumerated; leap-year and month boundaries are easily missed by samples", "anchors": ["src/utctime.cpp: operator<<"]}
{"id": "C98", "title": "Listeners may be registered while data are arriving", "statement": "Registering a listener (on a serial interface, for UBX messages, for RTCM messages, or an ephemeris callback) at any moment, also while the receive thread is handing data to the listeners already there or from inside a callback, never disturbs a delivery: everything received is handed, in order and exactly once, to exactly the listeners that were registered when its delivery began.", "quantifier": "every number of listeners, every history of data and registrations, every interleaving of the registering thread with the receive thread, every growth policy of std::vector", "why_tests_cant": "the window between two steps of the receive thread is a few instructions wide; a test meets it by luck only", "anchors": ["include/UBLOX/serial_interface.h: SerialInterface::add_listener", "include/UBLOX/async_comm_adapter.h: Serial::receive_callback", "src/parsers/ubx.cpp: UBX::registerListener", "src/parsers/rtcm.cpp: RTCM::registerListener", "src/parsers/nav.cpp: NavParser::registerCallback"]}
{"id": "C99", "title": "Corrections never end up inside a command", "statement": "On a rover, whatever the application sends (configuration calls) while corrections keep arriving on the RTK link, the receiver is sent whole UBX frames and whole correction buffers, each kind in its order: no correction is ever written into the middle of a frame.", "quantifier": "every sequence of commands, every sequence of correction buffers, every interleaving of the application's thread with the link's thread", "why_tests_cant": "the interleaving of two threads writing to one port depends on timing", "anchors": ["src/parsers/ubx.cpp: UBX::send_message, UBX::write", "src/ublox.cpp: UBLOX::config_rover"]}
{"id": "C100", "title": "Every ephemeris report names the sender of the message that completed it and reaches every callback once", "statement": "Handling one RXM-SFRBX message causes either no callback at all or exactly one report: a single ephemeris whose satellite number and constellation (and, for GLONASS, frequency channel) are those of that message, handed once, in the order of registration, to each callback of its kind registered up to then and to nobody else. Registering callbacks and setting the time cause no calls.", "quantifier": "every history of messages of any constellations and contents, registrations and time updates", "why_tests_cant": "all histories and all message contents", "anchors": ["src/parsers/nav.cpp: NavParser::convertUBX, decodeGPS, decodeGlonass, decodeGalileo", "include/UBLOX/parsers/nav.h: registerCallback, got_ubx"]}
{"id": "C101", "title": "read_serial lists exactly the satellites whose ephemeris was received", "statement": "In every run of read_serial, the GPS, Galileo and GLONASS lists are exactly the satellites for which an ephemeris of that constellation was reported since the callbacks were registered, each once and in increasing order; each of them sent a subframe message of that constellation; every printed total equals the number of satellites printed after it.", "quantifier": "every sequence of subframe messages before, between and after the two registrations", "why_tests_cant": "all message sequences", "anchors": ["src/examples/read_serial.cpp: eph_callback, geph_callback, main"]}
{"id": "C102", "title": "Configuration items are encoded as the receiver reads them", "statement": "A configure call sets exactly the key it names to exactly the value it is given: the CFG-VALSET message it sends is, to a receiver that reads it as a list of key-value items whose width is announced by the key, exactly that one item; get_configuration asks for exactly the key it names; the settings the driver makes itself (NMEA off, navigation rate, dynamic model, RTCM output rates) are such messages.", "quantifier": "all keys, values, sizes, versions, layers and all previous histories", "why_tests_cant": "every key and value; needs the receiver's reading of the message, not the bytes one expects", "anchors": ["src/parsers/ubx.cpp:UBX::configure", "src/parsers/ubx.cpp:UBX::get_configuration", "include/UBLOX/parsers/ubx_defs.h:CFG_VALSET_t", "include/UBLOX/parsers/ubx_defs.h:CFG_VALGET_t"]}
{"id": "C103", "title": "The settings the driver makes mean what the code documents", "statement": "disable_nmea on the old protocol sets a port to UBX and RTCM3 only, 921600 baud, 8 data bits, no parity, one stop bit; set_dynamic_mode selects the same dynamic model on both protocols; start_survey_in asks for an accuracy of 3 cm.", "quantifier": "all parser states and protocol versions", "why_tests_cant": "needs the receiver's reading of the fields, in every state", "anchors": ["src/parsers/ubx.cpp:UBX::disable_nmea", "src/parsers/ubx.cpp:UBX::set_dynamic_mode", "src/parsers/ubx.cpp:UBX::start_survey_in", "include/UBLOX/parsers/ubx_defs.h:CFG_PRT_t", "include/UBLOX/parsers/ubx_defs.h:CFG_TMODE3_t"]}
{"id": "C104", "title": "No object is called after its destruction", "statement": "In the example programs and after a failed device construction, whatever data arrive on the serial port and the UDP link and whenever they do, no listener, logger, device or link is called after it has been destroyed.", "quantifier": "all interleavings of the main thread with data on both links, from start-up to the end of main", "why_tests_cant": "all schedules", "anchors": ["src/examples/base.cpp:main", "src/examples/rover.cpp:main", "src/examples/read_serial.cpp:main", "src/ublox.cpp:UBLOX::UBLOX", "include/UBLOX/async_comm_adapter.h:Serial::receive_callback"]}
{"id": "C105", "title": "The example programs print what the message says", "statement": "read_log prints the documented time, position and velocity of every NAV-PVT message and one line per measurement of every RXM-RAWX message; base prints the documented state, duration, mean position and accuracy of every NAV-SVIN message.", "quantifier": "all payloads", "why_tests_cant": "all field values, including signs and counts", "anchors": ["src/examples/read_log.cpp:UBX_Callback_Handler::pvt_callback", "src/examples/read_log.cpp:UBX_Callback_Handler::rawx_callback", "src/examples/base.cpp:UBX_Callback_Handler::svin_callback"]}
{"id": "C106", "title": "MSM5 observations are read where RTCM puts them", "statement": "For every number of satellites, signals and cells, the ten blocks of observations of an MSM5 message are read in the documented order, with the documented widths, each from the documented bit of the frame.", "quantifier": "all numbers of satellites, signals and cells", "why_tests_cant": "all shapes of the message", "anchors": ["include/UBLOX/parsers/msm.h:MSM5::decode"]}
{"id": "C107", "title": "ROS node: stays connected to its receiver", "statement": "From its construction to its destruction, in every role, the ROS node's device gets the data the receiver sends, a rover's corrections are written to the receiver, and no destroyed object is used, whatever arrives on either link and whenever.", "quantifier": "all roles, all interleavings of construction, data on both links, and destruction", "why_tests_cant": "all schedules", "anchors": ["src/ros/ublox_ros.cpp:UBLOX_ROS::UBLOX_ROS", "include/UBLOX/ublox_ros.h:UBLOX_ROS", "src/ublox.cpp:UBLOX::config_rover"]}
{"id": "C108", "title": "The example programs announce every ephemeris correctly", "statement": "For every reported ephemeris, read_log and read_serial print its constellation, its satellite number, the current date, its reference date (toe) and the date its frame was sent (tof), as UTC calendar dates; the totals read_serial prints say which constellation, how many satellites and which.", "quantifier": "all reported ephemerides, all times", "why_tests_cant": "all field values and times", "anchors": ["src/examples/read_log.cpp:eph_callback", "src/examples/read_log.cpp:geph_callback", "src/examples/read_serial.cpp:eph_callback", "src/examples/read_serial.cpp:geph_callback", "include/UBLOX/parsers/nav.h:EphBase::Type"]}
{"id": "C109", "title": "A command is confirmed only by its own acknowledgement", "statement": "When an application sends a command and then calls wait_for_response, the answer is true if and only if the receiver has acknowledged that very command since it was sent (and before the call returned).", "quantifier": "all reachable parser states, all commands, all bytes received before and during the wait and their timing", "why_tests_cant": "all arrival times of all messages", "anchors": ["src/parsers/ubx.cpp:UBX::wait_for_response", "src/parsers/ubx.cpp:UBX::decode_message"]}
{"id": "C110", "title": "Flag constants select the documented bits", "statement": "For every flag constant that the message structures offer (fix status, carrier solution, raw-data status, port and survey modes, buffer errors) and every value of the flag word: testing the word with the constant answers what the interface description says that bit or state means.", "quantifier": "all flag constants of the structures, all values of the flag words", "why_tests_cant": "every constant against every value of the word", "anchors": ["include/UBLOX/parsers/ubx_defs.h:NAV_PVT_t", "include/UBLOX/parsers/ubx_defs.h:NAV_RELPOSNED_t", "include/UBLOX/parsers/ubx_defs.h:MON_TXBUF_t", "include/UBLOX/parsers/ubx_defs.h:CFG_TMODE3_t", "include/UBLOX/parsers/ubx_defs.h:CFG_PRT_t"]}
{"id": "C111", "title": "A BitField reads exactly the bits it names", "statement": "Reading a BitField<first,size> gives the number made of bits first .. first+size-1 of the underlying array (least significant first in the default byte order, most significant first when switched), for every field that lies within the array, and touches no memory outside it.", "quantifier": "all arrays, positions, sizes up to 32 bits, both byte orders", "why_tests_cant": "all alignments, sizes and contents", "anchors": ["include/UBLOX/bitfield.h:BitField::operator unsigned"]}
{"id": "C112", "title": "Ephemeris callbacks are what the decoder makes of the SFRBX frames received", "statement": "Over the whole life of a device that is not configured as a base, from its constructor on, the ephemeris callbacks that are called, in order and with their arguments, are exactly those a navigation decoder makes when it is told the callbacks the user registered and the payloads of the good RXM-SFRBX frames in the received byte stream, in order; nothing else the receiver or the user does matters.", "quantifier": "all byte streams, all ways they are cut into reads, all histories of registrations, subscriptions, rover configuration and RTK data", "why_tests_cant": "unbounded streams and histories; interleaving of construction, registration and traffic", "anchors": ["src/ublox.cpp:UBLOX::serial_read_cb", "src/parsers/nav.cpp:NavParser::got_ubx", "include/UBLOX/ublox.h:registerEphCallback"]}
{"id": "C113", "title": "End to end: transmitted GPS parameters reach the callback", "statement": "When a device that is not configured as a base receives, in good frames among any other traffic, the three RXM-SFRBX messages with the subframes that encode ephemeris parameters of a GPS satellite (subframe 3 not first, nothing about that satellite number before or in between), every ephemeris callback registered by then is called exactly once, with exactly those parameters, when the last one is complete, and none was called for that satellite before.", "quantifier": "all parameter values that fit their fields, all filler bits, all other traffic, all cuts of the byte stream", "why_tests_cant": "all contents, all interleavings", "anchors": ["src/ublox.cpp:UBLOX::serial_read_cb", "src/parsers/ubx.cpp:UBX::read_cb", "src/parsers/nav.cpp:NavParser::got_ubx"]}
{"id": "C114", "title": "The devices of a process are independent", "statement": "In a process with any number of UBLOX objects, created, configured, used and destroyed in any order, each object calls its listeners, writes to its receiver and forwards to its RTK links exactly as it would in a process of its own; and it runs into no undefined behaviour that it would not run into alone.", "quantifier": "all histories of a process with any number of devices, all byte streams of their receivers and links, all cuts", "why_tests_cant": "unbounded histories; the effect of one object on another through static variables shows only for particular interleavings of particular messages", "anchors": ["src/parsers/nav.cpp:NavParser::decodeGalileo", "src/ublox.cpp:UBLOX::config_rover", "src/ublox.cpp:UBLOX::UBLOX"]}
{"id": "C115", "title": "What a device passes on was received in one piece", "statement": "Every UBX message a listener is called with, and every RTCM message a base forwards, is a complete valid frame whose bytes followed each other without gaps in what the receiver sent, ending with the byte just read, whatever roles the device was given before and whenever.", "quantifier": "all byte streams, all cuts, all histories of role changes, registrations and commands", "why_tests_cant": "role changes can fall between any two bytes of any message; unbounded streams", "anchors": ["src/ublox.cpp:UBLOX::read_cb", "src/ublox.cpp:UBLOX::config_base", "src/parsers/rtcm.cpp:RTCM::read_cb", "src/parsers/ubx.cpp:UBX::read_cb"]}
{"id": "C116", "title": "Raw measurement messages of any content are handled safely", "statement": "Handling a raw measurement message with a valid checksum, whatever its fields say (time, week, number of measurements), never is undefined behaviour: convertUBX returns observations and the ROS node stamps its message.", "quantifier": "all payloads", "why_tests_cant": "2^64 times, 2^16 weeks and the number of measurements interact", "anchors": ["src/obs.cpp:convertUBX", "src/ros/ublox_ros.cpp:UBLOX_ROS::obsCB", "src/utctime.cpp:UTCTime::fromGPS"]}
{"id": "C117", "title": "End to end: transmitted Galileo parameters reach the callback", "statement": "A device that is not a base and receives, in UBX frames cut anywhere and mixed with other traffic, word 2 and then the other words 0 to 6 of a batch of Galileo ephemeris parameters (in any order and number, with damaged pages between) calls every registered ephemeris callback once per further good page, with exactly these parameters, dated by a word 0 received.", "quantifier": "all parameter values, all histories of a device, all interleavings and cuttings", "why_tests_cant": "the byte stream, the framing, the page assembly and 23 parameters of up to 32 bits interact", "anchors": ["src/ublox.cpp:UBLOX", "src/parsers/ubx.cpp:UBX::read_cb", "src/parsers/nav.cpp:decodeGalileo"]}
{"id": "C118", "title": "End to end: transmitted GLONASS parameters reach the callback, dated by GPS", "statement": "A device that is not a base, has reported a GPS ephemeris and then receives, in UBX frames cut anywhere and mixed with other traffic, strings 1, 2 and 3 of a GLONASS satellite in any order and then string 4, all with one time mark, calls every registered GLONASS callback once, with exactly the transmitted parameters and with the instants closest to the time of the GPS ephemeris reported last that have the transmitted times of day - whatever was received before, and although further GPS ephemerides, of times less than half a day apart, may be reported in between.", "quantifier": "all parameter values, all histories of a device, all interleavings and cuttings", "why_tests_cant": "the byte stream, the framing, two decoders that share a reference time, and 19 parameters interact", "anchors": ["src/ublox.cpp:UBLOX", "src/parsers/ubx.cpp:UBX::read_cb", "src/parsers/nav.cpp:decodeGlonass", "src/parsers/nav.cpp:decodeGPS"]}
{"id": "C119", "title": "Sending does not disturb receiving, nor receiving sending", "statement": "However the bytes that arrive, the configuration calls and the starts of waiting for an acknowledgement are interleaved, what every received byte shows (accepted or not, messages delivered to listeners) is what it would show had no call been made, and the bytes written to the serial port are those the calls alone would write.", "quantifier": "all interleavings of received bytes, configuration calls and resets of the acknowledgement flags, from every state of the parser", "why_tests_cant": "the number of interleavings is unbounded and the receiving and sending buffers live in one object", "anchors": ["src/parsers/ubx.cpp:UBX::read_cb", "src/parsers/ubx.cpp:UBX::send_message", "src/parsers/ubx.cpp:UBX::configure", "src/parsers/ubx.cpp:UBX::enable_message"]}
{"id": "C120", "title": "The RTK link tolerates loss, repetition and reordering of datagrams", "statement": "If a network hands a rover any of the datagrams a base wrote to its RTK interface, in any number and order, the rover does not fail, its receiver is sent exactly the datagrams that arrived, one write each and in the order of arrival, each a whole RTCM3 frame with a valid CRC (never a piece of one), and the rover is ready for the next datagram.", "quantifier": "all histories of the base and of the rover, all selections, repetitions and orders of datagrams", "why_tests_cant": "the losses and orders of a network are unbounded, and a frame spread over two writes would break under any one of them", "anchors": ["src/ublox.cpp:UBLOX::got_rtcm", "src/ublox.cpp:UBLOX::config_rover", "src/parsers/rtcm.cpp:RTCM::read_cb", "src/ublox.cpp:UBLOX::read_cb"]}
{"id": "C121", "title": "After garbage the driver falls in step again", "statement": "Whatever was received before, and whatever message a damaged header may have opened: when well-formed messages that contain their own start sequence only at the start arrive, at most the messages starting within the first 2054 bytes (UBX) or 1024 bytes (RTCM3) are lost, and from there on every single message is delivered to exactly its listeners, with its content.", "quantifier": "all histories, all sequences of messages of all lengths", "why_tests_cant": "the state left behind by garbage and the sequence of messages are unbounded, and a wrong reset shows only for particular alignments", "anchors": ["src/parsers/ubx.cpp:UBX::read_cb", "src/parsers/rtcm.cpp:RTCM::read_cb"]}
{"id": "C122", "title": "After garbage the whole device falls in step again", "statement": "When a device between messages receives arbitrary bytes and then well-formed messages that contain no start sequence inside, at most the messages starting within the first 2054 bytes after the garbage are lost; all others have exactly their effects: on a base every UBX message at its subscribers (ephemeris data also at the decoder) and every RTCM3 frame on the link, in other roles every UBX message.", "quantifier": "all histories of a device, all garbage, all sequences of messages", "why_tests_cant": "the garbage can leave either parser open at any place and the two parsers hide bytes from each other", "anchors": ["src/ublox.cpp:UBLOX::read_cb", "src/parsers/ubx.cpp:UBX::read_cb", "src/parsers/rtcm.cpp:RTCM::read_cb"]}
{"id": "C123", "title": "Example programs: every frame received is reported once, in order", "statement": "Whatever the receiver sends, in whatever pieces, the console of rover shows one report with the documented time, relative position and solution state for each NAV-RELPOSNED frame, that of base one survey report for each NAV-SVIN frame, and that of read_log one report for each NAV-PVT and RXM-RAWX frame of the log - frames with a good checksum, in the order received - and nothing else.", "quantifier": "all streams of bytes received by a started program between two messages", "why_tests_cant": "all interleavings of frames, garbage and RTCM data, all field values", "anchors": ["src/examples/rover.cpp:UBX_Callback_Handler", "src/examples/base.cpp:UBX_Callback_Handler", "src/examples/read_log.cpp:UBX_Callback_Handler", "src/ublox.cpp:UBLOX::read_cb"]}
{"id": "C124", "title": "read_serial, from the serial line to the satellite lists", "statement": "However the bytes arrive, read_serial lists a satellite only if RXM-SFRBX frames with a good checksum that name it were received, and (frames with all their words) among them every part of an ephemeris of it; it lists every GPS satellite whose three subframes of one data set arrive, every Galileo satellite whose seven words of one issue of data arrive and, once dated by GPS, every GLONASS satellite whose four strings of one frame arrive; the lists are ascending without repetition and nothing once listed disappears.", "quantifier": "all runs of the program: all streams, cuts, other satellites' data, damaged frames", "why_tests_cant": "all streams and interleavings of satellites", "anchors": ["src/examples/read_serial.cpp:eph_callback", "src/examples/read_serial.cpp:geph_callback", "src/examples/read_serial.cpp:main", "src/parsers/nav.cpp:NavParser::got_ubx"]}
{"id": "C125", "title": "MSM5 observations are stored in the standard's units", "statement": "For every value of the fields, an MSM5 rough range is stored as whole light-milliseconds plus 1/1024-ths of one in metres, fine pseudoranges and phase ranges as 2^-24 and 2^-29 light-milliseconds in metres, fine rates as 0.0001 m/s, rough rates and carrier-to-noise ratios unchanged, with no more error than double rounding.", "quantifier": "all integers read from the message, all previous contents of the array", "why_tests_cant": "a test samples a few values; the bound on the accumulated rounding error must hold for all", "anchors": ["include/UBLOX/parsers/msm.h: MSM5::decode, RANGE_MS, P2_10, P2_24, P2_29"]}
{"id": "C126", "title": "Memory does not grow with what is received", "statement": "However long a device runs and whatever it receives over the serial line and the RTK link, it keeps one ephemeris record per satellite number heard (at most 256 GLONASS and 256 others), its message buffers keep their size, and the lists of listeners and callbacks have as many entries as registration calls were made.", "quantifier": "all histories of received bytes, RTK data and calls of a constructed device, without bound on their length", "why_tests_cant": "a leak shows only after an unbounded run; a test run is finite", "anchors": ["src/parsers/nav.cpp: NavParser::convertUBX", "src/parsers/ubx.cpp: UBX::read_cb", "src/parsers/rtcm.cpp: RTCM::read_cb", "src/ublox.cpp: UBLOX"]}
{"id": "C127", "title": "Uninitialised memory does not influence what a device does", "statement": "Two devices that receive the same bytes between the same calls behave alike, whatever their uninitialised memory held: they call the same listeners and callbacks in the same order with the same payloads and the same ephemerides, and write the same bytes to the receiver and the RTK link.", "quantifier": "all contents of the uninitialised members and of the decoder's stack array, all histories of received bytes, RTK data and calls", "why_tests_cant": "a test sees one memory image per run and cannot enumerate the others", "anchors": ["src/parsers/ubx.cpp: UBX::UBX, UBX::start_survey_in", "include/UBLOX/parsers/ubx.h: UBX", "src/parsers/rtcm.cpp: RTCM", "src/parsers/nav.cpp: NavParser::decodeGPS", "src/ublox.cpp: UBLOX"]}
{"id": "C128", "title": "Times from GPS, Galileo, GLONASS and the clock are on one scale, UTC", "statement": "For every week number and time of week (whole seconds) UTCTime::fromGPS, fromGalileo and fromGlonass give the UTC instant of that GPS, Galileo or GLONASS time, so that they can be compared with each other, with UTCTime::now() and with printed dates.", "quantifier": "all GPS weeks 0 to 3549 and GLONASS weeks 0 to 3550, all whole seconds of the week, all clock readings", "why_tests_cant": "tests compare single dates, and those in the repository apply the same wrong offset to the expected value", "anchors": ["include/UBLOX/utctime.h: GPS_UTC_OFFSET, GLO_UTC_OFFSET", "src/utctime.cpp: UTCTime::fromGPS, UTCTime::fromGalileo, UTCTime::fromGlonass, UTCTime::now"]}
{"id": "C129", "title": "Week and day numbers of a time", "statement": "UTCTime::week(), GpsWeek(), GlonassWeek() and GlonassDayOfWeek() return the number of the week (since 1970, in GPS time, in Moscow time) and of the day in which the time lies; GpsWeek() gives back the week a time was made from.", "quantifier": "all times whose week number fits an int", "why_tests_cant": "the error shows only within 36 s of a week change or before 1970", "anchors": ["src/utctime.cpp: UTCTime::week, UTCTime::GpsWeek, UTCTime::GlonassWeek, UTCTime::GlonassDayOfWeek"]}
{"id": "C130", "title": "The programs write the numbers of a message out correctly", "statement": "Whatever messages arrive, the characters read_log, base and rover write are their reports (C105, C123) with every number written out: integers exactly, values with the given number of decimal places, each correct to half a unit of its last place, floating-point members included; a member that is no number is shown by the word nan or inf. std::ostream << double shows six significant digits, correct to one part in 200000.", "quantifier": "all byte streams, all values of all members (all 2^64 doubles, all 2^32 floats)", "why_tests_cant": "rounding errors of the products, carries in the rounding, signs of small numbers and non-numbers occur for single values out of billions", "anchors": ["src/examples/read_log.cpp: pvt_callback, rawx_callback", "src/examples/base.cpp: svin_callback", "src/examples/rover.cpp: relposned_callback"]}
{"id": "C131", "title": "Writing an ephemeris to a stream lists all its members", "statement": "os << eph writes, for every ephemeris that was reported, a line for the constellation, the satellite and each member in order: integers exactly, times as UTC date and time, floating-point members in decimal to one part in 100000 of the value of the interface document.", "quantifier": "all histories of subframe messages, all reported ephemerides", "why_tests_cant": "all contents of all members; undefined behaviour may be invisible in a given build", "anchors": ["include/UBLOX/parsers/nav.h: operator<<(std::ostream&, const Ephemeris&)", "src/parsers/nav.cpp: NavParser::decodeGalileo"]}
{"id": "C132", "title": "Roles may be configured while data are arriving", "statement": "config_base and config_rover may be called at any moment while the serial thread is receiving. Whatever the interleaving: nothing is undefined on the way from the RTCM parser to the link (the interface pointer is never used before it is set); only intact RTCM messages are written, only to links named in a configuration call, and a message is written to the link of the base it was received for; the first config_base forwards every good message completed after the registration, once, in order, and none before.", "quantifier": "all interleavings of the statements of any number of configuration calls with the bytes received and the steps of forwarding, all histories before, all streams", "why_tests_cant": "the outcome depends on which statement of config_base the serial thread meets; schedules cannot be enumerated by tests", "anchors": ["src/ublox.cpp: config_base, config_rover, read_cb, got_rtcm", "src/parsers/rtcm.cpp: read_cb, decode, registerListener"]}
{"id": "C133", "title": "A GPS data set is picked up whatever was received before", "statement": "Whatever a device has received before (lost subframes, other data sets, stale halves of a data set, Galileo messages under the same number), once a GPS satellite sends subframes 1, 2, 3, 1, 2 of one data set, the registered ephemeris callbacks are called with exactly that data set, at the third, fourth or fifth of them; at most one other report for the satellite is made meanwhile, of the same issue number. If the issue number is not 0 and was not seen before, the report comes at the third subframe and there is no other.", "quantifier": "all histories before the data set, all data sets, all messages of other satellites and other subframes in between, all callback registrations", "why_tests_cant": "the decoder is never reset: a test starts from a fresh decoder, a receiver runs for months with arbitrary gaps", "anchors": ["src/parsers/nav.cpp: decodeGPS, decodeGPSSubframe1, decodeGPSSubframe2, decodeGPSSubframe3, parse_sfrbx"]}
{"id": "C134", "title": "Lost, repeated and reordered subframes delay a GPS data set but do not prevent it", "statement": "From any history on, let a GPS satellite transmit one data set, of whose subframes any arrive, in any order and any number of times. Once subframes 1 and 2 (in any order) and after them subframe 3 have arrived, every further stretch in which each of the three arrives at least once contains a message with which the registered ephemeris callbacks are called with exactly that data set, and contains no other report for the satellite.", "quantifier": "all histories before, all data sets, all patterns of loss, repetition and reordering, all other traffic in between", "why_tests_cant": "the patterns of loss are unbounded, and the state left over by the history is arbitrary", "anchors": ["src/parsers/nav.cpp: decodeGPS, decodeGPSSubframe1, decodeGPSSubframe2, decodeGPSSubframe3, parse_sfrbx"]}
{"id": "C135", "title": "NMEA text between the messages disturbs nothing", "statement": "A device between messages that receives any sequence of well-formed UBX messages, RTCM3 frames (base) and stretches of ASCII text such as NMEA sentences treats every message exactly as it would without the text, each once and in order: UBX messages at their subscribers and the ephemeris decoder, RTCM3 frames on the link. The text causes no call and no write, and afterwards the device is between messages again.", "quantifier": "all histories before, all sequences of messages and text, all contents", "why_tests_cant": "the sequences and the contents of messages and text are unbounded", "anchors": ["src/ublox.cpp: read_cb", "src/parsers/ubx.cpp: read_cb", "src/parsers/rtcm.cpp: read_cb"]}
{"id": "C136", "title": "A crash while recording costs only the end of the log", "statement": "Whenever a recording is cut short (program killed, power lost after the operating system took the bytes, disk full), and whenever the stream library happened to write its buffer out: the file holds an initial part of the bytes received since the recording began; nothing that was once in the file is lost or changed. Replayed (below 2 GiB) to a device in the state the live device was in, it makes an initial part of the live calls and writes: nothing invented, changed or reordered. If nothing failed and the recorder is destroyed in an orderly way, every byte is there.", "quantifier": "all recordings, all moments at which buffers are written out, fail or the program dies, all devices and listeners", "why_tests_cant": "the crash point and the moments of buffer write-out are not under a test's control", "anchors": ["src/examples/logger.h: Logger, read_cb, play", "src/ublox.cpp: read_cb"]}
{"id": "C137", "title": "The recorder reports that it cannot write", "statement": "If bytes given to the recorder cannot be written to the log (disk full, device gone), the program is told by an exception; it does not go on as if it were recording.", "quantifier": "all recordings, all moments of failure", "why_tests_cant": "the moment of failure is arbitrary", "anchors": ["src/examples/logger.h: Logger, read_cb"]}
{"id": "C138", "title": "A listener reads the polled configuration value from the answer", "statement": "When the receiver answers get_configuration with one configuration item, every listener subscribed to CFG-VALGET is called once and reads in cfgDataKey and cfgData the key and the value of the item, whatever was received before.", "quantifier": "all states of the parser between messages, all keys, value widths (1, 2, 4, 8 bytes) and values, all listeners", "why_tests_cant": "depends on every earlier message, whose bytes are still in the buffer", "anchors": ["src/parsers/ubx.cpp:UBX::decode_message, UBX::get_configuration", "include/UBLOX/parsers/ubx_defs.h:CFG_VALGET_t"]}
{"id": "C139", "title": "The connection banner shows the receiver's name and protocol version", "statement": "When the receiver reports its version, the driver prints its module name and protocol version as sent, once, at the last byte of the report; the UBX parser prints nothing else, for any stream.", "quantifier": "all states of the parser, all version reports (as in C15), all byte streams", "why_tests_cant": "all states, payloads and streams", "anchors": ["src/parsers/ubx.cpp:UBX::version_cb, UBX::read_cb"]}
{"id": "C140", "title": "Each correction frame with a wrong check value is reported on the screen, and nothing else", "statement": "For every stream of correction bytes from a state between frames, the parser prints the line RTCM not pass CRC check exactly once for each complete frame whose CRC is wrong, and prints nothing else.", "quantifier": "all byte streams, all reachable parser states between frames, any number of listeners", "why_tests_cant": "the stream is arbitrary", "anchors": ["src/parsers/rtcm.cpp:RTCM::read_cb, RTCM::decode"]}
{"id": "C141", "title": "What the constructor announces happens", "statement": "While connecting, each line Unable to query version. Trying again (n out of 3) is directly followed by the n-th version poll of the receiver.", "quantifier": "all schedules of the serial thread during construction, all bytes received, all initial contents of memory", "why_tests_cant": "all interleavings and timings of answers", "anchors": ["src/ublox.cpp:UBLOX::UBLOX", "include/UBLOX/ublox.h:MAX_NUM_TRIES"]}
{"id": "C142", "title": "The published signal number names the signal of the measurement", "statement": "In every published observation the field signal is the number msg/Observation.msg gives to the signal of the measurement; signals it does not know get a number that is none of them.", "quantifier": "all measurements, all signals", "why_tests_cant": "must hold for every measurement the receiver can send", "anchors": ["src/ros/ublox_ros.cpp:UBLOX_ROS::obsCB", "include/UBLOX/parsers/ubx_defs.h:sigId", "msg/Observation.msg"]}
{"id": "C143", "title": "The console says what became of a navigation message", "statement": "After any history of navigation messages, the text written to the console on the next one says what became of it: for a Galileo page alert page, halves in the wrong order, CRC error, waiting for other words, words that do not fit together (with the numbers), or success with the week and second of the ephemeris - success exactly when callbacks are made; for a GLONASS string its satellite and number if the string is used; nothing for other systems.", "quantifier": "all histories of messages and calls, all next messages", "why_tests_cant": "the text depends on the whole history of pages of the satellite", "anchors": ["src/parsers/nav.cpp:decodeGalileo", "src/parsers/nav.cpp:decode_gal_inav", "src/parsers/nav.cpp:decodeGlonassString", "src/parsers/nav.cpp:DBG"]}
{"id": "C144", "title": "Base and rover programs reach each other", "statement": "A base program and a rover program, started with their default connection settings, reach each other: what the base sends is addressed to the rover, whose receiver gets whole correction frames, and both can run on one machine.", "quantifier": "all arguments and parameters, all traffic, all behaviour of the datagram network", "why_tests_cant": "the two programs and the network between them have to be considered together", "anchors": ["src/examples/base.cpp:main", "src/examples/rover.cpp:main", "src/ros/ublox_ros.cpp:UBLOX_ROS::UBLOX_ROS"]}
{"id": "C145", "title": "A program given a log file uses it", "statement": "read_serial and the ROS node record the stream to the log file they are given a name of, and only then; read_log replays the file it is given.", "quantifier": "all arguments and parameters", "why_tests_cant": "must hold for every combination of arguments and parameters", "anchors": ["src/examples/read_serial.cpp:main", "src/examples/read_log.cpp:main", "src/ros/ublox_ros.cpp:UBLOX_ROS::UBLOX_ROS"]}
{"id": "C146", "title": "A base over its whole life, and through changes of role", "statement": "From a moment at which a base is between messages, whatever is called and however the stream is cut: each buffer shows exactly the messages it completes in the mixed stream, at the listeners and RTK interfaces of that moment; the RTK link gets the valid RTCM3 frames of the whole stream in order; and through any changes of role between messages the ephemeris callbacks are exactly those of a decoder that is told the good RXM-SFRBX messages and the registrations in order.", "quantifier": "all histories of calls and received buffers, all cuts, all changes of role between messages", "why_tests_cant": "unbounded streams cut anywhere, with calls and role changes between any two buffers", "anchors": ["src/ublox.cpp:UBLOX::read_cb", "src/ublox.cpp:UBLOX::got_rtcm", "src/ublox.cpp:UBLOX::config_base", "src/ublox.cpp:UBLOX::config_rover", "src/parsers/nav.cpp:NavParser::got_ubx"]}
{"id": "C147", "title": "End to end: transmitted ephemerides reach the callbacks of bases too", "statement": "What C113, C117, C118 and C134 say of devices that are no bases holds for devices with any history of roles changed between messages: GPS, Galileo and GLONASS parameters in the RXM-SFRBX messages of the mixed stream reach every registered callback, exactly.", "quantifier": "all parameter values, all histories of a device including changes of role, all interleavings with RTCM3 frames and cuttings", "why_tests_cant": "the mixed byte stream, the framing of two protocols, role changes and the decoders interact", "anchors": ["src/ublox.cpp:UBLOX::read_cb", "src/ublox.cpp:UBLOX::config_base", "src/parsers/nav.cpp:decodeGPS", "src/parsers/nav.cpp:decodeGalileo", "src/parsers/nav.cpp:decodeGlonass"]}
{"id": "C148", "title": "An RTK pair at work", "statement": "A base and a rover joined by a datagram network work at the same time, in any interleaving: both get anything from their receivers, listeners and callbacks are registered, datagrams arrive late, repeatedly, out of order or never, while the base goes on sending. At every moment the datagrams sent are exactly the valid RTCM3 frames of the mixed stream the base has received, the rover's receiver has been written exactly the datagrams delivered, in order of delivery, one write each and nothing else; without losses that is a prefix of the base's frames; and a sent datagram can always be delivered without a failure.", "quantifier": "all interleavings of two devices and a network, all streams and cuttings, all orders of delivery", "why_tests_cant": "two concurrent programs and a network have unboundedly many interleavings", "anchors": ["src/ublox.cpp:UBLOX::read_cb", "src/ublox.cpp:UBLOX::got_rtcm", "src/ublox.cpp:UBLOX::config_rover", "src/examples/base.cpp:main", "src/examples/rover.cpp:main"]}
{"id": "C149", "title": "The driver speaks the protocol its receiver reported last", "statement": "At every moment in the life of a driver the protocol version and module it knows are those of the last good version report received, whatever else was received or called before, in between or after; every configuration call writes the messages of that protocol version; and the constructor does not return before a report was received and then configures the receiver in the protocol of the last one. (Reports with at least seven extension fields that give version and module among the first seven.)", "quantifier": "all histories of received bytes, calls and registrations; all version reports", "why_tests_cant": "the version known depends on the whole history of the stream", "anchors": ["src/parsers/ubx.cpp:UBX::version_cb", "src/parsers/ubx.cpp:UBX::disable_nmea", "src/parsers/ubx.cpp:UBX::set_nav_rate", "src/ublox.cpp:UBLOX::UBLOX"]}
{"id": "C150", "title": "A receiver that sends harmless data is safe to connect to and to live with", "statement": "If the good version reports a receiver sends give a version, its good navigation messages are of GPS satellites, and no RTCM header between its UBX frames announces more than 1018 bytes, then in whatever pieces and at whatever times its data arrives: the constructor returns or throws without undefined behaviour; if a version report was among the data it returns the device, having configured the receiver in the protocol of the last report; and afterwards no data from the receiver, no calls and no RTK data without over-long RTCM headers ever lead to undefined behaviour, until the device is made a base; and when it is made a base between two messages, the same holds while it is one, for every harmless mixture of UBX and RTCM messages.", "quantifier": "all harmless streams, all ways to cut them into pieces, all poll schedules, all sequences of calls and RTK data", "why_tests_cant": "the stream, its cutting, the schedule and the length of the life are unbounded; tests see a few", "anchors": ["src/ublox.cpp:UBLOX::UBLOX", "src/ublox.cpp:UBLOX::read_cb", "src/parsers/ubx.cpp:UBX::get_version", "src/parsers/rtcm.cpp:RTCM::read_cb", "src/parsers/nav.cpp:NavParser::convertUBX"]}
{"id": "C151", "title": "No ephemeris is made up", "statement": "Whatever a device goes through (any stream in any pieces, registrations, being a base or not), every ephemeris it passes to a callback consists of what it really received for that satellite: for GLONASS, the message just received is string 4 and strings 1, 2, 3 with the same time mark were received before, all four with check bits that allow their use; for Galileo, pages with words 0 to 6, each with a correct CRC, and words 1 to 4 of one issue of data; for GPS, subframes 1, 2, 3, the first two of one issue of data. The parameters reported are exactly those transmitted in these messages, and these are the latest of their kind received: no newer part of the same kind had arrived (for GPS unless a Galileo satellite of the same number was received too). Messages are taken to have all their data words.", "quantifier": "all lives of a device, all ephemerides reported, all three constellations", "why_tests_cant": "the messages an ephemeris was put together from may be arbitrarily far apart in an arbitrary history of interleaved, damaged and repeated messages", "anchors": ["src/parsers/nav.cpp:NavParser::convertUBX", "src/parsers/nav.cpp:NavParser::decodeGPS", "src/parsers/nav.cpp:NavParser::decodeGalileo", "src/parsers/nav.cpp:NavParser::decodeGlonass", "src/parsers/nav.cpp:NavParser::decodeGPSSubframe1", "src/parsers/ubx.cpp:UBX::read_cb", "src/ublox.cpp:UBLOX::read_cb"]}
{"id": "C152", "title": "Until the end of 2037 ordinary builds decode everything", "statement": "In builds where flowing off the end of a function is harmless, no sequence of RXM-SFRBX messages of any constellations, in whatever order and mixture, with times set and callbacks registered in between, leads to undefined behaviour, as long as the times set lie between 1970 and January 2038, the GPS weeks transmitted are those before the end of 2037, accepted Galileo pages have week numbers below 2521 (2047) and a satellite number other than 0, and no satellite number is used by both GPS and Galileo.", "quantifier": "all sequences of messages, times set and registrations, all constellations, all data words", "why_tests_cant": "the reference time that GLONASS strings are dated with comes from GPS ephemerides put together from messages arbitrarily far apart, and the Galileo dates from pages likewise", "anchors": ["src/parsers/nav.cpp:NavParser::convertUBX", "src/parsers/nav.cpp:NavParser::decodeGPS", "src/parsers/nav.cpp:NavParser::decodeGalileo", "src/parsers/nav.cpp:NavParser::decodeGlonass", "src/utctime.cpp:UTCTime::fromGPS", "src/utctime.cpp:UTCTime::fromGlonassTimeOfDay"]}
{"id": "C153", "title": "Receivers of all constellations are safe until the end of 2037 in ordinary builds", "statement": "In builds where flowing off the end of a function is harmless: if the good version reports a receiver sends give a version, its good navigation messages (of any constellations) have all their data words, with GPS weeks before the end of 2037, accepted Galileo pages of week below 2521 and satellite number other than 0, and no satellite number used by both GPS and Galileo, and no RTCM header between its UBX frames announces more than 1018 bytes, then in whatever pieces and at whatever times its data arrives the constructor returns or throws without undefined behaviour, and afterwards no data from the receiver, no calls and no RTK data without over-long RTCM headers ever lead to undefined behaviour, until the device is made a base; and when it is made a base between two messages, in whatever roles it was before, the same holds while it is one, for every such mixture of UBX and RTCM messages (without data on RTK interfaces it had been a rover on).", "quantifier": "all such streams, all ways to cut them into pieces, all poll schedules, all sequences of calls and RTK data", "why_tests_cant": "needs an invariant of the device over arbitrarily long lives, in which the reference time of GLONASS comes from GPS messages arbitrarily far back", "anchors": ["src/ublox.cpp:UBLOX::UBLOX", "src/ublox.cpp:UBLOX::read_cb", "src/parsers/ubx.cpp:UBX::read_cb", "src/parsers/nav.cpp:NavParser::convertUBX", "src/parsers/rtcm.cpp:RTCM::read_cb"]}
